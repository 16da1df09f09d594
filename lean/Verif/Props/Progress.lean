/-
C53: every call returns, after a bounded number of interactions.
-/
import Verif.Proof.FastApi
import Verif.Proof.CallWire
import Verif.Props.Example

namespace Mqtt
open Spec

/-- **C53** A call that does not return is waiting for an answer of its environment: the library itself does not loop forever.  (This needs no assumption about
the clock; the model's executions are finite because the scripts of the environment are.) -/
theorem C53_only_the_environment_blocks {g : Cfg} {w w' : World} {e : Env} {c : ApiCall} (h : callIn g w e c = .stuck w') : Dry w'.env := by
  obtain ⟨_, _, hd⟩ := wp_stuck (apiCall_fast g c { w with env := e }) h
  exact hd

/-- **C53** The number of interactions of a call with its environment (transport, clock, callbacks, hooks) is bounded: it depends on the configured
timeouts, the number of records for outgoing publishes and the arguments only.  The clock is one that moves on, by at least a millisecond per call of
the transport and by at most `gap` between two readings; it may wrap around at any time. -/
theorem C53_bounded {g : Cfg} {h : List (ApiCall × ApiRet)} {w : World} (hh : FromInit g h w) (e : Env) {c : ApiCall} (hv : ValidCall g c)
    (hb : 0 < w.ctx.bufSize) {gap now low : Nat} (hgap : longestWait g c + 2 * gap < 2 ^ 32) (hcl : liveClock gap now low (callEvents g w e c)) :
    (callEvents g w e c).length ≤ callBound g w.ctx.tables.outgoing.length c := by
  have hf := apiCall_fast g c { w with env := e }
  obtain ⟨hg, hidx, s, hrep⟩ := hh.good
  rcases call_cases hg hidx hrep e hv with ⟨r, es, w1, h1, h2, hl, _⟩ | ⟨es, w1, h1, h2, hl, _⟩
  · obtain ⟨⟨es', hc⟩, _⟩ := wp_done hf h1
    have : es' = es := List.append_cancel_left (hc.trace.symm.trans hl.trace)
    rw [h2] at hcl ⊢
    subst this
    exact hc.time gap now low hgap hb hcl
  · obtain ⟨es', hc, _⟩ := wp_stuck hf h1
    have : es' = es := List.append_cancel_left (hc.trace.symm.trans hl.trace)
    rw [h2] at hcl ⊢
    subst this
    exact hc.time gap now low hgap hb hcl

/-- **C53** Every call returns if the environment keeps answering: more answers than `callBound` are never needed. -/
theorem C53_returns {g : Cfg} {h : List (ApiCall × ApiRet)} {w : World} (hh : FromInit g h w) (e : Env) {c : ApiCall} (hv : ValidCall g c)
    (hb : 0 < w.ctx.bufSize) {gap now low : Nat} (hgap : longestWait g c + 2 * gap < 2 ^ 32) (hcl : liveClock gap now low (callEvents g w e c))
    (ha : Answers (callBound g w.ctx.tables.outgoing.length c + 1) e) : ∃ r w', callIn g w e c = .done r w' := by
  have hlen := C53_bounded hh e hv hb hgap hcl
  obtain ⟨hg, hidx, s, hrep⟩ := hh.good
  rcases call_cases hg hidx hrep e hv with ⟨r, es, w1, h1, _⟩ | ⟨es, w1, h1, h2, hl, _⟩
  · exact ⟨r, w1, h1⟩
  · exfalso
    obtain ⟨es', hc, hd⟩ := wp_stuck (apiCall_fast g c { w with env := e }) h1
    have : es' = es := List.append_cancel_left (hc.trace.symm.trans hl.trace)
    subst this
    rw [h2] at hlen
    obtain ⟨a1, a2, a3, a4, a5⟩ := ha
    have s1 := hc.sends.2
    have s2 := hc.recvs.2
    have s3 := hc.clock.2
    have s4 := hc.stores.2
    have s5 := hc.retrieves.2
    dsimp only at s1 s2 s3 s4 s5
    rcases hd with hd | hd | hd | hd | hd <;> have hd := congrArg List.length hd <;> simp only [List.length_nil] at hd <;> omega

/-- A transport that takes one byte at a time and delivers nothing, and a clock that is about to wrap around. -/
def Ex.answering (n : Nat) : Env :=
  ⟨List.replicate n (.accept 1), List.replicate n (.deliver 0), [], (List.range' 0 n).map (fun k => UInt32.ofNat (4294967295 + k)),
    List.replicate n true, List.replicate n none⟩

theorem Ex.answers (n : Nat) : Answers n (Ex.answering n) := ⟨by simp [answering], by simp [answering], by simp [answering], by simp [answering], by simp [answering]⟩

theorem Ex.answeringEvents : callEvents Ex.g (Ex.played Ex.session).2 (Ex.answering 60007) .ping =
    [.pre, .time 4294967295, .sent [0xC0, 0] (some 1), .time 0, .time 1, .sent [0] (some 1), .time 2, .time 3, .post] := by
  decide +kernel

/-- Non-vacuity of C53: `MQTT_Ping` in a session, while the clock wraps around; the bound is 60006 interactions. -/
example : ∃ r w', callIn Ex.g (Ex.played Ex.session).2 (Ex.answering 60007) .ping = .done r w' := by
  have hn : (Ex.played Ex.session).2.ctx.tables.outgoing.length = 2 := by decide +kernel
  refine C53_returns Ex.session_fromInit (Ex.answering 60007) (c := .ping) trivial (by decide +kernel) (gap := 1000) (now := 4294967290) (low := 4294967290)
    (by decide) ?_ ?_
  · rw [Ex.answeringEvents]
    exact ⟨4294967295, by omega, by omega, rfl, 4294967296, by omega, by omega, rfl, 4294967297, by omega, by omega, rfl, 4294967298, by omega, by omega, rfl,
      4294967299, by omega, by omega, rfl, trivial⟩
  · rw [hn]
    exact Ex.answers 60007

end Mqtt
