/-
C75: bytes of the network buffer that were not received have no influence.
-/
import Verif.Proof.Stale
import Verif.Props.Receive

namespace Mqtt
open Spec

theorem take_eq_iff {l l' : List UInt8} {n : Nat} : l'.take n = l.take n ↔ ∀ i, i < n → l'[i]? = l[i]? := by
  constructor
  · intro h i hi
    have := congrArg (·[i]?) h
    simpa [List.getElem?_take, hi] using this
  · intro h
    refine List.ext_getElem? fun i => ?_
    rw [List.getElem?_take, List.getElem?_take]
    by_cases hi : i < n
    · rw [if_pos hi, if_pos hi, h i hi]
    · rw [if_neg hi, if_neg hi]

theorem stale_iff {w w' : World} : Stale.St 0 w w' ↔ Stale w w' := by
  constructor
  · intro h
    obtain ⟨buf, h1, h2, h3⟩ := h.ctx
    exact ⟨⟨buf, h1, h2, take_eq_iff.mpr fun i hi => h3 i (.inr hi)⟩, h.env, h.trace⟩
  · intro h
    obtain ⟨buf, h1, h2, h3⟩ := h.ctx
    exact ⟨h.env, h.trace, buf, h1, h2, fun i hi => take_eq_iff.mp h3 i (hi.elim (fun h => absurd h (Nat.not_lt_zero _)) id)⟩

theorem staleOut_of {α : Type} {o o' : Out α} (h : Stale.RelOut Stale.SameRes (fun _ => 0) o o') : StaleOut o o' := by
  cases o <;> cases o' <;> first | exact h.elim | skip
  · exact ⟨h.1, stale_iff.mp h.2⟩
  · exact stale_iff.mp h
  · exact ⟨h.1, stale_iff.mp h.2⟩

/-- **C75** (one call).  Take any public function, any state and any behaviour of the environment, and change the bytes of the network buffer behind
those that hold received, unprocessed data.  The call ends in the same way with the same result, the same bytes are sent and requested, the
callbacks get the same arguments in the same order, and the states afterwards again differ in unused bytes of the buffer only. -/
theorem C75_call {g : Cfg} (hg : CfgOk g) (f : ApiCall) {w w' : World} (hw : Stale w w') : StaleOut (apiCall g f w) (apiCall g f w') :=
  staleOut_of (Stale.sim_api (by have := hg.size; omega) f w w' (stale_iff.mpr hw))

/-- **C75** (histories).  Any history can be repeated from a state with other bytes in the unused part of the buffer, with the same results and the
same interactions with the transport, the clock and the application. -/
theorem C75_history {g : Cfg} (hg : CfgOk g) {w w1 : World} {h : List (ApiCall × ApiRet)} (hh : Hist g w h w1) {w' : World}
    (hw : StaleCtx w.ctx w'.ctx) (ht : w'.trace = w.trace) :
    ∃ w1', Hist g w' h w1' ∧ StaleCtx w1.ctx w1'.ctx ∧ w1'.trace = w1.trace := by
  induction hh with
  | start => exact ⟨w', .start _, hw, ht⟩
  | @call v1 v2 h e c r h1 hv hc ih =>
    obtain ⟨w1', h2, h3, h4⟩ := ih
    have hl : Stale { v1 with env := e } { w1' with env := e } := ⟨h3, rfl, h4⟩
    have h5 := C75_call hg c hl
    rw [show apiCall g c { v1 with env := e } = .done r v2 from hc] at h5
    cases h6 : apiCall g c { w1' with env := e } with
    | done r' w2' =>
      rw [h6] at h5
      obtain ⟨rfl, h7⟩ := h5
      exact ⟨w2', .call h2 hv h6, h7.ctx, h7.trace⟩
    | stuck w2' => rw [h6] at h5; exact h5.elim
    | ub x w2' => rw [h6] at h5; exact h5.elim

theorem initialised_buf {c : Ctx} (h : Initialised c) (buf : List UInt8) : Initialised (withBuf c buf) ∧ c.index = 0 := by
  induction h with
  | @init a hw b c h =>
    unfold mqttInit at h
    repeat' split at h
    all_goals first | (cases h; done) | skip
    cases h
    refine ⟨.init (a := a) (hasWritev := hw) (buf := buf) ?_, rfl⟩
    unfold mqttInit
    simp only [*, if_false]
    simp
  | @stateful c c' out inc oc ic h0 h1 h2 h3 ih =>
    unfold mqttInitStatefulQoS at h3
    split at h3
    · cases h3
    split at h3
    · cases h3
    rename_i ho hi
    cases h3
    refine ⟨.stateful ih.1 h1 h2 ?_, ih.2⟩
    unfold mqttInitStatefulQoS
    rw [if_neg ho, if_neg hi]
  | @retransmits c c' s r k h0 h1 ih =>
    unfold mqttInitRetransmits at h1
    split at h1
    · cases h1
    rename_i hk
    cases h1
    refine ⟨.retransmits (s := s) (r := r) (k := k) ih.1 ?_, ih.2⟩
    unfold mqttInitRetransmits
    rw [if_neg hk]

/-- **C75** (from initialisation).  What the buffer handed to `MQTT_Init` contains is irrelevant: every history after initialisation is also a
history after initialisation with any other buffer of the same size, with the same results and the same interactions. -/
theorem C75_init {g : Cfg} (hg : CfgOk g) {h : List (ApiCall × ApiRet)} {w0 w : World} (h0 : Initialised w0.ctx) (hh : Hist g w0 h w)
    {buf : List UInt8} (hb : buf.length = w0.ctx.netBuf.length) :
    Initialised (withBuf w0.ctx buf) ∧
    ∃ w', Hist g { w0 with ctx := withBuf w0.ctx buf } h w' ∧ w'.trace = w.trace ∧ StaleCtx w.ctx w'.ctx := by
  obtain ⟨h2, h3⟩ := initialised_buf h0 buf
  obtain ⟨w', h4, h5, h6⟩ := C75_history hg hh (w' := { w0 with ctx := withBuf w0.ctx buf }) ⟨buf, rfl, hb, by rw [h3]; rfl⟩ rfl
  exact ⟨h2, w', h4, h6, h5⟩

/-- The state of the example after the first four bytes of a PUBLISH, and the same with 0xFF in the rest of the buffer. -/
def Ex.partial : World := (Ex.feed [[0x30, 4, 0, 1]]).2
def Ex.dirty : World := { Ex.partial with ctx := withBuf Ex.partial.ctx (Ex.partial.ctx.netBuf.take 4 ++ List.replicate 60 0xFF) }

/-- C75_call applies to them, and the contents of the buffers differ. -/
example : Stale Ex.partial Ex.dirty ∧ Ex.partial.ctx.index = 4 ∧ Ex.partial.ctx.netBuf ≠ Ex.dirty.ctx.netBuf := by
  refine ⟨⟨⟨_, rfl, ?_, ?_⟩, rfl, rfl⟩, ?_, ?_⟩ <;> decide +kernel

/-- The rest of the packet arrives: the application sees the same publish in both. -/
example : ∀ w ∈ [Ex.partial, Ex.dirty], callbacks (callEvents Ex.g w (Ex.env [97, 5]) .receiveLoop) =
    [.app 0x30 [0, 1, 97, 5] 0 .success (some ⟨.qos0, false, false, [97], [5]⟩)] := by decide +kernel

/-- The bytes in use do matter: with another topic length the same input leads to something else. -/
example : callbacks (callEvents Ex.g { Ex.partial with ctx := withBuf Ex.partial.ctx ([0x30, 4, 0, 2] ++ List.replicate 60 0) } (Ex.env [97, 5]) .receiveLoop) =
    [.app 0x30 [0, 2, 97, 5] 0 .success (some ⟨.qos0, false, false, [97, 5], []⟩)] := by decide +kernel

/-- C75_init applies to the history of the example session. -/
example : ∃ w0, Initialised w0.ctx ∧ Hist Ex.g w0 (Ex.played Ex.session).1 Ex.after ∧ (Ex.played Ex.session).1.length = 4 :=
  Ex.after_fromInit.run.elim fun w h => ⟨w, h.1, h.2.2, by decide +kernel⟩

end Mqtt
