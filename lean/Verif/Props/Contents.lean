/-
C91: what topics, messages, names and passwords consist of influences nothing but the bytes sent and stored.
-/
import Verif.Proof.Contents
import Verif.Props.Splits
import Verif.Props.Fresh

namespace Mqtt
open Spec

theorem blankWorld_parts {w w' : World} (h : blankWorld w' = blankWorld w) :
    w'.ctx = w.ctx ∧ blankEnv w'.env = blankEnv w.env ∧ w'.trace.map blankEvent = w.trace.map blankEvent := by
  simpa [blankWorld] using h

theorem alike_iff {w w' : World} : Contents.Alike w w' ↔ blankWorld w' = blankWorld w := by
  refine ⟨fun h => ?_, fun h => ⟨(blankWorld_parts h).1, (blankWorld_parts h).2.1, (blankWorld_parts h).2.2⟩⟩
  unfold blankWorld
  rw [h.ctx, h.env, h.trace]

theorem blankOut_of_rel {α : Type} {x x' : Out α} (h : Contents.OutRel Contents.SameRes x x') : blankOut x' = blankOut x := by
  cases h with
  | done h1 h2 =>
    cases h1
    simp only [blankOut, alike_iff.1 h2]
  | stuck h2 => simp only [blankOut, alike_iff.1 h2]
  | ub h2 => simp only [blankOut, alike_iff.1 h2]

/-- **C91** (one call).  Two calls of a public function whose arguments differ only in what topics, topic filters, payloads, client identifier, user name and password
consist of (the lengths are the same), made in the same state, while transport, clock and callbacks answer alike (copies that are retrieved may differ in their contents as well):
they end in the same way with the same result, leave the same context, and have the same interactions, up to the contents of the bytes sent, stored and retrieved. -/
theorem C91_call (g : Cfg) {c c' : ApiCall} (hc : blankCall c' = blankCall c) {w w' : World} (hw : blankWorld w' = blankWorld w) {e e' : Env}
    (he : blankEnv e' = blankEnv e) : blankOut (callIn g w' e' c') = blankOut (callIn g w e c) := by
  have h1 : Contents.Alike { w with env := e } { w' with env := e' } :=
    ⟨(blankWorld_parts hw).1, he, (blankWorld_parts hw).2.2⟩
  have h2 := blankOut_of_rel (Contents.sim_api g c _ _ h1)
  have h3 := blankOut_of_rel (Contents.sim_api g c' { w' with env := e' } { w' with env := e' } ⟨rfl, rfl, rfl⟩)
  rw [hc] at h3
  exact h3.symm.trans h2

/-- **C91** (sequences of calls).  If calls are made one after the other and return, then so do calls that differ in contents only, with the same results; they lead to the
same context, and all interactions are the same, up to the contents of the bytes sent, stored and retrieved. -/
theorem C91_calls (g : Cfg) {l l' : List (Env × ApiCall)} (hl : blankCalls l' = blankCalls l) {w w1 : World} {rs : List ApiRet} {es : List Event}
    (hp : Plays g w l rs w1 es) {w' : World} (hw : blankWorld w' = blankWorld w) :
    ∃ w1' es', Plays g w' l' rs w1' es' ∧ w1'.ctx = w1.ctx ∧ es'.map blankEvent = es.map blankEvent := by
  induction hp generalizing w' l' with
  | nil =>
    have : l' = [] := List.map_eq_nil_iff.1 hl
    subst this
    exact ⟨w', [], .nil, (blankWorld_parts hw).1, rfl⟩
  | @cons v v1 v2 e c r rest rs es hd hr ih =>
    cases l' with
    | nil => cases hl
    | cons x l' =>
      obtain ⟨e', c'⟩ := x
      obtain ⟨h1, h2⟩ := List.cons.inj hl
      obtain ⟨he, hc⟩ := Prod.mk.inj h1
      have h3 := C91_call g hc hw he
      rw [hd] at h3
      have hlen : w'.trace.length = v.trace.length := by
        have := congrArg (fun u => u.trace.length) hw
        simpa [blankWorld] using this
      cases hd' : callIn g w' e' c' with
      | done r' v1' =>
        rw [hd'] at h3
        simp only [blankOut, Out.done.injEq] at h3
        obtain ⟨rfl, hv⟩ := h3
        obtain ⟨w1', es', k1, k2, k3⟩ := ih h2 hv
        refine ⟨w1', _, .cons hd' k1, k2, ?_⟩
        have ht : v1'.trace.map blankEvent = v1.trace.map blankEvent := (blankWorld_parts hv).2.2
        rw [List.map_append, List.map_append, k3]
        refine congrArg (· ++ _) ?_
        unfold callEvents newEvents
        rw [hd, hd']
        show (v1'.trace.drop _).map _ = (v1.trace.drop _).map _
        rw [List.map_drop, List.map_drop, ht, hlen]
      | stuck v1' => rw [hd'] at h3; cases h3
      | ub x v1' => rw [hd'] at h3; cases h3

/-! ### Examples -/

/-- The example session is resumed with a publish in flight, whose copy is retrieved; then something is published and subscribed to. -/
def Ex.resumeTalk (topic payload id : List UInt8) : List (Env × ApiCall) :=
  let p : PublishInfo := ⟨.qos2, false, false, some topic, 2, some payload, 3⟩
  [({ Ex.env [0x20, 2, 1, 0] with retrieves := List.replicate 2 (some ([0x3A, 9, 0, 2] ++ topic ++ [0, 8] ++ payload)) },
      .connect (some { Ex.ci with pClientIdentifier := some id, clientIdentifierLength := 2 }) none 1000 (some true)),
    (Ex.env [], .publish (some { p with qos := .qos0 }) 0), (Ex.env [], .subscribe (some [⟨.qos1, some topic, 2⟩]) 10)]

/-- Non-vacuity of `C91_calls`: two such sequences with different texts, one of them with a wildcard as topic and as identifier.  All calls return success; what is sent differs. -/
example : ∃ w1 es w1' es', blankCalls (Ex.resumeTalk [35, 0] [255, 254, 253] [43, 0]) = blankCalls (Ex.resumeTalk [97, 98] [1, 2, 3] [99, 100]) ∧
    Plays Ex.g Ex.old (Ex.resumeTalk [97, 98] [1, 2, 3] [99, 100]) [.connect .success (some true), .status .success, .status .success] w1 es ∧
    Plays Ex.g Ex.old (Ex.resumeTalk [35, 0] [255, 254, 253] [43, 0]) [.connect .success (some true), .status .success, .status .success] w1' es' ∧
    wire es' ≠ wire es ∧ (wire es').length = (wire es).length ∧ 40 ≤ (wire es).length :=
  ⟨_, _, _, _, rfl,
    Ex.plays (r := .connect .success (some true)) (by decide +kernel) (Ex.plays (r := .status .success) (by decide +kernel)
      (Ex.plays (r := .status .success) (by decide +kernel) .nil)),
    Ex.plays (r := .connect .success (some true)) (by decide +kernel) (Ex.plays (r := .status .success) (by decide +kernel)
      (Ex.plays (r := .status .success) (by decide +kernel) .nil)), by decide +kernel, by decide +kernel, by decide +kernel⟩

end Mqtt
