/-
C82: it makes no difference in which pieces the transport takes the outgoing bytes.
-/
import Verif.Spec.Splits
import Verif.Proof.Splits
import Verif.Props.Silence

namespace Mqtt
open Spec

/-- **C82**.  Two calls with the same arguments in the same state, while the same data arrives and the clock shows the same: whether the transport has a `writev`
function or not, and in which pieces it takes the bytes, if both return, they return the same and leave the same state, and the bytes sent and all other interactions
(receive calls, locks, callbacks) are the same, in the same order. -/
theorem C82_pieces {g : Cfg} (hg : 0 < g.sendTimeoutMs) (c : ApiCall) {w w' w1 w1' : World} {e e' : Env} {t : UInt32} {r r' : ApiRet} (hc : SameButWritev w.ctx w'.ctx)
    (hs : SameIncoming e e') (k : Unhindered t e) (k' : Unhindered t e') (hd : callIn g w e c = .done r w1) (hd' : callIn g w' e' c = .done r' w1') :
    r' = r ∧ SameButWritev w1.ctx w1'.ctx ∧ seamless (callEvents g w' e' c) = seamless (callEvents g w e c) := by
  obtain ⟨h1, h2⟩ := Splits.sim_api (θ := t) (τ := w.trace) (τ' := w'.trace) hg c { w with env := e } { w' with env := e' }
    ⟨hc, hs, k, k', [], [], by simp, by simp, rfl⟩ r w1 r' w1' hd hd'
  refine ⟨h1, h2.ctx, ?_⟩
  obtain ⟨es, es', j1, j2, j3⟩ := h2.trace
  unfold callEvents newEvents
  rw [hd, hd']
  simp only [Out.world, j1, j2, List.drop_left]
  exact j3

/-- **C82** for whole sequences of calls. -/
theorem C82_calls {g : Cfg} (hg : 0 < g.sendTimeoutMs) {l l' : List (Env × ApiCall)} (hl : SameCalls l l') {w w' w1 w1' : World} {rs rs' : List ApiRet} {es es' : List Event}
    (hc : SameButWritev w.ctx w'.ctx) (hp : Plays g w l rs w1 es) (hp' : Plays g w' l' rs' w1' es') :
    rs' = rs ∧ SameButWritev w1.ctx w1'.ctx ∧ seamless es' = seamless es := by
  induction hl generalizing w w' rs rs' es es' with
  | nil =>
    cases hp; cases hp'
    exact ⟨rfl, hc, rfl⟩
  | cons hs k k' _ ih =>
    cases hp with
    | cons hd hr =>
      cases hp' with
      | cons hd' hr' =>
        obtain ⟨rfl, h2, h3⟩ := C82_pieces hg _ hc hs k k' hd hd'
        obtain ⟨rfl, h5, h6⟩ := ih h2 hr hr'
        exact ⟨rfl, h5, by rw [Splits.seamless_append, Splits.seamless_append, h3, h6]⟩

/-! ### Examples -/

/-- A transport that takes everything at once, and one that takes nothing or single bytes in turn. -/
def Ex.atOnce (c : Env) : Env := { c with sends := List.replicate 9 (.accept 1000), clock := List.replicate 60 5 }
def Ex.bytewise (c : Env) : Env := { c with sends := (List.replicate 60 [.accept 0, .accept 1]).flatten, clock := List.replicate 400 5 }

theorem Ex.calm_atOnce (c : Env) : Unhindered 5 (Ex.atOnce c) :=
  ⟨fun a ha => by rw [List.eq_of_mem_replicate ha]; exact SendAns.noConfusion, fun u hu => List.eq_of_mem_replicate hu⟩

theorem Ex.calm_bytewise (c : Env) : Unhindered 5 (Ex.bytewise c) := by
  refine ⟨?_, fun u hu => List.eq_of_mem_replicate hu⟩
  show ∀ a ∈ (List.replicate 60 [SendAns.accept 0, .accept 1]).flatten, _
  decide +kernel

theorem Ex.same_incoming (c : Env) : SameIncoming (Ex.atOnce c) (Ex.bytewise c) := ⟨rfl, rfl, rfl, rfl⟩

/-- The example session, on a transport without `writev`. -/
def Ex.unvectored : World := { Ex.after with ctx := { Ex.after.ctx with hasWritev := !Ex.after.ctx.hasWritev } }

/-- Non-vacuity of `C82_pieces`: a publish, and a packet that is received and acknowledged. -/
example : 0 < Ex.g.sendTimeoutMs ∧ SameButWritev Ex.after.ctx Ex.unvectored.ctx ∧
    Ex.ret (callIn Ex.g Ex.after (Ex.atOnce (Ex.env [])) (Ex.publishCall .qos1 9)) = some (.status .success) ∧
    Ex.ret (callIn Ex.g Ex.unvectored (Ex.bytewise (Ex.env [])) (Ex.publishCall .qos1 9)) = some (.status .success) ∧
    (callEvents Ex.g Ex.after (Ex.atOnce (Ex.env [])) (Ex.publishCall .qos1 9)).length < 20 ∧
    (callEvents Ex.g Ex.unvectored (Ex.bytewise (Ex.env [])) (Ex.publishCall .qos1 9)).length > 40 :=
  ⟨by decide +kernel, ⟨_, rfl⟩, by decide +kernel⟩


theorem Ex.plays {w w2 : World} {e : Env} {c : ApiCall} {r : ApiRet} {rest : List (Env × ApiCall)} {rs : List ApiRet} {es : List Event}
    (h : Ex.ret (callIn Ex.g w e c) = some r) (hp : Plays Ex.g (callIn Ex.g w e c).world rest rs w2 es) :
    Plays Ex.g w ((e, c) :: rest) (r :: rs) w2 (callEvents Ex.g w e c ++ es) := by
  cases hd : callIn Ex.g w e c with
  | done r' w1 =>
    rw [hd] at h hp
    cases h
    exact .cons hd hp
  | stuck _ => rw [hd] at h; cases h
  | ub _ _ => rw [hd] at h; cases h

/-- Non-vacuity of `C82_calls`: a publish and its acknowledgement. -/
example : ∃ rs w1 es rs' w1' es', SameCalls [(Ex.atOnce (Ex.env []), Ex.publishCall .qos2 9), (Ex.atOnce { Ex.env [0x50, 2, 0, 9] with recvs := [.deliver 4] }, .processLoop)]
      [(Ex.bytewise (Ex.env []), Ex.publishCall .qos2 9), (Ex.bytewise { Ex.env [0x50, 2, 0, 9] with recvs := [.deliver 4] }, .processLoop)] ∧
    Plays Ex.g Ex.after [(Ex.atOnce (Ex.env []), Ex.publishCall .qos2 9), (Ex.atOnce { Ex.env [0x50, 2, 0, 9] with recvs := [.deliver 4] }, .processLoop)] rs w1 es ∧
    Plays Ex.g Ex.unvectored [(Ex.bytewise (Ex.env []), Ex.publishCall .qos2 9), (Ex.bytewise { Ex.env [0x50, 2, 0, 9] with recvs := [.deliver 4] }, .processLoop)] rs' w1' es' ∧
    rs = [.status .success, .status .success] ∧ wire es = publishPacket ((Ex.pub .qos2).toSpec 9) ++ [0x62, 2, 0, 9] :=
  ⟨_, _, _, _, _, _, .cons (Ex.same_incoming _) (Ex.calm_atOnce _) (Ex.calm_bytewise _) (.cons (Ex.same_incoming _) (Ex.calm_atOnce _) (Ex.calm_bytewise _) .nil),
    Ex.plays (r := .status .success) (by decide +kernel) (Ex.plays (r := .status .success) (by decide +kernel) .nil),
    Ex.plays (r := .status .success) (by decide +kernel) (Ex.plays (r := .status .success) (by decide +kernel) .nil), rfl, by decide +kernel⟩

/-- The send timeout has to be positive: with 0 the answer to a ping depends on the pieces, while a publish may still be sent byte by byte. -/
theorem C82_zero_timeout :
    Ex.ret (callIn { Ex.g with sendTimeoutMs := 0 } Ex.after (Ex.atOnce (Ex.env [])) .ping) = some (.status .success) ∧
    Ex.ret (callIn { Ex.g with sendTimeoutMs := 0 } Ex.after (Ex.bytewise (Ex.env [])) .ping) = some (.status .sendFailed) ∧
    Ex.ret (callIn { Ex.g with sendTimeoutMs := 0 } Ex.after (Ex.bytewise (Ex.env [])) (Ex.publishCall .qos1 9)) = some (.status .success) := by
  decide +kernel

end Mqtt
