/-
C77: keeping copies of publishes changes nothing else.
-/
import Verif.Proof.Storage
import Verif.Props.Fresh

namespace Mqtt
open Spec

/-- Without a call of `MQTT_InitRetransmits` the context is initialised as well. -/
theorem initialised_noRetransmits {c : Ctx} (h : Initialised c) : Initialised (noRetransmits c) := by
  induction h with
  | @init a hw buf c h =>
    have : noRetransmits c = c := by
      unfold mqttInit at h
      repeat (split at h; · cases h)
      cases h
      rfl
    rw [this]
    exact .init h
  | @stateful c c' out inc oc ic hi h1 h2 h3 ih =>
    refine .stateful ih h1 h2 ?_
    unfold mqttInitStatefulQoS at h3 ⊢
    split at h3
    · cases h3
    · split at h3
      · cases h3
      · rename_i h4 h5
        rw [if_neg h4, if_neg h5]
        cases h3
        rfl
  | @retransmits c c' s r k hi h1 ih =>
    have : noRetransmits c' = noRetransmits c := by
      unfold mqttInitRetransmits at h1
      repeat (split at h1; · cases h1)
      cases h1
      rfl
    rw [this]
    exact ih

/-- **C77** (one call).  Two clients in the same state, one of which was given the callbacks of `MQTT_InitRetransmits`.  Transport and clock answer alike.  If a
call of the first returns, and all its copies were accepted and none was asked for, then the same call of the second returns the same, leaves the
same state, and has the same interactions in the same order, but for those with the callbacks. -/
theorem C77_call {g : Cfg} (hg : CfgOk g) {w w' w1 : World} (hw : w'.ctx = noRetransmits w.ctx) {e e' : Env} (he : SameLink e e') {c : ApiCall}
    (hv : ValidCall g c) {ret : ApiRet} (hc : callIn g w e c = .done ret w1) (hs : StoredOnly (callEvents g w e c)) :
    ∃ w1', callIn g w' e' c = .done ret w1' ∧ w1'.ctx = noRetransmits w1.ctx ∧ SameLink w1.env w1'.env ∧
      callEvents g w' e' c = noStorage (callEvents g w e c) := by
  have ho : Storage.Other e'.stores e'.retrieves { w with env := e } { w' with env := e' } := by
    refine ⟨hw, ?_⟩
    obtain ⟨a, b, d, f⟩ := he
    cases e; cases e'
    simp only at a b d f
    subst a b d f
    rfl
  obtain ⟨es, h1, h2⟩ := Storage.sim_api g hg.size c hv _ _ ho ret w1 hc
  have h1 : w1.trace = w.trace ++ es := h1
  have hes : callEvents g w e c = es := by
    unfold callEvents
    rw [hc]
    simp [newEvents, Out.world, h1]
  obtain ⟨ret', w1', h3, h4, h5, h6⟩ := h2 (hes ▸ hs)
  cases h4
  have h6 : w1'.trace = w'.trace ++ noStorage es := h6
  refine ⟨w1', h3, h5.ctx, by rw [h5.env]; exact ⟨rfl, rfl, rfl, rfl⟩, ?_⟩
  rw [hes]
  unfold callEvents
  rw [show callIn g w' e' c = _ from h3]
  simp [newEvents, Out.world, h6]

/-- The same for several calls. -/
theorem storage_history {g : Cfg} (hg : CfgOk g) {w w1 : World} {h : List (ApiCall × ApiRet)} (hh : Hist g w h w1) {w' : World}
    (hw : w'.ctx = noRetransmits w.ctx) : ∃ es, w1.trace = w.trace ++ es ∧ (StoredOnly es →
      ∃ w1', Hist g w' h w1' ∧ w1'.ctx = noRetransmits w1.ctx ∧ w1'.trace = w'.trace ++ noStorage es) := by
  induction hh with
  | start => exact ⟨[], (List.append_nil _).symm, fun _ => ⟨w', .start _, hw, (List.append_nil _).symm⟩⟩
  | @call v1 v2 h e c ret h1 hv hc ih =>
    obtain ⟨es, h2, h3⟩ := ih
    obtain ⟨es', h4, _⟩ := Storage.sim_api g hg.size c hv { v1 with env := e } { v1 with env := e, ctx := noRetransmits v1.ctx } (σ := e.stores) (ρ := e.retrieves)
      ⟨rfl, rfl⟩ ret v2 hc
    have h4 : v2.trace = v1.trace ++ es' := h4
    refine ⟨es ++ es', by rw [h4, h2, List.append_assoc], fun hs => ?_⟩
    obtain ⟨s1, s2⟩ := Storage.only_split hs
    obtain ⟨w1', k1, k2, k3⟩ := h3 s1
    have hes : callEvents g v1 e c = es' := by
      unfold callEvents
      rw [hc]
      simp [newEvents, Out.world, h4]
    obtain ⟨w2', j1, j2, _, j4⟩ := C77_call hg k2 (e' := e) ⟨rfl, rfl, rfl, rfl⟩ hv hc (hes ▸ s2)
    obtain ⟨es2, j5, _⟩ := Storage.sim_api g hg.size c hv { w1' with env := e } { w1' with env := e, ctx := noRetransmits w1'.ctx } (σ := e.stores) (ρ := e.retrieves)
      ⟨rfl, rfl⟩ ret w2' j1
    have j5 : w2'.trace = w1'.trace ++ es2 := j5
    have : es2 = noStorage es' := by
      have j6 : callEvents g w1' e c = es2 := by
        unfold callEvents
        rw [j1]
        simp [newEvents, Out.world, j5]
      rw [← j6, j4, hes]
    refine ⟨w2', .call k1 hv j1, j2, ?_⟩
    rw [j5, this, k3, Storage.noStorage_append, List.append_assoc]

/-- **C77** (histories).  As long as no copy was refused or asked for, every history of a client with the callbacks of `MQTT_InitRetransmits` is, call
for call and result for result, a history of a client without them, with the same interactions but for those with the callbacks, and it leads to the same state. -/
theorem C77_history {g : Cfg} {h : List (ApiCall × ApiRet)} {w : World} (hh : FromInit g h w) (hs : StoredOnly w.trace) :
    ∃ w', FromInit g h w' ∧ w'.ctx = noRetransmits w.ctx ∧ w'.trace = noStorage w.trace := by
  obtain ⟨hg, w0, hi, ht, hh⟩ := hh
  obtain ⟨es, h1, h2⟩ := storage_history hg hh (w' := { w0 with ctx := noRetransmits w0.ctx }) rfl
  rw [ht, List.nil_append] at h1
  obtain ⟨w', h3, h4, h5⟩ := h2 (h1 ▸ hs)
  exact ⟨w', ⟨hg, { w0 with ctx := noRetransmits w0.ctx }, initialised_noRetransmits hi, ht, h3⟩, h4, by rw [h5, h1]; simp [ht]⟩

/-! ### Examples -/

/-- The example session stores copies and clears one; none is refused or asked for. -/
example : FromInit Ex.g (Ex.played Ex.oldSteps).1 Ex.old ∧ StoredOnly Ex.old.trace ∧ Ex.old.ctx.retransmits = true ∧
    2 ≤ (Ex.old.trace.filter isStorage).length ∧ 40 ≤ (noStorage Ex.old.trace).length := by
  refine ⟨Ex.old_fromInit, ?_, ?_, ?_, ?_⟩ <;> decide +kernel

/-- Both conditions are needed.  When the copy of a publish is refused, the publish fails and nothing is sent; without the callbacks it is sent.  And when a session is
resumed, the publishes in flight are sent again only by a client that has copies. -/
theorem C77_needed :
    Ex.ret (callIn Ex.g Ex.after { Ex.env [] with stores := [false] } (Ex.publishCall .qos1 9)) = some (.status .publishStoreFailed) ∧
    Ex.ret (callIn Ex.g { Ex.after with ctx := noRetransmits Ex.after.ctx } { Ex.env [] with stores := [false] } (Ex.publishCall .qos1 9)) =
      some (.status .success) ∧
    wire (callEvents Ex.g Ex.old { Ex.env [0x20, 2, 1, 0] with retrieves := [some (publishPacket ((Ex.pub .qos1).toSpec 8)), some (publishPacket ((Ex.pub .qos1).toSpec 8))] }
      Ex.connectCall) ≠
    wire (callEvents Ex.g { Ex.old with ctx := noRetransmits Ex.old.ctx } (Ex.env [0x20, 2, 1, 0]) Ex.connectCall) := by
  refine ⟨?_, ?_, ?_⟩ <;> decide +kernel

end Mqtt
