/-
The bytes sent by a call.
-/
import Verif.Proof.CallFacts

namespace Mqtt
open Spec
set_option linter.unusedSimpArgs false

theorem FromInit.good {g : Cfg} {h : List (ApiCall × ApiRet)} {w : World} (hh : FromInit g h w) :
    CfgOk g ∧ w.ctx.index ≤ w.ctx.bufSize ∧ ∃ s, Represents w.ctx.tables s := by
  obtain ⟨oc, ic, h1, s, h2, _⟩ := hh.inv
  exact ⟨hh.cfg, h1, s, h2⟩

/-- The possible outcomes of a call in a history. -/
theorem call_cases {g : Cfg} (hg : CfgOk g) {s : InFlight} {w : World} (hidx : w.ctx.index ≤ w.ctx.bufSize) (hrep : Represents w.ctx.tables s)
    (e : Env) {c : ApiCall} (hv : ValidCall g c) :
    (∃ r es w', callIn g w e c = .done r w' ∧ callEvents g w e c = es ∧ Linked { w with env := e } es w' ∧ Did g s { w with env := e } c r es w') ∨
    (∃ es w', callIn g w e c = .stuck w' ∧ callEvents g w e c = es ∧ Linked { w with env := e } es w' ∧ Halted g s { w with env := e } c es w') := by
  have hw := callIn_wp hg e hv hidx hrep
  cases ho : callIn g w e c with
  | done r w' =>
    obtain ⟨es, hl, hd⟩ := wp_done hw ho
    exact Or.inl ⟨r, es, w', rfl, by unfold callEvents; rw [callIn]; exact newEvents_done (w := { w with env := e }) ho hl.trace, hl, hd⟩
  | stuck w' =>
    obtain ⟨es, hl, hd⟩ := wp_stuck hw ho
    exact Or.inr ⟨es, w', rfl, by unfold callEvents; rw [callIn]; exact newEvents_stuck (w := { w with env := e }) ho hl.trace, hl, hd⟩
  | ub er w' => exact (wp_ub hw ho).elim

theorem wire_store (id : UInt16) (v : List IoVec) (ok : Bool) (es : List Event) : wire (.store id v ok :: es) = wire es :=
  wire_cons_of_noSent _ _ rfl

theorem PubSent.sent {p : PublishInfo} {id : UInt16} {zs : List UInt8} {w w' : World} {st : Status} {es : List Event}
    (h : PubSent p id zs w st es w') : wire es <+: publishPacket (p.toSpec id) ∧ (st = .success → wire es = publishPacket (p.toSpec id)) ∧
      (st = .sendFailed → wire es ≠ publishPacket (p.toSpec id)) := by
  have key : ∀ {es : List Event}, SentResult (publishPacket (p.toSpec id)) st es → wire es <+: publishPacket (p.toSpec id) ∧
      (st = .success → wire es = publishPacket (p.toSpec id)) ∧ (st = .sendFailed → wire es ≠ publishPacket (p.toSpec id)) := by
    intro es h
    refine ⟨h.prefix, ?_, ?_⟩
    · rintro rfl
      rcases h with ⟨_, _, h⟩ | ⟨h, _⟩
      · exact h
      · cases h
    · rintro rfl
      rcases h with ⟨h, _⟩ | ⟨_, _, h⟩
      · cases h
      · exact h
  rcases h.2.2 with ⟨_, _, h⟩ | ⟨_, _, rfl, rfl⟩ | ⟨_, _, snd, rfl, _, h⟩
  · exact key h
  · refine ⟨?_, fun h => (by cases h), fun h => (by cases h)⟩
    rw [wire_store]; exact List.nil_prefix
  · rw [wire_store]; exact key h

theorem noteSent_status (s : InFlight) (p : PublishInfo) (id : UInt16) : (noteSent s p id).1 ≠ .sendFailed := by
  unfold noteSent
  split
  · simp
  · simp only [step]
    cases p.qos <;> simp only <;> repeat' split
    all_goals simp

theorem Did.wire {g : Cfg} {s : InFlight} {w w' : World} {c : ApiCall} {st : Status} {es : List Event} {pk : List UInt8}
    (hp : callPacket c = some pk) (h : Did g s w c (.status st) es w') :
    wire es <+: pk ∧ (st = .success → Spec.wire es = pk) ∧ (st = .sendFailed → Spec.wire es ≠ pk) := by
  have none : ∀ {st : Status} {es : List Event}, st ≠ .success → st ≠ .sendFailed → Spec.wire es = [] →
      Spec.wire es <+: pk ∧ (st = .success → Spec.wire es = pk) ∧ (st = .sendFailed → Spec.wire es ≠ pk) := by
    intro st es h1 h2 h3
    exact ⟨by rw [h3]; exact List.nil_prefix, fun h => absurd h h1, fun h => absurd h h2⟩
  have res : ∀ {st : Status} {es : List Event}, SentResult pk st es →
      Spec.wire es <+: pk ∧ (st = .success → Spec.wire es = pk) ∧ (st = .sendFailed → Spec.wire es ≠ pk) := by
    intro st es h
    refine ⟨h.prefix, ?_, ?_⟩
    · rintro rfl
      rcases h with ⟨_, _, h⟩ | ⟨h, _⟩
      · exact h
      · cases h
    · rintro rfl
      rcases h with ⟨h, _⟩ | ⟨_, _, h⟩
      · cases h
      · exact h
  have nc : ∀ x : ConnStatus, notConnectedStatus x ≠ .success ∧ notConnectedStatus x ≠ .sendFailed := by
    intro x; cases x <;> exact ⟨by decide, by decide⟩
  have sub : ∀ {ty : SubType} {l : List SubscribeInfo} {id : UInt16} {st : Status} {es : List Event} {w' : World}, SubDone ty l id w st es w' →
      subPacket ty id l = pk → Spec.wire es <+: pk ∧ (st = .success → Spec.wire es = pk) ∧ (st = .sendFailed → Spec.wire es ≠ pk) := by
    rintro ty l id st es w' h rfl
    rcases h.cases with ⟨rfl, rfl, _⟩ | ⟨_, rfl, rfl, _⟩ | ⟨_, _, _, _, h⟩
    · exact none (by simp) (by simp) rfl
    · exact none (nc _).1 (nc _).2 rfl
    · exact res h
  cases h with
  | publish f h =>
    cases hp
    rcases h.cases with ⟨rfl, rfl, _⟩ | ⟨_, rfl, rfl, _⟩ | ⟨_, _, h1, h2, rfl, _⟩ | ⟨_, zs, s1, st0, es0, w0, w1, _, _, hps, rfl, h'⟩
    · exact none (by simp) (by simp) rfl
    · exact none (nc _).1 (nc _).2 rfl
    · refine none h1 ?_ rfl
      rw [h2]
      simp only [step]
      repeat' split
      all_goals simp [Table.insert]
      all_goals repeat' split
      all_goals simp
    · rw [wire_hooked]
      obtain ⟨k1, k2, k3⟩ := hps.sent
      rcases h' with ⟨h1, rfl, _⟩ | ⟨rfl, rfl, _⟩
      · exact ⟨k1, fun h => absurd h h1, k3⟩
      · exact ⟨k1, fun _ => k2 rfl, fun h => absurd h (noteSent_status _ _ _)⟩
  | publishNull => cases hp
  | subscribe f h => cases hp; exact sub h rfl
  | subscribeNull => cases hp
  | unsubscribe f h => cases hp; exact sub h rfl
  | unsubscribeNull => cases hp
  | ping f h =>
    cases hp
    rcases h.cases with ⟨_, h1, _, h2, _⟩ | ⟨_, h1, h2, h3, _⟩ | ⟨_, h1, _, h2, _⟩
    · exact none (by rw [h2]; exact (nc _).1) (by rw [h2]; exact (nc _).2) h1
    · exact ⟨h1, fun h => absurd (h3.symm.trans h) (by decide), fun _ => h2⟩
    · exact ⟨by rw [h1]; exact List.prefix_refl _, fun _ => h1, fun h => absurd (h2.symm.trans h) (by decide)⟩
  | disconnect h =>
    cases hp
    rcases h.cases with ⟨_, rfl, rfl, _⟩ | ⟨_, snd, rfl, _, _, h, _⟩
    · exact none (by simp) (by simp) rfl
    · exact res h.hooked
  | processLoop f h => cases hp
  | receiveLoop f h => cases hp
  | cancel _ h => cases hp
  | check h => cases hp

theorem Halted.wire {g : Cfg} {s : InFlight} {w w' : World} {c : ApiCall} {es : List Event} {pk : List UInt8}
    (hp : callPacket c = some pk) (hl : Linked w es w') (h : Halted g s w c es w') : wire es <+: pk := by
  cases h with
  | publish f h => cases hp; exact h.2.1
  | subscribe f h => cases hp; exact h.2
  | unsubscribe f h => cases hp; exact h.2
  | ping f h => cases hp; exact h.2
  | disconnect _ h =>
    cases hp
    obtain ⟨snd, h1, h2, _, h3, _⟩ := h
    have : es = .pre :: snd := List.append_cancel_left (hl.trace.symm.trans h1)
    rw [this, wire_cons_of_noSent _ _ rfl]
    exact h3
  | processLoop f h => cases hp
  | receiveLoop f h => cases hp
  | connect h => cases hp

/-! ### `MQTT_Connect` -/

theorem wire_of_recv {es : List Event} (h : RecvX es) : wire es = [] := by
  exact wire_of_noSent h.noSent

theorem wire_clears (r : Bool) (s : InFlight) : wire (cleanClears r s) = [] := by
  refine wire_of_noSent ?_
  intro e he
  unfold cleanClears at he
  split at he
  · obtain ⟨id, _, rfl⟩ := List.mem_map.mp he
    rfl
  · cases he

theorem wire_hooks (st : Status) : wire (if st = .success then [] else [.pre, .post]) = [] := by
  split <;> rfl

/-- The bytes `MQTT_Connect` sent. -/
theorem ConnectDone.wire {g : Cfg} {ci : ConnectInfo} {will : Option PublishInfo} {t : UInt32} {sp0 sp : Bool} {s : InFlight} {w w' : World}
    {st : Status} {es : List Event} (h : ConnectDone g ci will t sp0 s w st sp es w') :
    (wire es <+: connectPacket (ci.toSpec will) ∧ wire es ≠ connectPacket (ci.toSpec will) ∧ st ≠ .success) ∨
    (Spec.wire es = connectPacket (ci.toSpec will) ∧ (st = .success → sp = false)) ∨
    (sp = true ∧ connectPacket (ci.toSpec will) <+: Spec.wire es) := by
  have ne : ([] : List UInt8) ≠ connectPacket (ci.toSpec will) := by
    unfold connectPacket packet
    simp
  have e1 : ∀ l : List Event, Spec.wire (.pre :: l) = Spec.wire l := fun l => wire_cons_of_noSent _ _ rfl
  have e2 : ∀ l : List Event, Spec.wire (.post :: l) = Spec.wire l := fun l => wire_cons_of_noSent _ _ rfl
  have e3 : Spec.wire [] = [] := rfl
  cases h with
  | badSize h1 h2 h3 => exact Or.inl ⟨List.nil_prefix, ne, h1⟩
  | already h1 h2 h3 h4 =>
    refine Or.inl ⟨List.nil_prefix, ne, ?_⟩
    rw [h4]; split <;> simp
  | noTopic h1 h2 h3 h4 => exact Or.inl ⟨List.nil_prefix, ne, by simp⟩
  | notSent h1 h2 h3 h4 h5 h6 h7 =>
    rcases h6 with ⟨h, _⟩ | ⟨_, h8, h9⟩
    · cases h
    · refine Or.inl ⟨?_, ?_, by simp⟩ <;> rw [e1, wire_append, e2, e1, e2, e3, List.append_nil] <;> assumption
  | notAccepted h1 h2 h3 h4 h5 h6 h7 h8 h9 h10 =>
    rcases h6 with ⟨_, _, h⟩ | ⟨h, _⟩
    · refine Or.inr (Or.inl ⟨?_, fun h => absurd h h9⟩)
      rw [e1, wire_append, wire_append, wire_of_recv h8.recv, e2, e1, e2, e3, h]; simp
    · cases h
  | fresh h1 h2 h3 h4 h5 h6 h7 h8 h9 =>
    rcases h6 with ⟨_, _, h⟩ | ⟨h, _⟩
    · refine Or.inr (Or.inl ⟨?_, fun _ => rfl⟩)
      rw [e1, wire_append, wire_append, wire_append, wire_of_recv h8.recv, wire_clears, e2, e3, h]; simp
    · cases h
  | resumed h1 h2 h3 h4 h5 h6 h7 h8 h9 h10 h11 h12 =>
    rcases h6 with ⟨_, _, h⟩ | ⟨h, _⟩
    · refine Or.inr (Or.inr ⟨rfl, ?_⟩)
      rw [e1, wire_append, wire_append, wire_of_recv h8.recv, e2, wire_append, wire_hooks, h]
      simp
    · cases h

theorem ConnectX.wire {g : Cfg} {ci : ConnectInfo} {will : Option PublishInfo} {t : UInt32} {sp0 : Bool} {s : InFlight} {w : World}
    {es : List Event} (h : ConnectX g ci will t sp0 s w es) :
    wire es <+: connectPacket (ci.toSpec will) ∨ connectPacket (ci.toSpec will) <+: Spec.wire es := by
  have e1 : ∀ l : List Event, Spec.wire (.pre :: l) = Spec.wire l := fun l => wire_cons_of_noSent _ _ rfl
  have e2 : ∀ l : List Event, Spec.wire (.post :: l) = Spec.wire l := fun l => wire_cons_of_noSent _ _ rfl
  cases h with
  | sending h1 h2 h3 h4 h5 => rw [e1]; exact Or.inl h5
  | waiting h1 h2 h3 h4 h5 h6 =>
    rw [e1, wire_append, wire_of_recv h6, List.append_nil]
    exact Or.inl h5.prefix
  | resuming h1 h2 h3 h4 h5 h6 h7 h8 h9 h10 =>
    rw [e1, wire_append, wire_append, wire_of_recv h7.recv, e2, List.nil_append]
    rcases h5 with ⟨_, _, h⟩ | ⟨h, _⟩
    · rw [h]; exact Or.inr (List.prefix_append _ _)
    · cases h

/-! ### Parameters accepted by the calls that succeeded -/

theorem mqttPublish_success {g : Cfg} {p : PublishInfo} {id : UInt16} {w w' : World} (h : mqttPublish g (some p) id w = .done .success w') :
    validatePublishParams w.ctx (some p) id = .success ∧ (getPublishPacketSize g.W (some p)).status = .success := by
  unfold mqttPublish at h
  have h1 : validatePublishParams w.ctx (some p) id = .success := by
    apply Classical.byContradiction
    intro hn
    simp only [Bind.bind, M.bind, getCtx, if_pos hn, Pure.pure, M.pure, Out.done.injEq] at h
    exact hn h.1
  refine ⟨h1, ?_⟩
  apply Classical.byContradiction
  intro hn
  simp only [Bind.bind, M.bind, getCtx, h1, ne_eq, not_true_eq_false, if_false, Pure.pure, M.pure] at h
  rw [if_pos hn] at h
  simp only [M.pure, Out.done.injEq] at h
  exact hn h.1

theorem mqttSubUnsub_success {g : Cfg} {ty : SubType} {l : List SubscribeInfo} {id : UInt16} {w w' : World}
    (h : mqttSubUnsub g ty (some l) id w = .done .success w') :
    validateSubscribeUnsubscribeParams w.ctx (some l) id = .success ∧ (getSubscriptionPacketSize g.W ty (some l)).status = .success := by
  unfold mqttSubUnsub at h
  have h1 : validateSubscribeUnsubscribeParams w.ctx (some l) id = .success := by
    apply Classical.byContradiction
    intro hn
    simp only [Bind.bind, M.bind, getCtx, if_pos hn, Pure.pure, M.pure, Out.done.injEq] at h
    exact hn h.1
  refine ⟨h1, ?_⟩
  apply Classical.byContradiction
  intro hn
  simp only [Bind.bind, M.bind, getCtx, h1, ne_eq, not_true_eq_false, if_false, Pure.pure, M.pure] at h
  rw [if_pos hn] at h
  simp only [M.pure, Out.done.injEq] at h
  exact hn h.1

end Mqtt
