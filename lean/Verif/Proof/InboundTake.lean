/-
The client takes a packet from the server: what becomes of the messages with one packet id.
-/
import Verif.Proof.InboundLink

namespace Mqtt
open Spec
set_option linter.unusedSimpArgs false

/-! ### What is presented -/

theorem presented_append (i : UInt16) (a b : List Event) : presented i (a ++ b) = presented i a ++ presented i b := List.filterMap_append ..

theorem presented_quiet (i : UInt16) {es : List Event} (h : ∀ e ∈ es, isQuietEvent e = true) : presented i es = [] := by
  unfold presented
  rw [List.filterMap_eq_nil_iff]
  intro e he
  have := h e he
  cases e <;> simp_all [isQuietEvent]

theorem presented_callbacks (i : UInt16) (es : List Event) : presented i (callbacks es) = presented i es := by
  induction es with
  | nil => rfl
  | cons e es ih =>
    unfold callbacks presented at *
    rw [List.filter_cons]
    cases e <;> simp only [isCallback, if_true, Bool.false_eq_true, if_false, List.filterMap_cons, ih]

/-! ### The reaction to a packet -/

theorem toFin_qosName (q : Fin 3) : (qosName q).toFin = q := by revert q; decide

theorem qosName_ne {q : Fin 3} : qosName q ≠ .qos0 ↔ q ≠ 0 := by revert q; decide

/-- What the packet `p` means for packet id `i`: the state of the client before is `ph`, after it `ph'`, `cb` are the callbacks and `ack` the answer. -/
inductive Took (i : UInt16) (p : Raw) (ph ph' : Option InPhase) (cb : List Event) (ack : Option (AckType × UInt16)) : Prop
  | none : presented i cb = [] → ph' = ph → (∀ ty id, ack = some (ty, id) → ty = .pubrel ∨ id ≠ i) → Took i p ph ph' cb ack
  | one {m : Publish} : inDown i p = some (.pub m) → m.qos = 1 → ph = .none → presented i cb = [m] → ph' = some .sendPuback → ack = some (.puback, i) →
      Took i p ph ph' cb ack
  | two {m : Publish} : inDown i p = some (.pub m) → m.qos = 2 → ph = .none → presented i cb = [m] → ph' = some .sendPubrec → ack = some (.pubrec, i) →
      Took i p ph ph' cb ack
  | oneAgain {m : Publish} : inDown i p = some (.pub m) → m.qos = 1 → ph ≠ .none → presented i cb = [] → ph' = ph → ack = some (.puback, i) → Took i p ph ph' cb ack
  | twoAgain {m : Publish} : inDown i p = some (.pub m) → m.qos = 2 → ph ≠ .none → presented i cb = [] → ph' = ph → ack = some (.pubrec, i) → Took i p ph ph' cb ack
  | rel : inDown i p = some .rel → ph = some .awaitPubrel ∨ ph = some .sendPubcomp → presented i cb = [] → ph' = some .sendPubcomp → ack = some (.pubcomp, i) →
      Took i p ph ph' cb ack

theorem inc_insert {s : InFlight} {id i : UInt16} {x : InPhase} (h : (s.inc.insert s.inCap id x).1 = .success) :
    s.inc.phase id = none ∧ (s.inc.insert s.inCap id x).2.phase i = if i = id then some x else s.inc.phase i := by
  unfold Table.insert at h ⊢
  split at h
  · cases h
  · rename_i hn
    rw [if_neg hn]
    split at h
    · cases h
    · rename_i hf
      rw [if_neg hf]
      have hnone : s.inc.phase id = none := Classical.byContradiction fun h => hn (phase_mem.mpr h)
      refine ⟨hnone, ?_⟩
      simp only
      rw [phase_append]
      by_cases hi : i = id
      · subst hi; simp [hnone]
      · rw [if_neg hi]
        cases s.inc.phase i <;> simp [Ne.symm hi]

theorem inc_collision {s : InFlight} {id : UInt16} {x : InPhase} (h : (s.inc.insert s.inCap id x).1 = .stateCollision) : s.inc.phase id ≠ none := by
  unfold Table.insert at h
  split at h
  · rename_i hn
    exact phase_mem.mp hn
  · split at h <;> cases h

theorem publish_took (s : InFlight) (retx manage : Bool) (p : Raw) (i : UInt16) {id : UInt16} {v : PubView} (hr : readIncoming p.first p.body = some (.publish id v)) :
    Took i p (s.inc.phase i) ((react retx manage s p.first p.body).state.inc.phase i) (react retx manage s p.first p.body).callbacks
      (react retx manage s p.first p.body).ack := by
  have hreact : react retx manage s p.first p.body = reactPublish s p.first p.body id v := by unfold react; rw [hr]
  rw [hreact]
  obtain ⟨m, hm, hv, hid⟩ : ∃ m, parsePublish p.first.toNat p.body = some m ∧ v = ⟨qosName m.qos, m.retain, m.dup, m.topic, m.payload⟩ ∧ id.toNat = m.id := by
    unfold readIncoming at hr
    by_cases h3 : p.first.toNat / 16 = 3
    · rw [if_pos h3] at hr
      cases hs : parsePublish p.first.toNat p.body with
      | none => rw [hs] at hr; cases hr
      | some m =>
        rw [hs] at hr
        dsimp only at hr
        by_cases hl : p.body.length < (if m.qos.val = 0 then 3 else 5)
        · rw [if_pos hl] at hr; cases hr
        · rw [if_neg hl] at hr
          injection hr with hr
          injection hr with h1 h2
          refine ⟨m, rfl, h2.symm, ?_⟩
          rw [← h1]
          exact UInt16.toNat_ofNat_of_lt' (parsePublish_facts hs).2.1
    · rw [if_neg h3] at hr
      exfalso
      revert hr
      repeat' split
      all_goals simp [Option.map_eq_some_iff]
  have hdn := inDown_publish (i := i) hm
  have hfacts := (parsePublish_facts hm).2.2
  have hq : v.qos = qosName m.qos := by rw [hv]
  unfold reactPublish
  by_cases hc : s.inCap = 0 ∧ v.qos ≠ .qos0
  · rw [if_pos hc]
    exact .none rfl rfl (fun _ _ h => by cases h)
  rw [if_neg hc]
  -- a message without packet id
  by_cases h0 : m.qos = 0
  · have hq0 : v.qos = .qos0 := by rw [hq, h0]; rfl
    simp only [hq0, step, if_true, publishAck]
    refine .none ?_ rfl (fun _ _ h => by cases h)
    simp [presented, hq0]
  have hidne : id ≠ 0 := by
    intro h
    rw [h] at hid
    exact hfacts h0 hid.symm
  have hmi : m.id = i.toNat ↔ id = i := by rw [← hid]; exact UInt16.toNat_inj
  have hvq : v.qos ≠ .qos0 := by rw [hq]; exact qosName_ne.mpr h0
  have hpres : presented i [.app p.first p.body id .success (some v)] = if id = i then [m.message] else [] := by
    by_cases h : id = i
    · subst h
      rw [if_pos rfl]
      simp only [presented, List.filterMap_cons, List.filterMap_nil, true_and, if_pos hvq]
      rw [hid, hv]
      simp only [toFin_qosName]
      rfl
    · rw [if_neg h]
      simp [presented, h]
  have hqs : m.qos = 1 ∧ v.qos = .qos1 ∨ m.qos = 2 ∧ v.qos = .qos2 := by
    rw [hq]
    revert h0
    generalize m.qos = x
    revert x
    decide
  -- the step of the state engine
  have hstep : ∀ x : InPhase, (if v.qos = .qos1 then InPhase.sendPuback else .sendPubrec) = x →
      (step s (.publish .receive id v.qos)).1.1 = (s.inc.insert s.inCap id x).1 ∧
      (step s (.publish .receive id v.qos)).2 = { s with inc := (s.inc.insert s.inCap id x).2 } := by
    intro x hx
    rcases hqs with ⟨_, h⟩ | ⟨_, h⟩ <;>
    · rw [h] at hx ⊢
      simp only [step, if_neg hidne]
      rw [← hx]
      exact ⟨rfl, rfl⟩
  generalize hx : (if v.qos = .qos1 then InPhase.sendPuback else .sendPubrec) = x at hstep
  obtain ⟨hs1, hs2⟩ := hstep x rfl
  simp only [hs1, hs2]
  by_cases hi : id = i
  · subst hi
    rw [if_pos ⟨hmi.mpr rfl, h0⟩] at hdn
    by_cases hok : (s.inc.insert s.inCap id x).1 = .success
    · rw [if_pos hok]
      obtain ⟨h1, h2⟩ := inc_insert (i := id) hok
      rw [if_pos rfl] at h2
      rw [if_pos rfl] at hpres
      rcases hqs with ⟨g1, g2⟩ | ⟨g1, g2⟩
      · exact .one hdn g1 h1 hpres (by simp only; rw [h2, ← hx, g2]; rfl) (by simp only [g2]; rfl)
      · exact .two hdn g1 h1 hpres (by simp only; rw [h2, ← hx, g2]; rfl) (by simp only [g2]; rfl)
    · rw [if_neg hok]
      by_cases hcol : (s.inc.insert s.inCap id x).1 = .stateCollision
      · rw [if_pos hcol]
        have := inc_collision hcol
        rcases hqs with ⟨g1, g2⟩ | ⟨g1, g2⟩
        · exact .oneAgain hdn g1 this rfl rfl (by simp only [g2]; rfl)
        · exact .twoAgain hdn g1 this rfl rfl (by simp only [g2]; rfl)
      · rw [if_neg hcol]
        exact .none rfl rfl (fun _ _ h => by cases h)
  · have hack : ∀ ty id', publishAck v.qos id = some (ty, id') → ty = .pubrel ∨ id' ≠ i := by
      intro ty id' h
      right
      rcases hqs with ⟨_, g⟩ | ⟨_, g⟩ <;>
      · rw [g] at h
        simp only [publishAck, Option.some.injEq, Prod.mk.injEq] at h
        rw [← h.2]; exact hi
    by_cases hok : (s.inc.insert s.inCap id x).1 = .success
    · rw [if_pos hok]
      obtain ⟨h1, h2⟩ := inc_insert (i := i) hok
      rw [if_neg (Ne.symm hi)] at h2
      rw [if_neg hi] at hpres
      exact .none hpres h2 hack
    · rw [if_neg hok]
      by_cases hcol : (s.inc.insert s.inCap id x).1 = .stateCollision
      · rw [if_pos hcol]
        exact .none rfl rfl hack
      · rw [if_neg hcol]
        exact .none rfl rfl (fun _ _ h => by cases h)

theorem ack_took (s : InFlight) (retx manage : Bool) (p : Raw) (i : UInt16) {id : UInt16} {ty : AckType} (hr : readIncoming p.first p.body = some (.ack ty id)) :
    Took i p (s.inc.phase i) ((react retx manage s p.first p.body).state.inc.phase i) (react retx manage s p.first p.body).callbacks
      (react retx manage s p.first p.body).ack := by
  have hreact : react retx manage s p.first p.body = reactAck retx s p.first p.body ty id := by unfold react; rw [hr]
  rw [hreact]
  unfold reactAck
  simp only
  by_cases hok : (step s (.ack .receive ty id)).1.1 = .success
  rotate_left
  · rw [if_neg hok]
    exact .none rfl rfl (fun _ _ h => by cases h)
  rw [if_pos hok]
  have hpres : presented i ((if (ty = .puback ∨ ty = .pubrec) ∧ retx = true then [Event.clear id] else []) ++ [.app p.first p.body id .success none]) = [] := by
    rw [presented_append]
    split <;> rfl
  have hid0 : id ≠ 0 := by
    intro h
    simp only [step, if_pos h] at hok
    cases hok
  by_cases hty : ty = .pubrel
  rotate_left
  · refine .none hpres ?_ ?_
    · have : forOutgoing .receive ty = true := by cases ty <;> simp_all [forOutgoing]
      simp only [step, if_neg hid0, this, if_true]
    · intro ty' id' h
      left
      cases ty <;> simp_all [nextAck]
  · subst hty
    simp only [step, if_neg hid0, forOutgoing, Bool.false_eq_true, if_false] at hok ⊢
    have hid := readIncoming_id hr
    have hfirst : p.first = 0x62 := by
      rcases readIncoming_ackByte hr with ⟨h, _⟩ | ⟨h, _⟩ | ⟨_, h⟩ | ⟨h, _⟩
      · cases h
      · cases h
      · exact h
      · cases h
    by_cases hi : id = i
    · subst hi
      have hph : s.inc.phase id = some .awaitPubrel ∨ s.inc.phase id = some .sendPubcomp := by
        unfold ackTable at hok
        cases hp : s.inc.phase id with
        | none => rw [hp] at hok; cases hok
        | some x =>
          rw [hp] at hok
          cases x <;> simp [inAck] at hok ⊢
      refine .rel ?_ hph hpres ?_ rfl
      · unfold inDown
        rw [if_pos hfirst, if_pos hid]
      · rcases hph with h | h <;>
        · unfold ackTable
          rw [h]
          simp only [inAck, Effect.apply]
          rw [phase_set, if_pos rfl, h]
          rfl
    · refine .none hpres ?_ ?_
      · exact phase_ackTable_other _ _ (Ne.symm hi)
      · intro ty' id' h
        right
        simp only [nextAck, Option.some.injEq, Prod.mk.injEq] at h
        rw [← h.2]; exact hi

theorem react_took (s : InFlight) (retx manage : Bool) (p : Raw) (i : UInt16) :
    Took i p (s.inc.phase i) ((react retx manage s p.first p.body).state.inc.phase i) (react retx manage s p.first p.body).callbacks
      (react retx manage s p.first p.body).ack := by
  cases hr : readIncoming p.first p.body with
  | none =>
    unfold react; rw [hr]
    exact .none rfl rfl (fun _ _ h => by cases h)
  | some x =>
    cases x with
    | publish id v => exact publish_took s retx manage p i hr
    | ack ty id => exact ack_took s retx manage p i hr
    | pingresp =>
      unfold react; rw [hr]
      refine .none ?_ rfl (fun _ _ h => by cases h)
      simp only
      split <;> rfl
    | suback id f =>
      unfold react; rw [hr]
      exact .none rfl rfl (fun _ _ h => by cases h)
    | unsuback id =>
      unfold react; rw [hr]
      exact .none rfl rfl (fun _ _ h => by cases h)

/-! ### The answer -/

/-- The acknowledgement is sent. -/
theorem ackSend_inc {s : InFlight} {ty : AckType} {id i : UInt16} (hi : i ≠ 0) :
    (ty = .pubrel ∨ id ≠ i → (step s (.ack .send ty id)).2.inc.phase i = s.inc.phase i) ∧
    (s.inc.phase i = some .sendPuback → (step s (.ack .send .puback i)).2.inc.phase i = none) ∧
    (s.inc.phase i = some .sendPubrec ∨ s.inc.phase i = some .awaitPubrel → (step s (.ack .send .pubrec i)).2.inc.phase i = some .awaitPubrel) ∧
    (s.inc.phase i = some .sendPubcomp → (step s (.ack .send .pubcomp i)).2.inc.phase i = none) := by
  refine ⟨?_, ?_, ?_, ?_⟩
  · intro h
    by_cases h0 : id = 0
    · simp only [step, if_pos h0]
    · by_cases hty : ty = .pubrel
      · subst hty
        simp only [step, if_neg h0, forOutgoing, if_true]
      · have hne := h.resolve_left hty
        have : forOutgoing .send ty = false := by cases ty <;> simp_all [forOutgoing]
        simp only [step, if_neg h0, this, Bool.false_eq_true, if_false]
        exact phase_ackTable_other _ _ (Ne.symm hne)
  · intro h
    simp [step, hi, forOutgoing, ackTable, h, inAck, Effect.apply, phase_remove]
  · rintro (h | h) <;> simp [step, hi, forOutgoing, ackTable, h, inAck, Effect.apply, phase_set]
  · intro h
    simp [step, hi, forOutgoing, ackTable, h, inAck, Effect.apply, phase_remove]

/-- The acknowledgements of messages from the server. -/
def ackUp : AckType → Option InUp
  | .puback => some .puback
  | .pubrec => some .pubrec
  | .pubcomp => some .pubcomp
  | .pubrel => none

theorem ackRaw_inUp (ty : AckType) (id i : UInt16) :
    inUp i (ackRaw (UInt8.ofNat (ackByte ty)) id.toNat) = if id = i then ackUp ty else none := by
  have h := read16_be16 (n := id.toNat) id.toNat_lt []
  rw [List.append_nil] at h
  by_cases hi : id = i
  · subst hi
    rw [if_pos rfl]
    unfold inUp
    rw [if_pos (show read16 (ackRaw (UInt8.ofNat (ackByte ty)) id.toNat).body = _ from h)]
    cases ty <;> rfl
  · rw [if_neg hi]
    exact inUp_ack h hi

section
variable {i : UInt16} {q : Prop} {O R : List Publish} {slot : Option Slot} {ph ph' : Option InPhase} {U : List InUp} {D : List InDown} {m : Publish}

/-- The client does not react to what is sent. -/
theorem InTie.dropD {d : List InDown} (h : InTie q O R slot ph U (d ++ D)) : InTie q O R slot ph U D := by
  cases d with
  | nil => exact h
  | cons x d =>
    generalize hD : x :: d ++ D = E at h
    have hne : E ≠ [] := by rw [← hD]; simp
    have hnil : ∀ y, E = [y] → D = [] := by
      intro y hy
      rw [← hD] at hy
      simp at hy
      exact hy.2.2
    cases h with
    | free => exact absurd rfl hne
    | one h1 h2 h3 h4 =>
      rcases h3 with ⟨_, h⟩ | ⟨hU, h⟩ | ⟨_, h⟩
      · exact absurd h hne
      · rw [hnil _ h]
        exact .one h1 (fun _ => ⟨hU, rfl⟩) (Or.inl ⟨hU, rfl⟩) h4
      · exact absurd h hne
    | two h1 h2 h3 h4 =>
      rcases h3 with ⟨_, h⟩ | ⟨hU, h⟩ | ⟨_, h⟩
      · exact absurd h hne
      · rw [hnil _ h]
        exact .two h1 (fun _ => ⟨hU, rfl⟩) (Or.inl ⟨hU, rfl⟩) h4
      · exact absurd h hne
    | rel h1 h2 h3 =>
      rcases h2 with ⟨_, h⟩ | ⟨hU, h⟩ | ⟨_, h⟩
      · exact absurd h hne
      · rw [hnil _ h]
        exact .rel (fun _ => ⟨hU, rfl⟩) (Or.inl ⟨hU, rfl⟩) h3
      · exact absurd h hne

/-- What is known when a message is taken. -/
theorem InTie.message (h : InTie q O R slot ph U (.pub m :: D)) :
    ∃ sent, slot = some ⟨m, false, sent⟩ ∧ sent = true ∧ U = [] ∧ D = [] ∧
      (m.qos = 1 ∧ (q → ∃ O', O = O' ++ [m] ∧ (ph = none ∧ Arrived O' R ∨ ph = none ∧ Arrived O R ∨ ph = some .sendPuback ∧ Arrived O R)) ∨
       m.qos = 2 ∧ (q → ∃ O', O = O' ++ [m] ∧ (ph = none ∧ Arrived O' R ∨ (ph = some .sendPubrec ∨ ph = some .awaitPubrel) ∧ Arrived O R))) := by
  generalize hE : InDown.pub m :: D = E at h
  cases h with
  | free => cases hE
  | @one m' sent _ _ _ h1 h2 h3 h4 =>
    rcases h3 with ⟨_, h⟩ | ⟨hU, h⟩ | ⟨_, h⟩
    · rw [h] at hE; cases hE
    · rw [h] at hE
      injection hE with a b
      injection a with a
      subst a b
      refine ⟨sent, rfl, ?_, hU, rfl, Or.inl ⟨h1, fun hq => ?_⟩⟩
      · cases sent with
        | true => rfl
        | false => rw [(h2 rfl).2] at h; cases h
      · obtain ⟨O', e1, e2⟩ := h4 hq
        refine ⟨O', e1, ?_⟩
        rcases e2 with ⟨a, _, c⟩ | e2 | ⟨a, _, c⟩
        · exact Or.inl ⟨a, c⟩
        · exact Or.inr (Or.inl e2)
        · exact Or.inr (Or.inr ⟨a, c⟩)
    · rw [h] at hE; cases hE
  | @two m' sent _ _ _ h1 h2 h3 h4 =>
    rcases h3 with ⟨_, h⟩ | ⟨hU, h⟩ | ⟨_, h⟩
    · rw [h] at hE; cases hE
    · rw [h] at hE
      injection hE with a b
      injection a with a
      subst a b
      refine ⟨sent, rfl, ?_, hU, rfl, Or.inr ⟨h1, fun hq => ?_⟩⟩
      · cases sent with
        | true => rfl
        | false => rw [(h2 rfl).2] at h; cases h
      · obtain ⟨O', e1, e2⟩ := h4 hq
        refine ⟨O', e1, ?_⟩
        rcases e2 with ⟨a, _, c⟩ | ⟨a, _, c⟩ | ⟨a, c⟩
        · exact Or.inl ⟨a, c⟩
        · exact Or.inr ⟨Or.inl a, c⟩
        · exact Or.inr ⟨Or.inr a, c⟩
    · rw [h] at hE; cases hE
  | rel h1 h2 h3 =>
    rcases h2 with ⟨_, h⟩ | ⟨_, h⟩ | ⟨_, h⟩ <;> (rw [h] at hE; cases hE)

/-- The client takes a packet: what holds before it has answered, and what holds after it, whether the answer is under way or lost. -/
theorem InTie.takes {s : InFlight} {retx manage : Bool} {p : Raw} (hi : i ≠ 0) (h : InTie q O R slot (s.inc.phase i) U ((inDown i p).toList ++ D)) :
    InTie q O (R ++ presented i (react retx manage s p.first p.body).callbacks) slot ((react retx manage s p.first p.body).state.inc.phase i) U D ∧
    ∀ ty id, (react retx manage s p.first p.body).ack = some (ty, id) → ∀ V, V = [] ∨ V = (inUp i (ackRaw (UInt8.ofNat (ackByte ty)) id.toNat)).toList →
      InTie q O (R ++ presented i (react retx manage s p.first p.body).callbacks) slot
        ((step (react retx manage s p.first p.body).state (.ack .send ty id)).2.inc.phase i) (U ++ V) D := by
  have ht := react_took s retx manage p i
  generalize react retx manage s p.first p.body = rx at ht ⊢
  have hnote : ∀ ty, inUp i (ackRaw (UInt8.ofNat (ackByte ty)) i.toNat) = ackUp ty := by
    intro ty
    rw [ackRaw_inUp, if_pos rfl]
  cases ht with
  | none h1 h2 h3 =>
    rw [h1, h2, List.append_nil]
    refine ⟨h.dropD, ?_⟩
    intro ty id hack V hV
    have hor := h3 ty id hack
    have : V = [] := by
      rcases hV with rfl | rfl
      · rfl
      · rw [ackRaw_inUp]
        rcases hor with rfl | hne
        · split <;> rfl
        · rw [if_neg hne]; rfl
    rw [this, List.append_nil, (ackSend_inc (s := rx.state) hi).1 hor, h2]
    exact h.dropD
  | @one m h1 h2 h3 h4 h5 h6 =>
    rw [h1] at h
    obtain ⟨sent, rfl, rfl, rfl, rfl, ⟨e1, e2⟩ | ⟨e1, _⟩⟩ := h.message
    rotate_left
    · rw [h2] at e1; cases e1
    have hR : q → ∃ O', O = O' ++ [m] ∧ Arrived O (R ++ [m]) := by
      intro hq
      obtain ⟨O', rfl, e3⟩ := e2 hq
      refine ⟨O', rfl, ?_⟩
      rcases e3 with ⟨_, e3⟩ | ⟨_, e3⟩ | ⟨e3, _⟩
      · exact .next m e3
      · exact .repeated e3 h2
      · rw [h3] at e3; cases e3
    rw [h4, h5]
    refine ⟨.one h2 (fun h => by cases h) (Or.inl ⟨rfl, rfl⟩) fun hq => ?_, ?_⟩
    · obtain ⟨O', e3, e4⟩ := hR hq
      exact ⟨O', e3, Or.inr (Or.inr ⟨rfl, rfl, e4⟩)⟩
    · intro ty id hack V hV
      rw [h6] at hack
      cases hack
      rw [(ackSend_inc (s := rx.state) (ty := .puback) (id := i) hi).2.1 h5]
      rw [hnote] at hV
      refine .one h2 (fun h => by cases h) ?_ fun hq => ?_
      · rcases hV with rfl | rfl
        · exact Or.inl ⟨rfl, rfl⟩
        · exact Or.inr (Or.inr ⟨rfl, rfl⟩)
      · obtain ⟨O', e3, e4⟩ := hR hq
        exact ⟨O', e3, Or.inr (Or.inl ⟨rfl, e4⟩)⟩
  | @two m h1 h2 h3 h4 h5 h6 =>
    rw [h1] at h
    obtain ⟨sent, rfl, rfl, rfl, rfl, ⟨e1, _⟩ | ⟨e1, e2⟩⟩ := h.message
    · rw [h2] at e1; cases e1
    have hR : q → ∃ O', O = O' ++ [m] ∧ Arrived O (R ++ [m]) := by
      intro hq
      obtain ⟨O', rfl, e3⟩ := e2 hq
      refine ⟨O', rfl, ?_⟩
      rcases e3 with ⟨_, e3⟩ | ⟨e3 | e3, _⟩
      · exact .next m e3
      · rw [h3] at e3; cases e3
      · rw [h3] at e3; cases e3
    rw [h4, h5]
    refine ⟨.two h2 (fun h => by cases h) (Or.inl ⟨rfl, rfl⟩) fun hq => ?_, ?_⟩
    · obtain ⟨O', e3, e4⟩ := hR hq
      exact ⟨O', e3, Or.inr (Or.inl ⟨rfl, rfl, e4⟩)⟩
    · intro ty id hack V hV
      rw [h6] at hack
      cases hack
      rw [(ackSend_inc (s := rx.state) (ty := .puback) (id := i) hi).2.2.1 (Or.inl h5)]
      rw [hnote] at hV
      refine .two h2 (fun h => by cases h) ?_ fun hq => ?_
      · rcases hV with rfl | rfl
        · exact Or.inl ⟨rfl, rfl⟩
        · exact Or.inr (Or.inr ⟨rfl, rfl⟩)
      · obtain ⟨O', e3, e4⟩ := hR hq
        exact ⟨O', e3, Or.inr (Or.inr ⟨rfl, e4⟩)⟩
  | @oneAgain m h1 h2 h3 h4 h5 h6 =>
    rw [h4, h5, List.append_nil]
    refine ⟨h.dropD, ?_⟩
    rw [h1] at h
    obtain ⟨sent, rfl, rfl, rfl, rfl, ⟨e1, e2⟩ | ⟨e1, _⟩⟩ := h.message
    rotate_left
    · rw [h2] at e1; cases e1
    intro ty id hack V hV
    rw [h6] at hack
    cases hack
    rw [hnote] at hV
    refine .one h2 (fun h => by cases h) ?_ fun hq => ?_
    · rcases hV with rfl | rfl
      · exact Or.inl ⟨rfl, rfl⟩
      · exact Or.inr (Or.inr ⟨rfl, rfl⟩)
    · obtain ⟨O', e3, e4⟩ := e2 hq
      refine ⟨O', e3, Or.inr (Or.inl ?_)⟩
      rcases e4 with ⟨e4, _⟩ | ⟨e4, _⟩ | ⟨e4, e5⟩
      · exact absurd e4 h3
      · exact absurd e4 h3
      · exact ⟨(ackSend_inc (s := rx.state) (ty := .puback) (id := i) hi).2.1 (by rw [h5, e4]), e5⟩
  | @twoAgain m h1 h2 h3 h4 h5 h6 =>
    rw [h4, h5, List.append_nil]
    refine ⟨h.dropD, ?_⟩
    rw [h1] at h
    obtain ⟨sent, rfl, rfl, rfl, rfl, ⟨e1, _⟩ | ⟨e1, e2⟩⟩ := h.message
    · rw [h2] at e1; cases e1
    intro ty id hack V hV
    rw [h6] at hack
    cases hack
    rw [hnote] at hV
    refine .two h2 (fun h => by cases h) ?_ fun hq => ?_
    · rcases hV with rfl | rfl
      · exact Or.inl ⟨rfl, rfl⟩
      · exact Or.inr (Or.inr ⟨rfl, rfl⟩)
    · obtain ⟨O', e3, e4⟩ := e2 hq
      refine ⟨O', e3, Or.inr (Or.inr ?_)⟩
      rcases e4 with ⟨e4, _⟩ | ⟨e4, e5⟩
      · exact absurd e4 h3
      · exact ⟨(ackSend_inc (s := rx.state) (ty := .puback) (id := i) hi).2.2.1 (by rw [h5]; exact e4), e5⟩
  | rel h1 h2 h3 h4 h5 =>
    rw [h3, List.append_nil]
    rw [h1] at h
    have hrel : ∃ m, slot = some ⟨m, true, true⟩ ∧ U = [] ∧ D = [] ∧ (q → Arrived O R) := by
      generalize hE : (some InDown.rel).toList ++ D = E at h
      have hE : E = .rel :: D := hE.symm
      generalize s.inc.phase i = ph at h
      cases h with
      | free => cases hE
      | one e1 e2 e3 e4 => rcases e3 with ⟨_, h⟩ | ⟨_, h⟩ | ⟨_, h⟩ <;> (rw [h] at hE; cases hE)
      | two e1 e2 e3 e4 => rcases e3 with ⟨_, h⟩ | ⟨_, h⟩ | ⟨_, h⟩ <;> (rw [h] at hE; cases hE)
      | @rel m sent _ _ _ e1 e2 e3 =>
        rcases e2 with ⟨_, h⟩ | ⟨hU, h⟩ | ⟨_, h⟩
        · rw [h] at hE; cases hE
        · rw [h] at hE
          cases hE
          cases sent with
          | false => rw [(e1 rfl).2] at h; cases h
          | true => exact ⟨m, rfl, hU, rfl, fun hq => (e3 hq).1⟩
        · rw [h] at hE; cases hE
    obtain ⟨m, rfl, rfl, rfl, hA⟩ := hrel
    refine ⟨.rel (fun h => by cases h) (Or.inl ⟨rfl, rfl⟩) fun hq => ⟨hA hq, Or.inl ⟨rfl, Or.inr h4⟩⟩, ?_⟩
    intro ty id hack V hV
    rw [h5] at hack
    cases hack
    rw [hnote] at hV
    refine .rel (fun h => by cases h) ?_ fun hq => ⟨hA hq, Or.inr ((ackSend_inc (s := rx.state) (ty := .puback) (id := i) hi).2.2.2 h4)⟩
    rcases hV with rfl | rfl
    · exact Or.inl ⟨rfl, rfl⟩
    · exact Or.inr (Or.inr ⟨rfl, rfl⟩)

end

end Mqtt
