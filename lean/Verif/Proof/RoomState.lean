/-
The functions of core_mqtt_state.c depend on the arrangement of the records and on the sizes of the arrays only when there is no room.
-/
import Verif.Spec.Room
import Verif.Proof.Resend
import Verif.Proof.Records

namespace Mqtt.Room
open Spec

/-- The arrays hold the same publishes; the second one is at least as large. -/
structure Arr (a a' : Records) : Prop where
  same : live a' = live a
  size : a.length ≤ a'.length
  nil : a = [] → a' = []
  clean : Clean a
  clean' : Clean a'

/-- Both arrays. -/
structure Tab (t t' : Tables) : Prop where
  out : Arr t.outgoing t'.outgoing
  inc : Arr t.incoming t'.incoming

theorem Arr.nil_iff {a a' : Records} (h : Arr a a') : (a' = []) = (a = []) := by
  refine propext ⟨fun h' => ?_, h.nil⟩
  have := h.size
  rw [h'] at this
  exact List.eq_nil_of_length_eq_zero (Nat.le_zero.1 this)

/-- The position of the first record with a property is determined. -/
theorem first_unique_of {P : Rec → Prop} : ∀ {p p' q q' : Records} {r r' : Rec}, p ++ r :: q = p' ++ r' :: q' → (∀ x ∈ p, ¬ P x) → (∀ x ∈ p', ¬ P x) →
    P r → P r' → p = p' ∧ r = r' ∧ q = q'
  | [], [], _, _, _, _, h, _, _, _, _ => ⟨rfl, (List.cons.inj h).1, (List.cons.inj h).2⟩
  | [], x :: p', _, _, _, _, h, _, h2, h3, _ => absurd ((List.cons.inj h).1 ▸ h3) (h2 x List.mem_cons_self)
  | x :: p, [], _, _, _, _, h, h1, _, _, h4 => absurd ((List.cons.inj h).1 ▸ h4) (h1 x List.mem_cons_self)
  | x :: p, y :: p', _, _, _, _, h, h1, h2, h3, h4 => by
    obtain ⟨rfl, hh⟩ := List.cons.inj h
    obtain ⟨rfl, k1, k2⟩ := first_unique_of (p := p) (p' := p') hh (fun z hz => h1 z (List.mem_cons_of_mem _ hz)) (fun z hz => h2 z (List.mem_cons_of_mem _ hz)) h3 h4
    exact ⟨rfl, k1, k2⟩

theorem first_unique {id : UInt16} {p p' q q' : Records} {r r' : Rec} (h : p ++ r :: q = p' ++ r' :: q') (h1 : ∀ x ∈ p, x.packetId ≠ id) (h2 : ∀ x ∈ p', x.packetId ≠ id)
    (h3 : r.packetId = id) (h4 : r'.packetId = id) : p = p' ∧ r = r' ∧ q = q' :=
  first_unique_of (P := fun x => x.packetId = id) h h1 h2 h3 h4

/-- What a lookup finds in the two arrays. -/
inductive Found (a a' : Records) (id : UInt16) : Prop
  | none : findInRecord a id = .ok none → findInRecord a' id = .ok none → Found a a' id
  | some {p q p' q' : Records} {r : Rec} : a = p ++ r :: q → a' = p' ++ r :: q' → r.packetId = id → live p' = live p → live q' = live q →
      findInRecord a id = .ok (some (p.length, r)) → findInRecord a' id = .ok (some (p'.length, r)) → Found a a' id

theorem found {a a' : Records} (h : Arr a a') {id : UInt16} (hid : id ≠ 0) : Found a a' id := by
  have hs := h.same
  have hl : ∀ {b : Records}, (∀ r ∈ b, r.packetId ≠ id) → ∀ r ∈ live b, r.packetId ≠ id := fun hb r hr => hb r (mem_live.1 hr).1
  rcases findInRecord_spec hid a with ⟨h1, h2⟩ | ⟨p, r, q, h1, h2, h3, h4⟩
  · rcases findInRecord_spec hid a' with ⟨k1, k2⟩ | ⟨p', r', q', k1, k2, k3, k4⟩
    · exact .none h2 k2
    · refine absurd k2 (hl h1 r' ?_)
      rw [← hs, k1]
      exact mem_live.2 ⟨by simp, k2 ▸ hid⟩
  · rcases findInRecord_spec hid a' with ⟨k1, k2⟩ | ⟨p', r', q', k1, k2, k3, k4⟩
    · refine absurd h2 (hl k1 r ?_)
      rw [hs, h1]
      exact mem_live.2 ⟨by simp, h2 ▸ hid⟩
    · rw [h1, k1] at hs
      simp only [live_append, live_cons, h2, k2, ne_eq, hid, not_false_eq_true, if_true] at hs
      obtain ⟨j1, rfl, j3⟩ := first_unique hs (hl k3) (hl h3) k2 h2
      exact .some h1 k1 h2 j1 j3 h4 k4

/-- Adding a record. -/
theorem add {a a' : Records} (h : Arr a a') {id : UInt16} (hid : id ≠ 0) {q : QoS} (hq : q ≠ .qos0) (s : PubState) {st : Status} {b : Records}
    (hd : addRecord a id q s = .ok (st, b)) : (st = .noMemory ∧ (live a).length = a.length ∧ id ∉ (live a).map (·.packetId)) ∨
      ∃ b', addRecord a' id q s = .ok (st, b') ∧ Arr b b' := by
  have hne : a ≠ [] := by
    rintro rfl
    simp [addRecord, cassert, hid, hq] at hd
  obtain ⟨r, h1, h2, h3, h4⟩ := addRecord_spec a h.clean hne id hid q hq s
  obtain ⟨r', k1, k2, k3, k4⟩ := addRecord_spec a' h.clean' (fun hn => hne (h.nil_iff.mp hn)) id hid q hq s
  rw [h1] at hd
  cases hd
  rw [h.same] at k1 k4
  by_cases hm : id ∈ (live a).map (·.packetId)
  · right
    rw [if_pos hm] at k1 k4 h4
    rw [if_pos hm]
    refine ⟨r', k1, by rw [k4, h4], by rw [h2, k2]; exact h.size, fun hn => ?_, h3, k3⟩
    rw [hn] at h2
    exact absurd (List.eq_nil_of_length_eq_zero h2.symm) hne
  · by_cases hf : (live a).length = a.length
    · left
      rw [if_neg hm, if_pos hf]
      exact ⟨rfl, hf, hm⟩
    · right
      have hlt : (live a).length < a.length := Nat.lt_of_le_of_ne (live_length_le a) hf
      have hf' : ¬ (live a).length = a'.length := by
        have := h.size
        omega
      rw [if_neg hm, if_neg hf'] at k1 k4
      rw [if_neg hm, if_neg hf] at h4
      rw [if_neg hm, if_neg hf]
      refine ⟨r', k1, by rw [k4, h4], by rw [h2, k2]; exact h.size, fun hn => ?_, h3, k3⟩
      rw [hn] at h2
      exact absurd (List.eq_nil_of_length_eq_zero h2.symm) hne

/-- Deleting the record that was found. -/
theorem delete {p q p' q' : Records} {r : Rec} (h : Arr (p ++ r :: q) (p' ++ r :: q')) (h1 : live p' = live p) (h2 : live q' = live q) :
    Arr (p ++ Rec.empty :: q) (p' ++ Rec.empty :: q') := by
  refine ⟨by simp [h1, h2], by simpa using h.size, fun hn => by simp at hn, ?_, ?_⟩
  · obtain ⟨a, b⟩ := Clean.append.1 h.clean
    exact Clean.append.2 ⟨a, Clean.cons.2 ⟨fun _ => rfl, (Clean.cons.1 b).2⟩⟩
  · obtain ⟨a, b⟩ := Clean.append.1 h.clean'
    exact Clean.append.2 ⟨a, Clean.cons.2 ⟨fun _ => rfl, (Clean.cons.1 b).2⟩⟩

/-- Changing its state. -/
theorem change {p q p' q' : Records} {r : Rec} (h : Arr (p ++ r :: q) (p' ++ r :: q')) (hr : r.packetId ≠ 0) (h1 : live p' = live p) (h2 : live q' = live q) (s : PubState) :
    Arr (p ++ { r with publishState := s } :: q) (p' ++ { r with publishState := s } :: q') := by
  refine ⟨by simp [live_cons, hr, h1, h2], by simpa using h.size, fun hn => by simp at hn, ?_, ?_⟩
  · obtain ⟨a, b⟩ := Clean.append.1 h.clean
    exact Clean.append.2 ⟨a, Clean.cons.2 ⟨fun h0 => absurd h0 hr, (Clean.cons.1 b).2⟩⟩
  · obtain ⟨a, b⟩ := Clean.append.1 h.clean'
    exact Clean.append.2 ⟨a, Clean.cons.2 ⟨fun h0 => absurd h0 hr, (Clean.cons.1 b).2⟩⟩

/-- After a deletion there is room. -/
theorem room_after (p : Records) (q : Records) : (live (p ++ Rec.empty :: q)).length < (p ++ Rec.empty :: q).length := by
  have h1 := live_length_le p
  have h2 := live_length_le q
  simp
  omega

/-- `updateStateAck` on the record that was found. -/
theorem ack {p q p' q' : Records} {r : Rec} (h : Arr (p ++ r :: q) (p' ++ r :: q')) (hr : r.packetId ≠ 0) (h1 : live p' = live p) (h2 : live q' = live q) {id : UInt16} (hid : id ≠ 0)
    (n : PubState) {st : Status} {b : Records} (hd : updateStateAck (p ++ r :: q) p.length id r.publishState n = .ok (st, b)) :
    ∃ b', updateStateAck (p' ++ r :: q') p'.length id r.publishState n = .ok (st, b') ∧ Arr b b' ∧
      (n ≠ .publishDone → n ≠ .pubRelSend → b.map (·.packetId) = (p ++ r :: q).map (·.packetId) ∧ b'.map (·.packetId) = (p' ++ r :: q').map (·.packetId)) := by
  unfold updateStateAck at hd ⊢
  by_cases hv : validateTransitionAck r.publishState n = true
  · simp only [hv, if_true] at hd ⊢
    by_cases hn : r.publishState ≠ n
    · rw [if_pos hn] at hd ⊢
      by_cases hdel : (n == .publishDone || n == .pubRelSend) = true
      · rw [hdel, updateRecord_delete] at hd
        rw [hdel, updateRecord_delete]
        have hD := delete h h1 h2
        by_cases hp : n = .pubRelSend
        · subst hp
          simp only [Res.ok_bind, if_true] at hd ⊢
          rcases add hD hid (by decide) _ hd with ⟨_, h3, _⟩ | ⟨b', h3, h4⟩
          · exact absurd h3 (Nat.ne_of_lt (room_after p q))
          · exact ⟨b', h3, h4, fun _ hx => absurd rfl hx⟩
        · simp only [Res.ok_bind, if_neg hp] at hd ⊢
          cases hd
          refine ⟨_, rfl, hD, fun hx hy => ?_⟩
          simp [hx, hy] at hdel
      · have hdel' : (n == .publishDone || n == .pubRelSend) = false := by simpa using hdel
        have hp : n ≠ .pubRelSend := by rintro rfl; simp at hdel'
        rw [hdel', updateRecord_state] at hd
        rw [hdel', updateRecord_state]
        simp only [Res.ok_bind, if_neg hp] at hd ⊢
        cases hd
        exact ⟨_, rfl, change h hr h1 h2 n, fun _ _ => by simp⟩
    · rw [if_neg hn] at hd ⊢
      cases hd
      exact ⟨_, rfl, h, fun _ _ => ⟨rfl, rfl⟩⟩
  · simp only [hv] at hd ⊢
    cases hd
    exact ⟨_, rfl, h, fun _ _ => ⟨rfl, rfl⟩⟩

/-- `MQTT_UpdateStateAck`; sending a PUBREL leaves every record in its place. -/
theorem ackApi {t t' : Tables} (h : Tab t t') (id : UInt16) (ty : AckType) (op : Op) {x : Status × Option PubState} {t1 : Tables}
    (hd : updateStateAckApi t id ty op = .ok (x.1, x.2, t1)) : ∃ t1', updateStateAckApi t' id ty op = .ok (x.1, x.2, t1') ∧ Tab t1 t1' ∧
      (ty = .pubrel → op = .send → t1.outgoing.map (·.packetId) = t.outgoing.map (·.packetId) ∧ t1'.outgoing.map (·.packetId) = t'.outgoing.map (·.packetId)) := by
  obtain ⟨st, s⟩ := x
  unfold updateStateAckApi at hd ⊢
  by_cases hid : id = 0
  · rw [if_pos hid] at hd ⊢
    cases hd
    exact ⟨_, rfl, h, fun _ _ => ⟨rfl, rfl⟩⟩
  · rw [if_neg hid] at hd ⊢
    dsimp only at hd ⊢
    cases ho : isPublishOutgoing ty op with
    | true =>
      rw [ho] at hd
      simp only [if_true] at hd ⊢
      rcases found h.out hid with ⟨f1, f2⟩ | ⟨e1, e2, hr, l1, l2, f1, f2⟩
      · rw [f1] at hd
        rw [f2]
        cases hd
        exact ⟨_, rfl, h, fun _ _ => ⟨rfl, rfl⟩⟩
      · rename_i p q p' q' r
        rw [f1, e1] at hd
        rw [f2, e2]
        simp only [Res.ok_bind] at hd ⊢
        cases hu : updateStateAck (p ++ r :: q) p.length id r.publishState (calculateStateAck ty op r.qos) with
        | ub e => rw [hu] at hd; cases hd
        | ok y =>
          obtain ⟨y1, y2⟩ := y
          rw [hu] at hd
          obtain ⟨b', k1, k2, k3⟩ := ack (e1 ▸ e2 ▸ h.out) (hr ▸ hid) l1 l2 hid _ hu
          rw [k1]
          simp only [Res.ok_bind, Res.pure_eq, Res.ok.injEq, Prod.mk.injEq] at hd ⊢
          obtain ⟨rfl, rfl, rfl⟩ := hd
          refine ⟨_, ⟨rfl, rfl, rfl⟩, ⟨k2, h.inc⟩, ?_⟩
          rintro rfl rfl
          rw [e1]
          refine k3 ?_ ?_ <;>
          · unfold calculateStateAck ackCalculated
            split <;> simp
    | false =>
      rw [ho] at hd
      simp only [Bool.false_eq_true, if_false] at hd ⊢
      rcases found h.inc hid with ⟨f1, f2⟩ | ⟨e1, e2, hr, l1, l2, f1, f2⟩
      · rw [f1] at hd
        rw [f2]
        cases hd
        exact ⟨_, rfl, h, fun _ _ => ⟨rfl, rfl⟩⟩
      · rename_i p q p' q' r
        rw [f1, e1] at hd
        rw [f2, e2]
        simp only [Res.ok_bind] at hd ⊢
        cases hu : updateStateAck (p ++ r :: q) p.length id r.publishState (calculateStateAck ty op r.qos) with
        | ub e => rw [hu] at hd; cases hd
        | ok y =>
          obtain ⟨y1, y2⟩ := y
          rw [hu] at hd
          obtain ⟨b', k1, k2, k3⟩ := ack (e1 ▸ e2 ▸ h.inc) (hr ▸ hid) l1 l2 hid _ hu
          rw [k1]
          simp only [Res.ok_bind, Res.pure_eq, Res.ok.injEq, Prod.mk.injEq] at hd ⊢
          obtain ⟨rfl, rfl, rfl⟩ := hd
          refine ⟨_, ⟨rfl, rfl, rfl⟩, ⟨h.out, k2⟩, ?_⟩
          rintro rfl rfl
          exact ⟨rfl, rfl⟩

/-- `MQTT_ReserveState` -/
theorem reserve {t t' : Tables} (h : Tab t t') (id : UInt16) (q : QoS) {st : Status} {t1 : Tables} (hd : reserveState t id q = .ok (st, t1)) :
    st = .noMemory ∨ ∃ t1', reserveState t' id q = .ok (st, t1') ∧ Tab t1 t1' := by
  unfold reserveState at hd ⊢
  by_cases hq : q = .qos0
  · rw [if_pos hq] at hd ⊢
    cases hd
    exact .inr ⟨_, rfl, h⟩
  · rw [if_neg hq] at hd ⊢
    by_cases hid : id = 0
    · rw [if_pos hid] at hd ⊢
      cases hd
      exact .inr ⟨_, rfl, h⟩
    · rw [if_neg hid] at hd ⊢
      cases hu : addRecord t.outgoing id q .publishSend with
      | ub e => rw [hu] at hd; cases hd
      | ok y =>
        obtain ⟨y1, y2⟩ := y
        rw [hu] at hd
        cases hd
        rcases add h.out hid hq _ hu with ⟨h1, _⟩ | ⟨b', h1, h2⟩
        · exact .inl h1
        · rw [h1]
          exact .inr ⟨_, rfl, h2, h.inc⟩

/-- `MQTT_RemoveStateRecord` -/
theorem remove {t t' : Tables} (h : Tab t t') (id : UInt16) {st : Status} {t1 : Tables} (hd : removeStateRecord t id = .ok (st, t1)) :
    ∃ t1', removeStateRecord t' id = .ok (st, t1') ∧ Tab t1 t1' := by
  unfold removeStateRecord at hd ⊢
  by_cases hn : t.outgoing = []
  · rw [if_pos hn] at hd
    rw [if_pos (h.out.nil hn)]
    cases hd
    exact ⟨_, rfl, h⟩
  · rw [if_neg hn] at hd
    rw [if_neg (fun hn' => hn (h.out.nil_iff.mp hn'))]
    by_cases hid : id = 0
    · subst hid
      cases hd
    · rcases found h.out hid with ⟨f1, f2⟩ | ⟨e1, e2, hr, l1, l2, f1, f2⟩
      · rw [f1] at hd
        rw [f2]
        cases hd
        exact ⟨_, rfl, h⟩
      · rename_i p q p' q' r
        rw [f1, e1] at hd
        rw [f2, e2]
        simp only [Res.ok_bind] at hd ⊢
        split at hd
        · rename_i hc
          rw [if_pos hc]
          cases hd
          exact ⟨_, rfl, h⟩
        · rename_i hc
          rw [if_neg hc]
          split at hd
          · rename_i hc
            rw [if_pos hc]
            cases hd
            exact ⟨_, rfl, h⟩
          · rename_i hc
            rw [if_neg hc]
            rw [updateRecord_delete] at hd ⊢
            cases hd
            exact ⟨_, rfl, delete (e1 ▸ e2 ▸ h.out) l1 l2, h.inc⟩

/-- `MQTT_UpdateStatePublish` -/
theorem publishApi {t t' : Tables} (h : Tab t t') (id : UInt16) (op : Op) (q : QoS) {x : Status × Option PubState} {t1 : Tables}
    (hd : updateStatePublishApi t id op q = .ok (x.1, x.2, t1)) :
    (x.1 = .noMemory ∧ op = .receive) ∨ ∃ t1', updateStatePublishApi t' id op q = .ok (x.1, x.2, t1') ∧ Tab t1 t1' := by
  obtain ⟨st, s⟩ := x
  unfold updateStatePublishApi at hd ⊢
  by_cases hq : q = .qos0
  · rw [if_pos hq] at hd ⊢
    cases hd
    exact .inr ⟨_, rfl, h⟩
  · rw [if_neg hq] at hd ⊢
    by_cases hid : id = 0
    · rw [if_pos hid] at hd ⊢
      cases hd
      exact .inr ⟨_, rfl, h⟩
    · rw [if_neg hid] at hd ⊢
      have hc1 : cassert (id != 0) = .ok () := by simp [cassert, hid]
      have hc2 : cassert (q != .qos0) = .ok () := by simp [cassert, hq]
      cases op with
      | send =>
        right
        dsimp only at hd ⊢
        rcases found h.out hid with ⟨f1, f2⟩ | ⟨e1, e2, hr, l1, l2, f1, f2⟩
        · rw [f1] at hd
          rw [f2]
          cases hd
          exact ⟨_, rfl, h⟩
        · rename_i p q1 p' q1' r
          rw [f1] at hd
          rw [f2]
          simp only [Res.ok_bind] at hd ⊢
          split at hd
          · rename_i hc
            rw [if_pos hc]
            cases hd
            exact ⟨_, rfl, h⟩
          · rename_i hc
            rw [if_neg hc]
            unfold updateStatePublish at hd ⊢
            rw [hc1, hc2] at hd ⊢
            simp only [Res.ok_bind] at hd ⊢
            split at hd
            · rename_i hv
              rw [if_pos hv]
              split at hd
              · rename_i hs
                rw [if_pos hs]
                rw [e1, updateRecord_state] at hd
                rw [e2, updateRecord_state]
                cases hd
                exact ⟨_, rfl, change (e1 ▸ e2 ▸ h.out) (hr ▸ hid) l1 l2 _, h.inc⟩
              · rename_i hs
                rw [if_neg hs]
                cases hd
                exact ⟨_, rfl, h⟩
            · rename_i hv
              rw [if_neg hv]
              cases hd
              exact ⟨_, rfl, h⟩
      | receive =>
        dsimp only at hd ⊢
        unfold updateStatePublish at hd ⊢
        rw [hc1, hc2] at hd ⊢
        simp only [Res.ok_bind] at hd ⊢
        split at hd
        · rename_i hv
          rw [if_pos hv]
          cases hu : addRecord t.incoming id q (calculateStatePublish .receive q) with
          | ub e => rw [hu] at hd; cases hd
          | ok y =>
            obtain ⟨y1, y2⟩ := y
            rw [hu] at hd
            cases hd
            rcases add h.inc hid hq _ hu with ⟨h1, _⟩ | ⟨b', h1, h2⟩
            · exact .inl ⟨h1, trivial⟩
            · rw [h1]
              exact .inr ⟨_, rfl, h.out, h2⟩
        · rename_i hv
          rw [if_neg hv]
          cases hd
          exact .inr ⟨_, rfl, h⟩

end Mqtt.Room
