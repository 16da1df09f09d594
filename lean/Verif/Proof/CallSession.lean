/-
What `MQTT_Connect` did, in the terms of the statements about sessions: records, retransmissions, waiting.
-/
import Verif.Proof.CallConnect

namespace Mqtt
open Spec
set_option linter.unusedSimpArgs false

/-! ### Records -/

theorem unacked_eq {t : Tables} {cap : Nat} {l : Table OutPhase} (h : Holds outRec t.outgoing cap l) : unacked t = idsOf isUnacked l := by
  unfold unacked idsOf
  have e : inFlight t.outgoing = l.map outRec := h.entries
  rw [e, List.filter_map, List.map_map]
  have h1 : ((fun r : Rec => decide (r.publishState = .publishSend ∨ r.publishState = .pubAckPending ∨ r.publishState = .pubRecPending)) ∘ outRec)
      = fun e => isUnacked e.2 := by
    funext ⟨id, p⟩
    cases p <;> rfl
  have h2 : ((fun r : Rec => r.packetId) ∘ outRec) = fun e => e.1 := by
    funext e
    exact keepsId_out e
  rw [h1, h2]

theorem unreleased_eq {t : Tables} {cap : Nat} {l : Table OutPhase} (h : Holds outRec t.outgoing cap l) : unreleased t = idsOf isPubrel l := by
  unfold unreleased idsOf
  have e : inFlight t.outgoing = l.map outRec := h.entries
  rw [e, List.filter_map, List.map_map]
  have h1 : ((fun r : Rec => decide (r.publishState = .pubRelSend ∨ r.publishState = .pubCompPending)) ∘ outRec)
      = fun e => isPubrel e.2 := by
    funext ⟨id, p⟩
    cases p <;> rfl
  have h2 : ((fun r : Rec => r.packetId) ∘ outRec) = fun e => e.1 := by
    funext e
    exact keepsId_out e
  rw [h1, h2]

theorem inFlight_fresh (n m : Nat) : inFlight (freshTables n m).outgoing = [] ∧ inFlight (freshTables n m).incoming = [] := by
  constructor <;> exact live_replicate _

theorem pubrel_wire (ids : List UInt16) : ids.flatMap (ackPacket .pubrel) = ids.flatMap fun id => idPacket 0x62 id.toNat := rfl

/-! ### The order of what is pending -/

theorem idsOf_remove_sub (f : OutPhase → Bool) (l : Table OutPhase) (id : UInt16) : (idsOf f (l.remove id)).Sublist (idsOf f l) := by
  unfold idsOf Table.remove
  exact (List.filter_sublist.filter _).map _

theorem phase_of_entry {φ : Type} {l : Table φ} (hd : l.Pairwise fun a b => a.1 ≠ b.1) {e : UInt16 × φ} (he : e ∈ l) :
    l.phase e.1 = some e.2 := by
  induction l with
  | nil => cases he
  | cons x l ih =>
    unfold Table.phase
    rw [List.find?_cons]
    rcases List.mem_cons.mp he with rfl | he'
    · simp
    · have hx : x.1 ≠ e.1 := (List.pairwise_cons.mp hd).1 e he'
      simp only [hx, decide_false]
      exact ih (List.pairwise_cons.mp hd).2 he'

/-- Changing the phase of an entry to one that is not selected. -/
theorem idsOf_set_sub {f : OutPhase → Bool} {l : Table OutPhase} {id : UInt16} {p : OutPhase} (h : f p = true → l.phase id = none ∨ ∃ q, l.phase id = some q ∧ f q = true)
    (hd : l.Pairwise fun a b => a.1 ≠ b.1) : (idsOf f (l.set id p)).Sublist (idsOf f l) := by
  have : ∀ l : Table OutPhase, (∀ e ∈ l, e.1 = id → f p = true → f e.2 = true) → (idsOf f (Table.set l id p)).Sublist (idsOf f l) := by
    intro l
    induction l with
    | nil => intro _; exact List.Sublist.refl _
    | cons e l ih =>
      intro h
      have h1 := ih (fun x hx => h x (List.mem_cons_of_mem _ hx))
      have h2 := h e List.mem_cons_self
      show (idsOf f ((if e.1 = id then (id, p) else e) :: Table.set l id p)).Sublist _
      by_cases he : e.1 = id
      · rw [if_pos he]
        unfold idsOf at *
        by_cases hp : f p = true
        · have := h2 he hp
          rw [List.filter_cons, List.filter_cons, if_pos hp, if_pos this, List.map_cons, List.map_cons, he]
          exact h1.cons_cons _
        · rw [List.filter_cons, if_neg hp, List.filter_cons]
          split
          · rw [List.map_cons]; exact h1.cons _
          · exact h1
      · rw [if_neg he]
        unfold idsOf at *
        rw [List.filter_cons, List.filter_cons]
        split
        · rw [List.map_cons, List.map_cons]; exact h1.cons_cons _
        · exact h1
  refine this l ?_
  intro e he hid hp
  have hph : l.phase id = some e.2 := by rw [← hid]; exact phase_of_entry hd he
  rcases h hp with h | ⟨q, h, hq⟩
  · rw [hph] at h; cases h
  · rw [hph] at h; cases h; exact hq

/-- What a step does to the lists of pending publishes: nothing moves; new entries go to the end. -/
structure Ordered (s s' : InFlight) (newPub newRel : List UInt16) : Prop where
  pubs : (idsOf isUnacked s'.out).Sublist (idsOf isUnacked s.out ++ newPub)
  rels : (idsOf isPubrel s'.out).Sublist (idsOf isPubrel s.out ++ newRel)

theorem Ordered.same {s s' : InFlight} (h : s'.out = s.out) : Ordered s s' [] [] :=
  ⟨by rw [h, List.append_nil]; exact List.Sublist.refl _, by rw [h, List.append_nil]; exact List.Sublist.refl _⟩

theorem Ordered.trans {s s1 s2 : InFlight} {a b c d : List UInt16} (h : Ordered s s1 a b) (h' : Ordered s1 s2 c d) :
    Ordered s s2 (a ++ c) (b ++ d) := by
  refine ⟨?_, ?_⟩
  · rw [← List.append_assoc]
    exact h'.pubs.trans (h.pubs.append (List.Sublist.refl _))
  · rw [← List.append_assoc]
    exact h'.rels.trans (h.rels.append (List.Sublist.refl _))

theorem Ordered.removed {s s' : InFlight} {id : UInt16} (h : s'.out = s.out.remove id) : Ordered s s' [] [] :=
  ⟨by rw [h, List.append_nil]; exact idsOf_remove_sub _ _ _, by rw [h, List.append_nil]; exact idsOf_remove_sub _ _ _⟩

/-- The id of a publish whose state has to be reserved. -/
def reservedId (s : InFlight) (q : QoS) (id : UInt16) : List UInt16 := if q ≠ .qos0 ∧ s.out.phase id = none then [id] else []

theorem phase_of_mem {φ : Type} {l : Table φ} {id : UInt16} : l.phase id = none ↔ id ∉ l.map (·.1) := by
  unfold Table.phase
  rw [Option.map_eq_none_iff, List.find?_eq_none]
  constructor
  · intro h hm
    obtain ⟨e, he, rfl⟩ := List.mem_map.mp hm
    exact h e he (by simp)
  · intro h e he hc
    exact h (List.mem_map.mpr ⟨e, he, by simpa using hc⟩)

theorem Ordered.reserve (s : InFlight) (id : UInt16) (q : QoS) : Ordered s (step s (.reserve id q)).2 (reservedId s q id) [] := by
  have weaken : ∀ {a : List UInt16} {s' : InFlight}, s'.out = s.out → Ordered s s' a [] := by
    intro a s' h
    refine ⟨?_, ?_⟩
    · rw [h]; exact List.sublist_append_left _ _
    · rw [h]; exact List.sublist_append_left _ _
  cases q with
  | qos0 => exact weaken rfl
  | qos1 =>
    simp only [step]
    split
    · exact weaken rfl
    · by_cases hm : id ∈ s.out.map (·.1)
      · exact weaken (by simp [Table.insert, hm])
      · have hn : reservedId s .qos1 id = [id] := by
          unfold reservedId; rw [if_pos ⟨by decide, phase_of_mem.mpr hm⟩]
        rw [hn]
        unfold Table.insert
        rw [if_neg hm]
        split
        · exact ⟨List.sublist_append_left _ _, List.sublist_append_left _ _⟩
        · refine ⟨?_, ?_⟩
          · show (idsOf isUnacked (s.out ++ [(id, _)])).Sublist _
            rw [idsOf_append]
            exact List.Sublist.refl _
          · show (idsOf isPubrel (s.out ++ [(id, _)])).Sublist _
            rw [idsOf_append]
            exact List.Sublist.refl _
  | qos2 =>
    simp only [step]
    split
    · exact weaken rfl
    · by_cases hm : id ∈ s.out.map (·.1)
      · exact weaken (by simp [Table.insert, hm])
      · have hn : reservedId s .qos2 id = [id] := by
          unfold reservedId; rw [if_pos ⟨by decide, phase_of_mem.mpr hm⟩]
        rw [hn]
        unfold Table.insert
        rw [if_neg hm]
        split
        · exact ⟨List.sublist_append_left _ _, List.sublist_append_left _ _⟩
        · refine ⟨?_, ?_⟩
          · show (idsOf isUnacked (s.out ++ [(id, _)])).Sublist _
            rw [idsOf_append]
            exact List.Sublist.refl _
          · show (idsOf isPubrel (s.out ++ [(id, _)])).Sublist _
            rw [idsOf_append]
            exact List.Sublist.refl _

theorem Ordered.sent {s : InFlight} (hd : s.out.Pairwise fun a b => a.1 ≠ b.1) (id : UInt16) (q : QoS) :
    Ordered s (step s (.publish .send id q)).2 [] [] := by
  have goto : ∀ {p p' : OutPhase} {s' : InFlight}, s.out.phase id = some p → isUnacked p = true → isUnacked p' = true →
      s'.out = s.out.set id p' → Ordered s s' [] [] := by
    intro p p' s' hp h1 h2 h
    refine ⟨?_, ?_⟩
    · rw [h, List.append_nil]; exact idsOf_set_sub (fun _ => Or.inr ⟨p, hp, h1⟩) hd
    · rw [h, List.append_nil]
      exact idsOf_set_sub (fun h3 => by unfold isPubrel at h3; rw [h2] at h3; cases h3) hd
  cases q with
  | qos0 => exact Ordered.same rfl
  | qos1 =>
    simp only [step]
    split
    · exact Ordered.same rfl
    · split
      · exact Ordered.same rfl
      · rename_i p hp
        split
        · exact Ordered.same rfl
        · cases p <;> simp only [sentPublish] <;>
            first | exact Ordered.same rfl | exact goto hp rfl rfl rfl
  | qos2 =>
    simp only [step]
    split
    · exact Ordered.same rfl
    · split
      · exact Ordered.same rfl
      · rename_i p hp
        split
        · exact Ordered.same rfl
        · cases p <;> simp only [sentPublish] <;>
            first | exact Ordered.same rfl | exact goto hp rfl rfl rfl

/-- The id of a PUBREC that was accepted. -/
def recId (s : InFlight) (op : Op) (ty : AckType) (id : UInt16) : List UInt16 :=
  if op = .receive ∧ ty = .pubrec ∧ (step s (.ack op ty id)).1.1 = .success then [id] else []

theorem Ordered.ack {s : InFlight} (hd : s.out.Pairwise fun a b => a.1 ≠ b.1) (op : Op) (ty : AckType) (id : UInt16) :
    Ordered s (step s (.ack op ty id)).2 [] (recId s op ty id) := by
  have goto : ∀ {p p' : OutPhase} {s' : InFlight} {l : List UInt16}, s.out.phase id = some p → isPubrel p = true → isPubrel p' = true →
      s'.out = s.out.set id p' → Ordered s s' [] l := by
    intro p p' s' l hp h1 h2 h
    refine ⟨?_, ?_⟩
    · rw [h, List.append_nil]
      refine idsOf_set_sub (fun h3 => ?_) hd
      unfold isPubrel at h2; rw [h3] at h2; cases h2
    · rw [h]
      exact (idsOf_set_sub (fun _ => Or.inr ⟨p, hp, h1⟩) hd).trans (List.sublist_append_left _ _)
  have weaken : ∀ {a : List UInt16} {s' : InFlight}, Ordered s s' [] [] → Ordered s s' [] a := by
    intro a s' h
    have := h.rels
    rw [List.append_nil] at this
    exact ⟨h.pubs, this.trans (List.sublist_append_left _ _)⟩
  by_cases h0 : id = 0
  · have : (step s (.ack op ty id)).2 = s := by simp [step, h0]
    rw [this]; exact weaken (Ordered.same rfl)
  by_cases ho : forOutgoing op ty = true
  · cases hp : s.out.phase id with
    | none =>
      have : (step s (.ack op ty id)).2.out = s.out := by simp [step, h0, ho, ackTable, hp]
      exact weaken (Ordered.same this)
    | some p =>
      have e : (step s (.ack op ty id)) = ((ackTable (outAck ty) s.out id).1, { s with out := (ackTable (outAck ty) s.out id).2 }) := by
        simp [step, h0, ho]
      cases hr : outAck ty p with
      | none =>
        have : (step s (.ack op ty id)).2.out = s.out := by rw [e]; simp [ackTable, hp, hr]
        exact weaken (Ordered.same this)
      | some x =>
        obtain ⟨ef, stt⟩ := x
        have e2 : (step s (.ack op ty id)).2.out = ef.apply s.out id := by rw [e]; simp [ackTable, hp, hr]
        have e3 : (step s (.ack op ty id)).1.1 = .success := by rw [e]; simp [ackTable, hp, hr]
        cases ty <;> cases p <;> simp [outAck] at hr
        · obtain ⟨rfl, rfl⟩ := hr
          exact weaken (Ordered.removed e2)
        · obtain ⟨rfl, rfl⟩ := hr
          have hop : op = .receive := by cases op <;> simp [forOutgoing] at ho; rfl
          have hn : recId s op .pubrec id = [id] := by
            unfold recId
            rw [if_pos ⟨hop, rfl, e3⟩]
          rw [hn]
          refine ⟨?_, ?_⟩
          · rw [e2]
            show (idsOf isUnacked (s.out.remove id ++ [(id, _)])).Sublist _
            rw [idsOf_append, List.append_nil]
            have : idsOf isUnacked [(id, OutPhase.sendPubrel)] = [] := rfl
            rw [this, List.append_nil]
            exact idsOf_remove_sub _ _ _
          · rw [e2]
            show (idsOf isPubrel (s.out.remove id ++ [(id, _)])).Sublist _
            rw [idsOf_append]
            exact (idsOf_remove_sub _ _ _).append (List.Sublist.refl _)
        · obtain ⟨rfl, rfl⟩ := hr
          exact goto hp rfl rfl e2
        · obtain ⟨rfl, rfl⟩ := hr
          exact goto hp rfl rfl e2
        · obtain ⟨rfl, rfl⟩ := hr
          exact weaken (Ordered.removed e2)
  · have : (step s (.ack op ty id)).2.out = s.out := by simp [step, h0, ho]
    exact weaken (Ordered.same this)

theorem pubrecs_append (a b : List Event) : pubrecs (a ++ b) = pubrecs a ++ pubrecs b := by simp [pubrecs]

theorem pubrecs_callbacks (es : List Event) : pubrecs (callbacks es) = pubrecs es := by
  induction es with
  | nil => rfl
  | cons e es ih =>
    unfold callbacks at *
    rw [List.filter_cons]
    unfold pubrecs at ih ⊢
    cases e <;> simp [isCallback, List.filterMap_cons, ih]

theorem distinct_iff {φ : Type} (l : Table φ) : (l.Pairwise fun a b => a.1 ≠ b.1) ↔ (l.map (·.1)).Pairwise (· ≠ ·) := by
  rw [List.pairwise_map]

theorem distinct_remove {φ : Type} {l : Table φ} (h : l.Pairwise fun a b => a.1 ≠ b.1) (id : UInt16) :
    (l.remove id).Pairwise fun a b => a.1 ≠ b.1 := h.sublist List.filter_sublist

theorem distinct_set {φ : Type} {l : Table φ} (h : l.Pairwise fun a b => a.1 ≠ b.1) (id : UInt16) (p : φ) :
    (l.set id p).Pairwise fun a b => a.1 ≠ b.1 := by
  rw [distinct_iff] at h ⊢
  have : (l.set id p).map (·.1) = l.map (·.1) := by
    unfold Table.set
    rw [List.map_map]
    apply List.map_congr_left
    intro e _
    show (if e.1 = id then (id, p) else e).1 = e.1
    split
    · rename_i h; exact h.symm
    · rfl
  rw [this]; exact h

theorem distinct_snoc {φ : Type} {l : Table φ} (h : l.Pairwise fun a b => a.1 ≠ b.1) {id : UInt16} (p : φ) (hn : id ∉ l.map (·.1)) :
    (l ++ [(id, p)]).Pairwise fun a b => a.1 ≠ b.1 := by
  rw [List.pairwise_append]
  refine ⟨h, by simp, ?_⟩
  intro a ha b hb
  simp only [List.mem_singleton] at hb
  subst hb
  intro he
  exact hn (List.mem_map.mpr ⟨a, ha, he⟩)

theorem distinct_ack {φ : Type} {l : Table φ} (h : l.Pairwise fun a b => a.1 ≠ b.1) (rule : φ → Option (Effect φ × PubState)) (id : UInt16) :
    (ackTable rule l id).2.Pairwise fun a b => a.1 ≠ b.1 := by
  unfold ackTable
  split
  · exact h
  · split
    · exact h
    · rename_i e _ _
      cases e with
      | goto p => exact distinct_set h id p
      | requeue p =>
        refine distinct_snoc (distinct_remove h id) p ?_
        unfold Table.remove
        simp
      | finish => exact distinct_remove h id

theorem distinct_insert {φ : Type} {l : Table φ} (h : l.Pairwise fun a b => a.1 ≠ b.1) (cap : Nat) (id : UInt16) (p : φ) :
    (l.insert cap id p).2.Pairwise fun a b => a.1 ≠ b.1 := by
  unfold Table.insert
  split
  · exact h
  · split
    · exact h
    · rename_i hn _
      exact distinct_snoc h p hn

theorem distinct_step {s : InFlight} (h : s.out.Pairwise fun a b => a.1 ≠ b.1) (c : Call) :
    (step s c).2.out.Pairwise fun a b => a.1 ≠ b.1 := by
  cases c with
  | reserve id q => cases q <;> simp only [step] <;> first | exact h | (split; exact h; exact distinct_insert h _ _ _)
  | publish op id q =>
    cases q <;> simp only [step] <;> first | exact h | skip
    all_goals
      split
      · exact h
      · cases op with
        | receive => exact h
        | send =>
          dsimp only
          split
          · exact h
          · split
            · exact h
            · split
              · exact h
              · exact distinct_set h _ _
  | ack op ty id =>
    simp only [step]
    split
    · exact h
    · split
      · exact distinct_ack h _ _
      · exact h
  | cancel id =>
    simp only [step]
    split
    · exact h
    · exact distinct_remove h _

theorem distinct_react {s : InFlight} (h : s.out.Pairwise fun a b => a.1 ≠ b.1) (retx manage : Bool) (t : UInt8) (body : List UInt8) :
    (react retx manage s t body).state.out.Pairwise fun a b => a.1 ≠ b.1 := by
  unfold react
  split
  · exact h
  · unfold reactPublish
    split
    · exact h
    · dsimp only
      split
      · exact distinct_step h _
      · split <;> exact h
  · unfold reactAck
    dsimp only
    split
    · exact distinct_step h _
    · exact h
  · exact h
  · exact h
  · exact h

/-- The reaction to a packet. -/
theorem react_ordered {s : InFlight} (hd : s.out.Pairwise fun a b => a.1 ≠ b.1) (retx manage : Bool) (t : UInt8) (body : List UInt8) :
    Ordered s (react retx manage s t body).state [] (pubrecs (react retx manage s t body).callbacks) := by
  have weaken : ∀ {a : List UInt16} {s' : InFlight}, s'.out = s.out → Ordered s s' [] a := by
    intro a s' h
    exact ⟨by rw [h]; exact List.sublist_append_left _ _, by rw [h]; exact List.sublist_append_left _ _⟩
  unfold react
  cases hr : readIncoming t body with
  | none => exact weaken rfl
  | some p =>
    cases p with
    | publish id v =>
      dsimp only
      unfold reactPublish
      split
      · exact weaken rfl
      · dsimp only
        split
        · refine weaken ?_
          cases hq : v.qos <;> simp [step] <;> split <;> rfl
        · split <;> exact weaken rfl
    | ack ty id =>
      dsimp only
      unfold reactAck
      dsimp only
      split
      · rename_i hs
        have h := Ordered.ack hd .receive ty id
        have ht : ty = .pubrec → t = 0x50 := by
          rintro rfl
          unfold readIncoming at hr
          revert hr
          split
          · split
            · simp
            · split <;> simp
          · repeat' (split; first | (rename_i h; intro _; exact h) | (intro hr; simp at hr))
            all_goals simp
        by_cases hty : ty = .pubrec
        · have e1 : recId s .receive ty id = [id] := by unfold recId; rw [if_pos ⟨rfl, hty, hs⟩]
          rw [e1] at h
          have e2 : pubrecs ((if (ty = .puback ∨ ty = .pubrec) ∧ retx = true then [Event.clear id] else []) ++ [.app t body id .success none]) = [id] := by
            rw [ht hty, pubrecs_append]
            split <;> rfl
          rw [e2]
          exact h
        · have e1 : recId s .receive ty id = [] := by unfold recId; rw [if_neg (fun h => hty h.2.1)]
          rw [e1] at h
          have := h.rels
          rw [List.append_nil] at this
          exact ⟨h.pubs, this.trans (List.sublist_append_left _ _)⟩
      · exact weaken rfl
    | pingresp => exact weaken rfl
    | suback id r => exact weaken rfl
    | unsuback id => exact weaken rfl

theorem Reacted.ordered {s : InFlight} {retx manage : Bool} {t : UInt8} {body : List UInt8} {w w' : World} {st : Status} {es : List Event}
    (hd : s.out.Pairwise fun a b => a.1 ≠ b.1) (h : Reacted (react retx manage s t body) w st es w') :
    ∃ s', Represents w'.ctx.tables s' ∧ Ordered s s' [] (pubrecs es) := by
  have ho := react_ordered hd retx manage t body
  rw [← h.calls, pubrecs_callbacks] at ho
  rcases h.cases with h | h | h | ⟨ty, id, _, _, _, _, _, h⟩
  · exact ⟨_, h.2.2.2.2, ho⟩
  · exact ⟨_, h.2.2.2.2.2, ho⟩
  · exact ⟨_, h.2.2.2.2.2.1, ho⟩
  · refine ⟨_, h, ?_⟩
    have hd' := distinct_react hd retx manage t body
    have e1 : recId (react retx manage s t body).state .send ty id = [] := by unfold recId; rw [if_neg (fun h => by cases h.1)]
    have := ho.trans (Ordered.ack hd' .send ty id)
    rw [e1] at this
    simpa using this

theorem Ordered.weaken {s s' : InFlight} (h : Ordered s s' [] []) (a b : List UInt16) : Ordered s s' a b := by
  have h1 := h.pubs
  have h2 := h.rels
  rw [List.append_nil] at h1 h2
  exact ⟨h1.trans (List.sublist_append_left _ _), h2.trans (List.sublist_append_left _ _)⟩

theorem Iterated.ordered {g : Cfg} {manage : Bool} {s : InFlight} {w w' : World} {st : Status} {es : List Event}
    (hrep : Represents w.ctx.tables s) (h : Iterated g manage s w st es w') :
    ∃ s', Represents w'.ctx.tables s' ∧ Ordered s s' [] (pubrecs es) := by
  have same : ∀ {w1 : World}, w1.ctx.tables = w.ctx.tables → ∃ s', Represents w1.ctx.tables s' ∧ Ordered s s' [] (pubrecs es) :=
    fun hw => ⟨s, by rw [hw]; exact hrep, (Ordered.same rfl).weaken _ _⟩
  obtain ⟨_, ⟨_, _, h1⟩ | ⟨r, kst, ka, w1, w2, h1, h2, h3, h4⟩⟩ := h
  · exact same (by rw [h1])
  · have ht : w2.ctx.tables = w.ctx.tables := by
      rw [h3.keeps.2.2.1, h2]; rfl
    rcases h4 with ⟨_, _, h5, _⟩ | ⟨_, es2, h5, h6⟩
    · exact same (by rw [h5]; exact ht)
    · unfold Advance at h6
      split at h6
      · exact same (by rw [h6.2.1]; exact ht)
      · exact same (by rw [h6.2.1]; exact ht)
      · split at h6
        · exact same (by rw [h6.2.2.1]; exact ht)
        · split at h6
          · exact same (by rw [h6.2.1]; exact ht)
          · obtain ⟨rst, re, w3, rx, k1, k2, _, k4, _⟩ := h6
            obtain ⟨s', k5, k6⟩ := k1.ordered hrep.1.distinct
            refine ⟨s', by rw [k4]; exact k5, ?_⟩
            have : pubrecs es = pubrecs ka ++ pubrecs re := by
              rw [h5]
              have e1 : pubrecs (.recvd (w.ctx.bufSize - w.ctx.index) (some r) :: (ka ++ es2)) = pubrecs (ka ++ es2) := by simp [pubrecs]
              rw [e1, pubrecs_append]
              rcases k2 with ⟨_, rfl, _⟩ | ⟨_, rfl⟩
              · rfl
              · rw [pubrecs_append]; simp [pubrecs]
            rw [this]
            exact ⟨k6.pubs, k6.rels.trans ((List.Sublist.refl _).append (List.sublist_append_right _ _))⟩

/-- The publish a call adds to the ones in flight, if any. -/
def newPublish (s : InFlight) : ApiCall → List UInt16
  | .publish (some p) id => reservedId s p.qos id
  | _ => []

theorem Resumed.kept {s : InFlight} {w w' : World} {st : Status} {es : List Event} (hrep : Represents w.ctx.tables s)
    (h : Resumed s w st es w') : ∃ s', Represents w'.ctx.tables s' ∧ idsOf isUnacked s'.out = idsOf isUnacked s.out ∧
      idsOf isPubrel s'.out = idsOf isPubrel s.out := by
  obtain ⟨a, st1, w1, b, rfl, hp, h⟩ := h
  obtain ⟨done, rest, h1, h2, _⟩ := hp.cases
  have hw : w'.ctx.tables = w1.ctx.tables := by
    rcases h with ⟨_, _, rfl, _⟩ | ⟨_, _, hq⟩
    · rfl
    · obtain ⟨t, hc⟩ := hq.ctx
      rw [hc]
  refine ⟨_, by rw [hw]; exact h2, ?_⟩
  have hd := hrep.1.distinct
  have hdone : ∀ id ∈ done, id ∈ idsOf isPubrel s.out := by
    intro id hid; rw [h1]; exact List.mem_append_left _ hid
  have key : ∀ e ∈ s.out, e.1 ∈ done → isPubrel e.2 = true := by
    intro e he hm
    obtain ⟨x, hx, hxe⟩ := List.mem_map.mp (hdone _ hm)
    rw [List.mem_filter] at hx
    have h1 := phase_of_entry hd hx.1
    rw [hxe, phase_of_entry hd he] at h1
    injection h1 with h1
    rw [h1]; exact hx.2
  have e1 : ∀ f : OutPhase → Bool, f .awaitPubcomp = f .sendPubrel → idsOf f (released done s.out) = idsOf f s.out := by
    intro f hf
    unfold idsOf released
    have : ∀ l : Table OutPhase, (∀ e ∈ l, e.1 ∈ done → isPubrel e.2 = true) →
        ((l.map fun e => if e.1 ∈ done then (e.1, OutPhase.awaitPubcomp) else e).filter fun e => f e.2).map (·.1) =
        (l.filter fun e => f e.2).map (·.1) := by
      intro l
      induction l with
      | nil => intro _; rfl
      | cons e l ih =>
        intro hk
        have ih := ih (fun x hx => hk x (List.mem_cons_of_mem _ hx))
        rw [List.map_cons, List.filter_cons, List.filter_cons]
        by_cases hm : e.1 ∈ done
        · have hq := hk e List.mem_cons_self hm
          have hfe : f e.2 = f .awaitPubcomp := by
            obtain ⟨id, p⟩ := e
            cases p <;> simp_all [isPubrel, isUnacked]
          simp only [if_pos hm, hfe]
          split
          · simp only [List.map_cons, ih]
          · exact ih
        · simp only [if_neg hm]
          split
          · simp only [List.map_cons, ih]
          · exact ih
    exact this s.out key
  exact ⟨e1 isUnacked rfl, e1 isPubrel rfl⟩

theorem Resumed.ordered {s : InFlight} {w w' : World} {st : Status} {es : List Event} (hrep : Represents w.ctx.tables s)
    (h : Resumed s w st es w') : ∃ s', Represents w'.ctx.tables s' ∧ Ordered s s' [] [] := by
  obtain ⟨s', h1, h2, h3⟩ := h.kept hrep
  exact ⟨s', h1, by rw [h2, List.append_nil]; exact List.Sublist.refl _, by rw [h3, List.append_nil]; exact List.Sublist.refl _⟩

theorem Did.ordered {g : Cfg} {s : InFlight} {w w' : World} {c : ApiCall} {r : ApiRet} {es : List Event} (hrep : Represents w.ctx.tables s)
    (h : Did g s w c r es w') : ∃ s', Represents w'.ctx.tables s' ∧ Ordered s s' (newPublish s c) (pubrecs es) := by
  have hd := hrep.1.distinct
  have same : w'.ctx.tables = w.ctx.tables → ∃ s', Represents w'.ctx.tables s' ∧ Ordered s s' (newPublish s c) (pubrecs es) :=
    fun hw => ⟨s, by rw [hw]; exact hrep, (Ordered.same rfl).weaken _ _⟩
  cases h with
  | publish _ h =>
    rename_i p id st _
    have nil : ∀ {s'} {l : List UInt16}, Ordered s s' l [] → Ordered s s' l (pubrecs es) := by
      intro s' l h
      have h2 := h.rels
      rw [List.append_nil] at h2
      exact ⟨h.pubs, h2.trans (List.sublist_append_left _ _)⟩
    rcases h.cases with ⟨_, _, h1, _⟩ | ⟨_, _, _, h1⟩ | ⟨_, _, _, _, _, h1, _⟩ | ⟨_, zs, s1, st0, es0, w0, w1, h1, _, _, _, h2⟩
    · exact same (by rw [h1])
    · exact same (by rw [h1])
    · exact ⟨s, h1, (Ordered.same rfl).weaken _ _⟩
    · have ho1 : Ordered s s1 (reservedId s p.qos id) [] ∧ s1.out.Pairwise fun a b => a.1 ≠ b.1 := by
        rcases h1 with ⟨_, rfl⟩ | ⟨_, _, rfl⟩
        · exact ⟨(Ordered.same rfl).weaken _ _, hd⟩
        · exact ⟨Ordered.reserve s id p.qos, distinct_step hd _⟩
      rcases h2 with ⟨_, _, h2⟩ | ⟨_, _, h2⟩
      · exact ⟨s1, h2, nil ho1.1⟩
      · refine ⟨_, h2, nil ?_⟩
        unfold noteSent
        split
        · exact ho1.1
        · have := ho1.1.trans (Ordered.sent ho1.2 id p.qos)
          simpa [newPublish] using this
  | publishNull => exact same rfl
  | subscribe _ h => obtain ⟨t, hc⟩ := h.ctx; exact same (by rw [hc])
  | subscribeNull => exact same rfl
  | unsubscribe _ h => obtain ⟨t, hc⟩ := h.ctx; exact same (by rw [hc])
  | unsubscribeNull => exact same rfl
  | ping _ h => obtain ⟨t, p, q, hc⟩ := h.ctx; exact same (by rw [hc])
  | disconnect h =>
    rcases h.cases with ⟨_, _, _, hc⟩ | ⟨_, _, _, _, _, _, t, hc⟩
    · exact same (by rw [hc])
    · exact same (by rw [hc]; rfl)
  | processLoop _ h => exact Iterated.ordered (w := w.fresh) hrep h
  | receiveLoop _ h => exact Iterated.ordered hrep h
  | cancel _ h =>
    cases h with
    | none _ => exact same rfl
    | some _ h1 h2 =>
      refine ⟨_, by rw [h1]; exact h2, ?_⟩
      have : Ordered s (step s (.cancel ‹UInt16›)).2 [] [] := by
        simp only [step]
        split
        · exact Ordered.same rfl
        · exact Ordered.removed rfl
      exact this.weaken _ _
  | check h => exact same (by rw [h])
  | getId h => exact same (by rw [h])
  | connect h =>
    cases h with
    | badSize _ _ h => exact same (by rw [h])
    | already _ _ h _ => exact same (by rw [h])
    | noTopic _ _ _ h => exact same (by rw [h])
    | notSent _ _ _ _ _ _ h => exact same (by rw [h])
    | notAccepted _ _ _ _ _ _ h1 h2 _ h3 =>
      obtain ⟨b, _, h4⟩ := h2.ctx
      exact same (by rw [h3, h4, h1])
    | fresh _ _ _ _ _ _ h1 h2 h3 =>
      obtain ⟨b, _, h4⟩ := h2.ctx
      refine ⟨_, by rw [h3]; exact represents_fresh _ _, ?_⟩
      exact ⟨List.nil_sublist _, List.nil_sublist _⟩
    | resumed _ _ _ _ _ _ h1 h2 h3 _ h4 h5 =>
      obtain ⟨b, _, h6⟩ := h2.ctx
      have : ∀ {w3 : World}, w3.ctx.tables = w.ctx.tables → Represents w3.ctx.tables s := fun h => by rw [h]; exact hrep
      obtain ⟨s', k1, k2⟩ := Resumed.ordered (this (by rw [h3]; show _ = _; rw [connectedCtx, h6, h1])) h4
      exact ⟨s', by rw [h5]; exact k1, k2.weaken _ _⟩
  | connectNull _ h => exact same (by rw [h])

end Mqtt
