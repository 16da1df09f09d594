/-
How one step of the in-flight specification moves the state of one publish.
-/
import Verif.Proof.Resend
import Verif.Spec.Edges

namespace Mqtt
set_option linter.unusedSimpArgs false
open Spec

theorem stateOf_eq {φ : Type} {enc : UInt16 × φ → Rec} (he : KeepsId enc) {recs cap} {l : Table φ} (h : Holds enc recs cap l)
    {id : UInt16} (hid : id ≠ 0) :
    stateOf recs id = (l.phase id).map fun p => ((enc (id, p)).qos, (enc (id, p)).publishState) := by
  have e : recs.find? (fun r => decide (r.packetId = id)) = (live recs).find? (fun r => decide (r.packetId = id)) := by
    unfold live
    rw [List.find?_filter]
    congr 1
    funext r
    by_cases hr : r.packetId = id
    · simp [hr, hid]
    · simp [hr]
  unfold stateOf Table.phase
  rw [e, h.live_eq, List.find?_map]
  have e₂ : ((fun r : Rec => decide (r.packetId = id)) ∘ enc) = fun e : UInt16 × φ => decide (e.1 = id) := by
    funext x; simp [he x]
  rw [e₂]
  cases hf : l.find? (fun e => decide (e.1 = id)) with
  | none => rfl
  | some x =>
    have := List.find?_some hf
    obtain ⟨a, b⟩ := x
    simp at this
    subst this
    rfl

theorem phase_append_other {φ : Type} {l : Table φ} {id id' : UInt16} {p : φ} (h : id' ≠ id) :
    Table.phase (l ++ [(id, p)]) id' = l.phase id' := by
  unfold Table.phase
  rw [List.find?_append]
  have : ([(id, p)] : Table φ).find? (fun e => decide (e.1 = id')) = none := by
    simp [List.find?_cons, h.symm]
  rw [this]; simp

theorem phase_append_same {φ : Type} {l : Table φ} {id : UInt16} {p : φ} (h : l.phase id = none) :
    Table.phase (l ++ [(id, p)]) id = some p := by
  unfold Table.phase at *
  rw [List.find?_append]
  have : l.find? (fun e => decide (e.1 = id)) = none := by
    cases hf : l.find? (fun e => decide (e.1 = id)) with
    | none => rfl
    | some x => rw [hf] at h; cases h
  rw [this]
  simp

theorem phase_none_of_not_mem {φ : Type} {l : Table φ} {id : UInt16} (h : id ∉ l.map (·.1)) : l.phase id = none := by
  apply phase_none
  intro e he heq
  exact h (List.mem_map.mpr ⟨e, he, heq⟩)

theorem phase_remove_same {φ : Type} (l : Table φ) (id : UInt16) : (l.remove id).phase id = none := by
  apply phase_none
  intro e he
  have := (List.mem_filter.mp he).2
  simpa using this

theorem phase_remove_other {φ : Type} (l : Table φ) {id id' : UInt16} (h : id' ≠ id) : (l.remove id).phase id' = l.phase id' := by
  unfold Table.phase Table.remove
  rw [List.find?_filter]
  congr 2
  funext e
  by_cases he : e.1 = id'
  · simp [he, h]
  · simp [he]

theorem phase_set_other {φ : Type} (l : Table φ) {id id' : UInt16} (p : φ) (h : id' ≠ id) : (l.set id p).phase id' = l.phase id' := by
  unfold Table.phase Table.set
  rw [List.find?_map, Option.map_map]
  have e₁ : ((fun e : UInt16 × φ => decide (e.1 = id')) ∘ fun e => if e.1 = id then (id, p) else e) = fun e => decide (e.1 = id') := by
    funext e
    by_cases he : e.1 = id
    · simp [he, h.symm]
    · simp [he]
  rw [e₁]
  cases hf : l.find? (fun e => decide (e.1 = id')) with
  | none => rfl
  | some x =>
    have := List.find?_some hf
    simp at this
    simp [this, h]

theorem phase_set_same {φ : Type} {l : Table φ} {id : UInt16} {p p' : φ} (hd : l.Pairwise fun x y => x.1 ≠ y.1) (h : l.phase id = some p) :
    (l.set id p').phase id = some p' := by
  obtain ⟨a, b, rfl, ha, hb⟩ := phase_some_split hd h
  rw [set_split ha hb, phase_split ha]

theorem phase_apply_other {φ : Type} (l : Table φ) {id id' : UInt16} (e : Effect φ) (h : id' ≠ id) :
    (e.apply l id).phase id' = l.phase id' := by
  cases e with
  | goto p => exact phase_set_other l p h
  | requeue p =>
    simp only [Effect.apply]
    rw [phase_append_other h, phase_remove_other l h]
  | finish => exact phase_remove_other l h

theorem phase_ackTable_other {φ : Type} (rule) (l : Table φ) {id id' : UInt16} (h : id' ≠ id) :
    (ackTable rule l id).2.phase id' = l.phase id' := by
  unfold ackTable
  split
  · rfl
  · split
    · rfl
    · exact phase_apply_other l _ h

theorem phase_insert_other {φ : Type} (l : Table φ) (cap) {id id' : UInt16} (p : φ) (h : id' ≠ id) :
    (l.insert cap id p).2.phase id' = l.phase id' := by
  unfold Table.insert
  split
  · rfl
  · split
    · rfl
    · exact phase_append_other h

theorem phase_insert_same {φ : Type} (l : Table φ) (cap) {id : UInt16} (p : φ) :
    (l.insert cap id p).2.phase id = l.phase id ∨ (l.phase id = none ∧ (l.insert cap id p).2.phase id = some p) := by
  unfold Table.insert
  split
  · left; rfl
  · next h =>
    split
    · left; rfl
    · right
      exact ⟨phase_none_of_not_mem h, phase_append_same (phase_none_of_not_mem h)⟩

def outView (id : UInt16) (p : OutPhase) : QoS × PubState := ((outRec (id, p)).qos, (outRec (id, p)).publishState)
def inView (id : UInt16) (p : InPhase) : QoS × PubState := ((inRec (id, p)).qos, (inRec (id, p)).publishState)

theorem sender_edge (s : InFlight) (hd : s.out.Pairwise fun x y => x.1 ≠ y.1) (c : Call) (id : UInt16) :
    ((Spec.step s c).2.out.phase id = s.out.phase id) ∨
    SenderEdge id c ((s.out.phase id).map (outView id)) (((Spec.step s c).2.out.phase id).map (outView id)) := by
  cases c with
  | reserve i qos =>
    cases qos with
    | qos0 => left; rfl
    | qos1 | qos2 =>
      by_cases hi : i = 0
      · left; simp [Spec.step, hi]
      · simp only [Spec.step, if_neg hi]
        by_cases he : id = i
        · subst he
          rcases phase_insert_same s.out s.outCap (id := id) _ with h | ⟨h₁, h₂⟩
          · left; exact h
          · right; rw [h₁, h₂]; exact SenderEdge.reserve (by decide)
        · left; exact phase_insert_other _ _ _ he
  | publish op i qos =>
    cases qos with
    | qos0 => left; rfl
    | qos1 | qos2 =>
      by_cases hi : i = 0
      · left; simp [Spec.step, hi]
      · cases op with
        | receive => left; simp [Spec.step, hi]
        | send =>
          simp only [Spec.step, if_neg hi]
          cases hp : s.out.phase i with
          | none => left; rfl
          | some p =>
            by_cases he : id = i
            · subst he
              cases p <;> first
                | exact Or.inl rfl
                | exact Or.inl ((phase_set_same hd hp).trans hp.symm)
                | (right
                   rw [hp]
                   show SenderEdge id _ _ (((s.out.set id .awaitPuback).phase id).map _)
                   rw [phase_set_same hd hp]
                   exact .sent1)
                | (right
                   rw [hp]
                   show SenderEdge id _ _ (((s.out.set id .awaitPubrec).phase id).map _)
                   rw [phase_set_same hd hp]
                   exact .sent2)
            · left
              cases p <;> first
                | rfl
                | exact phase_set_other _ _ he
  | ack op type i =>
    by_cases hi : i = 0
    · left; simp [Spec.step, hi]
    · simp only [Spec.step, if_neg hi]
      by_cases he : id = i
      · subst he
        cases op <;> cases type <;> simp only [forOutgoing, if_true, Bool.false_eq_true, if_false] <;>
          first
          | (left; trivial)
          | (unfold ackTable
             cases hp : s.out.phase id with
             | none => left; exact hp
             | some p =>
               cases p <;> simp only [outAck, Effect.apply] <;> first
                 | (left; exact hp)
                 | (right; rw [phase_set_same hd hp]; constructor; done)
                 | (left; rw [phase_set_same hd hp]; done)
                 | (right; rw [phase_append_same (phase_remove_same _ _)]; constructor; done)
                 | (right; rw [phase_remove_same]; constructor; done))
      · left
        split
        · exact phase_ackTable_other _ _ he
        · rfl
  | cancel i =>
    simp only [Spec.step]
    cases hp : s.out.phase i with
    | none => left; rfl
    | some p =>
      by_cases he : id = i
      · subst he
        right
        rw [hp, phase_remove_same]
        exact SenderEdge.cancel
      · left; exact phase_remove_other _ he

theorem receiver_edge (s : InFlight) (hd : s.inc.Pairwise fun x y => x.1 ≠ y.1) (c : Call) (id : UInt16) :
    ((Spec.step s c).2.inc.phase id = s.inc.phase id) ∨
    ReceiverEdge id c ((s.inc.phase id).map (inView id)) (((Spec.step s c).2.inc.phase id).map (inView id)) := by
  cases c with
  | reserve i qos =>
    left
    cases qos with
    | qos0 => rfl
    | qos1 | qos2 =>
      by_cases hi : i = 0
      · simp [Spec.step, hi]
      · simp only [Spec.step, if_neg hi]
  | publish op i qos =>
    cases qos with
    | qos0 => left; rfl
    | qos1 | qos2 =>
      by_cases hi : i = 0
      · left; simp [Spec.step, hi]
      · cases op with
        | receive =>
          simp only [Spec.step, if_neg hi]
          by_cases he : id = i
          · subst he
            rcases phase_insert_same s.inc s.inCap (id := id) _ with h | ⟨h₁, h₂⟩
            · left; exact h
            · right; rw [h₁, h₂]; constructor
          · left; exact phase_insert_other _ _ _ he
        | send =>
          left
          simp only [Spec.step, if_neg hi]
          cases hp : s.out.phase i with
          | none => rfl
          | some p => cases p <;> rfl
  | ack op type i =>
    by_cases hi : i = 0
    · left; simp [Spec.step, hi]
    · simp only [Spec.step, if_neg hi]
      by_cases he : id = i
      · subst he
        cases op <;> cases type <;> simp only [forOutgoing, if_true, Bool.false_eq_true, if_false] <;>
          first
          | (left; trivial)
          | (unfold ackTable
             cases hp : s.inc.phase id with
             | none => left; exact hp
             | some p =>
               cases p <;> simp only [inAck, Effect.apply] <;> first
                 | (left; exact hp)
                 | (right; rw [phase_set_same hd hp]; constructor; done)
                 | (left; rw [phase_set_same hd hp]; done)
                 | (right; rw [phase_append_same (phase_remove_same _ _)]; constructor; done)
                 | (right; rw [phase_remove_same]; constructor; done))
      · left
        split
        · rfl
        · exact phase_ackTable_other _ _ he
  | cancel i =>
    left
    simp only [Spec.step]
    cases hp : s.out.phase i <;> rfl

theorem step_rejected (s : InFlight) (c : Call) (h : (Spec.step s c).1.1 ≠ .success) : (Spec.step s c).2 = s := by
  have hins : ∀ {φ : Type} (l : Table φ) cap id (p : φ), (l.insert cap id p).1 ≠ .success → (l.insert cap id p).2 = l := by
    intro φ l cap id p h
    unfold Table.insert at *
    split
    · rfl
    · next h' =>
      rw [if_neg h'] at h
      split
      · rfl
      · next h'' => rw [if_neg h''] at h; exact absurd rfl h
  have hack : ∀ {φ : Type} rule (l : Table φ) id, (ackTable rule l id).1.1 ≠ .success → (ackTable rule l id).2 = l := by
    intro φ rule l id h
    unfold ackTable at *
    split
    · rfl
    · next p hp =>
      simp only [hp] at h
      split
      · rfl
      · next e st hr => simp only [hr] at h; exact absurd rfl h
  cases c with
  | reserve i qos =>
    cases qos with
    | qos0 => rfl
    | qos1 | qos2 =>
      by_cases hi : i = 0
      · simp [Spec.step, hi]
      · simp only [Spec.step, if_neg hi] at h ⊢
        rw [hins _ _ _ _ h]
  | publish op i qos =>
    cases qos with
    | qos0 => rfl
    | qos1 | qos2 =>
      by_cases hi : i = 0
      · simp [Spec.step, hi]
      · cases op with
        | receive =>
          simp only [Spec.step, if_neg hi] at h ⊢
          rw [hins _ _ _ _ h]
        | send =>
          simp only [Spec.step, if_neg hi] at h ⊢
          cases hp : s.out.phase i with
          | none => rfl
          | some p => rw [hp] at h; cases p <;> first | rfl | exact absurd rfl h
  | ack op type i =>
    by_cases hi : i = 0
    · simp [Spec.step, hi]
    · simp only [Spec.step, if_neg hi] at h ⊢
      split
      · next hf => rw [if_pos hf] at h; rw [hack _ _ _ h]
      · next hf => rw [if_neg hf] at h; rw [hack _ _ _ h]
  | cancel i =>
    simp only [Spec.step] at h ⊢
    cases hp : s.out.phase i with
    | none => rfl
    | some p => rw [hp] at h; exact absurd rfl h

end Mqtt
