/-
The record arrays of core_mqtt_state.c as lists of live records: what lookup, compaction, insertion, update and
deletion do to the list of live records.
-/
import Verif.Model.State

namespace Mqtt
set_option linter.unusedSimpArgs false

/-- The records in use, in array order. -/
def live (recs : Records) : Records := recs.filter fun r => r.packetId ≠ 0

/-- Unused slots hold the cleared record. -/
def Clean (recs : Records) : Prop := ∀ r ∈ recs, r.packetId = 0 → r = Rec.empty

/-- No packet id occurs in two used slots. -/
def Distinct (recs : Records) : Prop := (live recs).Pairwise fun a b => a.packetId ≠ b.packetId

@[simp] theorem empty_packetId : Rec.empty.packetId = 0 := rfl
@[simp] theorem live_nil : live [] = [] := rfl
@[simp] theorem live_append (a b : Records) : live (a ++ b) = live a ++ live b := by simp [live]
theorem live_cons (r : Rec) (l : Records) : live (r :: l) = if r.packetId ≠ 0 then r :: live l else live l := by
  simp [live, List.filter_cons]
@[simp] theorem live_cons_empty (l : Records) : live (Rec.empty :: l) = live l := by simp [live_cons]
@[simp] theorem live_replicate (n : Nat) : live (List.replicate n Rec.empty) = [] := by
  simp [live]
theorem mem_live {recs : Records} {r : Rec} : r ∈ live recs ↔ r ∈ recs ∧ r.packetId ≠ 0 := by simp [live]
theorem live_length_le (recs : Records) : (live recs).length ≤ recs.length := by
  unfold live; exact List.length_filter_le _ _
theorem live_live (recs : Records) : live (live recs) = live recs := by simp [live]
theorem live_of_all {recs : Records} (h : ∀ r ∈ recs, r.packetId ≠ 0) : live recs = recs := by
  simpa [live] using h

theorem Clean.append {a b : Records} : Clean (a ++ b) ↔ Clean a ∧ Clean b := by
  constructor
  · intro h
    exact ⟨fun r hr => h r (by simp [hr]), fun r hr => h r (by simp [hr])⟩
  · intro ⟨h₁, h₂⟩ r hr
    rcases List.mem_append.mp hr with hr | hr
    · exact h₁ r hr
    · exact h₂ r hr
theorem Clean.cons {r : Rec} {l : Records} : Clean (r :: l) ↔ (r.packetId = 0 → r = Rec.empty) ∧ Clean l := by
  constructor
  · intro h
    exact ⟨h r (by simp), fun x hx => h x (by simp [hx])⟩
  · intro ⟨h₁, h₂⟩ x hx
    rcases List.mem_cons.mp hx with rfl | hx
    · exact h₁
    · exact h₂ x hx
theorem Clean.replicate (n : Nat) : Clean (List.replicate n Rec.empty) := by
  intro r hr _
  exact List.eq_of_mem_replicate hr
theorem Clean.live (recs : Records) : Clean (live recs) := by
  intro r hr h0
  exact absurd h0 (mem_live.mp hr).2

/-! ### Access -/

theorem getRec_append (a : Records) (r : Rec) (b : Records) : getRec (a ++ r :: b) a.length = .ok r := by
  simp [getRec]

theorem setRec_append (a : Records) (r : Rec) (b : Records) (x : Rec) :
    setRec (a ++ r :: b) a.length x = .ok (a ++ x :: b) := by
  simp [setRec]

/-! ### Lookup -/

theorem findInRecordLoop_spec (id : UInt16) : ∀ (b a : Records),
    (∀ r ∈ b, r.packetId ≠ id) ∧ findInRecordLoop (a ++ b) id a.length = .ok none ∨
    ∃ b₁ r b₂, b = b₁ ++ r :: b₂ ∧ r.packetId = id ∧ (∀ x ∈ b₁, x.packetId ≠ id) ∧
      findInRecordLoop (a ++ b) id a.length = .ok (some (a.length + b₁.length, r)) := by
  intro b
  induction b with
  | nil =>
    intro a
    left
    constructor
    · simp
    · rw [findInRecordLoop]; simp
  | cons r b ih =>
    intro a
    rw [findInRecordLoop]
    rw [if_pos (by simp), getRec_append]
    by_cases h : r.packetId = id
    · right
      exact ⟨[], r, b, rfl, h, by simp, by simp [h]⟩
    · have e : a ++ r :: b = (a ++ [r]) ++ b := by simp
      have l : a.length + 1 = (a ++ [r]).length := by simp
      rcases ih (a ++ [r]) with ⟨h₁, h₂⟩ | ⟨b₁, r', b₂, h₁, h₂, h₃, h₄⟩
      · left
        refine ⟨?_, ?_⟩
        · intro x hx
          rcases List.mem_cons.mp hx with rfl | hx
          · exact h
          · exact h₁ x hx
        · simp only [Res.ok_bind, if_neg h]
          rw [e, l, h₂]
      · right
        refine ⟨r :: b₁, r', b₂, by simp [h₁], h₂, ?_, ?_⟩
        · intro x hx
          rcases List.mem_cons.mp hx with rfl | hx
          · exact h
          · exact h₃ x hx
        · simp only [Res.ok_bind, if_neg h]
          rw [e, l, h₄]
          simp only [List.length_append, List.length_cons, List.length_nil]
          rw [show a.length + (0 + 1) + b₁.length = a.length + (b₁.length + 1) by omega]

/-- `findInRecord`: either no slot has the id, or the first slot with it is found. -/
theorem findInRecord_spec {id : UInt16} (hid : id ≠ 0) (recs : Records) :
    (∀ r ∈ recs, r.packetId ≠ id) ∧ findInRecord recs id = .ok none ∨
    ∃ a r b, recs = a ++ r :: b ∧ r.packetId = id ∧ (∀ x ∈ a, x.packetId ≠ id) ∧
      findInRecord recs id = .ok (some (a.length, r)) := by
  have e : findInRecord recs id = findInRecordLoop recs id 0 := by
    have : (id != 0) = true := by simpa using hid
    simp only [findInRecord, this, cassert_true, Res.ok_bind]
  rcases findInRecordLoop_spec id recs [] with ⟨h₁, h₂⟩ | ⟨b₁, r, b₂, h₁, h₂, h₃, h₄⟩
  · left; exact ⟨h₁, by rw [e]; simpa using h₂⟩
  · right
    exact ⟨b₁, r, b₂, h₁, h₂, h₃, by rw [e]; simpa using h₄⟩

/-! ### Compaction -/

theorem replicate_succ_append {α : Type} (k : Nat) (x : α) (l : List α) :
    List.replicate k x ++ x :: l = List.replicate (k + 1) x ++ l := by
  rw [List.replicate_succ']; simp

theorem compactLoop_some : ∀ (rest C : Records) (k : Nat), 1 ≤ k → Clean rest →
    compactLoop (C ++ List.replicate k Rec.empty ++ rest) (C.length + k) (some C.length) rest.length =
      .ok (C ++ live rest ++ List.replicate (k + (rest.length - (live rest).length)) Rec.empty) := by
  intro rest
  induction rest with
  | nil => intro C k _ _; simp [compactLoop]
  | cons r rest ih =>
    intro C k hk hc
    rw [Clean.cons] at hc
    have hg : getRec (C ++ List.replicate k Rec.empty ++ r :: rest) (C.length + k) = .ok r := by
      have := getRec_append (C ++ List.replicate k Rec.empty) r rest
      simpa using this
    simp only [List.length_cons, compactLoop, hg, Res.ok_bind]
    have hll := live_length_le rest
    by_cases h : r.packetId = 0
    · have hr := hc.1 h
      subst hr
      have e : C ++ List.replicate k Rec.empty ++ Rec.empty :: rest = C ++ List.replicate (k + 1) Rec.empty ++ rest := by
        rw [List.append_assoc, replicate_succ_append, List.append_assoc]
      simp only [empty_packetId, if_true, e]
      rw [show C.length + k + 1 = C.length + (k + 1) by omega, ih C (k + 1) (by omega) hc.2]
      simp only [live_cons_empty]
      congr 3
      omega
    · simp only [if_neg h]
      obtain ⟨j, rfl⟩ : ∃ j, k = j + 1 := ⟨k - 1, by omega⟩
      have e₁ : C ++ List.replicate (j + 1) Rec.empty ++ r :: rest
          = C ++ Rec.empty :: (List.replicate j Rec.empty ++ r :: rest) := by
        simp [List.replicate_succ]
      have e₂ : C ++ r :: (List.replicate j Rec.empty ++ r :: rest)
          = (C ++ r :: List.replicate j Rec.empty) ++ r :: rest := by simp
      have e₃ : C.length + (j + 1) = (C ++ r :: List.replicate j Rec.empty).length := by simp
      have e₄ : (C ++ r :: List.replicate j Rec.empty) ++ Rec.empty :: rest
          = (C ++ [r]) ++ List.replicate (j + 1) Rec.empty ++ rest := by
        simp [List.replicate_succ', List.append_assoc]
      rw [e₁, setRec_append]
      simp only [Res.ok_bind]
      rw [e₂, e₃, setRec_append]
      simp only [Res.ok_bind]
      rw [e₄, show (C ++ r :: List.replicate j Rec.empty).length + 1 = (C ++ [r]).length + (j + 1) by simp; omega]
      rw [show C.length + 1 = (C ++ [r]).length by simp]
      rw [ih (C ++ [r]) (j + 1) (by omega) hc.2]
      simp [live_cons, h]

theorem compactLoop_none : ∀ (rest C : Records), Clean rest →
    compactLoop (C ++ rest) C.length none rest.length =
      .ok (C ++ live rest ++ List.replicate (rest.length - (live rest).length) Rec.empty) := by
  intro rest
  induction rest with
  | nil => intro C _; simp [compactLoop]
  | cons r rest ih =>
    intro C hc
    rw [Clean.cons] at hc
    have hll := live_length_le rest
    simp only [List.length_cons, compactLoop, getRec_append, Res.ok_bind]
    by_cases h : r.packetId = 0
    · have hr := hc.1 h
      subst hr
      simp only [empty_packetId, if_true]
      have := compactLoop_some rest C 1 (by omega) hc.2
      rw [show C ++ List.replicate 1 Rec.empty ++ rest = C ++ Rec.empty :: rest by simp] at this
      rw [this]
      simp only [live_cons_empty]
      congr 3
      omega
    · simp only [if_neg h]
      have := ih (C ++ [r]) hc.2
      rw [show C ++ [r] ++ rest = C ++ r :: rest by simp, show (C ++ [r]).length = C.length + 1 by simp] at this
      rw [this]
      simp [live_cons, h]

theorem compactRecords_eq (recs : Records) (hc : Clean recs) :
    compactRecords recs = .ok (live recs ++ List.replicate (recs.length - (live recs).length) Rec.empty) := by
  have := compactLoop_none recs [] hc
  simpa [compactRecords] using this

/-! ### Insertion -/

theorem addRecordLoop_true (recs : Records) (id : UInt16) (hid : id ≠ 0) (a : Nat) : ∀ (p q : Records), recs = p ++ q →
    addRecordLoop recs id p.length a true = .ok (if id ∈ p.map (·.packetId) then none else some a) := by
  intro p
  generalize hn : p.length = n
  induction n generalizing p with
  | zero =>
    intro q hq
    have : p = [] := List.length_eq_zero_iff.mp hn
    subst this
    simp [addRecordLoop]
  | succ n ih =>
    intro q hq
    rcases List.eq_nil_or_concat p with rfl | ⟨p', r, hp⟩
    · simp at hn
    · simp only [List.concat_eq_append] at hp
      subst hp
      have hl : p'.length = n := by simpa using hn
      have hq' : recs = p' ++ r :: q := by rw [hq]; simp
      have hg : getRec recs n = .ok r := by rw [hq', ← hl]; exact getRec_append _ _ _
      simp only [addRecordLoop, hg, Res.ok_bind]
      have ih' := ih p' hl (r :: q) hq'
      by_cases h : r.packetId = 0
      · simp only [h, if_true]
        rw [if_neg (by simp), ih']
        congr 1
        simp [h, hid.symm, hid]
      · simp only [if_neg h]
        by_cases h' : r.packetId = id
        · simp [h']
        · simp only [if_neg h', ih']
          congr 1
          have : ¬ id = r.packetId := fun e => h' e.symm
          simp [this]

/-- Ends in a used slot (or is empty). -/
def EndsLive (A : Records) : Prop := A = [] ∨ ∃ A' r, A = A' ++ [r] ∧ r.packetId ≠ 0

theorem addRecordLoop_false (id : UInt16) (hid : id ≠ 0) (A : Records) (hA : EndsLive A) : ∀ (j : Nat) (recs q : Records),
    recs = A ++ List.replicate j Rec.empty ++ q →
    addRecordLoop recs id (A.length + j) (A.length + j) false =
      .ok (if id ∈ A.map (·.packetId) then none else some A.length) := by
  intro j
  induction j with
  | zero =>
    intro recs q hq
    rcases hA with rfl | ⟨A', r, rfl, hr⟩
    · simp [addRecordLoop]
    · have hq' : recs = A' ++ r :: q := by rw [hq]; simp
      have hg : getRec recs A'.length = .ok r := by rw [hq']; exact getRec_append _ _ _
      rw [show (A' ++ [r]).length + 0 = A'.length + 1 by simp]
      rw [addRecordLoop]
      simp only [hg, Res.ok_bind, if_neg hr]
      by_cases h' : r.packetId = id
      · simp [h']
      · rw [if_neg h', addRecordLoop_true recs id hid _ A' (r :: q) hq']
        have : ¬ id = r.packetId := fun e => h' e.symm
        simp [this]
  | succ j ih =>
    intro recs q hq
    have hq' : recs = A ++ List.replicate j Rec.empty ++ (Rec.empty :: q) := by
      rw [hq, List.append_assoc, List.append_assoc, replicate_succ_append]
    have hg : getRec recs (A.length + j) = .ok Rec.empty := by
      rw [hq']
      have := getRec_append (A ++ List.replicate j Rec.empty) Rec.empty q
      simpa using this
    rw [show A.length + (j + 1) = (A.length + j) + 1 by omega, addRecordLoop]
    simp only [hg, Res.ok_bind, empty_packetId, if_true]
    exact ih recs _ hq'

theorem split_trailing (recs : Records) (hc : Clean recs) :
    ∃ A j, recs = A ++ List.replicate j Rec.empty ∧ EndsLive A := by
  generalize hn : recs.length = n
  induction n generalizing recs with
  | zero => exact ⟨[], 0, by simpa using hn, Or.inl rfl⟩
  | succ n ih =>
    rcases List.eq_nil_or_concat recs with rfl | ⟨l, r, h⟩
    · simp at hn
    · simp only [List.concat_eq_append] at h
      subst h
      by_cases hr : r.packetId = 0
      · have hre := hc r (by simp) hr
        subst hre
        have ⟨A, j, h₁, h₂⟩ := ih l (Clean.append.mp hc).1 (by simpa using hn)
        refine ⟨A, j + 1, ?_, h₂⟩
        rw [h₁, List.append_assoc, replicate_succ_append]; simp
      · exact ⟨l ++ [r], 0, by simp, Or.inr ⟨l, r, rfl, hr⟩⟩

theorem mem_ids_live {recs : Records} {id : UInt16} (hid : id ≠ 0) :
    id ∈ (live recs).map (·.packetId) ↔ id ∈ recs.map (·.packetId) := by
  simp only [List.mem_map, mem_live]
  constructor
  · rintro ⟨r, ⟨h₁, _⟩, h₂⟩; exact ⟨r, h₁, h₂⟩
  · rintro ⟨r, h₁, h₂⟩; exact ⟨r, ⟨h₁, by rw [h₂]; exact hid⟩, h₂⟩

/-- The part of `addRecord` after the compaction check, on an array `A ++ empties`. -/
theorem addRecord_tail (A : Records) (j : Nat) (hA : EndsLive A) (id : UInt16) (hid : id ≠ 0) (x : Rec) :
    let recs := A ++ List.replicate j Rec.empty
    (do
      match ← addRecordLoop recs id recs.length recs.length false with
      | none => pure (Status.stateCollision, recs)
      | some availableIndex =>
        if availableIndex < recs.length then do
          let records ← setRec recs availableIndex x
          pure (Status.success, records)
        else pure (Status.noMemory, recs) : Res (Status × Records)) =
    .ok (if id ∈ A.map (·.packetId) then (.stateCollision, recs)
         else if j = 0 then (.noMemory, recs)
         else (.success, A ++ x :: List.replicate (j - 1) Rec.empty)) := by
  have h := addRecordLoop_false id hid A hA j (A ++ List.replicate j Rec.empty) [] (by simp)
  simp only
  rw [show (A ++ List.replicate j Rec.empty).length = A.length + j by simp, h]
  by_cases hm : id ∈ A.map (·.packetId)
  · rw [if_pos hm]; simp only [if_pos hm, Res.ok_bind, Res.pure_eq]
  · rw [if_neg hm]; simp only [if_neg hm, Res.ok_bind]
    cases j with
    | zero => simp
    | succ j =>
      rw [if_pos (by omega), List.replicate_succ, setRec_append]
      simp

/-- Everything `addRecord` does, in terms of the live records. -/
theorem addRecord_spec (recs : Records) (hc : Clean recs) (hne : recs ≠ []) (id : UInt16) (hid : id ≠ 0) (q : QoS) (hq : q ≠ .qos0)
    (s : PubState) :
    ∃ recs', addRecord recs id q s = .ok
        (if id ∈ (live recs).map (·.packetId) then Status.stateCollision
         else if (live recs).length = recs.length then Status.noMemory else Status.success, recs') ∧
      recs'.length = recs.length ∧ Clean recs' ∧
      live recs' = live recs ++
        (if id ∈ (live recs).map (·.packetId) then [] else if (live recs).length = recs.length then [] else [⟨id, q, s⟩]) := by
  have hlen : recs.length ≠ 0 := by simpa using hne
  have hlle := live_length_le recs
  -- the array after the compaction check, its shape, and the fact that a full array has no hole
  have key : ∃ A j, (do
        let last ← getRec recs (recs.length - 1)
        (if last.packetId ≠ 0 then compactRecords recs else pure recs)) = .ok (A ++ List.replicate j Rec.empty) ∧
      EndsLive A ∧ live A = live recs ∧ A.length + j = recs.length ∧ Clean A ∧
      (j = 0 ↔ (live recs).length = recs.length) := by
    rcases List.eq_nil_or_concat recs with rfl | ⟨l, r, h⟩
    · exact absurd rfl hne
    · simp only [List.concat_eq_append] at h
      have hg : getRec recs (recs.length - 1) = .ok r := by
        rw [h]
        have := getRec_append l r []
        simpa using this
      simp only [hg, Res.ok_bind]
      by_cases hr : r.packetId = 0
      · obtain ⟨A, j, h₁, h₂⟩ := split_trailing recs hc
        refine ⟨A, j, ?_, h₂, ?_, ?_, ?_, ?_⟩
        · simp [hr, h₁]
        · rw [h₁]; simp
        · rw [h₁]; simp
        · rw [h₁] at hc; exact (Clean.append.mp hc).1
        · have hl : live recs = live l := by rw [h]; simp [live_cons, hr]
          have := live_length_le l
          constructor
          · intro hj
            subst hj
            rcases h₂ with rfl | ⟨A', r', h₃, h₄⟩
            · simp at h₁; exact absurd h₁ hne
            · rw [h, h₃] at h₁
              simp at h₁
              exact absurd (h₁.2 ▸ hr) h₄
          · intro hh
            rw [hl, h] at hh
            simp at hh
            omega
      · refine ⟨live recs, recs.length - (live recs).length, ?_, ?_, live_live _, by omega, Clean.live _, by omega⟩
        · simp [hr, compactRecords_eq recs hc]
        · right
          exact ⟨live l, r, by rw [h]; simp [live_cons, hr], hr⟩
  obtain ⟨A, j, h₁, hA, h₂, h₃, hcA, h₄⟩ := key
  have tail := addRecord_tail A j hA id hid ⟨id, q, s⟩
  simp only at tail
  have hunf : addRecord recs id q s = .ok (if id ∈ A.map (·.packetId) then (.stateCollision, A ++ List.replicate j Rec.empty)
         else if j = 0 then (.noMemory, A ++ List.replicate j Rec.empty)
         else (.success, A ++ ⟨id, q, s⟩ :: List.replicate (j - 1) Rec.empty)) := by
    rw [← tail]
    have e : addRecord recs id q s = ((do
        let last ← getRec recs (recs.length - 1)
        (if last.packetId ≠ 0 then compactRecords recs else pure recs)) >>= fun recs => do
      match ← addRecordLoop recs id recs.length recs.length false with
      | none => pure (Status.stateCollision, recs)
      | some availableIndex =>
        if availableIndex < recs.length then do
          let records ← setRec recs availableIndex ⟨id, q, s⟩
          pure (Status.success, records)
        else pure (Status.noMemory, recs)) := by
      simp only [addRecord, hid, hq, bne_iff_ne, ne_eq, not_false_eq_true, bne_self_eq_false, cassert, if_true, Res.ok_bind, if_neg hlen, bind_assoc]
      simp [hlen, hid, hq]
      rfl
    rw [e, h₁]
    rfl
  have hm : id ∈ A.map (·.packetId) ↔ id ∈ (live recs).map (·.packetId) := by
    rw [← h₂, mem_ids_live hid]
  rw [hunf]
  by_cases hmem : id ∈ (live recs).map (·.packetId)
  · refine ⟨A ++ List.replicate j Rec.empty, ?_, by simp; omega, Clean.append.mpr ⟨hcA, Clean.replicate _⟩, by simp [hmem, h₂]⟩
    rw [if_pos (hm.mpr hmem), if_pos hmem]
  · rw [if_neg (fun h => hmem (hm.mp h))]
    simp only [if_neg hmem]
    by_cases hj : j = 0
    · refine ⟨A ++ List.replicate j Rec.empty, ?_, by simp; omega, Clean.append.mpr ⟨hcA, Clean.replicate _⟩, by simp [h₄.mp hj, h₂]⟩
      rw [if_pos hj, if_pos (h₄.mp hj)]
    · have hf : ¬ (live recs).length = recs.length := fun h => hj (h₄.mpr h)
      refine ⟨A ++ ⟨id, q, s⟩ :: List.replicate (j - 1) Rec.empty, ?_, by simp; omega, ?_, ?_⟩
      · rw [if_neg hj, if_neg hf]
      · exact Clean.append.mpr ⟨hcA, Clean.cons.mpr ⟨fun h => absurd h hid, Clean.replicate _⟩⟩
      · simp [live_cons, hid, h₂, hf]

/-! ### Update and deletion of a found record -/

theorem updateRecord_delete (a : Records) (r : Rec) (b : Records) (s : PubState) :
    updateRecord (a ++ r :: b) a.length s true = .ok (a ++ Rec.empty :: b) := by
  simp [updateRecord, setRec_append]

theorem updateRecord_state (a : Records) (r : Rec) (b : Records) (s : PubState) :
    updateRecord (a ++ r :: b) a.length s false = .ok (a ++ { r with publishState := s } :: b) := by
  simp [updateRecord, getRec_append, setRec_append]

end Mqtt
