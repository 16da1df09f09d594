/-
The resend enumerations, and the histories that determine them.
-/
import Verif.Proof.InFlight
import Verif.Spec.History

namespace Mqtt
set_option linter.unusedSimpArgs false
open Spec

/-! ### `stateSelect` on a split array -/

theorem stateSelectLoop_none (m : Nat) : ∀ (b a : Records), (∀ r ∈ b, checkBitmap m r.publishState = false) →
    stateSelectLoop (a ++ b) m a.length = .ok (0, (a ++ b).length) := by
  intro b
  induction b with
  | nil => intro a _; rw [stateSelectLoop]; simp
  | cons r b ih =>
    intro a h
    rw [stateSelectLoop, if_pos (by simp), getRec_append]
    simp only [Res.ok_bind, h r (by simp), Bool.false_eq_true, if_false]
    have := ih (a ++ [r]) (fun x hx => h x (by simp [hx]))
    rw [show a ++ [r] ++ b = a ++ r :: b by simp, show (a ++ [r]).length = a.length + 1 by simp] at this
    exact this

theorem stateSelectLoop_hit (m : Nat) (r : Rec) (b₂ : Records) (hr : checkBitmap m r.publishState = true) : ∀ (b₁ a : Records),
    (∀ x ∈ b₁, checkBitmap m x.publishState = false) →
    stateSelectLoop (a ++ b₁ ++ r :: b₂) m a.length = .ok (r.packetId, (a ++ b₁).length + 1) := by
  intro b₁
  induction b₁ with
  | nil =>
    intro a _
    rw [stateSelectLoop, if_pos (by simp)]
    simp only [List.append_nil, getRec_append, Res.ok_bind, hr, if_true, Res.pure_eq]
  | cons x b₁ ih =>
    intro a h
    have e : a ++ x :: b₁ ++ r :: b₂ = (a ++ [x]) ++ b₁ ++ r :: b₂ := by simp
    have hg : getRec (a ++ x :: b₁ ++ r :: b₂) a.length = .ok x := by
      rw [List.append_assoc, List.cons_append]; exact getRec_append _ _ _
    rw [stateSelectLoop, if_pos (by simp), hg]
    simp only [Res.ok_bind, h x (by simp), Bool.false_eq_true, if_false]
    have := ih (a ++ [x]) (fun y hy => h y (by simp [hy]))
    rw [← e, show (a ++ [x]).length = a.length + 1 by simp] at this
    rw [this]
    simp

theorem take_replicate_cons (k : Nat) (x : UInt16) (l : List UInt16) :
    (x :: l).take (k + 1) ++ List.replicate (k + 1 - (x :: l).length) 0 = x :: (l.take k ++ List.replicate (k - l.length) 0) := by
  simp

theorem resendCalls_spec (m : Nat) : ∀ (k : Nat) (a b : Records),
    resendCalls (stateSelectLoop (a ++ b) m) k a.length =
      .ok (firstThenZeros ((b.filter fun r => checkBitmap m r.publishState).map (·.packetId)) k) := by
  intro k
  induction k with
  | zero => intro a b; simp [resendCalls, firstThenZeros]
  | succ k ih =>
    intro a b
    rw [resendCalls]
    cases hf : b.find? (fun r => checkBitmap m r.publishState) with
    | none =>
      have hall : ∀ r ∈ b, checkBitmap m r.publishState = false := by
        intro r hr
        have := List.find?_eq_none.mp hf r hr
        simpa using this
      rw [stateSelectLoop_none m b a hall]
      simp only [Res.ok_bind]
      have := ih (a ++ b) []
      rw [List.append_nil] at this
      rw [this]
      have he : b.filter (fun r => checkBitmap m r.publishState) = [] := by
        rw [List.filter_eq_nil_iff]; intro r hr; simp [hall r hr]
      rw [he]
      simp [firstThenZeros, List.replicate_succ]
    | some r =>
      obtain ⟨hr, b₁, b₂, hb, hb₁⟩ := List.find?_eq_some_iff_append.mp hf
      have hb₁' : ∀ x ∈ b₁, checkBitmap m x.publishState = false := by
        intro x hx; simpa using hb₁ x hx
      have hsel := stateSelectLoop_hit m r b₂ hr b₁ a hb₁'
      have hrec : a ++ b = a ++ b₁ ++ r :: b₂ := by rw [hb]; simp
      rw [hrec, hsel]
      simp only [Res.ok_bind]
      have := ih (a ++ b₁ ++ [r]) b₂
      rw [show a ++ b₁ ++ [r] ++ b₂ = a ++ b₁ ++ r :: b₂ by simp,
        show (a ++ b₁ ++ [r]).length = (a ++ b₁).length + 1 by simp; omega] at this
      rw [this]
      have he : b₁.filter (fun r => checkBitmap m r.publishState) = [] := by
        rw [List.filter_eq_nil_iff]; intro x hx; simp [hb₁' x hx]
      rw [hb, List.filter_append, he, List.nil_append, List.filter_cons, if_pos hr]
      simp [firstThenZeros]

theorem stateSelect_publish (recs : Records) (c : Nat) :
    stateSelect recs (bitmap [.publishSend, .pubAckPending, .pubRecPending]) c =
      stateSelectLoop recs (bitmap [.publishSend, .pubAckPending, .pubRecPending]) c := by
  have h₁ : (bitmap [.publishSend, .pubAckPending, .pubRecPending] != 0) = true := by decide
  have h₂ : decide ((outgoingStates &&& bitmap [.publishSend, .pubAckPending, .pubRecPending]) > 0) = true := by decide
  have h₃ : ((outgoingStates ||| bitmap [.publishSend, .pubAckPending, .pubRecPending]) == outgoingStates) = true := by decide
  simp only [stateSelect, h₁, h₂, h₃, cassert_true, Res.ok_bind]

theorem stateSelect_pubrel (recs : Records) (c : Nat) :
    stateSelect recs (bitmap [.pubCompPending, .pubRelSend]) c = stateSelectLoop recs (bitmap [.pubCompPending, .pubRelSend]) c := by
  have h₁ : (bitmap [.pubCompPending, .pubRelSend] != 0) = true := by decide
  have h₂ : decide ((outgoingStates &&& bitmap [.pubCompPending, .pubRelSend]) > 0) = true := by decide
  have h₃ : ((outgoingStates ||| bitmap [.pubCompPending, .pubRelSend]) == outgoingStates) = true := by decide
  simp only [stateSelect, h₁, h₂, h₃, cassert_true, Res.ok_bind]

/-! ### From records to phases -/

def isUnacked : OutPhase → Bool
  | .toSend1 | .toSend2 | .awaitPuback | .awaitPubrec => true
  | _ => false

theorem publishMask (s : PubState) : checkBitmap (bitmap [.publishSend, .pubAckPending, .pubRecPending]) s =
    (s == .publishSend || s == .pubAckPending || s == .pubRecPending) := by cases s <;> decide

theorem pubrelMask (s : PubState) : checkBitmap (bitmap [.pubCompPending, .pubRelSend]) s =
    (s == .pubCompPending || s == .pubRelSend) := by cases s <;> decide

def isPubrel (p : OutPhase) : Bool := !isUnacked p

def idsOf (f : OutPhase → Bool) (l : Table OutPhase) : List UInt16 := (l.filter fun e => f e.2).map (·.1)

theorem filter_hits {recs cap} {l : Table OutPhase} (h : Holds outRec recs cap l) (m : Nat) (f : OutPhase → Bool)
    (h0 : checkBitmap m .null = false) (hf : ∀ id p, checkBitmap m (outRec (id, p)).publishState = f p) :
    (recs.filter fun r => checkBitmap m r.publishState).map (·.packetId) = idsOf f l := by
  have e₁ : recs.filter (fun r => checkBitmap m r.publishState) = (live recs).filter (fun r => checkBitmap m r.publishState) := by
    unfold live
    rw [List.filter_filter]
    apply List.filter_congr
    intro r hr
    by_cases hz : r.packetId = 0
    · rw [h.clean r hr hz]; simp [Rec.empty, h0]
    · simp [hz]
  rw [e₁, h.live_eq, List.filter_map]
  unfold idsOf
  rw [List.map_map]
  have e₂ : (l.filter ((fun r => checkBitmap m r.publishState) ∘ outRec)) = l.filter (fun e => f e.2) := by
    apply List.filter_congr
    rintro ⟨id, p⟩ _
    exact hf id p
  rw [e₂]
  apply List.map_congr_left
  intro e _
  exact keepsId_out e

theorem publishToResend_calls {t : Tables} {cap} {l : Table OutPhase} (h : Holds outRec t.outgoing cap l) (k : Nat) :
    resendCalls (publishToResend t) k 0 = .ok (firstThenZeros (idsOf isUnacked l) k) := by
  have e : publishToResend t = stateSelectLoop t.outgoing (bitmap [.publishSend, .pubAckPending, .pubRecPending]) := by
    funext c; exact stateSelect_publish _ _
  have := resendCalls_spec (bitmap [.publishSend, .pubAckPending, .pubRecPending]) k [] t.outgoing
  simp only [List.nil_append, List.length_nil] at this
  rw [e, this, filter_hits h _ isUnacked (by decide) (by intro id p; rw [publishMask]; cases p <;> rfl)]

theorem pubrelToResend_calls {t : Tables} {cap} {l : Table OutPhase} (h : Holds outRec t.outgoing cap l) (k : Nat) :
    resendCalls (fun c => do let (id, c, _) ← pubrelToResend t c; pure (id, c)) k 0 = .ok (firstThenZeros (idsOf isPubrel l) k) := by
  have e : (fun c => do let (id, c, _) ← pubrelToResend t c; pure (id, c)) =
      stateSelectLoop t.outgoing (bitmap [.pubCompPending, .pubRelSend]) := by
    funext c
    unfold pubrelToResend
    rw [stateSelect_pubrel]
    cases stateSelectLoop t.outgoing (bitmap [.pubCompPending, .pubRelSend]) c <;> rfl
  have := resendCalls_spec (bitmap [.pubCompPending, .pubRelSend]) k [] t.outgoing
  simp only [List.nil_append, List.length_nil] at this
  rw [e, this, filter_hits h _ isPubrel (by decide) (by intro id p; rw [pubrelMask]; cases p <;> rfl)]

/-! ### Phases and histories -/

theorem phase_some_split {φ : Type} {l : Table φ} {id : UInt16} {p : φ} (hd : l.Pairwise fun x y => x.1 ≠ y.1) (h : l.phase id = some p) :
    ∃ a b, l = a ++ (id, p) :: b ∧ (∀ e ∈ a, e.1 ≠ id) ∧ (∀ e ∈ b, e.1 ≠ id) := by
  unfold Table.phase at h
  cases hf : l.find? (fun e => decide (e.1 = id)) with
  | none => rw [hf] at h; cases h
  | some e =>
    rw [hf] at h
    obtain ⟨h₁, as, bs, h₂, h₃⟩ := List.find?_eq_some_iff_append.mp hf
    obtain ⟨x, y⟩ := e
    simp at h h₁
    subst h; subst h₁
    rw [h₂] at hd
    obtain ⟨d₁, d₂, _⟩ := pairwise_split hd
    exact ⟨as, bs, h₂, d₁, d₂⟩

theorem idsOf_append (f) (a b : Table OutPhase) : idsOf f (a ++ b) = idsOf f a ++ idsOf f b := by simp [idsOf]
theorem idsOf_cons (f) (e : UInt16 × OutPhase) (b : Table OutPhase) :
    idsOf f (e :: b) = (if f e.2 then [e.1] else []) ++ idsOf f b := by
  unfold idsOf
  rw [List.filter_cons]
  split <;> simp

theorem idsOf_set {l : Table OutPhase} {id : UInt16} {p p' : OutPhase} (f) (hd : l.Pairwise fun x y => x.1 ≠ y.1)
    (h : l.phase id = some p) (hf : f p = f p') : idsOf f (l.set id p') = idsOf f l := by
  obtain ⟨a, b, rfl, ha, hb⟩ := phase_some_split hd h
  rw [set_split ha hb, idsOf_append, idsOf_append, idsOf_cons, idsOf_cons, hf]

theorem idsOf_filter_id {l : Table OutPhase} {id : UInt16} (f) (h : ∀ e ∈ l, e.1 ≠ id) : (idsOf f l).filter (· ≠ id) = idsOf f l := by
  rw [List.filter_eq_self]
  intro x hx
  unfold idsOf at hx
  obtain ⟨e, he, rfl⟩ := List.mem_map.mp hx
  simpa using h e (List.mem_filter.mp he).1

theorem idsOf_remove (l : Table OutPhase) (id : UInt16) (f) : idsOf f (l.remove id) = (idsOf f l).filter (· ≠ id) := by
  unfold idsOf Table.remove
  rw [List.filter_filter, List.filter_map, List.filter_filter]
  congr 1
  apply List.filter_congr
  intro e _
  simp [Bool.and_comm]

theorem idsOf_remove_other {l : Table OutPhase} {id : UInt16} {p : OutPhase} (f) (hd : l.Pairwise fun x y => x.1 ≠ y.1)
    (h : l.phase id = some p) (hf : f p = false) : idsOf f (l.remove id) = idsOf f l := by
  obtain ⟨a, b, rfl, ha, hb⟩ := phase_some_split hd h
  rw [remove_split ha hb, idsOf_append, idsOf_append, idsOf_cons]
  simp [hf]

theorem insert_cases {φ : Type} (l : Table φ) (cap id p) :
    l.insert cap id p = (.success, l ++ [(id, p)]) ∨ l.insert cap id p = (.stateCollision, l) ∨ l.insert cap id p = (.noMemory, l) := by
  unfold Table.insert
  split
  · simp
  · split <;> simp

theorem unacked_step {s : InFlight} (hd : s.out.Pairwise fun x y => x.1 ≠ y.1) (c : Call) :
    idsOf isUnacked (step s c).2.out = unackedStep (idsOf isUnacked s.out) (c, (step s c).1.1) := by
  cases c with
  | reserve id qos =>
    cases qos with
    | qos0 => simp [step, unackedStep]
    | qos1 | qos2 =>
      by_cases hid : id = 0
      · simp [step, hid, unackedStep]
      · simp only [step, if_neg hid]
        rcases insert_cases s.out s.outCap id _ with h | h | h <;> rw [h]
        · simp [unackedStep, idsOf, isUnacked]
        · rfl
        · rfl
  | publish op id qos =>
    have : ∀ st l, unackedStep l (.publish op id qos, st) = l := by intro st l; cases st <;> rfl
    rw [this]
    cases qos with
    | qos0 => rfl
    | qos1 | qos2 =>
      by_cases hid : id = 0
      · simp [step, hid]
      · cases op with
        | receive => simp [step, if_neg hid]
        | send =>
          simp only [step, if_neg hid]
          cases hp : s.out.phase id with
          | none => rfl
          | some p =>
            cases p <;> simp only [outQoS, sentPublish] <;> first
              | rfl
              | exact idsOf_set _ hd hp rfl
  | ack op type id =>
    by_cases hid : id = 0
    · subst hid
      have : ∀ l, unackedStep l (.ack op type 0, .badParameter) = l := by intro l; cases op <;> cases type <;> rfl
      simp [step, this]
    · simp only [step, if_neg hid]
      cases op <;> cases type <;> simp only [forOutgoing, if_true, Bool.false_eq_true, if_false] <;>
        first
        | (generalize (ackTable _ s.inc id).1.1 = st; cases st <;> rfl)
        | (unfold ackTable
           cases hp : s.out.phase id with
           | none => rfl
           | some p =>
             cases p <;> simp only [outAck, Effect.apply] <;> first
               | rfl
               | exact idsOf_set _ hd hp rfl
               | (rw [idsOf_remove_other _ hd hp rfl]; rfl)
               | (rw [idsOf_append, idsOf_remove]
                  simp [unackedStep, idsOf, isUnacked])
               | (rw [idsOf_remove]; rfl))
  | cancel id =>
    simp only [step]
    cases hp : s.out.phase id with
    | none => rfl
    | some p => simp only [unackedStep, idsOf_remove]

theorem pubrel_step {s : InFlight} (hd : s.out.Pairwise fun x y => x.1 ≠ y.1) (c : Call) :
    idsOf isPubrel (step s c).2.out = pubrelStep (idsOf isPubrel s.out) (c, (step s c).1.1) := by
  cases c with
  | reserve id qos =>
    have : ∀ st l, pubrelStep l (.reserve id qos, st) = l := by intro st l; cases st <;> rfl
    rw [this]
    cases qos with
    | qos0 => simp [step]
    | qos1 | qos2 =>
      by_cases hid : id = 0
      · simp [step, hid]
      · simp only [step, if_neg hid]
        rcases insert_cases s.out s.outCap id _ with h | h | h <;> rw [h]
        simp [idsOf, isUnacked, isPubrel]
  | publish op id qos =>
    have : ∀ st l, pubrelStep l (.publish op id qos, st) = l := by intro st l; cases st <;> rfl
    rw [this]
    cases qos with
    | qos0 => rfl
    | qos1 | qos2 =>
      by_cases hid : id = 0
      · simp [step, hid]
      · cases op with
        | receive => simp [step, if_neg hid]
        | send =>
          simp only [step, if_neg hid]
          cases hp : s.out.phase id with
          | none => rfl
          | some p =>
            cases p <;> simp only [outQoS, sentPublish] <;> first
              | rfl
              | exact idsOf_set _ hd hp rfl
  | ack op type id =>
    by_cases hid : id = 0
    · subst hid
      have : ∀ l, pubrelStep l (.ack op type 0, .badParameter) = l := by intro l; cases op <;> cases type <;> rfl
      simp [step, this]
    · simp only [step, if_neg hid]
      cases op <;> cases type <;> simp only [forOutgoing, if_true, Bool.false_eq_true, if_false] <;>
        first
        | (generalize (ackTable _ s.inc id).1.1 = st; cases st <;> rfl)
        | (unfold ackTable
           cases hp : s.out.phase id with
           | none => rfl
           | some p =>
             cases p <;> simp only [outAck, Effect.apply] <;> first
               | rfl
               | exact idsOf_set _ hd hp rfl
               | (rw [idsOf_append, idsOf_remove_other _ hd hp rfl]
                  simp [pubrelStep, idsOf, isUnacked, isPubrel])
               | (rw [idsOf_remove_other _ hd hp rfl]; rfl)
               | (rw [idsOf_remove]; rfl))
  | cancel id =>
    simp only [step]
    cases hp : s.out.phase id with
    | none => rfl
    | some p => simp only [pubrelStep, idsOf_remove]

theorem history_ids (cs : List Call) : ∀ {t : Tables} {s : InFlight}, Represents t s → 1 ≤ s.outCap → 1 ≤ s.inCap →
    (∀ c ∈ cs, c ≠ .cancel 0) →
    idsOf isUnacked (run s cs).2.out = (cs.zip ((run s cs).1.map (·.1))).foldl unackedStep (idsOf isUnacked s.out) ∧
    idsOf isPubrel (run s cs).2.out = (cs.zip ((run s cs).1.map (·.1))).foldl pubrelStep (idsOf isPubrel s.out) := by
  induction cs with
  | nil => intro t s _ _ _ _; exact ⟨rfl, rfl⟩
  | cons c cs ih =>
    intro t s h ho hi hc
    obtain ⟨t₁, e₁, e₂, e₃, e₄⟩ := stateCall_refines h ho hi c (hc c (by simp))
    obtain ⟨f₁, f₂⟩ := ih e₂ (by omega) (by omega) (fun x hx => hc x (by simp [hx]))
    constructor
    · simp only [run, List.map_cons, List.zip_cons_cons, List.foldl_cons]
      rw [f₁, unacked_step h.1.distinct]
    · simp only [run, List.map_cons, List.zip_cons_cons, List.foldl_cons]
      rw [f₂, pubrel_step h.1.distinct]

end Mqtt
