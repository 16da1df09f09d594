import Verif.Model.Topic
import Verif.Spec.Topic
/-
Topic matching: the index loops equal a function on lists, which equals a function on levels.
-/
namespace Mqtt
open Spec

set_option linter.unusedSimpArgs false

/-! ### Reading within the stated length -/

theorem readByte_take {m : List UInt8} {len i : Nat} (hi : i < len) (hl : len ≤ m.length) :
    ∃ x, readByte m i = .ok x ∧ (m.take len).drop i = x :: (m.take len).drop (i + 1) := by
  have hm : i < m.length := by omega
  have ht : i < (m.take len).length := by simp; omega
  refine ⟨m[i], ?_, ?_⟩
  · simp [readByte, hm]
  · rw [List.drop_eq_getElem_cons ht]
    simp

theorem drop_take_nil {m : List UInt8} {len i : Nat} (hi : len ≤ i) :
    (m.take len).drop i = [] := by
  apply List.drop_eq_nil_of_le
  simp; omega

theorem drop_take_length {m : List UInt8} {len i : Nat} (hl : len ≤ m.length) :
    ((m.take len).drop i).length = len - i := by
  simp; omega

/-! ### The loops on lists -/

/-- The two special endings. -/
def special (b : UInt8) (f : List UInt8) : Bool :=
  decide (f = [chSlash, chHash]) || (decide (b = chSlash) && (decide (f = [chPlus]) || decide (f = [chHash])))

/-- Remainder of a name from the next separator on. -/
def toSlash : List UInt8 → List UInt8
  | [] => []
  | c :: n => if c = chSlash then c :: n else toSlash n

/-- `matchTopicLoop` on the unread suffixes; `start` is `locationIsValidForWildcard`. -/
def listMatch (start : Bool) : List UInt8 → List UInt8 → Bool
  | [], f => f.isEmpty
  | _ :: _, [] => false
  | a :: n, b :: f =>
    if a = b then
      if n = [] ∧ special b f = true then true else listMatch (decide (b = chSlash)) n f
    else if b = chPlus ∧ start = true then
      match toSlash (a :: n) with
      | [] => f.isEmpty
      | _ :: r =>
        match f with
        | [] => false
        | c :: f' => if c = chSlash then listMatch true r f' else false
    else decide (b = chHash ∧ f = [] ∧ start = true)

theorem special_spec {m : List UInt8} {len j : Nat} {b : UInt8}
    (hj : j < len) (hl : len ≤ m.length) (hb : readByte m j = .ok b) :
    matchEndWildcardsSpecialCases m len j
      = .ok (special b ((m.take len).drop (j + 1))) := by
  have hne : (decide (len ≠ 0)) = true := by simp; omega
  have hlen := drop_take_length (i := j + 1) hl
  by_cases h3 : j + 3 = len
  · obtain ⟨x, hx, hd⟩ := readByte_take (m := m) (len := len) (i := j + 1) (by omega) hl
    obtain ⟨y, hy, hd2⟩ := readByte_take (m := m) (len := len) (i := j + 1 + 1) (by omega) hl
    rw [hd, hd2, drop_take_nil (i := j + 1 + 1 + 1) (by omega)]
    have hc : 3 ≤ len ∧ j + 3 = len := by omega
    have h2 : ¬ (j + 2 = len) := by omega
    simp only [matchEndWildcardsSpecialCases, endsInParentHash, hne, cassert_true, Res.ok_bind, hc, h2, if_true,
      if_false, and_self, hx, special, Res.pure_eq]
    by_cases hs : x = chSlash
    · simp only [hs, if_true, show readByte m (j + 2) = .ok y from hy, Res.ok_bind]
      by_cases hh : y = chHash <;> simp [hh]
    · simp [hs]
  · have hc : ¬ (3 ≤ len ∧ j + 3 = len) := by omega
    have hsp : (m.take len).drop (j + 1) ≠ [chSlash, chHash] := by
      intro h; rw [h] at hlen; simp at hlen; omega
    by_cases h2 : j + 2 = len
    · obtain ⟨x, hx, hd⟩ := readByte_take (m := m) (len := len) (i := j + 1) (by omega) hl
      rw [hd, drop_take_nil (i := j + 1 + 1) (by omega)] at hsp ⊢
      simp only [matchEndWildcardsSpecialCases, endsInParentHash, hne, cassert_true, Res.ok_bind, hc, h2, if_true,
        if_false, hx, hb, special, Res.pure_eq, hsp]
      by_cases hs : b = chSlash
      · simp only [hs, if_true]
        by_cases hp : x = chPlus
        · simp [hp]
        · by_cases hh : x = chHash <;> simp [hp, hh]
      · simp [hs]
    · simp only [matchEndWildcardsSpecialCases, endsInParentHash, hne, cassert_true, Res.ok_bind, hc, h2, if_true,
        if_false, special, Res.pure_eq, hsp]
      have h4 : ∀ x, (m.take len).drop (j + 1) ≠ [x] := by
        intro x h; rw [h] at hlen; simp at hlen; omega
      simp [h4]

theorem skipLevel_spec {m : List UInt8} {len : Nat} (hl : len ≤ m.length) :
    ∀ i, i ≤ len → ∃ i' t, skipLevel m len i = .ok (i', t) ∧ i ≤ i' ∧ i' ≤ len ∧
      toSlash ((m.take len).drop i) = (m.take len).drop i' ∧ (t = true ↔ i' < len) ∧
      (t = true → ∃ r, (m.take len).drop i' = chSlash :: r) := by
  intro i
  induction hk : len - i generalizing i with
  | zero =>
    intro hi
    refine ⟨i, false, ?_, Nat.le_refl _, hi, ?_, ?_, by simp⟩
    · rw [skipLevel, if_neg (by omega)]; rfl
    · rw [drop_take_nil (by omega)]; rfl
    · simp; omega
  | succ k ih =>
    intro hi
    obtain ⟨x, hx, hd⟩ := readByte_take (m := m) (len := len) (i := i) (by omega) hl
    by_cases hs : x = chSlash
    · refine ⟨i, true, ?_, Nat.le_refl _, hi, ?_, ?_, ?_⟩
      · rw [skipLevel, if_pos (by omega), hx]; simp [hs]
      · rw [hd]; simp [toSlash, hs]
      · simp; omega
      · intro _; exact ⟨_, by rw [hd, hs]⟩
    · obtain ⟨i', t, h1, h2, h3, h4, h5, h6⟩ := ih (i + 1) (by omega) (by omega)
      refine ⟨i', t, ?_, by omega, h3, ?_, h5, h6⟩
      · rw [skipLevel, if_pos (by omega), hx]; simp [hs, h1]
      · rw [hd]; simp [toSlash, hs, h4]

theorem loop_spec {nm fm : List UInt8} {nl fl : Nat} (hn : nl ≤ nm.length) (hf : fl ≤ fm.length) :
    ∀ i j start, i ≤ nl → j ≤ fl → wildcardLocation fm j = .ok start →
    matchTopicLoop nm nl fm fl i j
      = .ok (listMatch start ((nm.take nl).drop i) ((fm.take fl).drop j)) := by
  intro i j
  induction hk : fl - j using Nat.strongRecOn generalizing i j with
  | _ k ih =>
  intro start hi hj hw
  by_cases hc : i < nl ∧ j < fl
  · obtain ⟨a, ha, hda⟩ := readByte_take (m := nm) (i := i) hc.1 hn
    obtain ⟨b, hb, hdb⟩ := readByte_take (m := fm) (i := j) hc.2 hf
    have hw' : wildcardLocation fm (j + 1) = .ok (decide (b = chSlash)) := by
      simp [wildcardLocation, hb]; rfl
    rw [matchTopicLoop, if_pos hc, ha, hb, hda, hdb]
    simp only [Res.ok_bind, listMatch]
    by_cases hab : a = b
    · simp only [hab, if_true]
      have hnext := ih (fl - (j + 1)) (by omega) (i + 1) (j + 1) rfl _ (by omega) (by omega) hw'
      by_cases hlast : i + 1 = nl
      · have hnil : (nm.take nl).drop (i + 1) = [] := drop_take_nil (by omega)
        simp only [hlast, if_true, special_spec hc.2 hf hb, Res.ok_bind]
        rw [show nl = i + 1 from hlast.symm] at hnext ⊢
        rw [show (nm.take (i+1)).drop (i+1) = [] from drop_take_nil (by omega)] at hnext ⊢
        by_cases hsp : special b ((fm.take fl).drop (j + 1)) = true
        · simp [hsp]
        · simp only [hsp, if_false]
          rw [hnext]; simp
      · have hnil : (nm.take nl).drop (i + 1) ≠ [] := by
          intro h
          have := drop_take_length (i := i + 1) hn
          rw [h] at this; simp at this; omega
        simp only [hlast, if_false, hnil, false_and]
        exact hnext
    · simp only [hab, if_false]
      have hnl : (decide (nl ≠ 0)) = true := by simp; omega
      have hfl : (decide (fl ≠ 0)) = true := by simp; omega
      by_cases hp : b = chPlus ∧ start = true
      · obtain ⟨i', t, h1, h2, h3, h4, h5, h6⟩ := skipLevel_spec hn i (by omega)
        rw [hda] at h4
        rw [h4]
        cases t with
        | false =>
          have hil : i' = nl := by
            have : ¬ i' < nl := fun h => by simpa using h5.2 h
            omega
          have hstep : matchWildcards nm nl fm fl i j = .ok (.go (nl - 1) j) := by
            unfold matchWildcards
            obtain ⟨q, hq⟩ : ∃ q, nextLevelInFilter fm fl j = .ok q := by
              unfold nextLevelInFilter
              split
              · rename_i hlt
                obtain ⟨z, hz, _⟩ := readByte_take (m := fm) hlt hf
                rw [hz]; exact ⟨_, rfl⟩
              · exact ⟨_, rfl⟩
            simp only [hnl, hfl, cassert_true, Res.ok_bind, hw, hb, hp, and_self, if_true, h1, hq, hil]
            simp
          have hnext := ih (fl - (j + 1)) (by omega) nl (j + 1) rfl _ (by omega) (by omega) hw'
          rw [drop_take_nil (Nat.le_refl nl), listMatch] at hnext
          rw [hil, drop_take_nil (Nat.le_refl nl)]
          simp only [hp, and_self, if_true]
          split
          · simp_all
          · simp_all
          · simp_all
          · rename_i n' f' he
            rw [hstep] at he
            cases he
            rw [show nl - 1 + 1 = nl by omega]
            exact hnext
        | true =>
          have hil : i' < nl := h5.1 rfl
          obtain ⟨r, hr⟩ := h6 rfl
          obtain ⟨s, hs, hds⟩ := readByte_take (m := nm) (i := i') hil hn
          rw [hr] at hds
          injection hds with hs1 hs2
          rw [hr]
          simp only [hp, and_self, if_true]
          by_cases hnf : j + 1 < fl
          · obtain ⟨z, hz, hdz⟩ := readByte_take (m := fm) hnf hf
            have hq : nextLevelInFilter fm fl j = .ok (z == chSlash) := by
              unfold nextLevelInFilter
              rw [if_pos hnf, hz]; rfl
            rw [hdz]
            by_cases hzs : z = chSlash
            · have hstep : matchWildcards nm nl fm fl i j = .ok (.go i' (j + 1)) := by
                unfold matchWildcards
                simp only [hnl, hfl, cassert_true, Res.ok_bind, hw, hb, hp, and_self, if_true, h1, hq, hzs]
                simp
              have hw2 : wildcardLocation fm (j + 1 + 1) = .ok true := by
                simp [wildcardLocation, hz, hzs]
              have hnext := ih (fl - (j + 1 + 1)) (by omega) (i' + 1) (j + 1 + 1) rfl _ (by omega) (by omega) hw2
              simp only [hzs, if_true]
              split
              · simp_all
              · simp_all
              · simp_all
              · rename_i n' f' he
                rw [hstep] at he
                cases he
                rw [hs2, hnext]
            · have hstep : matchWildcards nm nl fm fl i j = .ok (.stop false) := by
                unfold matchWildcards
                simp only [hnl, hfl, cassert_true, Res.ok_bind, hw, hb, hp, and_self, if_true, h1, hq]
                simp [hzs]
              simp only [hzs, if_false]
              split <;> simp_all
              omega
          · have hq : nextLevelInFilter fm fl j = .ok false := by
              unfold nextLevelInFilter
              rw [if_neg hnf]; rfl
            have hstep : matchWildcards nm nl fm fl i j = .ok (.stop false) := by
              unfold matchWildcards
              simp only [hnl, hfl, cassert_true, Res.ok_bind, hw, hb, hp, and_self, if_true, h1, hq]
              simp
            rw [drop_take_nil (i := j + 1) (by omega)]
            split <;> simp_all
            omega
      · simp only [hp, if_false]
        have hnil : (fm.take fl).drop (j + 1) = [] ↔ j + 1 = fl := by
          constructor
          · intro h
            have := drop_take_length (i := j + 1) hf
            rw [h] at this; simp at this; omega
          · intro h; exact drop_take_nil (by omega)
        have hstep : matchWildcards nm nl fm fl i j
            = .ok (.stop (decide (b = chHash ∧ (fm.take fl).drop (j + 1) = [] ∧ start = true))) := by
          unfold matchWildcards
          simp only [hnl, hfl, cassert_true, Res.ok_bind, hw, hb, hp, if_false, hnil]
          split
          · rename_i h; simp [h]
          · rename_i h; simp only [decide_eq_false h]; rfl
        split
        · simp_all
        · rename_i he
          rw [hstep] at he
          simp only [Res.ok.injEq, WildStep.stop.injEq] at he
          rw [he]; rfl
        · rename_i he
          rw [hstep] at he
          simp only [Res.ok.injEq, WildStep.stop.injEq] at he
          rw [he]
          have : ¬ (i = nl ∧ j = fl) := by omega
          simp [this]
        · simp_all
  · rw [matchTopicLoop, if_neg hc]
    simp only [Res.pure_eq, Res.ok.injEq]
    by_cases h1 : i < nl
    · have hj' : j = fl := by omega
      obtain ⟨a, ha, hda⟩ := readByte_take (m := nm) (i := i) h1 hn
      rw [hda, drop_take_nil (i := j) (by omega), listMatch]
      have : ¬ (i = nl ∧ j = fl) := by omega
      simp [this]
    · rw [drop_take_nil (i := i) (by omega), listMatch]
      by_cases h2 : j = fl
      · rw [drop_take_nil (i := j) (by omega)]
        have : i = nl := by omega
        simp [this, h2]
      · obtain ⟨b, hb, hdb⟩ := readByte_take (m := fm) (i := j) (by omega) hf
        rw [hdb]
        simp [h2]

end Mqtt
