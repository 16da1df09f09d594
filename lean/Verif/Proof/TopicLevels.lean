import Verif.Proof.Topic
/-
Topic matching: the list function equals level-by-level matching minus the missed cases.
-/
namespace Mqtt
open Spec

set_option linter.unusedSimpArgs false

theorem levels_ne_nil : ∀ s, levels s ≠ []
  | [] => by simp [levels]
  | c :: cs => by
    simp only [levels]
    split
    · simp
    · split <;> simp

theorem levels_cons_ne {c : UInt8} {cs l : List UInt8} {ls : List (List UInt8)}
    (hc : c ≠ 0x2F) (h : levels cs = l :: ls) : levels (c :: cs) = (c :: l) :: ls := by
  simp [levels, hc, h]

theorem levels_slash (cs : List UInt8) : levels (0x2F :: cs) = [] :: levels cs := by
  simp [levels]

/-- The first level and the others of a string are determined by it: an empty single level means
the empty string. -/
theorem levels_eq_nil {s : List UInt8} : levels s = [[]] ↔ s = [] := by
  cases s with
  | nil => simp [levels]
  | cons c cs =>
    simp only [levels, reduceCtorEq, iff_false]
    split
    · have := levels_ne_nil cs
      simpa using this
    · split <;> simp

theorem levels_inj : ∀ {s t : List UInt8}, levels s = levels t → s = t
  | [], t => fun h => (levels_eq_nil.1 h.symm).symm
  | c :: cs, [] => fun h => absurd (levels_eq_nil.1 h) (by simp)
  | c :: cs, d :: ds => fun h => by
    obtain ⟨l, ls, hl⟩ := List.exists_cons_of_ne_nil (levels_ne_nil cs)
    obtain ⟨k, ks, hk⟩ := List.exists_cons_of_ne_nil (levels_ne_nil ds)
    by_cases hc : c = 0x2F
    · by_cases hd : d = 0x2F
      · subst hc; subst hd
        rw [levels_slash, levels_slash] at h
        injection h with _ h
        rw [levels_inj h]
      · subst hc
        rw [levels_slash, levels_cons_ne hd hk] at h
        simp at h
    · by_cases hd : d = 0x2F
      · subst hd
        rw [levels_slash, levels_cons_ne hc hl] at h
        simp at h
      · rw [levels_cons_ne hc hl, levels_cons_ne hd hk] at h
        simp only [List.cons.injEq] at h
        obtain ⟨⟨h1, h2⟩, h3⟩ := h
        have : levels cs = levels ds := by rw [hl, hk, h2, h3]
        rw [h1, levels_inj this]

theorem mem_levels {s l : List UInt8} {x : UInt8} (hl : l ∈ levels s) (hx : x ∈ l) : x ∈ s := by
  induction s generalizing l with
  | nil => simp [levels] at hl; subst hl; simp at hx
  | cons c cs ih =>
    obtain ⟨k, ks, hk⟩ := List.exists_cons_of_ne_nil (levels_ne_nil cs)
    by_cases hc : c = 0x2F
    · subst hc
      rw [levels_slash] at hl
      rcases List.mem_cons.1 hl with h | h
      · subst h; simp at hx
      · exact List.mem_cons_of_mem _ (ih h hx)
    · rw [levels_cons_ne hc hk] at hl
      rcases List.mem_cons.1 hl with h | h
      · subst h
        rcases List.mem_cons.1 hx with h | h
        · simp [h]
        · exact List.mem_cons_of_mem _ (ih (hk ▸ List.mem_cons_self) h)
      · exact List.mem_cons_of_mem _ (ih (hk ▸ List.mem_cons_of_mem _ h) hx)

/-- What the implementation accepts, on levels.  `ap`: the previous filter level was `"+"`. -/
def codeLevels (ap : Bool) : List (List UInt8) → List (List UInt8) → Bool
  | _, [] => false
  | [], _ :: _ => false
  | g :: fr, [l] =>
    let late := decide (l = []) && ap
    if fr = [] then (decide (g = l)) || ((decide (g = plusLevel) || decide (g = hashLevel)) && !late)
    else if fr = [hashLevel] then decide (g = l) && !late
    else false
  | g :: fr, l :: l2 :: lr =>
    if g = hashLevel ∧ fr = [] then true
    else (decide (g = plusLevel) || decide (g = l)) && codeLevels (decide (g = plusLevel)) fr (l2 :: lr)

/-- The same when the current levels are already partly read: they must agree literally. -/
def codeLit : List (List UInt8) → List (List UInt8) → Bool
  | _, [] => false
  | [], _ :: _ => false
  | g :: fr, [l] => decide (g = l) && (decide (fr = []) || decide (fr = [hashLevel]))
  | g :: fr, l :: l2 :: lr => decide (g = l) && codeLevels false fr (l2 :: lr)

theorem codeLevels_flag {fl : List (List UInt8)} {n : List UInt8} (hn : n ≠ []) (ap : Bool) :
    codeLevels ap fl (levels n) = codeLevels false fl (levels n) := by
  obtain ⟨l, ls, hl⟩ := List.exists_cons_of_ne_nil (levels_ne_nil n)
  have h0 : ls = [] → l ≠ [] := by
    intro h1 h2; subst h1; subst h2; exact hn (levels_eq_nil.1 hl)
  rw [hl]
  cases fl with
  | nil => simp [codeLevels]
  | cons g fr =>
    cases ls with
    | nil => simp [codeLevels, h0]
    | cons l2 lr => simp [codeLevels]

theorem codeLevels_nil {f : List UInt8} : codeLevels true (levels f) (levels []) = f.isEmpty := by
  obtain ⟨g, fr, hg⟩ := List.exists_cons_of_ne_nil (levels_ne_nil f)
  have h := levels_eq_nil (s := f)
  rw [hg] at h
  rw [hg, show levels [] = [[]] from rfl]
  simp only [codeLevels]
  cases fr with
  | nil =>
    by_cases hgn : g = []
    · subst hgn
      have := h.1 rfl
      simp [this]
    · have : f ≠ [] := fun e => hgn (by simpa using h.2 e)
      simp [hgn, this]
  | cons a b =>
    have : f ≠ [] := fun e => by simpa using h.2 e
    simp [this]

theorem toSlash_nil {n : List UInt8} (h : toSlash n = []) : levels n = [n] := by
  induction n with
  | nil => rfl
  | cons c cs ih =>
    simp only [toSlash] at h
    split at h
    · simp at h
    · rename_i hc
      exact levels_cons_ne hc (ih h)

theorem toSlash_cons {n : List UInt8} {c : UInt8} {r : List UInt8} (h : toSlash n = c :: r) :
    ∃ l, levels n = l :: levels r ∧ ∀ x ∈ r, x ∈ n := by
  induction n with
  | nil => simp [toSlash] at h
  | cons d cs ih =>
    simp only [toSlash] at h
    split at h
    · rename_i hd
      injection h with h1 h2
      subst h2
      refine ⟨[], ?_, fun x hx => List.mem_cons_of_mem _ hx⟩
      rw [hd]; exact levels_slash _
    · rename_i hd
      obtain ⟨l, hl, hm⟩ := ih h
      exact ⟨d :: l, levels_cons_ne hd hl, fun x hx => List.mem_cons_of_mem _ (hm x hx)⟩

/-- No wildcard characters. -/
def Plain (n : List UInt8) : Prop := 0x2B ∉ n ∧ 0x23 ∉ n

theorem Plain.level {n l : List UInt8} (h : Plain n) (hl : l ∈ levels n) : Plain l :=
  ⟨fun hx => h.1 (mem_levels hl hx), fun hx => h.2 (mem_levels hl hx)⟩

theorem special_levels {b : UInt8} {f : List UInt8} :
    special b f = (decide (levels f = [[], hashLevel]) ||
      (decide (b = chSlash) && (decide (levels f = [plusLevel]) || decide (levels f = [hashLevel])))) := by
  have h1 : levels f = [[], hashLevel] ↔ f = [chSlash, chHash] := by
    constructor
    · intro h; exact levels_inj (h.trans (by decide))
    · intro h; subst h; decide
  have h2 : levels f = [plusLevel] ↔ f = [chPlus] := by
    constructor
    · intro h; exact levels_inj (h.trans (by decide))
    · intro h; subst h; decide
  have h3 : levels f = [hashLevel] ↔ f = [chHash] := by
    constructor
    · intro h; exact levels_inj (h.trans (by decide))
    · intro h; subst h; decide
  simp only [special, h1, h2, h3]

/-- `listMatch` on levels, both at the start of a level and inside one. -/
theorem listMatch_levels : ∀ (f : List UInt8) (n : List UInt8), n ≠ [] → Plain n →
    listMatch true n f = codeLevels false (levels f) (levels n) ∧
    listMatch false n f = codeLit (levels f) (levels n) := by
  intro f
  induction hk : f.length using Nat.strongRecOn generalizing f with
  | _ k ih =>
  intro n hn hp
  obtain ⟨a, n', rfl⟩ := List.exists_cons_of_ne_nil hn
  obtain ⟨l, lr, hl⟩ := List.exists_cons_of_ne_nil (levels_ne_nil n')
  have hp' : Plain n' := ⟨fun h => hp.1 (List.mem_cons_of_mem _ h), fun h => hp.2 (List.mem_cons_of_mem _ h)⟩
  have hap : a ≠ 0x2B := fun h => hp.1 (by simp [h])
  have hah : a ≠ 0x23 := fun h => hp.2 (by simp [h])
  cases f with
  | nil =>
    have h1 : levels (a :: n') ≠ [[]] := fun h => by simpa using levels_eq_nil.1 h
    obtain ⟨l0, lr0, hl0⟩ := List.exists_cons_of_ne_nil (levels_ne_nil (a :: n'))
    rw [hl0] at h1 ⊢
    simp only [listMatch, levels]
    cases lr0 with
    | nil =>
      have : l0 ≠ [] := by simpa using h1
      simp [codeLevels, codeLit, this, this.symm, plusLevel, hashLevel]
    | cons l2 lr2 => simp [codeLevels, codeLit, plusLevel, hashLevel]
  | cons b f' =>
    obtain ⟨g, fr, hg⟩ := List.exists_cons_of_ne_nil (levels_ne_nil f')
    by_cases hab : a = b
    · subst hab
      by_cases hs : a = 0x2F
      · subst hs
        rw [levels_slash, levels_slash]
        simp only [listMatch, if_true]
        by_cases hn' : n' = []
        · subst hn'
          simp only [special_levels, show (chSlash = 0x2F) from rfl, true_and, listMatch]
          have hz := levels_eq_nil (s := f')
          rw [hg] at hz ⊢
          have hfe : f'.isEmpty = decide ((g :: fr) = [[]]) := by
            rw [Bool.eq_iff_iff]; simp [List.isEmpty_iff, hz.symm]
          simp only [levels, codeLevels, codeLit, hfe]
          by_cases h1 : fr = [] <;> by_cases h2 : fr = [hashLevel] <;> by_cases h3 : g = [] <;>
            by_cases h4 : g = plusLevel <;> by_cases h5 : g = hashLevel <;>
            simp_all [plusLevel, hashLevel]
        · have hi := ih f'.length (by simp at hk; omega) f' rfl n' hn' hp'
          obtain ⟨l2, lr2, hl2⟩ := List.exists_cons_of_ne_nil (levels_ne_nil n')
          simp only [hn', false_and, if_false]
          rw [show (decide ((0x2F : UInt8) = chSlash)) = true from rfl, hi.1, hl2]
          simp [codeLevels, codeLit, plusLevel, hashLevel]
      · rw [levels_cons_ne hs hg, levels_cons_ne hs hl]
        have hsd : decide (a = chSlash) = false := decide_eq_false hs
        have hge : ∀ x, ¬ (a :: x = plusLevel) := by intro x h; simp [plusLevel] at h; exact hap h.1
        have hgh : ∀ x, ¬ (a :: x = hashLevel) := by intro x h; simp [hashLevel] at h; exact hah h.1
        simp only [listMatch, if_true, hsd]
        by_cases hn' : n' = []
        · subst hn'
          simp only [levels, List.cons.injEq] at hl
          obtain ⟨rfl, rfl⟩ := hl
          have hz := levels_eq_nil (s := f')
          rw [hg] at hz
          have hfe : f'.isEmpty = decide ((g :: fr) = [[]]) := by
            rw [Bool.eq_iff_iff]; simp [List.isEmpty_iff, hz.symm]
          simp only [special_levels, hg, true_and, listMatch, hsd, hfe, codeLevels, codeLit]
          by_cases h1 : fr = [] <;> by_cases h2 : fr = [hashLevel] <;> by_cases h3 : g = [] <;>
            simp_all [plusLevel, hashLevel]
        · have hi := ih f'.length (by simp at hk; omega) f' rfl n' hn' hp'
          simp only [hn', false_and, if_false]
          rw [hi.2, hg, hl]
          have hl0 : lr = [] → l ≠ [] := by
            intro h1 h2; subst h1; subst h2; exact hn' (levels_eq_nil.1 hl)
          cases lr with
          | nil =>
            have := hl0 rfl
            simp only [codeLevels, codeLit, hge, hgh]
            by_cases h1 : fr = [] <;> by_cases h2 : fr = [hashLevel] <;> simp_all
          | cons l2 lr2 =>
            simp [codeLevels, codeLit, hge, hgh]
    · simp only [listMatch, hab, if_false]
      obtain ⟨l0, lr0, hl0⟩ := List.exists_cons_of_ne_nil (levels_ne_nil (a :: n'))
      have hl0p : Plain l0 := hp.level (hl0 ▸ List.mem_cons_self)
      -- the first levels differ literally
      have hdiff : ∀ g0 fr0, levels (b :: f') = g0 :: fr0 → g0 ≠ l0 := by
        intro g0 fr0 h he
        subst he
        by_cases hb : b = 0x2F
        · subst hb
          rw [levels_slash] at h
          injection h with h1 h2
          rw [levels_cons_ne hab hl] at hl0
          rw [← h1] at hl0
          simp at hl0
        · rw [levels_cons_ne hb hg] at h
          injection h with h1 h2
          by_cases ha : a = 0x2F
          · subst ha
            rw [levels_slash, ← h1] at hl0
            simp at hl0
          · rw [levels_cons_ne ha hl, ← h1] at hl0
            simp at hl0
            exact hab hl0.1.1
      obtain ⟨g0, fr0, hg0⟩ := List.exists_cons_of_ne_nil (levels_ne_nil (b :: f'))
      have hd := hdiff g0 fr0 hg0
      have hlit : codeLit (levels (b :: f')) (levels (a :: n')) = false := by
        rw [hg0, hl0]
        cases lr0 <;> simp [codeLit, hd]
      constructor
      · by_cases hbp : b = chPlus
        · subst hbp
          have hgf : levels (chPlus :: f') = (chPlus :: g) :: fr := levels_cons_ne (by decide) hg
          rw [hgf] at hg0
          injection hg0 with hg1 hg2
          subst hg1; subst hg2
          simp only [and_self, if_true]
          have hgp : (chPlus :: g = plusLevel) ↔ g = [] := by simp [plusLevel, chPlus]
          have hgh : ¬ (chPlus :: g = hashLevel) := by simp [hashLevel, chPlus]
          have hz := levels_eq_nil (s := f')
          rw [hg] at hz
          have hfe : f'.isEmpty = decide ((g :: fr) = [[]]) := by
            rw [Bool.eq_iff_iff]; simp [List.isEmpty_iff, hz.symm]
          cases hts : toSlash (a :: n') with
          | nil =>
            have hls := toSlash_nil hts
            rw [hls] at hl0 ⊢
            rw [hgf]
            injection hl0 with hl1 hl2
            subst hl1
            simp only [codeLevels, hd, hgp, hgh, hfe]
            by_cases h1 : fr = [] <;> by_cases h2 : fr = [hashLevel] <;> by_cases h3 : g = [] <;>
              simp_all
          | cons c r =>
            obtain ⟨l1, hl1, hr⟩ := toSlash_cons hts
            have hrp : Plain r := ⟨fun h => hp.1 (hr _ h), fun h => hp.2 (hr _ h)⟩
            rw [hl1] at hl0 ⊢
            injection hl0 with hl01 hl02
            subst hl01
            obtain ⟨l2, lr2, hl2⟩ := List.exists_cons_of_ne_nil (levels_ne_nil r)
            rw [hgf, hl2]
            simp only [codeLevels, hd, hgp, hgh, false_and, if_false, decide_false, Bool.or_false]
            cases f' with
            | nil =>
              simp only [levels, List.cons.injEq] at hg
              obtain ⟨rfl, rfl⟩ := hg
              simp [codeLevels]
            | cons c' f'' =>
              by_cases hc : c' = chSlash
              · subst hc
                rw [show levels (chSlash :: f'') = [] :: levels f'' from levels_slash _] at hg
                injection hg with hg1 hg2
                subst hg1; subst hg2
                simp only [if_true, decide_true, Bool.true_and]
                by_cases hrn : r = []
                · subst hrn
                  rw [← hl2, codeLevels_nil]
                  simp [listMatch]
                · rw [(ih f''.length (by simp at hk; omega) f'' rfl r hrn hrp).1, ← hl2,
                    codeLevels_flag hrn true]
              · obtain ⟨g2, fr2, hg2⟩ := List.exists_cons_of_ne_nil (levels_ne_nil f'')
                rw [levels_cons_ne hc hg2] at hg
                injection hg with hg1 _
                simp [hc, ← hg1]
        · simp only [hbp, false_and, if_false]
          rw [hg0, hl0]
          have hgp : g0 ≠ plusLevel := by
            intro h
            subst h
            by_cases hb : b = 0x2F
            · subst hb
              rw [levels_slash] at hg0
              simp [plusLevel] at hg0
            · rw [levels_cons_ne hb hg] at hg0
              simp [plusLevel] at hg0
              exact hbp hg0.1.1
          have hgh : g0 = hashLevel ∧ fr0 = [] ↔ b = chHash ∧ f' = [] := by
            constructor
            · rintro ⟨h1, h2⟩
              subst h1; subst h2
              have := levels_inj (hg0.trans (show [hashLevel] = levels [chHash] by decide))
              simpa using this
            · rintro ⟨h1, h2⟩
              subst h1; subst h2
              rw [show levels [chHash] = [hashLevel] by decide] at hg0
              simp at hg0
              exact ⟨hg0.1.symm, hg0.2⟩
          cases lr0 with
          | nil =>
            have hl0n : l0 ≠ [] := fun h => by
              rw [h] at hl0; simpa using levels_eq_nil.1 hl0
            simp only [codeLevels, hd, hgp, hl0n]
            by_cases h1 : fr0 = [] <;> simp_all
          | cons l2 lr2 =>
            simp only [codeLevels, hd, hgp, hgh]
            by_cases h1 : b = chHash ∧ f' = [] <;> simp [h1]
      · rw [hlit]
        simp

/-- Missed cases, with the flag for a `"+"` before the first level. -/
def missedLevels (ap : Bool) (F N : List (List UInt8)) : Bool :=
  let k := N.length
  (decide (F.length = k + 1) && decide (F[k]? = some hashLevel) && decide (F[k - 1]? = some plusLevel)) ||
  (decide (N.getLast? = some []) && (if k = 1 then ap else decide (F[k - 2]? = some plusLevel)) &&
    ((decide (F.length = k) && (decide (F[k - 1]? = some plusLevel) || decide (F[k - 1]? = some hashLevel))) ||
     (decide (F.length = k + 1) && decide (F[k]? = some hashLevel))))

theorem codeLevels_spec : ∀ (N F : List (List UInt8)) (ap : Bool), N ≠ [] →
    (∀ l ∈ N, Plain l) →
    codeLevels ap F N = (levelsMatch F N && !missedLevels ap F N)
  | [], _, _, h, _ => absurd rfl h
  | l :: ls, [], ap, _, _ => by cases ls <;> simp [codeLevels, levelsMatch]
  | [l], g :: fr, ap, _, hp => by
    have hl := hp l (by simp)
    have h1 : l ≠ plusLevel := fun h => hl.1 (by simp [h, plusLevel])
    have h2 : l ≠ hashLevel := fun h => hl.2 (by simp [h, hashLevel])
    have hph : plusLevel ≠ hashLevel := by decide
    cases fr with
    | nil =>
      simp only [codeLevels, levelsMatch, missedLevels]
      by_cases h3 : g = plusLevel <;> by_cases h4 : g = hashLevel <;> by_cases h5 : g = l <;> by_cases h6 : l = [] <;>
        cases ap <;> simp_all
    | cons g2 fr2 =>
      simp only [codeLevels, levelsMatch, missedLevels]
      cases fr2 with
      | nil =>
        by_cases h3 : g = plusLevel <;> by_cases h4 : g = hashLevel <;> by_cases h5 : g = l <;> by_cases h6 : l = [] <;>
          by_cases h7 : g2 = hashLevel <;> cases ap <;> simp_all [levelsMatch]
      | cons g3 fr3 =>
        by_cases h3 : g = plusLevel <;> by_cases h4 : g = hashLevel <;> by_cases h5 : g = l <;>
          by_cases h7 : g2 = hashLevel <;> cases ap <;> simp_all [levelsMatch]
  | l :: l2 :: lr, g :: fr, ap, _, hp => by
    have ih := codeLevels_spec (l2 :: lr) fr (decide (g = plusLevel)) (by simp)
      (fun x hx => hp x (List.mem_cons_of_mem _ hx))
    have hm : missedLevels ap (g :: fr) (l :: l2 :: lr)
        = missedLevels (decide (g = plusLevel)) fr (l2 :: lr) := by
      simp only [missedLevels, List.length_cons, List.getLast?_cons_cons]
      cases lr with
      | nil => simp
      | cons x xs => simp
    by_cases hh : g = hashLevel ∧ fr = []
    · obtain ⟨rfl, rfl⟩ := hh
      have : missedLevels (decide (hashLevel = plusLevel)) [] (l2 :: lr) = false := by
        simp [missedLevels]
      rw [hm, this]
      simp [codeLevels, levelsMatch]
    · rw [hm]
      simp only [codeLevels, levelsMatch, hh, if_false, ih, Bool.and_assoc]

/-- The list function against the specification. -/
theorem listMatch_spec {n f : List UInt8} (hn : n ≠ []) (hp : Plain n) :
    listMatch true n f = (levelsMatch (levels f) (levels n) && !missed f n) := by
  rw [(listMatch_levels f n hn hp).1,
    codeLevels_spec _ _ _ (levels_ne_nil n) (fun l hl => hp.level hl)]
  congr 2
  simp only [missedLevels, missed]
  congr 1
  by_cases h1 : (levels n).length = 1
  · obtain ⟨l, hl⟩ := List.length_eq_one_iff.1 h1
    have : l ≠ [] := fun h => by rw [h] at hl; exact hn (levels_eq_nil.1 hl)
    rw [hl]
    simp [this]
  · have h0 : (levels n).length ≠ 0 := by simpa using levels_ne_nil n
    have h2 : 2 ≤ (levels n).length := by omega
    simp [h1, h2]

end Mqtt
