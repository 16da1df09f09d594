import Verif.Proof.TopicLevels
/-
C24-C26: topic matching.
-/
namespace Mqtt
open Spec

set_option linter.unusedSimpArgs false

/-- ASCII text as bytes, for the examples. -/
def ascii (s : String) : List UInt8 := s.toList.map fun c => UInt8.ofNat c.toNat

/-- `MQTT_MatchTopic` called with two strings and their true lengths. -/
def matchCall (name filter : List UInt8) : Res (Status × Option Bool) :=
  matchTopic (some name) (UInt16.ofNat name.length) (some filter) (UInt16.ofNat filter.length) true

/-- Lengths a caller can state: 1..65535. -/
def Len16 (s : List UInt8) : Prop := s ≠ [] ∧ s.length < 65536

instance (s : List UInt8) : Decidable (Len16 s) := inferInstanceAs (Decidable (_ ∧ _))
instance (s : List UInt8) : Decidable (ValidName s) := inferInstanceAs (Decidable (_ ∧ _))
instance (s : List UInt8) : Decidable (ValidFilter s) := inferInstanceAs (Decidable (_ ∧ _))

theorem strncmpEq_spec {a b : List UInt8} {n : Nat} (ha : n ≤ a.length) (hb : n ≤ b.length) :
    ∀ i, i ≤ n → ∃ r, strncmpEq a b n i = .ok r ∧
      ((a.take n).drop i = (b.take n).drop i → r = true) ∧
      (r = true → 0 ∉ a.take n → (a.take n).drop i = (b.take n).drop i) := by
  intro i
  induction hk : n - i generalizing i with
  | zero =>
    intro hi
    refine ⟨true, ?_, by simp, ?_⟩
    · rw [strncmpEq, if_neg (by omega)]; rfl
    · intro _ _
      rw [drop_take_nil (by omega), drop_take_nil (by omega)]
  | succ k ih =>
    intro hi
    obtain ⟨x, hx, hdx⟩ := readByte_take (m := a) (len := n) (i := i) (by omega) ha
    obtain ⟨y, hy, hdy⟩ := readByte_take (m := b) (len := n) (i := i) (by omega) hb
    obtain ⟨r, h1, h2, h3⟩ := ih (i + 1) (by omega) (by omega)
    rw [strncmpEq, if_pos (by omega), hx, hy, hdx, hdy]
    simp only [Res.ok_bind]
    by_cases hxy : x = y
    · subst hxy
      by_cases h0 : x = 0
      · subst h0
        refine ⟨true, by simp, by simp, ?_⟩
        intro _ hz
        refine absurd ?_ hz
        have : (0 : UInt8) ∈ (a.take n).drop i := by rw [hdx]; simp
        exact List.mem_of_mem_drop this
      · refine ⟨r, by simp [h0, h1], ?_, ?_⟩
        · intro h; exact h2 (by simpa using h)
        · intro hr hz; rw [h3 hr hz]
    · refine ⟨false, by simp [hxy], ?_, by simp⟩
      intro h; simp at h; exact absurd h.1 hxy

theorem toNat_ofNat16 {n : Nat} (h : n < 65536) : (UInt16.ofNat n).toNat = n := by
  simp [UInt16.toNat_ofNat']; omega

/-- The outcome in terms of the two prefixes, for any memory holding at least the stated bytes. -/
theorem matchTopicBody_eq {nm fm : List UInt8} {nl fl : Nat}
    (hn : nl ≤ nm.length) (hf : fl ≤ fm.length) (hn0 : nl ≠ 0) (hf0 : fl ≠ 0) :
    ∃ r, matchTopicBody nm nl fm fl = .ok r ∧
      (nm.take nl = fm.take fl → r = true) ∧
      (0 ∉ nm.take nl → r = (decide (nm.take nl = fm.take fl) ||
        (!(decide ((nm.take nl).head? = some 0x24) &&
            (decide ((fm.take fl).head? = some 0x2B) || decide ((fm.take fl).head? = some 0x23))) &&
          listMatch true (nm.take nl) (fm.take fl)))) ∧
      matchTopicBody (nm.take nl) nl (fm.take fl) fl = .ok r := by
  -- one computation, valid for every pair of memories with these prefixes
  suffices H : ∃ r, (∀ a b : List UInt8, nl ≤ a.length → fl ≤ b.length →
      a.take nl = nm.take nl → b.take fl = fm.take fl → matchTopicBody a nl b fl = .ok r) ∧
      (nm.take nl = fm.take fl → r = true) ∧
      (0 ∉ nm.take nl → r = (decide (nm.take nl = fm.take fl) ||
        (!(decide ((nm.take nl).head? = some 0x24) &&
            (decide ((fm.take fl).head? = some 0x2B) || decide ((fm.take fl).head? = some 0x23))) &&
          listMatch true (nm.take nl) (fm.take fl)))) by
    obtain ⟨r, h1, h2, h3⟩ := H
    exact ⟨r, h1 nm fm hn hf rfl rfl, h2, h3,
      h1 _ _ (by rw [List.length_take]; omega) (by rw [List.length_take]; omega)
        (by rw [List.take_take, Nat.min_self]) (by rw [List.take_take, Nat.min_self])⟩
  have hcmp : ∃ e, (∀ a b : List UInt8, nl ≤ a.length → fl ≤ b.length →
      a.take nl = nm.take nl → b.take fl = fm.take fl →
      exactMatch a nl b fl = .ok e) ∧
      (nm.take nl = fm.take fl → e = true) ∧
      (0 ∉ nm.take nl → e = true → nm.take nl = fm.take fl) := by
    by_cases hl : nl = fl
    · subst hl
      obtain ⟨r, h1, h2, h3⟩ := strncmpEq_spec hn hf 0 (by omega)
      refine ⟨r, ?_, fun h => h2 (by simpa using h), fun hz hr => by simpa using h3 hr hz⟩
      intro a b ha hb hta htb
      rw [exactMatch, if_pos rfl]
      -- strncmp only depends on the prefixes
      have key : ∀ i, i ≤ nl → strncmpEq a b nl i = strncmpEq nm fm nl i := by
        intro i
        induction hk : nl - i generalizing i with
        | zero => intro hi; rw [strncmpEq.eq_1 a, strncmpEq.eq_1 nm, if_neg (by omega), if_neg (by omega)]
        | succ k ih =>
          intro hi
          obtain ⟨x, hx, hdx⟩ := readByte_take (m := a) (len := nl) (i := i) (by omega) ha
          obtain ⟨y, hy, hdy⟩ := readByte_take (m := b) (len := nl) (i := i) (by omega) hb
          obtain ⟨x', hx', hdx'⟩ := readByte_take (m := nm) (len := nl) (i := i) (by omega) hn
          obtain ⟨y', hy', hdy'⟩ := readByte_take (m := fm) (len := nl) (i := i) (by omega) hf
          rw [hta, hdx'] at hdx
          rw [htb, hdy'] at hdy
          injection hdx with e1 _
          injection hdy with e2 _
          rw [strncmpEq.eq_1 a, strncmpEq.eq_1 nm, if_pos (by omega), if_pos (by omega), hx, hy, hx', hy', e1, e2,
            ih (i + 1) (by omega) (by omega)]
      rw [key 0 (by omega), h1]
    · refine ⟨false, fun a b _ _ _ _ => by simp [exactMatch, hl], ?_, by simp⟩
      intro h
      have := congrArg List.length h
      simp at this; omega
  obtain ⟨e, he, he1, he2⟩ := hcmp
  obtain ⟨x, hx, hdx⟩ := readByte_take (m := nm) (len := nl) (i := 0) (by omega) hn
  obtain ⟨y, hy, hdy⟩ := readByte_take (m := fm) (len := fl) (i := 0) (by omega) hf
  have hhx : (nm.take nl).head? = some x := by rw [List.drop_zero] at hdx; rw [hdx]; rfl
  have hhy : (fm.take fl).head? = some y := by rw [List.drop_zero] at hdy; rw [hdy]; rfl
  refine ⟨if e = true then true else if x = chDollar ∧ (y = chPlus ∨ y = chHash) then false
      else listMatch true (nm.take nl) (fm.take fl), ?_, ?_, ?_⟩
  · intro a b ha hb hta htb
    obtain ⟨x', hx', hdx'⟩ := readByte_take (m := a) (len := nl) (i := 0) (by omega) ha
    obtain ⟨y', hy', hdy'⟩ := readByte_take (m := b) (len := fl) (i := 0) (by omega) hb
    rw [hta, hdx] at hdx'
    rw [htb, hdy] at hdy'
    injection hdx' with ex _
    injection hdy' with ey _
    unfold matchTopicBody
    simp only [he a b ha hb hta htb, Res.ok_bind, hx', hy', ← ex, ← ey]
    by_cases h1 : e = true
    · simp [h1]
    · simp only [h1, if_false]
      by_cases h2 : x = chDollar ∧ (y = chPlus ∨ y = chHash)
      · simp [h2]
      · simp only [h2, if_false, matchTopicFilter]
        have : (decide (nl ≠ 0)) = true := by simpa using hn0
        have : (decide (fl ≠ 0)) = true := by simpa using hf0
        simp only [*, cassert_true, Res.ok_bind]
        rw [loop_spec ha hb 0 0 true (by omega) (by omega) (by simp [wildcardLocation])]
        simp [hta, htb]
  · intro h
    simp [he1 h]
  · intro hz
    rw [hhx, hhy]
    by_cases h1 : e = true
    · have := he2 hz h1
      simp [h1, this]
    · have hne : ¬ (nm.take nl = fm.take fl) := fun h => h1 (he1 h)
      simp only [h1, if_false, hne, decide_false, Bool.false_or]
      by_cases hd : x = 0x24 <;> by_cases hp : y = 0x2B <;> by_cases hh : y = 0x23 <;>
        simp [hd, hp, hh, chDollar, chPlus, chHash]

theorem matchCall_eq {name filter : List UInt8} (hn : Len16 name) (hf : Len16 filter) :
    ∃ r, matchCall name filter = .ok (.success, some r) ∧
      (name = filter → r = true) ∧
      (0 ∉ name → r = (decide (name = filter) ||
        (!(decide (name.head? = some 0x24) &&
            (decide (filter.head? = some 0x2B) || decide (filter.head? = some 0x23))) &&
          listMatch true name filter))) := by
  have h1 : name.length ≠ 0 := by simpa using hn.1
  have h2 : filter.length ≠ 0 := by simpa using hf.1
  obtain ⟨r, e1, e2, e3, _⟩ := matchTopicBody_eq (nm := name) (fm := filter)
    (nl := name.length) (fl := filter.length) (Nat.le_refl _) (Nat.le_refl _) h1 h2
  simp only [List.take_length] at e2 e3
  have hnz : ∀ {s : List UInt8}, Len16 s → ¬ (UInt16.ofNat s.length = 0) := by
    intro s hs h
    have := congrArg UInt16.toNat h
    rw [toNat_ofNat16 hs.2] at this
    exact hs.1 (by simpa using this)
  refine ⟨r, ?_, e2, e3⟩
  simp only [matchCall, matchTopic, hnz hn, hnz hf, toNat_ofNat16 hn.2, toNat_ofNat16 hf.2, e1]
  simp

theorem noPlus_missed {name : List UInt8} (hp : 0x2B ∉ name) : missed name name = false := by
  have : ∀ i : Nat, (levels name)[i]? ≠ some plusLevel := by
    intro i h
    have := List.mem_of_getElem? h
    exact hp (mem_levels this (by simp [plusLevel]))
  simp [missed, this]

theorem levelsMatch_self : ∀ N : List (List UInt8), levelsMatch N N = true
  | [] => rfl
  | f :: fs => by
    simp only [levelsMatch]
    split
    · rfl
    · simp [levelsMatch_self fs]

/-- **The exact behaviour.**  For every valid topic name and every filter, `MQTT_MatchTopic`
reports a match exactly when the filter matches under the MQTT rules and the pair is not one of
the `missed` ones. -/
theorem C25_exact {name filter : List UInt8} (hn : Len16 name) (hf : Len16 filter)
    (hv : ValidName name) :
    matchCall name filter
      = .ok (.success, some (filterMatches filter name && !missed filter name)) := by
  obtain ⟨hne, hp, hh, hz⟩ := hv
  obtain ⟨r, h1, _, h3⟩ := matchCall_eq hn hf
  rw [h1, h3 hz]
  congr 3
  by_cases he : name = filter
  · subst he
    have hd : ¬ name.head? = some 0x2B := by
      intro h
      obtain ⟨a, t, rfl⟩ := List.exists_cons_of_ne_nil hne
      simp at h; subst h; simp at hp
    have hd2 : ¬ name.head? = some 0x23 := by
      intro h
      obtain ⟨a, t, rfl⟩ := List.exists_cons_of_ne_nil hne
      simp at h; subst h; simp at hh
    simp [noPlus_missed hp, filterMatches, levelsMatch_self, hd, hd2]
  · rw [listMatch_spec hne ⟨hp, hh⟩, filterMatches]
    simp only [he, decide_false, Bool.false_or]
    generalize levelsMatch (levels filter) (levels name) = a
    generalize missed filter name = b
    generalize (!(decide (name.head? = some 36) &&
      (decide (filter.head? = some 43) || decide (filter.head? = some 35)))) = c
    cases a <;> cases b <;> cases c <;> rfl

example : Len16 (ascii "sport/tennis/player1") ∧ Len16 (ascii "sport/+/player1") ∧
    ValidName (ascii "sport/tennis/player1") := by decide +kernel

/-- **C24.**  Topic matching is sound: a reported match is a match under the MQTT 3.1.1 rules. -/
theorem C24_sound {name filter : List UInt8} (hn : Len16 name) (hf : Len16 filter)
    (hv : ValidName name) (h : matchCall name filter = .ok (.success, some true)) :
    filterMatches filter name = true := by
  rw [C25_exact hn hf hv] at h
  simp at h
  exact h.1

example : ValidName (ascii "sport/tennis") ∧
    matchCall (ascii "sport/tennis") (ascii "sport/#") = .ok (.success, some true) ∧
    matchCall (ascii "sport/tennis") (ascii "sport/+/#") = .ok (.success, some false) ∧
    matchCall (ascii "$SYS/x") (ascii "+/x") = .ok (.success, some false) ∧
    matchCall (ascii "sport") (ascii "sport/#") = .ok (.success, some true) ∧
    matchCall (ascii "sport/a/b") (ascii "sport/+") = .ok (.success, some false) := by decide +kernel

/-- C24 needs the names to be free of the null character (which the standard forbids): the exact
comparison uses `strncmp`, which stops at a null character. -/
theorem C24_null_character_witness :
    matchCall [0x61, 0x00, 0x62] [0x61, 0x00, 0x63] = .ok (.success, some true) ∧
    filterMatches [0x61, 0x00, 0x63] [0x61, 0x00, 0x62] = false := by decide +kernel

/-- **C25 is false as stated**: a valid filter that matches a valid name, and no match reported. -/
theorem C25_incomplete :
    ¬ ∀ name filter : List UInt8, Len16 name → Len16 filter → ValidName name → ValidFilter filter →
      filterMatches filter name = true → matchCall name filter = .ok (.success, some true) := by
  intro h
  have := h (ascii "a") (ascii "+/#")
  revert this
  decide +kernel

/-- **C25, the part that holds.**  Completeness for every valid name and every matching filter,
except the `missed` pairs. -/
theorem C25_complete_partial {name filter : List UInt8} (hn : Len16 name) (hf : Len16 filter)
    (hv : ValidName name) (h : filterMatches filter name = true)
    (hm : missed filter name = false) :
    matchCall name filter = .ok (.success, some true) := by
  rw [C25_exact hn hf hv, h, hm]
  rfl

example : filterMatches (ascii "a/+/c/#") (ascii "a/b/c/d") = true ∧
    missed (ascii "a/+/c/#") (ascii "a/b/c/d") = false ∧
    missed (ascii "+/#") (ascii "a") = true ∧ missed (ascii "+/+") (ascii "x/") = true := by
  decide +kernel

/-- The missed pairs really are matches under the rules that go unreported: each of the four
shapes. -/
theorem C25_missed_witnesses :
    ∀ p ∈ [("a", "+/#"), ("a/b", "a/+/#"), ("x/", "+/+"), ("/", "+/+"), ("x/", "+/#"), ("x/", "+//#")],
      filterMatches (ascii p.2) (ascii p.1) = true ∧
      matchCall (ascii p.1) (ascii p.2) = .ok (.success, some false) := by decide +kernel

/-- The levels of a string ending in a given level. -/
theorem levels_append (s t : List UInt8) : levels (s ++ 0x2F :: t) = levels s ++ levels t := by
  induction s with
  | nil => simp [levels]
  | cons c cs ih =>
    obtain ⟨k, ks, hk⟩ := List.exists_cons_of_ne_nil (levels_ne_nil cs)
    by_cases hc : c = 0x2F
    · subst hc
      rw [List.cons_append, levels_slash, levels_slash, ih]; rfl
    · rw [levels_cons_ne hc hk, List.cons_append, levels_cons_ne hc (l := k) (ls := ks ++ levels t)]
      · rfl
      · rw [ih, hk]; rfl

theorem getLast_levels {s : List UInt8} (h : (levels s).getLast? = some []) (hne : s ≠ []) :
    s.getLast? = some 0x2F := by
  induction s with
  | nil => exact absurd rfl hne
  | cons c cs ih =>
    obtain ⟨k, ks, hk⟩ := List.exists_cons_of_ne_nil (levels_ne_nil cs)
    by_cases hcs : cs = []
    · subst hcs
      by_cases hc : c = 0x2F
      · subst hc; rfl
      · simp [levels, hc] at h
    · rw [List.getLast?_cons_of_ne_nil hcs]
      apply ih _ hcs
      by_cases hc : c = 0x2F
      · subst hc
        rw [levels_slash, List.getLast?_cons_of_ne_nil (levels_ne_nil cs)] at h
        exact h
      · rw [levels_cons_ne hc hk] at h
        cases ks with
        | nil => simp at h
        | cons k2 ks2 => rw [hk]; simpa using h

/-- **C25 in everyday terms.**  If the name does not end in `'/'` and the filter does not end in
a `"+"` level followed by `"#"`, matching is complete. -/
theorem C25_complete_everyday_partial {name filter : List UInt8} (hn : Len16 name)
    (hf : Len16 filter) (hv : ValidName name)
    (hname : name.getLast? ≠ some 0x2F)
    (hfilter : ¬ [plusLevel, hashLevel] <:+ levels filter)
    (h : filterMatches filter name = true) :
    matchCall name filter = .ok (.success, some true) := by
  apply C25_complete_partial hn hf hv h
  have h1 : (levels name).getLast? ≠ some [] := fun e => hname (getLast_levels e hn.1)
  have hk : (levels name).length ≠ 0 := by simpa using levels_ne_nil name
  simp only [missed, h1, decide_false, Bool.and_false, Bool.false_and, Bool.or_false]
  simp only [Bool.and_eq_false_iff, decide_eq_false_iff_not]
  refine Classical.byContradiction fun hc => hfilter ?_
  simp only [not_or, Classical.not_not] at hc
  obtain ⟨⟨e1, e2⟩, e3⟩ := hc
  obtain ⟨k, hk'⟩ := Nat.exists_eq_succ_of_ne_zero hk
  rw [hk'] at e1 e2 e3
  refine ⟨(levels filter).take k, ?_⟩
  apply List.ext_getElem?
  intro i
  simp only [Nat.succ_eq_add_one, Nat.add_sub_cancel] at e1 e2 e3
  by_cases hi : i < k
  · rw [List.getElem?_append_left (by simp; omega)]
    simp [hi]
  · rw [List.getElem?_append_right (by simp; omega)]
    simp only [List.length_take, e1, show min k (k + 1 + 1) = k by omega]
    by_cases h0 : i = k
    · subst h0; rw [e3]; simp
    · by_cases h2 : i = k + 1
      · subst h2; rw [e2, show k + 1 - k = 1 by omega]; rfl
      · rw [List.getElem?_eq_none (by simp; omega), List.getElem?_eq_none (by omega)]

example : (ascii "a/b/c").getLast? ≠ some 0x2F ∧
    ¬ [plusLevel, hashLevel] <:+ levels (ascii "+/b/#") ∧
    filterMatches (ascii "+/b/#") (ascii "a/b/c") = true := by decide +kernel

/-- **C26.**  For every pair of memories holding at least the stated number of bytes (in particular
exactly that number, where any read at or past the stated length is undefined behaviour),
`MQTT_MatchTopic` returns, its answer depends on the stated bytes only, and equal strings match,
whether or not the filter is well formed. -/
theorem C26_bounds_and_exact_match (name filter : List UInt8) (nl fl : UInt16)
    (hn : nl.toNat ≤ name.length) (hf : fl.toNat ≤ filter.length) :
    ∃ st r, matchTopic (some name) nl (some filter) fl true = .ok (st, r) ∧
      matchTopic (some (name.take nl.toNat)) nl (some (filter.take fl.toNat)) fl true = .ok (st, r) ∧
      (st = .success ↔ nl ≠ 0 ∧ fl ≠ 0) ∧ (st = .success ∨ st = .badParameter) ∧
      (st = .success → name.take nl.toNat = filter.take fl.toNat → r = some true) := by
  by_cases h0 : nl = 0 ∨ fl = 0
  · refine ⟨.badParameter, none, ?_, ?_, ?_, Or.inr rfl, by simp⟩
    · have : nl = 0 ∨ fl = 0 ∨ true = false := by rcases h0 with h | h <;> simp [h]
      simp only [matchTopic, this, if_true]; rfl
    · have : nl = 0 ∨ fl = 0 ∨ true = false := by rcases h0 with h | h <;> simp [h]
      simp only [matchTopic, this, if_true]; rfl
    · constructor
      · intro h; cases h
      · rintro ⟨h1, h2⟩; rcases h0 with h | h <;> contradiction
  · obtain ⟨h1, h2⟩ := not_or.1 h0
    have hz : ∀ x : UInt16, x ≠ 0 → x.toNat ≠ 0 := by
      intro x hx h
      exact hx (UInt16.toNat_inj.1 (by simpa using h))
    obtain ⟨r, e1, e2, _, e4⟩ := matchTopicBody_eq hn hf (hz nl h1) (hz fl h2)
    have hc : ¬ (nl = 0 ∨ fl = 0 ∨ true = false) := by simp [h1, h2]
    refine ⟨.success, some r, ?_, ?_, ⟨fun _ => ⟨h1, h2⟩, fun _ => rfl⟩, Or.inl rfl, ?_⟩
    · simp only [matchTopic, hc, if_false, e1]; rfl
    · simp only [matchTopic, hc, if_false, e4]; rfl
    · intro _ h; rw [e2 h]

example : matchTopic (some (ascii "a/#bXX")) 4 (some (ascii "a/#bY")) 4 true
    = .ok (.success, some true) ∧ (4 : UInt16).toNat ≤ (ascii "a/#bXX").length := by decide +kernel

end Mqtt
