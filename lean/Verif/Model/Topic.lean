import Verif.Model.Base
/-
Topic matching, core_mqtt.c 563-770 and 3520-3585.

The C code walks two `uint16_t` indices over the two strings.  Every index that is used for an
access or kept in a variable is at most the `uint16_t` length it is compared with, so the
`uint16_t` arithmetic never wraps; the model uses `Nat` indices.  Comparisons such as
`filterIndex == ( topicFilterLength - 2U )` are unsigned in C (a negative difference becomes a huge
number that no index equals); they are written additively, `filterIndex + 2 = topicFilterLength`.
Reads are checked against the memory that exists behind the pointer, which may be more or less than
the stated length.
-/
namespace Mqtt

/-- `'/'` -/
def chSlash : UInt8 := 0x2F
/-- `'+'` -/
def chPlus : UInt8 := 0x2B
/-- `'#'` -/
def chHash : UInt8 := 0x23
/-- `'$'` -/
def chDollar : UInt8 := 0x24

/-- First test of `matchEndWildcardsSpecialCases`, core_mqtt.c 576-583: the filter ends in `/#`
right after this position.  `&&` reads left to right. -/
def endsInParentHash (filter : List UInt8) (filterLen filterIndex : Nat) : Res Bool :=
  if 3 ≤ filterLen ∧ filterIndex + 3 = filterLen then do
    let a ← readByte filter (filterIndex + 1)
    if a = chSlash then do
      let b ← readByte filter (filterIndex + 2)
      pure (b == chHash)
    else pure false
  else pure false

/-- `matchEndWildcardsSpecialCases`, core_mqtt.c 563-600. -/
def matchEndWildcardsSpecialCases (filter : List UInt8) (filterLen filterIndex : Nat) :
    Res Bool := do
  cassert (filterLen ≠ 0)
  let matchFound ← endsInParentHash filter filterLen filterIndex
  if filterIndex + 2 = filterLen then do
    let c ← readByte filter filterIndex
    if c = chSlash then do
      let d ← readByte filter (filterIndex + 1)
      if d = chPlus then pure true else pure (d == chHash)
    else pure matchFound
  else pure matchFound

/-- The `while` loop of `matchWildcards` that moves the name index to the end of the current
level, core_mqtt.c 636-646.  Result: the new index and `nextLevelExistsInTopicName`. -/
def skipLevel (name : List UInt8) (nameLen nameIndex : Nat) : Res (Nat × Bool) :=
  if nameIndex < nameLen then do
    let c ← readByte name nameIndex
    if c = chSlash then pure (nameIndex, true)
    else skipLevel name nameLen (nameIndex + 1)
  else pure (nameIndex, false)
termination_by nameLen - nameIndex

/-- Outcome of `matchWildcards`: stop with `*pMatch`, or go on with the updated indices. -/
inductive WildStep where
  | stop (isMatch : Bool)
  | go (nameIndex filterIndex : Nat)
  deriving DecidableEq, Repr

/-- `nextLevelExistsinTopicFilter`, core_mqtt.c 650-654 -/
def nextLevelInFilter (filter : List UInt8) (filterLen filterIndex : Nat) : Res Bool :=
  if filterIndex + 1 < filterLen then do
    let c ← readByte filter (filterIndex + 1)
    pure (c == chSlash)
  else pure false

/-- `locationIsValidForWildcard`, core_mqtt.c 625-626 -/
def wildcardLocation (filter : List UInt8) (filterIndex : Nat) : Res Bool :=
  if filterIndex = 0 then pure true
  else do
    let c ← readByte filter (filterIndex - 1)
    pure (c == chSlash)

/-- `matchWildcards`, core_mqtt.c 604-704. -/
def matchWildcards (name : List UInt8) (nameLen : Nat) (filter : List UInt8)
    (filterLen nameIndex filterIndex : Nat) : Res WildStep := do
  cassert (nameLen ≠ 0)
  cassert (filterLen ≠ 0)
  let validLocation ← wildcardLocation filter filterIndex
  let c ← readByte filter filterIndex
  if c = chPlus ∧ validLocation = true then do
    let (nameIndex', nextInName) ← skipLevel name nameLen nameIndex
    let nextInFilter ← nextLevelInFilter filter filterLen filterIndex
    if nextInName = true ∧ nextInFilter = false then pure (.stop false)
    else if nextInName = true then pure (.go nameIndex' (filterIndex + 1))
    else pure (.go (nameIndex' - 1) filterIndex)
  else if c = chHash ∧ filterIndex + 1 = filterLen ∧ validLocation = true then
    pure (.stop true)
  else pure (.stop false)

/-- `matchWildcards` never moves the filter index back; this is what makes the `while` loop of
`matchTopicFilter` terminate. -/
theorem matchWildcards_ge {name : List UInt8} {nameLen : Nat} {filter : List UInt8}
    {filterLen i j i' j' : Nat}
    (h : matchWildcards name nameLen filter filterLen i j = .ok (.go i' j')) : j ≤ j' := by
  unfold matchWildcards at h
  obtain ⟨_, _, h⟩ := Res.bind_eq_ok.1 h
  obtain ⟨_, _, h⟩ := Res.bind_eq_ok.1 h
  obtain ⟨v, _, h⟩ := Res.bind_eq_ok.1 h
  obtain ⟨c, _, h⟩ := Res.bind_eq_ok.1 h
  split at h
  · obtain ⟨p, _, h⟩ := Res.bind_eq_ok.1 h
    obtain ⟨q, _, h⟩ := Res.bind_eq_ok.1 h
    split at h
    · simp at h
    · split at h <;> simp at h <;> omega
  · split at h <;> simp at h

/-- The loop of `matchTopicFilter`, core_mqtt.c 721-757, with the final test 759-767.  `matchFound`
and `shouldStopMatching` are false at the start of every iteration. -/
def matchTopicLoop (name : List UInt8) (nameLen : Nat) (filter : List UInt8)
    (filterLen nameIndex filterIndex : Nat) : Res Bool :=
  if nameIndex < nameLen ∧ filterIndex < filterLen then do
    let a ← readByte name nameIndex
    let b ← readByte filter filterIndex
    if a = b then
      if nameIndex + 1 = nameLen then do
        let matchFound ← matchEndWildcardsSpecialCases filter filterLen filterIndex
        if matchFound = true then pure true
        else matchTopicLoop name nameLen filter filterLen (nameIndex + 1) (filterIndex + 1)
      else matchTopicLoop name nameLen filter filterLen (nameIndex + 1) (filterIndex + 1)
    else
      match hw : matchWildcards name nameLen filter filterLen nameIndex filterIndex with
      | .ub e => .ub e
      | .ok (.stop true) => pure true
      | .ok (.stop false) => pure (decide (nameIndex = nameLen ∧ filterIndex = filterLen))
      | .ok (.go nameIndex' filterIndex') =>
        matchTopicLoop name nameLen filter filterLen (nameIndex' + 1) (filterIndex' + 1)
  else pure (decide (nameIndex = nameLen ∧ filterIndex = filterLen))
termination_by filterLen - filterIndex
decreasing_by
  all_goals first
    | omega
    | (have := matchWildcards_ge hw; omega)

/-- `matchTopicFilter`, core_mqtt.c 708-770.  When `matchWildcards` stops with "no match" it may
have moved the name index (not the filter index); the final test then still fails because the
filter index is below the filter length, so the model's test uses the old name index. -/
def matchTopicFilter (name : List UInt8) (nameLen : Nat) (filter : List UInt8)
    (filterLen : Nat) : Res Bool := do
  cassert (nameLen ≠ 0)
  cassert (filterLen ≠ 0)
  matchTopicLoop name nameLen filter filterLen 0 0

/-- `strncmp( a, b, n ) == 0` (C standard library): compare at most `n` bytes, stopping after a
byte that is zero in both. -/
def strncmpEq (a b : List UInt8) (n i : Nat) : Res Bool :=
  if i < n then do
    let x ← readByte a i
    let y ← readByte b i
    if x ≠ y then pure false
    else if x = 0 then pure true
    else strncmpEq a b n (i + 1)
  else pure true
termination_by n - i

/-- The exact comparison of `MQTT_MatchTopic`, core_mqtt.c 3555-3558. -/
def exactMatch (name : List UInt8) (nameLen : Nat) (filter : List UInt8) (filterLen : Nat) :
    Res Bool :=
  if nameLen = filterLen then strncmpEq name filter nameLen 0 else pure false

/-- `matchStatus` of `MQTT_MatchTopic` for valid parameters, core_mqtt.c 3555-3580. -/
def matchTopicBody (name : List UInt8) (nameLen : Nat) (filter : List UInt8) (filterLen : Nat) :
    Res Bool := do
  let isExact ← exactMatch name nameLen filter filterLen
  if isExact = true then pure true
  else do
    let f0 ← readByte filter 0
    let n0 ← readByte name 0
    if n0 = chDollar ∧ (f0 = chPlus ∨ f0 = chHash) then pure false
    else matchTopicFilter name nameLen filter filterLen

/-- `MQTT_MatchTopic`, core_mqtt.c 3520-3585.  `haveOut` says that `pIsMatch` is not `NULL`; the
second component is the value stored there, if any. -/
def matchTopic (pTopicName : Ptr) (topicNameLength : UInt16) (pTopicFilter : Ptr)
    (topicFilterLength : UInt16) (haveOut : Bool) : Res (Status × Option Bool) :=
  match pTopicName, pTopicFilter with
  | some name, some filter =>
    if topicNameLength = 0 ∨ topicFilterLength = 0 ∨ haveOut = false then
      pure (.badParameter, none)
    else do
      let m ← matchTopicBody name topicNameLength.toNat filter topicFilterLength.toNat
      pure (.success, some m)
  | _, _ => pure (.badParameter, none)

end Mqtt
