/-
Topic names and topic filters, written from section 4.7 of the OASIS MQTT 3.1.1 standard.
-/
namespace Mqtt.Spec

/-- Topic levels (4.7.1.1): the pieces between `'/'` (0x2F) separators; levels may be empty. -/
def levels : List UInt8 → List (List UInt8)
  | [] => [[]]
  | c :: cs =>
    if c = 0x2F then [] :: levels cs
    else match levels cs with
      | [] => [[c]]
      | l :: ls => (c :: l) :: ls

/-- The level `"+"`: single-level wildcard (4.7.1.3). -/
def plusLevel : List UInt8 := [0x2B]
/-- The level `"#"`: multi-level wildcard (4.7.1.2). -/
def hashLevel : List UInt8 := [0x23]

/-- Level-by-level matching of filter levels against name levels.  `"#"` as last filter level
matches any number of further levels, including none, so that `sport/#` also matches `sport`
(4.7.1.2).  `"+"` matches exactly one level (4.7.1.3).  Everything else matches literally. -/
def levelsMatch : List (List UInt8) → List (List UInt8) → Bool
  | [], ns => ns.isEmpty
  | f :: fs, ns =>
    if f = hashLevel ∧ fs = [] then true
    else match ns with
      | [] => false
      | n :: ns => (decide (f = plusLevel) || decide (f = n)) && levelsMatch fs ns

/-- A filter matches a name.  A filter that starts with a wildcard character does not match a name
that starts with `'$'` (4.7.2). -/
def filterMatches (filter name : List UInt8) : Bool :=
  levelsMatch (levels filter) (levels name) &&
  !(decide (name.head? = some 0x24) &&
    (decide (filter.head? = some 0x2B) || decide (filter.head? = some 0x23)))

/-- A topic name in a PUBLISH is at least one character long, contains no wildcard characters
(3.3.2.1) and no null character (4.7.3). -/
def ValidName (name : List UInt8) : Prop :=
  name ≠ [] ∧ 0x2B ∉ name ∧ 0x23 ∉ name ∧ 0x00 ∉ name

/-- A topic filter is well formed when it is not empty, `"+"` and `"#"` occupy an entire level and
`"#"` occurs only as the last level (4.7.1). -/
def ValidFilter (filter : List UInt8) : Prop :=
  filter ≠ [] ∧ 0x00 ∉ filter ∧
  (∀ l ∈ levels filter, 0x2B ∈ l → l = plusLevel) ∧
  (∀ l ∈ (levels filter).dropLast, 0x23 ∉ l) ∧
  (∀ l ∈ levels filter, 0x23 ∈ l → l = hashLevel)

/-- The names the implementation misses although the filter matches.  With `k` the number of name
levels, either the filter has exactly one level more than the name, that level is `"#"`, and the
level before it is `"+"` (`+/#` against `a`); or the last name level is empty, the filter level
before it is `"+"`, and the filter goes on with `"+"`, with `"#"`, or with an empty level and `"#"`
(`+/+`, `+/#` and `+//#` against `x/`). -/
def missed (filter name : List UInt8) : Bool :=
  let F := levels filter
  let k := (levels name).length
  (decide (F.length = k + 1) && decide (F[k]? = some hashLevel) && decide (F[k - 1]? = some plusLevel)) ||
  (decide (2 ≤ k) && decide ((levels name).getLast? = some []) && decide (F[k - 2]? = some plusLevel) &&
    ((decide (F.length = k) && (decide (F[k - 1]? = some plusLevel) || decide (F[k - 1]? = some hashLevel))) ||
     (decide (F.length = k + 1) && decide (F[k]? = some hashLevel))))

end Mqtt.Spec
