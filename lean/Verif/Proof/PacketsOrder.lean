/-
The messages arrive at the server in the order in which the application published them, whatever their packet ids and qualities of service.
-/
import Verif.Proof.PacketsSound

namespace Mqtt
open Spec
set_option linter.unusedSimpArgs false

variable {strict retx : Bool} {cap : Nat}

/-- The message in a PUBLISH packet. -/
def pubOf (u : Raw) : Option Publish := (parsePublish u.first.toNat u.body).map Publish.message

theorem pubOf_none {u : Raw} (h : u.first.toNat / 16 ≠ 3) : pubOf u = none := by
  unfold pubOf
  cases h' : parsePublish u.first.toNat u.body with
  | none => rfl
  | some m => exact absurd (parsePublish_facts h').1 h

theorem Spec.InOrder.bound {P got : List Publish} {idx : List Nat} (h : InOrder P got idx) : ∀ i ∈ idx, i < P.length := by
  have key : ∀ {idx : List Nat} {j : Nat} {m : Publish}, (∀ i ∈ idx, i < P.length) → P[j]? = some m → ∀ i ∈ idx ++ [j], i < P.length := by
    intro idx j m h1 h2 i hi
    rcases List.mem_append.mp hi with hi | hi
    · exact h1 i hi
    · rw [List.mem_singleton.mp hi]
      exact (List.getElem?_eq_some_iff.mp h2).1
  induction h with
  | nil => simp
  | next _ h2 _ ih => exact key ih h2
  | again _ h2 _ _ ih => exact key ih h2

theorem get_append {P : List Publish} {j : Nat} {m : Publish} (x : List Publish) (h : P[j]? = some m) : (P ++ x)[j]? = some m := by
  rw [List.getElem?_append_left (List.getElem?_eq_some_iff.mp h).1]; exact h

theorem Spec.InOrder.extend {P got : List Publish} {idx : List Nat} (h : InOrder P got idx) (x : List Publish) : InOrder (P ++ x) got idx := by
  induction h with
  | nil => exact .nil
  | next _ h2 h3 ih => exact .next ih (get_append x h2) h3
  | again _ h2 h3 h4 ih => exact .again ih (get_append x h2) h3 h4

/-- `P`: the messages accepted; `pend`: the packet ids that wait for PUBACK or PUBREC; `ti`, `ui`: the positions of the messages the server took over, and of those
that are on their way to it; `ix`: the position of the message with the given packet id. -/
structure Order (P : List Publish) (pend : List UInt16) (kept : UInt16 → Option Raw) (held : List Nat) (up : List Raw) (on : Prop)
    (got : List Publish) (ti ui : List Nat) (ix : UInt16 → Nat) : Prop where
  order : InOrder P got ti
  ups : ui.map (fun j => P[j]?) = (up.filterMap pubOf).map some
  back : ∀ j ∈ ui, (j ∈ ti ∧ ∃ m, P[j]? = some m ∧ m.qos ≠ 0) ∨ ∀ t ∈ ti, t < j
  mono : ui.Pairwise (· < ·)
  asc : pend.Pairwise (fun x y => ix x < ix y)
  msg : ∀ i ∈ pend, ∃ m, P[ix i]? = some m ∧ m.id = i.toNat ∧ m.qos ≠ 0
  late : ∀ i ∈ pend, kept i ≠ none → ix i ∈ ti ∨ ∀ t ∈ ti, t < ix i
  before : ∀ j ∈ ui, ∀ i ∈ pend, kept i ≠ none → ix i < j → ix i ∈ ti ∨ ix i ∈ ui
  all : on → ∀ i ∈ pend, kept i ≠ none → ix i ∈ ti ∨ ix i ∈ ui
  copy : ∀ i ∈ pend, ∀ c, kept i = some c → ∃ m, pubOf c = some m ∧ P[ix i]? = some m
  held : ∀ i ∈ pend, i.toNat ∈ held → ix i ∈ ti
  own : ∀ j ∈ ui, ∀ m i, P[j]? = some m → m.qos ≠ 0 → m.id = UInt16.toNat i → ix i = j

section
variable {P got : List Publish} {pend pend' : List UInt16} {kept kept' : UInt16 → Option Raw} {held held' : List Nat} {up up' : List Raw} {on on' : Prop}
  {ti ui : List Nat} {ix : UInt16 → Nat} {u : Raw} {us : List Raw} {m : Publish}

theorem Order.bound (h : Order P pend kept held up on got ti ui ix) : ∀ j ∈ ui, j < P.length := by
  intro j hj
  have hm : P[j]? ∈ ui.map (fun j => P[j]?) := List.mem_map.mpr ⟨j, hj, rfl⟩
  rw [h.ups] at hm
  obtain ⟨m, _, hm⟩ := List.mem_map.mp hm
  exact (List.getElem?_eq_some_iff.mp hm.symm).1

theorem Order.less (h : Order P pend kept held up on got ti ui ix) (hp : pend'.Sublist pend) (hk : ∀ i, kept' i ≠ none → kept' i = kept i)
    (hh : ∀ x ∈ held', x ∈ held) (hu : up'.filterMap pubOf = up.filterMap pubOf) (ho : on' → on) : Order P pend' kept' held' up' on' got ti ui ix where
  order := h.order
  ups := by rw [hu]; exact h.ups
  back := h.back
  mono := h.mono
  asc := h.asc.sublist hp
  msg := fun i hi => h.msg i (hp.subset hi)
  late := fun i hi hc => h.late i (hp.subset hi) (by rw [← hk i hc]; exact hc)
  before := fun j hj i hi hc => h.before j hj i (hp.subset hi) (by rw [← hk i hc]; exact hc)
  all := fun hon i hi hc => h.all (ho hon) i (hp.subset hi) (by rw [← hk i hc]; exact hc)
  copy := fun i hi c hc => h.copy i (hp.subset hi) c (by rw [← hk i (by rw [hc]; simp)]; exact hc)
  held := fun i hi hc => h.held i (hp.subset hi) (hh _ hc)
  own := h.own

/-- What is under way is lost. -/
theorem Order.lose (h : Order P pend kept held up on got ti ui ix) (ho : ¬ on') : Order P pend kept held [] on' got ti [] ix where
  order := h.order
  ups := rfl
  back := by simp
  mono := .nil
  asc := h.asc
  msg := h.msg
  late := h.late
  before := by simp
  all := fun hon => absurd hon ho
  copy := h.copy
  held := h.held
  own := by simp

/-- The server reads a PUBLISH. -/
theorem Order.head (h : Order P pend kept held (u :: us) on got ti ui ix) (hu : pubOf u = some m) :
    ∃ j ui', ui = j :: ui' ∧ P[j]? = some m ∧ ui'.map (fun j => P[j]?) = (us.filterMap pubOf).map some := by
  have hups := h.ups
  rw [List.filterMap_cons, hu] at hups
  cases ui with
  | nil => cases hups
  | cons j ui' =>
    rw [List.map_cons, List.map_cons] at hups
    injection hups with h1 h2
    exact ⟨j, ui', rfl, h1, h2⟩

/-- It takes over the message. -/
theorem Order.take (h : Order P pend kept held (u :: us) on got ti ui ix) (hu : pubOf u = some m)
    (hh : ∀ i ∈ pend, i.toNat ∈ held' → i.toNat ∈ held ∨ m.id = i.toNat ∧ m.qos ≠ 0) :
    ∃ ti' ui', Order P pend kept held' us on (got ++ [m]) ti' ui' ix := by
  obtain ⟨j, ui', rfl, hj, hups⟩ := h.head hu
  have hmono := List.pairwise_cons.mp h.mono
  have move : ∀ {x : Nat}, x ∈ ti ∨ x ∈ j :: ui' → x ∈ ti ++ [j] ∨ x ∈ ui' := by
    intro x hx
    rcases hx with hx | hx
    · exact Or.inl (List.mem_append_left _ hx)
    · rcases List.mem_cons.mp hx with rfl | hx
      · exact Or.inl (by simp)
      · exact Or.inr hx
  refine ⟨ti ++ [j], ui', ?_, hups, ?_, hmono.2, h.asc, h.msg, ?_, ?_, ?_, h.copy, ?_, ?_⟩
  · rcases h.back j (by simp) with ⟨h1, m', h2, h3⟩ | h1
    · rw [hj] at h2
      injection h2 with h2
      subst h2
      exact .again h.order hj h1 h3
    · exact .next h.order hj h1
  · intro x hx
    rcases h.back x (by simp [hx]) with ⟨h1, h2⟩ | h1
    · exact Or.inl ⟨List.mem_append_left _ h1, h2⟩
    · right
      intro t ht
      rcases List.mem_append.mp ht with ht | ht
      · exact h1 t ht
      · rw [List.mem_singleton.mp ht]; exact hmono.1 x hx
  · intro i hi hc
    rcases h.late i hi hc with h1 | h1
    · exact Or.inl (List.mem_append_left _ h1)
    · rcases Nat.lt_trichotomy (ix i) j with hlt | heq | hgt
      · left
        rcases h.before j (by simp) i hi hc hlt with h2 | h2
        · exact List.mem_append_left _ h2
        · rcases List.mem_cons.mp h2 with h2 | h2
          · rw [h2]; simp
          · have := hmono.1 _ h2; omega
      · left; rw [heq]; simp
      · right
        intro t ht
        rcases List.mem_append.mp ht with ht | ht
        · exact h1 t ht
        · rw [List.mem_singleton.mp ht]; exact hgt
  · intro x hx i hi hc hlt
    exact move (h.before x (by simp [hx]) i hi hc hlt)
  · intro hon i hi hc
    exact move (h.all hon i hi hc)
  · intro i hi hc
    rcases hh i hi hc with hc | ⟨hc1, hc2⟩
    · exact List.mem_append_left _ (h.held i hi hc)
    · rw [h.own j (by simp) m i hj hc2 hc1]; simp
  · intro x hx
    exact h.own x (by simp [hx])

/-- It has the message already. -/
theorem Order.skip (h : Order P pend kept held (u :: us) on got ti ui ix) (hu : pubOf u = some m) {i : UInt16} (hi : i ∈ pend) (hm : m.id = i.toNat)
    (hq : m.qos ≠ 0) (hh : i.toNat ∈ held) : ∃ ui', Order P pend kept held us on got ti ui' ix := by
  obtain ⟨j, ui', rfl, hj, hups⟩ := h.head hu
  have hmono := List.pairwise_cons.mp h.mono
  have hjt : j ∈ ti := by
    rw [← h.own j (by simp) m i hj hq hm]
    exact h.held i hi hh
  have move : ∀ {x : Nat}, x ∈ ti ∨ x ∈ j :: ui' → x ∈ ti ∨ x ∈ ui' := by
    intro x hx
    rcases hx with hx | hx
    · exact Or.inl hx
    · rcases List.mem_cons.mp hx with rfl | hx
      · exact Or.inl hjt
      · exact Or.inr hx
  exact ⟨ui', h.order, hups, fun x hx => h.back x (by simp [hx]), hmono.2, h.asc, h.msg, h.late,
    fun x hx i hi hc hlt => move (h.before x (by simp [hx]) i hi hc hlt), fun hon i hi hc => move (h.all hon i hi hc), h.copy, h.held,
    fun x hx => h.own x (by simp [hx])⟩

theorem prefix_before {p l : List UInt16} {f : UInt16 → Nat} (hp : p <+: l) (hl : l.Pairwise fun x y => f x < f y) {x y : UInt16} (hx : x ∈ p) (hy : y ∈ l)
    (hlt : f y < f x) : y ∈ p := by
  obtain ⟨r, rfl⟩ := hp
  rcases List.mem_append.mp hy with hy | hy
  · exact hy
  · have := (List.pairwise_append.mp hl).2.2 x hx y hy
    omega

/-- The kept packets are sent again on a new connection. -/
theorem Order.resend (h : Order P pend kept held [] on got ti ui ix) {rels : List Raw} (hr : rels.filterMap pubOf = []) {copies : List (UInt16 × Raw)}
    (hp : copies.map (·.1) <+: pend) (hc : ∀ e ∈ copies, kept e.1 = some e.2) (ho : on' → copies.map (·.1) = pend ∨ ∀ i, kept i = none) :
    Order P pend kept held (rels ++ copies.map (·.2)) on' got ti ((copies.map (·.1)).map ix) ix := by
  have hkept : ∀ i ∈ copies.map (·.1), kept i ≠ none := by
    intro i hi
    obtain ⟨e, he, rfl⟩ := List.mem_map.mp hi
    rw [hc e he]; simp
  refine ⟨h.order, ?_, ?_, ?_, h.asc, h.msg, h.late, ?_, ?_, h.copy, h.held, ?_⟩
  · rw [List.filterMap_append, hr, List.nil_append]
    have hsub : ∀ e ∈ copies, e.1 ∈ pend := fun e he => hp.subset (List.mem_map.mpr ⟨e, he, rfl⟩)
    clear hp ho hkept hr
    induction copies with
    | nil => rfl
    | cons e l ih =>
      obtain ⟨m, h1, h2⟩ := h.copy e.1 (hsub e (by simp)) e.2 (hc e (by simp))
      rw [List.map_cons, List.map_cons, List.map_cons, List.map_cons, List.filterMap_cons, h1]
      simp only [List.map_cons]
      rw [h2, ← ih (fun e he => hc e (List.mem_cons_of_mem _ he)) (fun e he => hsub e (List.mem_cons_of_mem _ he))]
  · intro j hj
    obtain ⟨i, hi, rfl⟩ := List.mem_map.mp hj
    obtain ⟨m, h1, _, h2⟩ := h.msg i (hp.subset hi)
    exact (h.late i (hp.subset hi) (hkept i hi)).imp (fun h3 => ⟨h3, m, h1, h2⟩) id
  · rw [List.pairwise_map]
    exact h.asc.sublist hp.sublist
  · intro j hj i hi _ hlt
    obtain ⟨i0, hi0, rfl⟩ := List.mem_map.mp hj
    exact Or.inr (List.mem_map.mpr ⟨i, prefix_before hp h.asc hi0 hi hlt, rfl⟩)
  · intro hon i hi hk
    rcases ho hon with h1 | h1
    · right
      rw [h1]
      exact List.mem_map.mpr ⟨i, hi, rfl⟩
    · exact absurd (h1 i) hk
  · intro j hj m i hm hq hid
    obtain ⟨i0, hi0, rfl⟩ := List.mem_map.mp hj
    obtain ⟨m', h1, h2, _⟩ := h.msg i0 (hp.subset hi0)
    rw [hm] at h1
    injection h1 with h1
    subst h1
    rw [hid, UInt16.toNat_inj] at h2
    rw [h2]

/-- A message is accepted and gets a packet id. -/
theorem Order.record (h : Order P pend kept held up on got ti ui ix) {id : UInt16} (hm : m.id = id.toNat) (hq : m.qos ≠ 0) (hid : id ∉ pend) (hh : id.toNat ∉ held)
    (hup : ∀ u ∈ up, ∀ m, pubOf u = some m → m.qos ≠ 0 → m.id ≠ id.toNat) (hk : ∀ i, i ≠ id → kept' i = kept i)
    (hc : ∀ c, kept' id = some c → pubOf c = some m) (ho : on' → on ∧ kept' id = none) :
    Order (P ++ [m]) (pend ++ [id]) kept' held up on' got ti ui (fun i => if i = id then P.length else ix i) := by
  have hix : ∀ i ∈ pend, (if i = id then P.length else ix i) = ix i := fun i hi => if_neg (fun (h' : i = id) => hid (h' ▸ hi))
  have hold : ∀ i ∈ pend, kept' i = kept i := fun i hi => hk i (fun h' => hid (h' ▸ hi))
  have hnew : (P ++ [m])[P.length]? = some m := by simp
  have hlt : ∀ i ∈ pend, ix i < P.length := by
    intro i hi
    obtain ⟨m', h1, _⟩ := h.msg i hi
    exact (List.getElem?_eq_some_iff.mp h1).1
  refine ⟨h.order.extend _, ?_, ?_, h.mono, ?_, ?_, ?_, ?_, ?_, ?_, ?_, ?_⟩
  · rw [← h.ups]
    refine List.map_congr_left ?_
    intro j hj
    rw [List.getElem?_append_left (h.bound j hj)]
  · intro j hj
    exact (h.back j hj).imp (fun ⟨h1, m', h2, h3⟩ => ⟨h1, m', get_append _ h2, h3⟩) (fun h => h)
  · rw [List.pairwise_append]
    refine ⟨?_, List.pairwise_singleton _ _, ?_⟩
    · refine h.asc.imp_of_mem ?_
      intro x y hx hy hxy
      rw [hix x hx, hix y hy]; exact hxy
    · intro x hx y hy
      rw [List.mem_singleton.mp hy, hix x hx, if_pos rfl]
      exact hlt x hx
  · intro i hi
    rcases List.mem_append.mp hi with hi | hi
    · obtain ⟨m', h1, h2, h3⟩ := h.msg i hi
      rw [hix i hi]
      exact ⟨m', get_append _ h1, h2, h3⟩
    · rw [List.mem_singleton.mp hi, if_pos rfl]
      exact ⟨m, hnew, hm, hq⟩
  · intro i hi hc
    rcases List.mem_append.mp hi with hi | hi
    · rw [hix i hi]
      exact h.late i hi (by rw [← hold i hi]; exact hc)
    · rw [List.mem_singleton.mp hi, if_pos rfl]
      exact Or.inr h.order.bound
  · intro j hj i hi hc hltj
    rcases List.mem_append.mp hi with hi | hi
    · rw [hix i hi] at hltj ⊢
      exact h.before j hj i hi (by rw [← hold i hi]; exact hc) hltj
    · rw [List.mem_singleton.mp hi, if_pos rfl] at hltj
      have := h.bound j hj
      omega
  · intro hon i hi hc
    rcases List.mem_append.mp hi with hi | hi
    · rw [hix i hi]
      exact h.all (ho hon).1 i hi (by rw [← hold i hi]; exact hc)
    · rw [List.mem_singleton.mp hi] at hc
      exact absurd (ho hon).2 hc
  · intro i hi c hcc
    rcases List.mem_append.mp hi with hi | hi
    · rw [hix i hi]
      obtain ⟨m', h1, h2⟩ := h.copy i hi c (by rw [← hold i hi]; exact hcc)
      exact ⟨m', h1, get_append _ h2⟩
    · rw [List.mem_singleton.mp hi] at hcc ⊢
      rw [if_pos rfl]
      exact ⟨m, hc c hcc, hnew⟩
  · intro i hi hc
    rcases List.mem_append.mp hi with hi | hi
    · rw [hix i hi]; exact h.held i hi hc
    · rw [List.mem_singleton.mp hi] at hc; exact absurd hc hh
  · intro j hj m' i hm' hq' hid'
    rw [List.getElem?_append_left (h.bound j hj)] at hm'
    have hx : P[j]? ∈ ui.map (fun j => P[j]?) := List.mem_map.mpr ⟨j, hj, rfl⟩
    rw [h.ups, hm'] at hx
    obtain ⟨m'', hx1, hx2⟩ := List.mem_map.mp hx
    injection hx2 with hx2
    subst hx2
    obtain ⟨u, hu1, hu2⟩ := List.mem_filterMap.mp hx1
    have hne := hup u hu1 _ hu2 hq'
    have : i ≠ id := fun h' => hne (by rw [hid', h'])
    rw [if_neg this]
    exact h.own j hj m'' i hm' hq' hid'

/-- A message is accepted that needs no packet id. -/
theorem Order.extend (h : Order P pend kept held up on got ti ui ix) (x : List Publish) : Order (P ++ x) pend kept held up on got ti ui ix := by
  refine ⟨h.order.extend _, ?_, ?_, h.mono, h.asc, ?_, h.late, h.before, h.all, ?_, h.held, ?_⟩
  · rw [← h.ups]
    refine List.map_congr_left ?_
    intro j hj
    rw [List.getElem?_append_left (h.bound j hj)]
  · intro j hj
    exact (h.back j hj).imp (fun ⟨h1, m', h2, h3⟩ => ⟨h1, m', get_append _ h2, h3⟩) (fun h => h)
  · intro i hi
    obtain ⟨m', h1, h2⟩ := h.msg i hi
    exact ⟨m', get_append _ h1, h2⟩
  · intro i hi c hc
    obtain ⟨m', h1, h2⟩ := h.copy i hi c hc
    exact ⟨m', h1, get_append _ h2⟩
  · intro j hj m' i hm'
    rw [List.getElem?_append_left (h.bound j hj)] at hm'
    exact h.own j hj m' i hm'

/-- The message accepted last is sent. -/
theorem Order.push (h : Order P pend kept held up on got ti ui ix) {n : Nat} (hu : pubOf u = some m) (hn : P[n]? = some m) (ht : ∀ t ∈ ti, t < n) (hui : ∀ j ∈ ui, j < n)
    (hall : ∀ i ∈ pend, kept i ≠ none → ix i ∈ ti ∨ ix i ∈ ui ∨ ix i = n) (hown : ∀ i, m.qos ≠ 0 → m.id = UInt16.toNat i → ix i = n) :
    Order P pend kept held (up ++ [u]) on' got ti (ui ++ [n]) ix := by
  have add : ∀ {x : Nat}, x ∈ ti ∨ x ∈ ui → x ∈ ti ∨ x ∈ ui ++ [n] := fun hx => hx.imp (fun h => h) (List.mem_append_left _)
  have add' : ∀ {x : Nat}, x ∈ ti ∨ x ∈ ui ∨ x = n → x ∈ ti ∨ x ∈ ui ++ [n] := by
    intro x hx
    rcases hx with hx | hx | hx
    · exact Or.inl hx
    · exact Or.inr (List.mem_append_left _ hx)
    · exact Or.inr (by simp [hx])
  refine ⟨h.order, ?_, ?_, ?_, h.asc, h.msg, h.late, ?_, ?_, h.copy, h.held, ?_⟩
  · rw [List.map_append, h.ups, List.filterMap_append, List.map_append, List.filterMap_cons, hu]
    simp [hn]
  · intro j hj
    rcases List.mem_append.mp hj with hj | hj
    · exact h.back j hj
    · rw [List.mem_singleton.mp hj]; exact Or.inr ht
  · rw [List.pairwise_append]
    refine ⟨h.mono, List.pairwise_singleton _ _, ?_⟩
    intro x hx y hy
    rw [List.mem_singleton.mp hy]; exact hui x hx
  · intro j hj i hi hc _
    exact add' (hall i hi hc)
  · intro _ i hi hc
    exact add' (hall i hi hc)
  · intro j hj m' i hm' hq hid
    rcases List.mem_append.mp hj with hj | hj
    · exact h.own j hj m' i hm' hq hid
    · rw [List.mem_singleton.mp hj] at hm' ⊢
      rw [hn] at hm'
      injection hm' with hm'
      subst hm'
      exact hown i hq hid

end

/-! ### The protocol -/

/-- The invariant: `t0` was taken over before. -/
def Ordering (t0 : List Publish) (a : Proto) : Prop :=
  ∃ new ti ui ix, a.server.taken = t0 ++ new ∧
    Order a.sent a.flight.pending a.shelf a.server.held a.up (a.isOpen = true ∧ a.stage = .on) (new.map Publish.message) ti ui ix

theorem Ordering.initial {a : Proto} (h : a.Initial) : Ordering a.server.taken a := by
  refine ⟨[], [], [], fun _ => 0, by simp, ?_⟩
  have hp : a.flight.pending = [] := by unfold InFlight.pending; rw [h.flight.1]; rfl
  rw [hp, h.quiet.1]
  exact ⟨.nil, rfl, by simp, .nil, .nil, by simp, by simp, by simp, by simp, by simp, by simp, by simp⟩

theorem pub_note {u : Raw} {m : Publish} {i : UInt16} (h : pubOf u = some m) (hm : m.id = i.toNat) (hq : m.qos ≠ 0) : upNote i u = some (.pub m) := by
  unfold pubOf at h
  cases hp : parsePublish u.first.toNat u.body with
  | none => rw [hp] at h; cases h
  | some m' =>
    rw [hp] at h
    injection h with h
    subst h
    rw [upNote_publish hp, if_pos ⟨hm, hq⟩]

theorem Tie.pubPending {i : UInt16} {ph : Option OutPhase} {U : List UpNote} {D : List DownNote} {held : Bool} (h : PTie i ph U D held) {m : Publish}
    (hm : UpNote.pub m ∈ U) : ∃ p, ph = some p ∧ p.pending = true := by
  cases h with
  | idle => cases hm
  | one h1 => exact ⟨_, rfl, by rcases h1 with rfl | rfl <;> rfl⟩
  | two h1 => exact ⟨_, rfl, by rcases h1 with rfl | rfl <;> rfl⟩
  | rel => cases hm
  | comp h1 h2 h3 => rcases h3 with ⟨rfl, _⟩ | ⟨rfl, _⟩ | ⟨rfl, _⟩ <;> simp at hm

/-- A message on its way to the server is waiting for PUBACK or PUBREC. -/
theorem Sound.upPending {a : Proto} (h : Sound retx a) {u : Raw} (hu : u ∈ a.up) {m : Publish} {i : UInt16} (hm : pubOf u = some m) (hid : m.id = i.toNat)
    (hq : m.qos ≠ 0) (hi : i ≠ 0) : i ∈ a.flight.pending := by
  rw [mem_pending h]
  exact (h.tie i hi).pubPending (m := m) (List.mem_filterMap.mpr ⟨u, hu, pub_note hm hid hq⟩)

theorem pending_react {a : Proto} (h : Sound retx a) (manage : Bool) (d : Raw) :
    (react retx manage a.flight d.first d.body).state.pending.Sublist a.flight.pending := by
  have := (react_ordered h.distinct retx manage d.first d.body).pubs
  rw [List.append_nil] at this
  rw [pending_ids, pending_ids]; exact this

theorem pending_release {s : InFlight} (ids : List UInt16) : (s.release ids).pending.Sublist s.pending := by
  unfold InFlight.pending InFlight.release
  dsimp only
  induction s.out with
  | nil => exact List.Sublist.refl _
  | cons e l ih =>
    rw [List.map_cons]
    by_cases he : e.1 ∈ ids
    · rw [if_pos he, List.filter_cons_of_neg (by simp [OutPhase.pending])]
      refine ih.trans ?_
      rw [List.filter_cons]
      split
      · rw [List.map_cons]; exact List.sublist_cons_self _ _
      · exact List.Sublist.refl _
    · rw [if_neg he, List.filter_cons, List.filter_cons]
      split
      · rw [List.map_cons, List.map_cons]; exact ih.cons_cons _
      · exact ih

theorem pending_reserve {a : Proto} {id : UInt16} {q : QoS} : (step a.flight (.reserve id q)).2.pending.Sublist (a.flight.pending ++ [id]) := by
  have := (Ordered.reserve a.flight id q).pubs
  rw [pending_ids, pending_ids]
  refine this.trans ?_
  unfold reservedId
  split
  · exact List.Sublist.refl _
  · rw [List.append_nil]; exact List.sublist_append_left _ _

theorem cleared_kept {shelf : UInt16 → Option Raw} {cb : List Event} (j : UInt16) (h : cleared shelf cb j ≠ none) : cleared shelf cb j = shelf j := by
  unfold cleared at h ⊢
  split
  · rename_i h'; rw [if_pos h'] at h; exact absurd rfl h
  · rfl

theorem Ordering.read {a : Proto} {t0 : List Publish} (hs : Sound retx a) (h : Ordering t0 a) {u : Raw} {us outs : List Raw} {g : Bool} {v : Server}
    (hu : a.up = u :: us) (hr : Reads strict cap a.greeted a.server u g v outs) :
    Ordering t0 { a with up := us, down := a.down ++ outs, greeted := g, server := v } := by
  obtain ⟨new, ti, ui, ix, h1, h2⟩ := h
  rw [hu] at h2
  have skip : pubOf u = none → v.taken = a.server.taken → (∀ x ∈ v.held, x ∈ a.server.held) →
      Ordering t0 { a with up := us, down := a.down ++ outs, greeted := g, server := v } := by
    intro e1 e2 e3
    refine ⟨new, ti, ui, ix, e2.trans h1, h2.less (List.Sublist.refl _) (fun _ _ => rfl) e3 ?_ (fun h => h)⟩
    rw [List.filterMap_cons, e1]
  have pub : ∀ m, parsePublish u.first.toNat u.body = some m → v.taken = a.server.taken ++ [m] →
      (∀ x ∈ v.held, x ∈ a.server.held ∨ m.id = x ∧ m.qos ≠ 0) →
      Ordering t0 { a with up := us, down := a.down ++ outs, greeted := g, server := v } := by
    intro m e1 e2 e3
    have hm : pubOf u = some m.message := by unfold pubOf; rw [e1]; rfl
    obtain ⟨ti', ui', h3⟩ := h2.take (held' := v.held) hm (fun i hi hc => e3 _ hc)
    refine ⟨new ++ [m], ti', ui', ix, ?_, ?_⟩
    · show v.taken = _
      rw [e2, h1, List.append_assoc]
    · rw [List.map_append]; exact h3
  generalize ha : a.server = sv at *
  generalize hgg : a.greeted = gg at hr
  cases hr with
  | refuse e1 => exact skip (pubOf_none (by rw [e1]; decide)) rfl (fun _ h => h)
  | begin e1 => exact skip (pubOf_none (by rw [e1]; decide)) rfl (by simp)
  | resume e1 => exact skip (pubOf_none (by rw [e1]; decide)) rfl (fun _ h => h)
  | @qos0 v u m e1 e2 => exact pub m e1 rfl (fun _ h => Or.inl h)
  | @qos1 v u m e1 e2 => exact pub m e1 rfl (fun _ h => Or.inl h)
  | @qos2 v u m e1 e2 e3 =>
    refine pub m e1 rfl ?_
    intro x hx
    rcases List.mem_cons.mp hx with rfl | hx
    · exact Or.inr ⟨rfl, by rw [e2]; decide⟩
    · exact Or.inl hx
  | @again v u m e1 e2 e3 =>
    have hm : pubOf u = some m.message := by unfold pubOf; rw [e1]; rfl
    have hf := parsePublish_facts e1
    have hq : m.qos ≠ 0 := by rw [e2]; decide
    have hid : m.message.id = (UInt16.ofNat m.id).toNat := (UInt16.toNat_ofNat_of_lt' hf.2.1).symm
    have hi0 : UInt16.ofNat m.id ≠ 0 := by
      intro h'
      refine hf.2.2 hq ?_
      rw [show m.id = (UInt16.ofNat m.id).toNat from hid, h']; rfl
    have hp := hs.upPending (u := u) (by rw [hu]; simp) hm hid hq hi0
    obtain ⟨ui', h3⟩ := h2.skip hm hp hid hq (by rw [← hid]; exact e3)
    exact ⟨new, ti, ui', ix, h1, h3⟩
  | release e1 e2 => exact skip (pubOf_none (by rw [e1]; decide)) rfl (fun x h => (List.mem_filter.mp h).1)
  | other e1 => exact skip (pubOf_none e1) rfl (fun _ h => h)
  | settle e1 e2 => exact skip (pubOf_none (by rcases e2.type with h | h | h <;> rw [h] <;> decide)) rfl (fun _ h => h)

theorem answer_pub (ty : AckType) (id : UInt16) : pubOf (answerOf ty id) = none := by
  refine pubOf_none ?_
  show (UInt8.ofNat (ackByte ty)).toNat / 16 ≠ 3
  cases ty <;> decide

theorem put_pubs {a : Proto} {u : Raw} (h : pubOf u = none) : (a.put [u]).up.filterMap pubOf = a.up.filterMap pubOf := by
  show (if a.isOpen then a.up ++ [u] else a.up).filterMap pubOf = _
  split
  · rw [List.filterMap_append, List.filterMap_cons, h]; simp
  · rfl

/-- A message with a packet id is accepted. -/
theorem Ordering.accept {a : Proto} {t0 : List Publish} (hs : Sound retx a) (h : Ordering t0 a) {s : InFlight} {m : Publish} {id : UInt16} {q : QoS} {vs : List Raw}
    {k : UInt16 → Option Raw} {o : Bool} (ok : Bool) (hon : a.stage = .on) (hq : q ≠ .qos0) (hm : m.id = id.toNat) (hmq : m.qos = q.toFin)
    (hres : (step a.flight (.reserve id q)).1.1 = .success) (hsub : s.pending.Sublist (a.flight.pending ++ [id]))
    (hk : ∀ i, i ≠ id → k i = a.shelf i) (hkid : ∀ c, k id = some c → pubOf c = some m.message)
    (hvs : vs = [] ∧ (o = true → a.isOpen = true ∧ k id = none) ∨ ∃ u, vs = [u] ∧ pubOf u = some m.message ∧ o = a.isOpen) :
    Ordering t0 { a.put vs with flight := s, shelf := k, isOpen := o, ok := ok, sent := a.sent ++ [m.message] } := by
  obtain ⟨new, ti, ui, ix, h1, h2⟩ := h
  obtain ⟨hid0, hnone, _⟩ := reserve_ok hq hres
  have hqf : m.qos ≠ 0 := by rw [hmq]; cases q <;> first | exact absurd rfl hq | decide
  have ht := (hs.tie id hid0)
  rw [hnone] at ht
  obtain ⟨hU, _, hH⟩ := PTie.idleNotes ht
  have hpend : id ∉ a.flight.pending := by
    intro hp
    obtain ⟨ph, h3, _⟩ := (mem_pending hs).mp hp
    rw [hnone] at h3; cases h3
  have hup : ∀ u ∈ a.up, ∀ m, pubOf u = some m → m.qos ≠ 0 → m.id ≠ id.toNat := by
    intro u hu m' h3 h4 h5
    have : UpNote.pub m' ∈ a.up.filterMap (upNote id) := List.mem_filterMap.mpr ⟨u, hu, pub_note h3 h5 h4⟩
    rw [hU] at this; cases this
  have rec' : ∀ on' : Prop, (on' → (a.isOpen = true ∧ a.stage = .on) ∧ k id = none) → Order (a.sent ++ [m.message]) (a.flight.pending ++ [id]) k a.server.held a.up on'
      (new.map Publish.message) ti ui (fun i => if i = id then a.sent.length else ix i) := fun on' ho =>
    h2.record (kept' := k) hm hqf hpend (by simpa using hH) hup hk hkid ho
  have hless : ∀ {up : List Raw} {on' : Prop} {ui' : List Nat}, Order (a.sent ++ [m.message]) (a.flight.pending ++ [id]) k a.server.held up on'
      (new.map Publish.message) ti ui' (fun i => if i = id then a.sent.length else ix i) →
      Order (a.sent ++ [m.message]) s.pending k a.server.held up on' (new.map Publish.message) ti ui' (fun i => if i = id then a.sent.length else ix i) :=
    fun h => h.less hsub (fun _ _ => rfl) (fun _ h => h) rfl (fun h => h)
  have hput : a.put [] = a := by unfold Proto.put; split <;> simp
  rcases hvs with ⟨rfl, ho⟩ | ⟨u, rfl, hu, rfl⟩
  · rw [hput]
    exact ⟨new, ti, ui, _, h1, hless (rec' _ (fun h => ⟨⟨(ho h.1).1, hon⟩, (ho h.1).2⟩))⟩
  · by_cases hop : a.isOpen = true
    · refine ⟨new, ti, ui ++ [a.sent.length], fun i => if i = id then a.sent.length else ix i, h1, ?_⟩
      show Order _ _ _ _ (if a.isOpen then a.up ++ [u] else a.up) _ _ _ _ _
      rw [if_pos hop]
      refine hless (Order.push (rec' False (fun h => h.elim)) hu (by simp) h2.order.bound h2.bound ?_ ?_)
      · intro i hi hc
        rcases List.mem_append.mp hi with hi | hi
        · have hne : i ≠ id := fun h' => hpend (h' ▸ hi)
          rw [if_neg hne]
          rcases h2.all ⟨hop, hon⟩ i hi (by rw [← hk i hne]; exact hc) with h | h
          · exact Or.inl h
          · exact Or.inr (Or.inl h)
        · rw [List.mem_singleton.mp hi, if_pos rfl]; exact Or.inr (Or.inr rfl)
      · intro i _ hmi
        have : i = id := by rw [← UInt16.toNat_inj, ← hmi]; exact hm
        rw [if_pos this]
    · refine ⟨new, ti, ui, fun i => if i = id then a.sent.length else ix i, h1, ?_⟩
      show Order _ _ _ _ (if a.isOpen then a.up ++ [u] else a.up) _ _ _ _ _
      rw [if_neg hop]
      exact hless (rec' _ (fun h => absurd h.1 hop))

theorem Ordering.step {a b : Proto} {t0 : List Publish} (hs : Sound retx a) (h : Ordering t0 a) (hst : Proto.Step strict retx cap a b) : Ordering t0 b := by
  have keep : ∀ {s : InFlight} {k : UInt16 → Option Raw} {up : List Raw} {st : Stage} {o g ok : Bool} {ds : List Raw} {out : Outbox},
      s.pending.Sublist a.flight.pending → (∀ i, k i ≠ none → k i = a.shelf i) → up.filterMap pubOf = a.up.filterMap pubOf →
      (o = true ∧ st = .on → a.isOpen = true ∧ a.stage = .on) →
      Ordering t0 ⟨s, k, st, o, g, up, ds, { a.server with out := out }, a.sent, ok⟩ := by
    intro s k up st o g ok ds out e1 e2 e3 e4
    obtain ⟨new, ti, ui, ix, h1, h2⟩ := h
    exact ⟨new, ti, ui, ix, h1, h2.less e1 e2 (fun _ h => h) e3 e4⟩
  have same : ∀ i, a.shelf i ≠ none → a.shelf i = a.shelf i := fun _ _ => rfl
  cases hst with
  | read h1 h2 => exact h.read hs h1 h2
  | offer h1 h2 => exact keep (List.Sublist.refl _) same rfl (fun h => h)
  | unasked h1 h2 => exact keep (out := a.server.out) (List.Sublist.refl _) same rfl (fun h => h)
  | hangUp => exact keep (out := a.server.out) (List.Sublist.refl _) same rfl (fun h => absurd h.1 (by decide))
  | dial h1 =>
    obtain ⟨new, ti, ui, ix, h2, h3⟩ := h
    exact ⟨new, ti, [], ix, h2, h3.lose (fun h => by have := h.2; rw [show a.stage = .on from this] at h1; cases h1)⟩
  | @ask u h1 h2 =>
    exact keep (out := a.server.out) (List.Sublist.refl _) same (put_pubs (pubOf_none (by rw [h2]; decide))) (fun h => absurd h.2 (by decide))
  | giveUp h1 => exact keep (out := a.server.out) (List.Sublist.refl _) same rfl (fun h => absurd h.1 (by decide))
  | @welcome ds h1 h2 h3 =>
    obtain ⟨e1, e2, e3, e4⟩ := Awaits.accepted hs h1 h2 h3
    obtain ⟨new, ti, ui, ix, h4, h5⟩ := h
    refine ⟨new, ti, [], ix, h4, ?_⟩
    have h6 := h5.lose (on' := False) (fun h => h)
    show Order a.sent [] _ a.server.held a.up _ _ _ _ _
    rw [e2]
    exact ⟨h6.order, rfl, by simp, .nil, .nil, by simp, by simp, by simp, by simp, by simp, by simp, by simp⟩
  | @resume ds vs whole s h1 h2 h3 h4 =>
    obtain ⟨e1, e2, e3, e4⟩ := Awaits.accepted hs h1 h2 h3
    obtain ⟨new, ti, ui, ix, h5, h6⟩ := h
    have hrel : ∀ ids : List UInt16, (ids.map fun j => (⟨0x62, be16 j.toNat⟩ : Raw)).filterMap pubOf = [] := by
      intro ids
      rw [List.filterMap_eq_nil_iff]
      intro u hu
      obtain ⟨j, _, rfl⟩ := List.mem_map.mp hu
      exact pubOf_none (show (0x62 : UInt8).toNat / 16 ≠ 3 by decide)
    have key : ∃ (ids : List UInt16) (copies : List (UInt16 × Raw)), vs = (ids.map fun j => ⟨0x62, be16 j.toNat⟩) ++ copies.map (·.2) ∧ s = a.flight.release ids ∧
        copies.map (·.1) <+: a.flight.pending ∧ (∀ e ∈ copies, a.shelf e.1 = some e.2) ∧
        (whole = true → copies.map (·.1) = a.flight.pending ∨ ∀ i, a.shelf i = none) := by
      cases h4 with
      | releases g1 => exact ⟨_, [], by simp, rfl, List.nil_prefix, by simp, fun h => by cases h⟩
      | publishes g1 g2 g3 => exact ⟨_, _, rfl, rfl, g2, g3, fun h => by cases h⟩
      | all g1 g2 g3 => exact ⟨_, _, rfl, rfl, by rw [g2]; exact List.prefix_refl _, g3, fun _ => Or.inl g2⟩
      | none g1 => exact ⟨_, [], by simp, rfl, List.nil_prefix, by simp, fun _ => Or.inr (hs.unused g1)⟩
    obtain ⟨ids, copies, rfl, rfl, g1, g2, g3⟩ := key
    rw [e2] at h6
    refine ⟨new, ti, (copies.map (·.1)).map ix, ix, h5, ?_⟩
    show Order a.sent (a.flight.release ids).pending a.shelf a.server.held (if a.isOpen then a.up ++ _ else a.up) _ _ _ _ _
    rw [if_pos h2, e2, List.nil_append]
    exact (h6.resend (on' := whole = true ∧ Stage.on = Stage.on) (hrel ids) g1 g2 (fun h => g3 h.1)).less (pending_release ids) same (fun _ h => h) rfl (fun h => h)
  | @plain u h1 h2 =>
    exact keep (out := a.server.out) (List.Sublist.refl _) same (put_pubs (pubOf_none h2.2.2.2.2)) (fun h => h)
  | @publish0 u m h1 h2 h3 =>
    obtain ⟨new, ti, ui, ix, h4, h5⟩ := h
    have hm : pubOf u = some m.message := by unfold pubOf; rw [h2]; rfl
    by_cases hop : a.isOpen = true
    · refine ⟨new, ti, ui ++ [a.sent.length], ix, h4, ?_⟩
      show Order _ _ _ _ (if a.isOpen then a.up ++ [u] else a.up) _ _ _ _ _
      rw [if_pos hop]
      refine (h5.extend [m.message]).push hm (by simp) h5.order.bound h5.bound ?_ ?_
      · intro i hi hc
        rcases h5.all ⟨hop, h1⟩ i hi hc with h | h
        · exact Or.inl h
        · exact Or.inr (Or.inl h)
      · intro i hq
        exact absurd h3 hq
    · refine ⟨new, ti, ui, ix, h4, ?_⟩
      show Order _ _ _ _ (if a.isOpen then a.up ++ [u] else a.up) _ _ _ _ _
      rw [if_neg hop]
      exact h5.extend _
  | @publish u c m id q h1 h2 h3 h4 h5 h6 h7 =>
    refine h.accept hs (s := (Spec.step (Spec.step a.flight (.reserve id q)).2 (.publish .send id q)).2)
      (k := fun j => if retx = true ∧ j = id then some c else a.shelf j) (o := a.isOpen) a.ok h1 h6 h4 h5 h7 ?_ ?_ ?_ (Or.inr ⟨u, rfl, by unfold pubOf; rw [h2]; rfl, rfl⟩)
    · have hx := (Ordered.sent (distinct_step hs.distinct (.reserve id q)) id q).pubs
      rw [List.append_nil, ← pending_ids, ← pending_ids] at hx
      exact hx.trans pending_reserve
    · intro i hi
      rw [if_neg (fun h => hi h.2)]
    · intro c' hc'
      split at hc'
      · injection hc' with hc'
        subst hc'
        unfold pubOf; rw [h3]; rfl
      · exfalso
        obtain ⟨_, ph, _, _, g, _⟩ := hs.kept _ _ hc'
        rw [(reserve_ok h6 h7).2.1] at g; cases g
  | @unsaved m id q h1 h2 h4 h5 h6 h7 =>
    have hk : a.shelf id = none := by
      cases hc : a.shelf id with
      | none => rfl
      | some c =>
        obtain ⟨_, ph, _, _, g, _⟩ := hs.kept _ _ hc
        rw [(reserve_ok h6 h7).2.1] at g; cases g
    have hx := h.accept hs (vs := []) (s := (Spec.step a.flight (.reserve id q)).2) (k := a.shelf) (o := a.isOpen) false h1 h6 h4 h5 h7 pending_reserve (fun _ _ => rfl)
      (fun c hc => by rw [hk] at hc; cases hc) (Or.inl ⟨rfl, fun h => ⟨h, hk⟩⟩)
    have he : a.put [] = a := by unfold Proto.put; split <;> simp
    rw [he] at hx
    exact hx
  | @unsent c m id q h1 h3 h4 h5 h6 h7 =>
    have hx := h.accept hs (vs := []) (s := (Spec.step a.flight (.reserve id q)).2) (k := fun j => if retx = true ∧ j = id then some c else a.shelf j) (o := false) a.ok
      h1 h6 h4 h5 h7 pending_reserve (fun i hi => if_neg (fun h => hi h.2)) ?_ (Or.inl ⟨rfl, fun h => by cases h⟩)
    · have he : a.put [] = a := by unfold Proto.put; split <;> simp
      rw [he] at hx
      exact hx
    · intro c' hc'
      split at hc'
      · injection hc' with hc'
        subst hc'
        unfold pubOf; rw [h3]; rfl
      · exfalso
        obtain ⟨_, ph, _, _, g, _⟩ := hs.kept _ _ hc'
        rw [(reserve_ok h6 h7).2.1] at g; cases g
  | @take d ds manage h1 h2 h3 => exact keep (out := a.server.out) (pending_react hs manage d) cleared_kept rfl (fun h => h)
  | @answer d ds manage ty id h1 h2 h3 =>
    refine keep (out := a.server.out) ?_ cleared_kept (put_pubs (answer_pub ty id)) (fun h => h)
    have hx := (Ordered.ack (distinct_react hs.distinct retx manage d.first d.body) .send ty id).pubs
    rw [List.append_nil, ← pending_ids, ← pending_ids] at hx
    exact hx.trans (pending_react hs manage d)
  | @mute d ds manage h1 h2 => exact keep (out := a.server.out) (pending_react hs manage d) cleared_kept rfl (fun h => h)
  | close h1 => exact keep (out := a.server.out) (List.Sublist.refl _) same rfl (fun h => absurd h.1 (by decide))

/-- Every run of the protocol. -/
theorem Ordering.run {a b : Proto} (h : a.Initial) (hr : Proto.Run strict retx cap a b) : Ordering a.server.taken b := by
  have key : Sound retx b ∧ Ordering a.server.taken b := by
    induction hr with
    | refl => exact ⟨Sound.initial h, Ordering.initial h⟩
    | step _ h2 ih => exact ⟨ih.1.step h2, Ordering.step ih.1 ih.2 h2⟩
  exact key.2

end Mqtt
