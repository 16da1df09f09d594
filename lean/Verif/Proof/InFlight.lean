/-
Refinement of the record arrays to the ordered-list specification.
-/
import Verif.Proof.Records
import Verif.Model.StateRun

namespace Mqtt
set_option linter.unusedSimpArgs false
open Spec

variable {φ : Type}

/-- The encoding keeps the id. -/
def KeepsId (enc : UInt16 × φ → Rec) : Prop := ∀ e, (enc e).packetId = e.1

theorem keepsId_out : KeepsId outRec := by
  rintro ⟨id, p⟩; cases p <;> rfl
theorem keepsId_in : KeepsId inRec := by
  rintro ⟨id, p⟩; cases p <;> rfl

theorem Spec.Holds.live_eq {enc : UInt16 × φ → Rec} {recs cap} {l : Table φ} (h : Holds enc recs cap l) : live recs = l.map enc := by
  have := h.entries
  simpa [live] using this

theorem Spec.Holds.nonzero {enc : UInt16 × φ → Rec} (he : KeepsId enc) {recs cap} {l : Table φ} (h : Holds enc recs cap l) :
    ∀ e ∈ l, e.1 ≠ 0 := by
  intro e hm
  have : enc e ∈ live recs := by rw [h.live_eq]; exact List.mem_map_of_mem hm
  have := (mem_live.mp this).2
  rwa [he] at this

theorem Spec.Holds.of_live {enc : UInt16 × φ → Rec} {recs cap} {l : Table φ} (h₁ : recs.length = cap) (h₂ : live recs = l.map enc)
    (h₃ : Clean recs) (h₄ : l.Pairwise fun a b => a.1 ≠ b.1) : Holds enc recs cap l :=
  ⟨h₁, by simpa [live] using h₂, h₃, h₄⟩

theorem Spec.Holds.clean {enc : UInt16 × φ → Rec} {recs cap} {l : Table φ} (h : Holds enc recs cap l) : Clean recs := h.unused

theorem ids_map {enc : UInt16 × φ → Rec} (he : KeepsId enc) (l : Table φ) :
    (l.map enc).map (·.packetId) = l.map (·.1) := by
  rw [List.map_map]
  apply List.map_congr_left
  intro e _
  exact he e

/-! ### Table operations on a split list -/

theorem phase_split {id : UInt16} {p : φ} {a b : Table φ} (ha : ∀ e ∈ a, e.1 ≠ id) :
    Table.phase (a ++ (id, p) :: b) id = some p := by
  unfold Table.phase
  rw [List.find?_append]
  have : a.find? (fun e => decide (e.1 = id)) = none := by
    rw [List.find?_eq_none]; intro e he; simpa using ha e he
  rw [this]
  simp

theorem phase_none {id : UInt16} {l : Table φ} (h : ∀ e ∈ l, e.1 ≠ id) : Table.phase l id = none := by
  unfold Table.phase
  have : l.find? (fun e => decide (e.1 = id)) = none := by
    rw [List.find?_eq_none]; intro e he; simpa using h e he
  rw [this]; rfl

theorem remove_none {id : UInt16} {l : Table φ} (h : ∀ e ∈ l, e.1 ≠ id) : Table.remove l id = l := by
  unfold Table.remove
  rw [List.filter_eq_self]
  intro e he; simpa using h e he

theorem remove_split {id : UInt16} {p : φ} {a b : Table φ} (ha : ∀ e ∈ a, e.1 ≠ id) (hb : ∀ e ∈ b, e.1 ≠ id) :
    Table.remove (a ++ (id, p) :: b) id = a ++ b := by
  have h₁ := remove_none ha
  have h₂ := remove_none hb
  unfold Table.remove at *
  rw [List.filter_append, h₁, List.filter_cons, h₂]
  simp

theorem set_none {id : UInt16} {p : φ} {l : Table φ} (h : ∀ e ∈ l, e.1 ≠ id) : Table.set l id p = l := by
  unfold Table.set
  conv => rhs; rw [← List.map_id l]
  apply List.map_congr_left
  intro e he
  simp [h e he]

theorem set_split {id : UInt16} {p p' : φ} {a b : Table φ} (ha : ∀ e ∈ a, e.1 ≠ id) (hb : ∀ e ∈ b, e.1 ≠ id) :
    Table.set (a ++ (id, p) :: b) id p' = a ++ (id, p') :: b := by
  have h₁ := set_none (p := p') ha
  have h₂ := set_none (p := p') hb
  unfold Table.set at *
  rw [List.map_append, h₁, List.map_cons, h₂]
  simp

theorem pairwise_split {id : UInt16} {p : φ} {a b : Table φ} (h : (a ++ (id, p) :: b).Pairwise fun x y => x.1 ≠ y.1) :
    (∀ e ∈ a, e.1 ≠ id) ∧ (∀ e ∈ b, e.1 ≠ id) ∧ (a ++ b).Pairwise fun x y => x.1 ≠ y.1 := by
  rw [List.pairwise_append, List.pairwise_cons] at h
  obtain ⟨h₁, ⟨h₂, h₃⟩, h₄⟩ := h
  refine ⟨fun e he => h₄ e he (id, p) (by simp), fun e he => (h₂ e he).symm, ?_⟩
  rw [List.pairwise_append]
  exact ⟨h₁, h₃, fun x hx y hy => h₄ x hx y (by simp [hy])⟩

/-- Replacing the phase keeps ids distinct. -/
theorem pairwise_replace {id : UInt16} {p p' : φ} {a b : Table φ} (h : (a ++ (id, p) :: b).Pairwise fun x y => x.1 ≠ y.1) :
    (a ++ (id, p') :: b).Pairwise fun x y => x.1 ≠ y.1 := by
  rw [List.pairwise_append, List.pairwise_cons] at *
  obtain ⟨h₁, ⟨h₂, h₃⟩, h₄⟩ := h
  refine ⟨h₁, ⟨fun e he => h₂ e he, h₃⟩, ?_⟩
  intro x hx y hy
  rcases List.mem_cons.mp hy with rfl | hy
  · exact h₄ x hx (id, p) (by simp)
  · exact h₄ x hx y (by simp [hy])

/-! ### The array operations -/

/-- The outcome of looking up a nonzero id. -/
theorem Spec.Holds.find {enc : UInt16 × φ → Rec} (he : KeepsId enc) {recs cap} {l : Table φ} (h : Holds enc recs cap l)
    {id : UInt16} (hid : id ≠ 0) :
    (l.phase id = none ∧ findInRecord recs id = .ok none) ∨
    ∃ a b la lb p, recs = a ++ enc (id, p) :: b ∧ findInRecord recs id = .ok (some (a.length, enc (id, p))) ∧
      l = la ++ (id, p) :: lb ∧ live a = la.map enc ∧ live b = lb.map enc ∧ l.phase id = some p ∧
      (∀ e ∈ la, e.1 ≠ id) ∧ (∀ e ∈ lb, e.1 ≠ id) ∧ (la ++ lb).Pairwise (fun x y => x.1 ≠ y.1) := by
  rcases findInRecord_spec hid recs with ⟨h₁, h₂⟩ | ⟨a, r, b, h₁, h₂, h₃, h₄⟩
  · left
    refine ⟨phase_none ?_, h₂⟩
    intro e hm heq
    have : enc e ∈ live recs := by rw [h.live_eq]; exact List.mem_map_of_mem hm
    exact h₁ _ (mem_live.mp this).1 (by rw [he, heq])
  · right
    have hl := h.live_eq
    have hr : r.packetId ≠ 0 := by rw [h₂]; exact hid
    rw [h₁, live_append, live_cons, if_pos hr] at hl
    -- split l accordingly
    obtain ⟨la, l', e₁, e₂, e₃⟩ := List.map_eq_append_iff.mp hl.symm
    obtain ⟨x, lb, e₄, e₅, e₆⟩ := List.map_eq_cons_iff.mp e₃
    obtain ⟨xid, p⟩ := x
    have hx : xid = id := by
      have := he (xid, p)
      rw [e₅, h₂] at this
      exact this.symm
    subst hx
    have hl' : l = la ++ (xid, p) :: lb := by rw [e₁, e₄]
    have hd := h.distinct
    rw [hl'] at hd
    obtain ⟨d₁, d₂, d₃⟩ := pairwise_split hd
    exact ⟨a, b, la, lb, p, by rw [h₁, ← e₅], by rw [h₄, ← e₅], hl', e₂.symm, e₆.symm, by rw [hl']; exact phase_split d₁, d₁, d₂, d₃⟩

theorem Spec.Holds.replace {enc : UInt16 × φ → Rec} (he : KeepsId enc) {cap} {l : Table φ} {id : UInt16} {p : φ} (p' : φ) {a b : Records}
    {la lb : Table φ} (h : Holds enc (a ++ enc (id, p) :: b) cap l) (hid : id ≠ 0) (hl : l = la ++ (id, p) :: lb)
    (ha : live a = la.map enc) (hb : live b = lb.map enc) :
    Holds enc (a ++ enc (id, p') :: b) cap (l.set id p') := by
  have hd := h.distinct
  rw [hl] at hd
  obtain ⟨d₁, d₂, d₃⟩ := pairwise_split hd
  rw [hl, set_split d₁ d₂]
  have hs := h.size
  have hc := Clean.append.mp h.clean
  refine Holds.of_live (by simpa using hs) ?_ ?_ (pairwise_replace hd)
  · rw [live_append, live_cons, if_pos (by rw [he]; exact hid), ha, hb]; simp
  · exact Clean.append.mpr ⟨hc.1, Clean.cons.mpr ⟨fun h => absurd (by rw [he] at h; exact h) hid, (Clean.cons.mp hc.2).2⟩⟩

theorem Spec.Holds.delete {enc : UInt16 × φ → Rec} {cap} {l : Table φ} {id : UInt16} {p : φ} {a b : Records}
    {la lb : Table φ} (h : Holds enc (a ++ enc (id, p) :: b) cap l) (hl : l = la ++ (id, p) :: lb)
    (ha : live a = la.map enc) (hb : live b = lb.map enc) :
    Holds enc (a ++ Rec.empty :: b) cap (l.remove id) := by
  have hd := h.distinct
  rw [hl] at hd
  obtain ⟨d₁, d₂, d₃⟩ := pairwise_split hd
  rw [hl, remove_split d₁ d₂]
  have hs := h.size
  have hc := Clean.append.mp h.clean
  refine Holds.of_live (by simpa using hs) ?_ ?_ d₃
  · rw [live_append, live_cons_empty, ha, hb]; simp
  · exact Clean.append.mpr ⟨hc.1, Clean.cons.mpr ⟨fun _ => rfl, (Clean.cons.mp hc.2).2⟩⟩

theorem Spec.Holds.add {enc : UInt16 × φ → Rec} (he : KeepsId enc) {recs cap} {l : Table φ} (h : Holds enc recs cap l) (hcap : 1 ≤ cap)
    {id : UInt16} (hid : id ≠ 0) {q : QoS} (hq : q ≠ .qos0) {s : PubState} {p : φ} (hp : enc (id, p) = ⟨id, q, s⟩) :
    ∃ recs', addRecord recs id q s = .ok ((l.insert cap id p).1, recs') ∧ Holds enc recs' cap (l.insert cap id p).2 := by
  have hne : recs ≠ [] := by
    intro e; have := h.size; rw [e] at this; simp at this; omega
  obtain ⟨recs', h₁, h₂, h₃, h₄⟩ := addRecord_spec recs h.clean hne id hid q hq s
  have hids : (live recs).map (·.packetId) = l.map (·.1) := by rw [h.live_eq, ids_map he]
  have hlen : (live recs).length = l.length := by rw [h.live_eq, List.length_map]
  rw [hids, hlen, h.size] at h₁ h₄
  refine ⟨recs', ?_, ?_⟩
  · rw [h₁]
    unfold Table.insert
    split
    · rfl
    · split <;> rfl
  · unfold Table.insert
    by_cases c₁ : id ∈ l.map (·.1)
    · rw [if_pos c₁] at h₄ ⊢
      exact Holds.of_live (by rw [h₂, h.size]) (by rw [h₄, h.live_eq]; simp) h₃ h.distinct
    · rw [if_neg c₁] at h₄ ⊢
      by_cases c₂ : l.length = cap
      · rw [if_pos c₂] at h₄ ⊢
        exact Holds.of_live (by rw [h₂, h.size]) (by rw [h₄, h.live_eq]; simp) h₃ h.distinct
      · rw [if_neg c₂] at h₄ ⊢
        refine Holds.of_live (by rw [h₂, h.size]) (by rw [h₄, h.live_eq]; simp [hp]) h₃ ?_
        rw [List.pairwise_append]
        refine ⟨h.distinct, by simp, ?_⟩
        intro x hx y hy
        rw [List.mem_singleton] at hy
        subst hy
        intro e
        exact c₁ (List.mem_map.mpr ⟨x, hx, e⟩)

/-! ### The calls -/

theorem outAck_no_requeue_room {l : Table OutPhase} {id : UInt16} {p : OutPhase} {la lb : Table OutPhase} {cap : Nat}
    (hl : l = la ++ (id, p) :: lb) (h₁ : ∀ e ∈ la, e.1 ≠ id) (h₂ : ∀ e ∈ lb, e.1 ≠ id) (hle : l.length ≤ cap) (x : OutPhase) :
    (l.remove id).insert cap id x = (.success, l.remove id ++ [(id, x)]) := by
  rw [hl, remove_split h₁ h₂]
  unfold Table.insert
  rw [if_neg, if_neg]
  · rw [hl] at hle; simp at hle ⊢; omega
  · simp only [List.map_append, List.mem_append, List.mem_map, not_or, not_exists, not_and]
    exact ⟨fun e he => h₁ e he, fun e he => h₂ e he⟩

theorem Spec.Holds.length_le {enc : UInt16 × φ → Rec} {recs cap} {l : Table φ} (h : Holds enc recs cap l) : l.length ≤ cap := by
  have := live_length_le recs
  rw [h.live_eq, List.length_map, h.size] at this
  exact this

theorem valid_cur_null (s : PubState) : validateTransitionAck s .null = false := by cases s <;> rfl

theorem set_same {l : Table φ} {id : UInt16} {p : φ} (hd : l.Pairwise fun x y => x.1 ≠ y.1) (h : l.phase id = some p) :
    l.set id p = l := by
  unfold Table.phase at h
  cases hf : l.find? (fun e => decide (e.1 = id)) with
  | none => rw [hf] at h; cases h
  | some e =>
    rw [hf] at h
    obtain ⟨h₁, as, bs, h₂, h₃⟩ := List.find?_eq_some_iff_append.mp hf
    obtain ⟨x, y⟩ := e
    simp at h h₁
    subst h; subst h₁
    rw [h₂] at hd
    obtain ⟨d₁, d₂, _⟩ := pairwise_split hd
    rw [h₂, set_split d₁ d₂]

theorem updateStateAck_illegal {recs i id cur new} (h : validateTransitionAck cur new = false) :
    updateStateAck recs i id cur new = .ok (.illegalState, recs) := by
  simp [updateStateAck, h]

theorem updateStateAck_same {recs i id cur} (h : validateTransitionAck cur cur = true) :
    updateStateAck recs i id cur cur = .ok (.success, recs) := by
  simp [updateStateAck, h]

theorem updateStateAck_done {a b : Records} {r : Rec} {id} (h : validateTransitionAck r.publishState .publishDone = true) :
    updateStateAck (a ++ r :: b) a.length id r.publishState .publishDone = .ok (.success, a ++ Rec.empty :: b) := by
  have h' : r.publishState ≠ .publishDone := by
    intro e; rw [e] at h; cases h
  simp [updateStateAck, h, h', updateRecord_delete]

theorem updateStateAck_requeue {a b : Records} {r : Rec} {id} (h : validateTransitionAck r.publishState .pubRelSend = true) :
    updateStateAck (a ++ r :: b) a.length id r.publishState .pubRelSend = addRecord (a ++ Rec.empty :: b) id .qos2 .pubRelSend := by
  have h' : r.publishState ≠ .pubRelSend := by
    intro e; rw [e] at h; cases h
  simp [updateStateAck, h, h', updateRecord_delete]

theorem updateStateAck_goto {a b : Records} {r : Rec} {id new} (h : validateTransitionAck r.publishState new = true)
    (h₁ : r.publishState ≠ new) (h₂ : new ≠ .publishDone) (h₃ : new ≠ .pubRelSend) :
    updateStateAck (a ++ r :: b) a.length id r.publishState new = .ok (.success, a ++ { r with publishState := new } :: b) := by
  have e : (new == PubState.publishDone || new == PubState.pubRelSend) = false := by simp [h₂, h₃]
  simp only [updateStateAck, h, if_true, e, if_pos (show r.publishState ≠ new from h₁), updateRecord_state, Res.ok_bind, if_neg h₃,
    Res.pure_eq]

/-- What `updateStateAck` must do for a table: shared by both directions. -/
def AckRefines (enc : UInt16 × φ → Rec) (rule : AckType → φ → Option (Effect φ × PubState)) (type : AckType) (op : Op)
    (recs : Records) (cap : Nat) (l : Table φ) (id : UInt16) (p : φ) (i : Nat) : Prop :=
  ∃ recs', updateStateAck recs i id (enc (id, p)).publishState (calculateStateAck type op (enc (id, p)).qos)
        = .ok ((ackTable (rule type) l id).1.1, recs') ∧
      Holds enc recs' cap (ackTable (rule type) l id).2 ∧
      (ackTable (rule type) l id).1.2 =
        (if (ackTable (rule type) l id).1.1 = .success then some (calculateStateAck type op (enc (id, p)).qos) else none)

/-- Acknowledgements of outgoing publishes. -/
theorem updateStateAck_out {recs cap} {l : Table OutPhase} (h : Holds outRec recs cap l) {id : UInt16} (hid : id ≠ 0)
    {a b : Records} {la lb : Table OutPhase} {p : OutPhase} (hr : recs = a ++ outRec (id, p) :: b)
    (hl : l = la ++ (id, p) :: lb) (ha : live a = la.map outRec) (hb : live b = lb.map outRec) (hp : l.phase id = some p)
    (type : AckType) (op : Op) (hop : isPublishOutgoing type op = true) :
    AckRefines outRec outAck type op recs cap l id p a.length := by
  have hd := h.distinct
  rw [hl] at hd
  obtain ⟨d₁, d₂, d₃⟩ := pairwise_split hd
  have hrep := fun p' => Holds.replace keepsId_out p' (hr ▸ h) hid hl ha hb
  have hdel := Holds.delete (hr ▸ h) hl ha hb
  have hcap : 1 ≤ cap := by
    have := h.length_le; rw [hl] at this; simp at this; omega
  have hreq := Holds.add keepsId_out hdel hcap hid (q := .qos2) (by decide) (s := .pubRelSend) (p := .sendPubrel) rfl
  rw [outAck_no_requeue_room hl d₁ d₂ h.length_le] at hreq
  have hsame := set_same h.distinct hp
  unfold AckRefines ackTable
  rw [hp]
  subst hr
  cases type <;> cases op <;> (try (cases hop; done)) <;> cases p <;>
    first
    | exact ⟨_, updateStateAck_illegal rfl, h, rfl⟩
    | exact ⟨_, updateStateAck_done rfl, hdel, rfl⟩
    | (obtain ⟨recs', e₁, e₂⟩ := hreq
       exact ⟨recs', (updateStateAck_requeue rfl).trans e₁, e₂, rfl⟩)
    | exact ⟨_, updateStateAck_goto (r := outRec (id, .sendPubrel)) (new := .pubCompPending) rfl (by simp [outRec]) (by decide) (by decide), hrep .awaitPubcomp, rfl⟩
    | exact ⟨_, updateStateAck_same rfl, by simpa only [outAck, Effect.apply, hsame] using h, rfl⟩

/-- Acknowledgements of incoming publishes. -/
theorem updateStateAck_in {recs cap} {l : Table InPhase} (h : Holds inRec recs cap l) {id : UInt16} (hid : id ≠ 0)
    {a b : Records} {la lb : Table InPhase} {p : InPhase} (hr : recs = a ++ inRec (id, p) :: b)
    (hl : l = la ++ (id, p) :: lb) (ha : live a = la.map inRec) (hb : live b = lb.map inRec) (hp : l.phase id = some p)
    (type : AckType) (op : Op) (hop : isPublishOutgoing type op = false) :
    AckRefines inRec inAck type op recs cap l id p a.length := by
  have hrep := fun p' => Holds.replace keepsId_in p' (hr ▸ h) hid hl ha hb
  have hdel := Holds.delete (hr ▸ h) hl ha hb
  have hsame := set_same h.distinct hp
  unfold AckRefines ackTable
  rw [hp]
  subst hr
  cases type <;> cases op <;> (try (cases hop; done)) <;> cases p <;>
    first
    | exact ⟨_, updateStateAck_illegal rfl, h, rfl⟩
    | exact ⟨_, updateStateAck_done rfl, hdel, rfl⟩
    | exact ⟨_, updateStateAck_goto (r := inRec (id, .sendPubrec)) (new := .pubRelPending) rfl (by simp [inRec]) (by decide) (by decide), hrep .awaitPubrel, rfl⟩
    | exact ⟨_, updateStateAck_goto (r := inRec (id, .awaitPubrel)) (new := .pubCompSend) rfl (by simp [inRec]) (by decide) (by decide), hrep .sendPubcomp, rfl⟩
    | exact ⟨_, updateStateAck_same rfl, by simpa only [inAck, Effect.apply, hsame] using h, rfl⟩

theorem isPublishOutgoing_eq (type : AckType) (op : Op) : isPublishOutgoing type op = forOutgoing op type := by
  cases type <;> cases op <;> rfl

/-- The array a call may add a record to has at least one slot (the callers of the state engine check this). -/
def Room (s : InFlight) : Call → Prop
  | .reserve _ _ => 1 ≤ s.outCap
  | .publish .receive _ q => q = .qos0 ∨ 1 ≤ s.inCap
  | _ => True

/-- One call refines one step of the specification. -/
theorem stateCall_refines' {t : Tables} {s : InFlight} (h : Represents t s) (c : Call) (hroom : Room s c) (hc : c ≠ .cancel 0) :
    ∃ t', stateCall t c = .ok ((step s c).1, t') ∧ Represents t' (step s c).2 ∧
      (step s c).2.outCap = s.outCap ∧ (step s c).2.inCap = s.inCap := by
  obtain ⟨h₁, h₂⟩ := h
  cases c with
  | reserve id qos =>
    have key : ∀ (q : QoS) (p : OutPhase), q ≠ .qos0 → outRec (id, p) = ⟨id, q, .publishSend⟩ → id ≠ 0 →
        ∃ t', stateCall t (.reserve id q) = .ok (((s.out.insert s.outCap id p).1, none), t') ∧
          Represents t' { s with out := (s.out.insert s.outCap id p).2 } := by
      intro q p hq hp hid
      obtain ⟨recs', e₁, e₂⟩ := h₁.add keepsId_out hroom hid hq hp
      refine ⟨{ t with outgoing := recs' }, ?_, e₂, h₂⟩
      simp only [stateCall, reserveState, if_neg hq, if_neg hid, e₁, Res.ok_bind, Res.pure_eq]
    cases qos with
    | qos0 => exact ⟨t, rfl, ⟨h₁, h₂⟩, by trivial, by trivial⟩
    | qos1 =>
      by_cases hid : id = 0
      · subst hid; exact ⟨t, rfl, ⟨h₁, h₂⟩, by trivial, by trivial⟩
      · obtain ⟨t', e₁, e₂⟩ := key .qos1 .toSend1 (by decide) rfl hid
        simp only [step, if_neg hid]
        exact ⟨t', e₁, e₂, by first | trivial | rfl, by first | trivial | rfl⟩
    | qos2 =>
      by_cases hid : id = 0
      · subst hid; exact ⟨t, rfl, ⟨h₁, h₂⟩, by trivial, by trivial⟩
      · obtain ⟨t', e₁, e₂⟩ := key .qos2 .toSend2 (by decide) rfl hid
        simp only [step, if_neg hid]
        exact ⟨t', e₁, e₂, by first | trivial | rfl, by first | trivial | rfl⟩
  | publish op id qos =>
    by_cases hq0 : qos = .qos0
    · subst hq0; exact ⟨t, rfl, ⟨h₁, h₂⟩, by trivial, by trivial⟩
    by_cases hid : id = 0
    · subst hid
      cases qos
      · exact absurd rfl hq0
      · exact ⟨t, rfl, ⟨h₁, h₂⟩, by trivial, by trivial⟩
      · exact ⟨t, rfl, ⟨h₁, h₂⟩, by trivial, by trivial⟩
    have hidb : (id != 0) = true := by simpa using hid
    have hqb : (qos != QoS.qos0) = true := by simpa using hq0
    cases op with
    | receive =>
      have key : ∀ (p : InPhase) (ns : PubState), inRec (id, p) = ⟨id, qos, ns⟩ → calculateStatePublish .receive qos = ns →
          validateTransitionPublish .null ns .receive qos = true →
          ∃ t', stateCall t (.publish .receive id qos) =
              .ok (((s.inc.insert s.inCap id p).1, if (s.inc.insert s.inCap id p).1 = .success then some ns else none), t') ∧
            Represents t' { s with inc := (s.inc.insert s.inCap id p).2 } := by
        intro p ns hp hns hv
        obtain ⟨recs', e₁, e₂⟩ := h₂.add keepsId_in (hroom.resolve_left hq0) hid hq0 hp
        refine ⟨{ t with incoming := recs' }, ?_, h₁, e₂⟩
        simp only [stateCall, updateStatePublishApi, if_neg hq0, if_neg hid, updateStatePublish, hidb, hqb, cassert_true,
          Res.ok_bind, hns, hv, if_true, e₁, Res.pure_eq]
      cases qos with
      | qos0 => exact absurd rfl hq0
      | qos1 =>
        obtain ⟨t', e₁, e₂⟩ := key .sendPuback .pubAckSend rfl rfl rfl
        simp only [step, if_neg hid]
        exact ⟨t', e₁, e₂, by first | trivial | rfl, by first | trivial | rfl⟩
      | qos2 =>
        obtain ⟨t', e₁, e₂⟩ := key .sendPubrec .pubRecSend rfl rfl rfl
        simp only [step, if_neg hid]
        exact ⟨t', e₁, e₂, by first | trivial | rfl, by first | trivial | rfl⟩
    | send =>
      rcases h₁.find keepsId_out hid with ⟨hp, hf⟩ | ⟨a, b, la, lb, p, hr, hf, hl, ha, hb, hp, d₁, d₂, d₃⟩
      · refine ⟨t, ?_, ?_⟩
        · cases qos with
          | qos0 => exact absurd rfl hq0
          | _ => simp [stateCall, updateStatePublishApi, step, hid, hp, hf]
        · cases qos with
          | qos0 => exact absurd rfl hq0
          | _ => simp only [step, if_neg hid, hp]; exact ⟨⟨h₁, h₂⟩, by trivial, by trivial⟩
      · have hrep := fun p' => Holds.replace keepsId_out p' (hr ▸ h₁) hid hl ha hb
        have hsame := set_same h₁.distinct hp
        have hst : stateCall t (.publish .send id qos) =
            (if (outRec (id, p)).qos ≠ qos then .ok ((.badParameter, none), t)
             else if validateTransitionPublish (outRec (id, p)).publishState (calculateStatePublish .send qos) .send qos then
               (if (outRec (id, p)).publishState ≠ calculateStatePublish .send qos then
                 .ok ((.success, some (calculateStatePublish .send qos)),
                   { t with outgoing := a ++ { outRec (id, p) with publishState := calculateStatePublish .send qos } :: b })
                else .ok ((.success, some (calculateStatePublish .send qos)), t))
             else .ok ((.illegalState, none), t)) := by
          simp only [stateCall, updateStatePublishApi, if_neg hq0, if_neg hid, hf, Res.ok_bind, updateStatePublish, hidb, hqb,
            cassert_true]
          by_cases c₁ : (outRec (id, p)).qos = qos
          · simp only [c₁, ne_eq, not_true_eq_false, if_false]
            by_cases c₂ : validateTransitionPublish (outRec (id, p)).publishState (calculateStatePublish .send qos) .send qos = true
            · simp only [c₂, if_true]
              by_cases c₃ : (outRec (id, p)).publishState = calculateStatePublish .send qos
              · simp [c₃]
              · simp only [c₃, not_false_eq_true, if_true]
                rw [hr, updateRecord_state]
                simp [c₁]
            · rw [if_neg c₂, if_neg c₂]; simp
          · simp [c₁]
        rw [hst]
        have hsplit : t = { t with outgoing := a ++ outRec (id, p) :: b } := by rw [← hr]
        cases qos with
        | qos0 => exact absurd rfl hq0
        | qos1 =>
          simp only [step, if_neg hid, hp]
          cases p <;> first
            | exact ⟨_, rfl, ⟨h₁, h₂⟩, by trivial, by trivial⟩
            | exact ⟨_, rfl, ⟨hrep .awaitPuback, h₂⟩, by trivial, by trivial⟩
            | (refine ⟨_, rfl, ⟨?_, h₂⟩, by trivial, by trivial⟩
               simpa [outQoS, sentPublish, hsame] using h₁)
        | qos2 =>
          simp only [step, if_neg hid, hp]
          cases p <;> first
            | exact ⟨_, rfl, ⟨h₁, h₂⟩, by trivial, by trivial⟩
            | exact ⟨_, rfl, ⟨hrep .awaitPubrec, h₂⟩, by trivial, by trivial⟩
            | (refine ⟨_, rfl, ⟨?_, h₂⟩, by trivial, by trivial⟩
               simpa [outQoS, sentPublish, hsame] using h₁)
  | ack op type id =>
    by_cases hid : id = 0
    · subst hid; exact ⟨t, rfl, ⟨h₁, h₂⟩, by trivial, by trivial⟩
    simp only [step, if_neg hid, ← isPublishOutgoing_eq]
    cases ho' : isPublishOutgoing type op with
    | true =>
      simp only [if_true]
      rcases h₁.find keepsId_out hid with ⟨hp, hf⟩ | ⟨a, b, la, lb, p, hr, hf, hl, ha, hb, hp, d₁, d₂, d₃⟩
      · refine ⟨t, ?_, ?_⟩
        · simp [stateCall, updateStateAckApi, hid, ho', hf, ackTable, hp]
        · simp only [ackTable, hp]; exact ⟨⟨h₁, h₂⟩, by trivial, by trivial⟩
      · obtain ⟨recs', e₁, e₂, e₃⟩ := updateStateAck_out h₁ hid hr hl ha hb hp type op ho'
        refine ⟨{ t with outgoing := recs' }, ?_, ⟨e₂, h₂⟩, by trivial, by trivial⟩
        simp only [stateCall, updateStateAckApi, if_neg hid, ho', if_true, hf, Res.ok_bind, e₁, Res.pure_eq]
        rw [← e₃]
    | false =>
      simp only [Bool.false_eq_true, if_false]
      rcases h₂.find keepsId_in hid with ⟨hp, hf⟩ | ⟨a, b, la, lb, p, hr, hf, hl, ha, hb, hp, d₁, d₂, d₃⟩
      · refine ⟨t, ?_, ?_⟩
        · simp [stateCall, updateStateAckApi, hid, ho', hf, ackTable, hp]
        · simp only [ackTable, hp]; exact ⟨⟨h₁, h₂⟩, by trivial, by trivial⟩
      · obtain ⟨recs', e₁, e₂, e₃⟩ := updateStateAck_in h₂ hid hr hl ha hb hp type op ho'
        refine ⟨{ t with incoming := recs' }, ?_, ⟨h₁, e₂⟩, by trivial, by trivial⟩
        simp only [stateCall, updateStateAckApi, if_neg hid, ho', Bool.false_eq_true, if_false, hf, Res.ok_bind, e₁, Res.pure_eq]
        rw [← e₃]
  | cancel id =>
    have hid : id ≠ 0 := fun e => hc (by rw [e])
    rcases h₁.find keepsId_out hid with ⟨hp, hf⟩ | ⟨a, b, la, lb, p, hr, hf, hl, ha, hb, hp, d₁, d₂, d₃⟩
    · refine ⟨t, ?_, ?_⟩
      · by_cases hne : t.outgoing = []
        · simp [stateCall, removeStateRecord, hne, step, hp]
        · simp [stateCall, removeStateRecord, hne, hf, step, hp]
      · simp only [step, hp]; exact ⟨⟨h₁, h₂⟩, by trivial, by trivial⟩
    · have hdel := Holds.delete (hr ▸ h₁) hl ha hb
      have hne : t.outgoing ≠ [] := by rw [hr]; simp
      refine ⟨{ t with outgoing := a ++ Rec.empty :: b }, ?_, ?_⟩
      · have h₃ : (outRec (id, p)).publishState ≠ .null := by cases p <;> simp [outRec]
        have h₄ : ¬ ((outRec (id, p)).qos ≠ .qos1 ∧ (outRec (id, p)).qos ≠ .qos2) := by cases p <;> simp [outRec]
        simp only [stateCall, removeStateRecord, if_neg hne, hf, Res.ok_bind, if_neg h₃, if_neg h₄, step, hp]
        rw [hr, updateRecord_delete]
        simp
      · simp only [step, hp]; exact ⟨⟨hdel, h₂⟩, by trivial, by trivial⟩

theorem stateCall_refines {t : Tables} {s : InFlight} (h : Represents t s) (ho : 1 ≤ s.outCap) (hi : 1 ≤ s.inCap)
    (c : Call) (hc : c ≠ .cancel 0) :
    ∃ t', stateCall t c = .ok ((step s c).1, t') ∧ Represents t' (step s c).2 ∧
      (step s c).2.outCap = s.outCap ∧ (step s c).2.inCap = s.inCap := by
  refine stateCall_refines' h c ?_ hc
  cases c with
  | reserve => exact ho
  | publish op => cases op <;> first | exact trivial | exact Or.inr hi
  | ack => exact trivial
  | cancel => exact trivial

theorem stateRun_refines (cs : List Call) : ∀ {t : Tables} {s : InFlight}, Represents t s → 1 ≤ s.outCap → 1 ≤ s.inCap →
    (∀ c ∈ cs, c ≠ .cancel 0) →
    ∃ t', stateRun t cs = .ok ((run s cs).1, t') ∧ Represents t' (run s cs).2 ∧
      (run s cs).2.outCap = s.outCap ∧ (run s cs).2.inCap = s.inCap := by
  induction cs with
  | nil => intro t s h _ _ _; exact ⟨t, rfl, h, rfl, rfl⟩
  | cons c cs ih =>
    intro t s h ho hi hc
    obtain ⟨t₁, e₁, e₂, e₃, e₄⟩ := stateCall_refines h ho hi c (hc c (by simp))
    obtain ⟨t₂, f₁, f₂, f₃, f₄⟩ := ih e₂ (by omega) (by omega) (fun x hx => hc x (by simp [hx]))
    refine ⟨t₂, ?_, f₂, by simp only [run]; rw [f₃, e₃], by simp only [run]; rw [f₄, e₄]⟩
    simp only [stateRun, e₁, f₁, Res.ok_bind, Res.pure_eq, run]

theorem represents_fresh (n m : Nat) : Represents (freshTables n m) ⟨n, m, [], []⟩ := by
  constructor <;>
    exact Holds.of_live (by simp [freshTables]) (by simp [freshTables]) (by exact Clean.replicate _) (by simp)

end Mqtt
