/-
What holds throughout every run of the packet protocol of Spec/Packets: the exchange about each packet id is in one of the stages of `Tie`, the packets the
application keeps belong to publishes in flight, and each connection begins with CONNECT and CONNACK.
-/
import Verif.Proof.PacketsRun

namespace Mqtt
open Spec
set_option linter.unusedSimpArgs false

variable {strict retx : Bool} {cap : Nat}

/-! ### One packet id -/

/-- The exchange about one packet id, without the messages. -/
abbrev PTie (i : UInt16) (ph : Option OutPhase) (U : List UpNote) (D : List DownNote) (held : Bool) : Prop := Tie i False [] [] 0 0 none ph U D held

theorem Tie.forget {i : UInt16} {P L : List Publish} {k c : Nat} {kept : Option (List UInt8)} {ph : Option OutPhase} {U : List UpNote} {D : List DownNote}
    {held : Bool} (h : Tie i False P L k c kept ph U D held) : PTie i ph U D held := by
  cases h with
  | idle => exact .idle rfl (fun h => h.elim)
  | one h1 h2 h3 h4 h5 => exact .one h1 h2 (by simp) (fun h => h.elim) h5
  | two h1 h2 h3 h4 h5 => exact .two h1 h2 (by simp) (fun h => h.elim) h5
  | rel => exact .rel rfl (fun h => h.elim)
  | comp h1 h2 h3 => exact .comp rfl (fun h => h.elim) h3

/-- The stages of a publish of the given quality of service before PUBACK or PUBREC. -/
def Fits (q : Fin 3) (ph : OutPhase) : Prop := q = 1 ∧ (ph = .toSend1 ∨ ph = .awaitPuback) ∨ q = 2 ∧ (ph = .toSend2 ∨ ph = .awaitPubrec)

theorem Fits.pending {q : Fin 3} {ph : OutPhase} (h : Fits q ph) : ph.pending = true := by
  rcases h with ⟨_, rfl | rfl⟩ | ⟨_, rfl | rfl⟩ <;> rfl

theorem Fits.qos {q : Fin 3} {ph : OutPhase} (h : Fits q ph) : q ≠ 0 := by
  rcases h with ⟨rfl, _⟩ | ⟨rfl, _⟩ <;> decide

theorem PTie.idleNotes {i : UInt16} {U : List UpNote} {D : List DownNote} {held : Bool} (h : PTie i none U D held) : U = [] ∧ D = [] ∧ held = false := by
  cases h; exact ⟨rfl, rfl, rfl⟩

/-- PUBREL is sent again on a new connection. -/
theorem PTie.resumeRel {i : UInt16} {ph : OutPhase} {held : Bool} {V : List UpNote} (h : PTie i (some ph) [] [] held) (hp : ph.pending = false)
    (hV : V = [] ∨ V = [.rel]) : PTie i (some .awaitPubcomp) V [] held := by
  have hc : V = [] ∧ ([] : List DownNote) = [] ∨ V = [.rel] ∧ ([] : List DownNote) = [] ∨ V = [] ∧ ([] : List DownNote) = [.pubcomp] ∧ held = false := by
    rcases hV with rfl | rfl <;> simp
  cases h with
  | one h1 => rcases h1 with rfl | rfl <;> cases hp
  | two h1 => rcases h1 with rfl | rfl <;> cases hp
  | rel => exact .comp rfl (fun h => h.elim) hc
  | comp => exact .comp rfl (fun h => h.elim) hc

/-- PUBLISH is sent again on a new connection. -/
theorem PTie.resumePub {i : UInt16} {ph : OutPhase} {held : Bool} {m : Publish} (h : PTie i (some ph) [] [] held) (hp : Fits m.qos ph) :
    PTie i (some ph) [.pub m] [] held := by
  cases h with
  | one h1 =>
    rcases hp with ⟨hq, _⟩ | ⟨_, h2⟩
    · exact .one h1 hq (by simp) (fun h => h.elim) (by simp)
    · rcases h1 with rfl | rfl <;> rcases h2 with h2 | h2 <;> cases h2
  | two h1 =>
    rcases hp with ⟨_, h2⟩ | ⟨hq, _⟩
    · rcases h1 with rfl | rfl <;> rcases h2 with h2 | h2 <;> cases h2
    · exact .two h1 hq (by simp) (fun h => h.elim) (by simp)
  | rel => rcases hp with ⟨_, h2⟩ | ⟨_, h2⟩ <;> rcases h2 with h2 | h2 <;> cases h2
  | comp => rcases hp with ⟨_, h2⟩ | ⟨_, h2⟩ <;> rcases h2 with h2 | h2 <;> cases h2

/-! ### The invariant -/

/-- The client waits for CONNACK on an open connection. -/
def Awaits (a : Proto) : Prop :=
  a.greeted = false ∧ (a.down = [] ∧ a.up.length ≤ 1 ∨ a.up = []) ∨
  a.greeted = true ∧ a.up = [] ∧ ∃ sp ds, a.down = ⟨0x20, [sp, 0]⟩ :: ds ∧ (sp = 0 → a.server.held = []) ∧
    ∀ i, i ≠ 0 → ds.filterMap (downNote i) = []

structure Sound (retx : Bool) (a : Proto) : Prop where
  distinct : a.flight.out.Pairwise fun x y => x.1 ≠ y.1
  zero : a.flight.out.phase 0 = none
  unused : retx = false → ∀ j, a.shelf j = none
  kept : ∀ j c, a.shelf j = some c → ∃ m ph, parsePublish c.first.toNat c.body = some m ∧ m.id = j.toNat ∧ a.flight.out.phase j = some ph ∧ Fits m.qos ph
  fresh : a.greeted = false → (∀ u ∈ a.up, u.first = 0x10) ∧ ∀ d ∈ a.down, ∃ code, code ≠ 0 ∧ d = ⟨0x20, [0, code]⟩
  on : a.stage = .on → a.greeted = true
  idle : a.stage = .idle → a.isOpen = true → a.greeted = false ∧ a.up = [] ∧ a.down = []
  asking : a.stage = .asking → a.isOpen = true → Awaits a
  tie : ∀ i, i ≠ 0 → PTie i (a.flight.out.phase i) (a.up.filterMap (upNote i)) (a.down.filterMap (downNote i)) (decide (i.toNat ∈ a.server.held))

theorem Sound.initial {a : Proto} (h : a.Initial) : Sound retx a := by
  refine ⟨?_, ?_, fun _ => h.shelf, ?_, ?_, ?_, ?_, ?_, ?_⟩
  · rw [h.flight.1]; exact .nil
  · rw [h.flight.1]; rfl
  · intro j c hj; rw [h.shelf] at hj; cases hj
  · intro _; rw [h.quiet.1, h.quiet.2]; simp
  · rw [h.stage]; intro h; cases h
  · rw [h.isOpen]; intro _ h; cases h
  · rw [h.isOpen]; intro _ h; cases h
  · intro i _
    rw [h.flight.1, h.quiet.1, h.quiet.2, h.held.1]
    exact .idle rfl (fun h => h.elim)

theorem connect_note {u : Raw} (h : u.first = 0x10) (i : UInt16) : upNote i u = none := by
  refine upNote_other ?_ ?_ <;> rw [h] <;> decide

theorem fresh_notes {a : Proto} (h : Sound retx a) (hg : a.greeted = false) (i : UInt16) :
    a.up.filterMap (upNote i) = [] ∧ a.down.filterMap (downNote i) = [] := by
  obtain ⟨h1, h2⟩ := h.fresh hg
  constructor
  · rw [List.filterMap_eq_nil_iff]
    exact fun u hu => connect_note (h1 u hu) i
  · rw [List.filterMap_eq_nil_iff]
    intro d hd
    obtain ⟨code, _, rfl⟩ := h2 d hd
    exact connack_note i _ _

theorem Spec.Settles.notes {o o' : Outbox} {t : Nat} {j : UInt16} {outs : List Raw} (h : Settles o t j o' outs) (i : UInt16) :
    outs.filterMap (downNote i) = [] := by
  rw [List.filterMap_eq_nil_iff]
  exact fun p hp => Unasked.note (h.unasked (Nat.le_refl 4) p hp) i

/-- What the server's reading of a packet means for one packet id. -/
theorem Reads.tie {v v' : Server} {u : Raw} {us ds outs : List Raw} {g' : Bool} (h : Reads strict cap true v u g' v' outs) {i : UInt16} (hi : i ≠ 0)
    {ph : Option OutPhase} (ht : PTie i ph ((u :: us).filterMap (upNote i)) (ds.filterMap (downNote i)) (decide (i.toNat ∈ v.held))) :
    PTie i ph (us.filterMap (upNote i)) ((ds ++ outs).filterMap (downNote i)) (decide (i.toNat ∈ v'.held)) := by
  generalize hg : true = g at h
  have plain : upNote i u = none → outs.filterMap (downNote i) = [] → v'.held = v.held →
      PTie i ph (us.filterMap (upNote i)) ((ds ++ outs).filterMap (downNote i)) (decide (i.toNat ∈ v'.held)) := by
    intro h1 h2 h3
    rw [List.filterMap_append, h2, List.append_nil, h3]
    rw [List.filterMap_cons, h1] at ht
    exact ht
  cases h with
  | refuse => cases hg
  | begin => cases hg
  | resume => cases hg
  | @qos0 v u m e3 e4 => exact plain (by rw [upNote_publish e3, if_neg (by simp [e4])]) rfl rfl
  | @qos1 v u m e3 e4 =>
    have hm := parsePublish_facts e3
    have hq0 : m.qos ≠ 0 := by rw [e4]; decide
    have hnote := ackRaw_note (t := 0x40) hm.2.1 hi
    unfold ackRaw at hnote
    rw [List.filterMap_cons, upNote_publish e3] at ht
    rw [notes_snoc, hnote]
    by_cases hid : m.id = i.toNat
    · rw [if_pos ⟨hid, hq0⟩] at ht
      rw [if_pos hid]
      exact (ht.gotQos1 e4).forget
    · rw [if_neg (fun h => hid h.1)] at ht
      rw [if_neg hid]
      simpa using ht
  | @qos2 v u m e3 e4 e5 =>
    have hm := parsePublish_facts e3
    have hq0 : m.qos ≠ 0 := by rw [e4]; decide
    have hnote := ackRaw_note (t := 0x50) hm.2.1 hi
    unfold ackRaw at hnote
    rw [List.filterMap_cons, upNote_publish e3] at ht
    rw [notes_snoc, hnote]
    by_cases hid : m.id = i.toNat
    · rw [if_pos ⟨hid, hq0⟩] at ht
      rw [if_pos hid]
      have hh : decide (i.toNat ∈ v.held) = false := by rw [← hid]; simpa using e5
      rw [hh] at ht
      have hh' : decide (i.toNat ∈ m.id :: v.held) = true := by simp [hid]
      rw [hh']
      exact (ht.gotQos2 e4).forget
    · rw [if_neg (fun h => hid h.1)] at ht
      rw [if_neg hid]
      have hh' : decide (i.toNat ∈ m.id :: v.held) = decide (i.toNat ∈ v.held) := by simp [Ne.symm hid]
      rw [hh']
      simpa using ht
  | @again v u m e3 e4 e5 =>
    have hm := parsePublish_facts e3
    have hq0 : m.qos ≠ 0 := by rw [e4]; decide
    have hnote := ackRaw_note (t := 0x50) hm.2.1 hi
    unfold ackRaw at hnote
    rw [List.filterMap_cons, upNote_publish e3] at ht
    rw [notes_snoc, hnote]
    by_cases hid : m.id = i.toNat
    · rw [if_pos ⟨hid, hq0⟩] at ht
      rw [if_pos hid]
      have hh : decide (i.toNat ∈ v.held) = true := by rw [← hid]; simpa using e5
      rw [hh] at ht ⊢
      exact ht.gotAgain
    · rw [if_neg (fun h => hid h.1)] at ht
      rw [if_neg hid]
      simpa using ht
  | @release v u id hf e3 =>
    have hnote := ackRaw_note (t := 0x70) (read16_lt e3) hi
    unfold ackRaw at hnote
    rw [List.filterMap_cons, upNote_rel hf e3] at ht
    rw [notes_snoc, hnote]
    by_cases hid : id = i.toNat
    · rw [if_pos hid] at ht ⊢
      have hh : decide (i.toNat ∈ v.held.filter fun x => x ≠ id) = false := by simp [hid]
      simp only [hh]
      exact ht.gotRel
    · rw [if_neg hid] at ht ⊢
      have hh : decide (i.toNat ∈ v.held.filter fun x => x ≠ id) = decide (i.toNat ∈ v.held) := by simp [Ne.symm hid]
      simp only [hh]
      simpa using ht
  | other e3 e4 _ e5 =>
    refine plain (upNote_other e3 (fun h => e4 ?_)) ?_ rfl
    · rw [← UInt8.toNat_inj, h]; rfl
    · rw [List.filterMap_eq_nil_iff]
      exact fun p hp => Unasked.note (e5 p hp) i
  | settle e3 e4 =>
    refine plain (upNote_other ?_ ?_) (e4.notes i) rfl
    · rcases e4.type with h | h | h <;> rw [h] <;> decide
    · rcases e4.type with h | h | h <;> rw [h] <;> decide

theorem Reads.greeted {g g' : Bool} {v v' : Server} {u : Raw} {outs : List Raw} (h : Reads strict cap g v u g' v' outs) (hg : g = true) : g' = true := by
  cases h <;> first | rfl | cases hg

theorem Sound.read {a : Proto} (h : Sound retx a) {u : Raw} {us outs : List Raw} {g : Bool} {v : Server} (hu : a.up = u :: us)
    (hr : Reads strict cap a.greeted a.server u g v outs) : Sound retx { a with up := us, down := a.down ++ outs, greeted := g, server := v } := by
  by_cases hg : a.greeted = true
  · rw [hg] at hr
    have hg' := Reads.greeted hr rfl
    refine ⟨h.distinct, h.zero, h.unused, h.kept, ?_, fun _ => hg', ?_, ?_, ?_⟩
    · intro h'; rw [hg'] at h'; cases h'
    · intro h1 h2
      have := (h.idle h1 h2).2.1
      rw [hu] at this; cases this
    · intro h1 h2
      rcases h.asking h1 h2 with ⟨h3, _⟩ | ⟨_, h3, _⟩
      · rw [hg] at h3; cases h3
      · rw [hu] at h3; cases h3
    · intro i hi
      have ht := h.tie i hi
      rw [hu] at ht
      exact Reads.tie hr hi ht
  · have hg : a.greeted = false := by simpa using hg
    have hno := fun i => fresh_notes h hg i
    have hfr := h.fresh hg
    rw [hu] at hfr
    have hus : ∀ i, us.filterMap (upNote i) = [] := by
      intro i
      have := (hno i).1
      rw [hu, List.filterMap_eq_nil_iff] at this
      rw [List.filterMap_eq_nil_iff]
      exact fun x hx => this x (List.mem_cons_of_mem _ hx)
    have hidle : a.stage = .idle → a.isOpen = true → False := by
      intro h1 h2
      have := (h.idle h1 h2).2.1
      rw [hu] at this; cases this
    have hask : a.stage = .asking → a.isOpen = true → a.down = [] ∧ us = [] := by
      intro h1 h2
      rcases h.asking h1 h2 with ⟨_, ⟨h3, h4⟩ | h3⟩ | ⟨_, h3, _⟩
      · rw [hu] at h4
        exact ⟨h3, List.length_eq_zero_iff.mp (by simpa using h4)⟩
      · rw [hu] at h3; cases h3
      · rw [hu] at h3; cases h3
    have htie : ∀ i, i ≠ 0 → PTie i (a.flight.out.phase i) [] [] (decide (i.toNat ∈ a.server.held)) := by
      intro i hi
      have := h.tie i hi
      rw [(hno i).1, (hno i).2] at this
      exact this
    have hon : a.stage ≠ .on := fun h' => by have := h.on h'; rw [hg] at this; cases this
    rw [hg] at hr
    generalize hgg : false = gg at hr
    have hds : ∀ (x y : UInt8) (i : UInt16), (a.down ++ [(⟨0x20, [x, y]⟩ : Raw)]).filterMap (downNote i) = [] := by
      intro x y i
      rw [notes_snoc, connack_note, (hno i).2]; rfl
    cases hr with
    | @refuse v u code e1 e2 =>
      refine ⟨h.distinct, h.zero, h.unused, h.kept, ?_, fun h' => absurd h' hon, fun h1 h2 => (hidle h1 h2).elim, ?_, ?_⟩
      · intro _
        refine ⟨fun x hx => hfr.1 x (List.mem_cons_of_mem _ hx), ?_⟩
        intro d hd
        rcases List.mem_append.mp hd with hd | hd
        · exact hfr.2 d hd
        · exact ⟨code, e2, List.mem_singleton.mp hd⟩
      · intro h1 h2
        exact Or.inl ⟨rfl, Or.inr (hask h1 h2).2⟩
      · intro i hi
        show PTie i _ (us.filterMap _) ((a.down ++ _).filterMap _) _
        rw [hus, hds]
        exact htie i hi
    | @begin v u c e1 e2 =>
      refine ⟨h.distinct, h.zero, h.unused, h.kept, fun h' => (by cases h'), fun _ => rfl, fun h1 h2 => (hidle h1 h2).elim, ?_, ?_⟩
      · intro h1 h2
        refine Or.inr ⟨rfl, (hask h1 h2).2, 0, [], ?_, fun _ => rfl, fun _ _ => rfl⟩
        show a.down ++ _ = _
        rw [(hask h1 h2).1]; rfl
      · intro i hi
        show PTie i _ (us.filterMap _) ((a.down ++ _).filterMap _) (decide (i.toNat ∈ ([] : List Nat)))
        rw [hus, hds]
        have hb := (htie i hi).begun (q' := False) (fun h => h)
        simpa using hb
    | @resume v u c e1 e2 e3 e4 =>
      refine ⟨h.distinct, h.zero, h.unused, h.kept, fun h' => (by cases h'), fun _ => rfl, fun h1 h2 => (hidle h1 h2).elim, ?_, ?_⟩
      · intro h1 h2
        refine Or.inr ⟨rfl, (hask h1 h2).2, 1, [], ?_, fun h => absurd h (by decide), fun _ _ => rfl⟩
        show a.down ++ _ = _
        rw [(hask h1 h2).1]; rfl
      · intro i hi
        show PTie i _ (us.filterMap _) ((a.down ++ _).filterMap _) _
        rw [hus, hds]
        exact htie i hi
    | _ => cases hgg

/-- A packet of the server without a note. -/
theorem Sound.sends {a : Proto} (h : Sound retx a) {p : Raw} {out : Outbox} (hg : a.greeted = true) (hp : ∀ i, downNote i p = none) :
    Sound retx { a with down := a.down ++ [p], server := { a.server with out := out } } := by
  refine ⟨h.distinct, h.zero, h.unused, h.kept, fun h' => (by rw [show a.greeted = false from h'] at hg; cases hg), h.on, ?_, ?_, ?_⟩
  · intro h1 h2
    have := (h.idle h1 h2).1
    rw [hg] at this; cases this
  · intro h1 h2
    rcases h.asking h1 h2 with ⟨h3, _⟩ | ⟨_, h3, sp, ds, h4, h5, h6⟩
    · rw [hg] at h3; cases h3
    · refine Or.inr ⟨hg, h3, sp, ds ++ [p], ?_, h5, ?_⟩
      · show a.down ++ [p] = _
        rw [h4]; rfl
      · intro i hi
        rw [notes_snoc, h6 i hi, hp]; rfl
  · intro i hi
    show PTie i _ _ ((a.down ++ [p]).filterMap _) _
    rw [notes_snoc, hp]
    simpa using h.tie i hi

/-- A packet received. -/
theorem Sound.reacted {a : Proto} (h : Sound retx a) {d : Raw} {ds : List Raw} (hon : a.stage = .on) (hd : a.down = d :: ds) (manage ok : Bool) :
    Sound retx { a with down := ds, flight := (react retx manage a.flight d.first d.body).state,
                        shelf := cleared a.shelf (react retx manage a.flight d.first d.body).callbacks, ok := ok } := by
  have hh := fun i => react_heard a.flight retx manage d.first d.body i
  have hcl : ∀ j c, cleared a.shelf (react retx manage a.flight d.first d.body).callbacks j = some c →
      a.shelf j = some c ∧ Event.clear j ∉ (react retx manage a.flight d.first d.body).callbacks := by
    intro j c hj
    unfold cleared at hj
    split at hj
    · cases hj
    · rename_i hn; exact ⟨hj, hn⟩
  refine ⟨distinct_react h.distinct _ _ _ _, ?_, ?_, ?_, ?_, fun _ => h.on hon, ?_, ?_, ?_⟩
  · have := hh 0
    rw [h.zero] at this
    show (react retx manage a.flight d.first d.body).state.out.phase 0 = none
    generalize (react retx manage a.flight d.first d.body).state.out.phase 0 = x at this ⊢
    cases this with
    | same => rfl
  · intro hr j
    cases hj : cleared a.shelf (react retx manage a.flight d.first d.body).callbacks j with
    | none => exact hj
    | some c => have := (hcl j c hj).1; rw [h.unused hr j] at this; cases this
  · intro j c hj
    obtain ⟨hj1, hj2⟩ := hcl j c hj
    obtain ⟨m, ph, h1, h2, h3, h4⟩ := h.kept j c hj1
    refine ⟨m, ph, h1, h2, ?_, h4⟩
    have hret : retx = true := by
      cases hr : retx
      · have := h.unused hr j; rw [hj1] at this; cases this
      · rfl
    have hj' := hh j
    rw [h3] at hj'
    show (react retx manage a.flight d.first d.body).state.out.phase j = some ph
    have htl := (react_tells a.flight retx manage d j).1
    have hfold := react_shelf retx manage a.flight d (fun _ => some []) j
    rw [if_neg hj2] at hfold
    have hno : ∀ x, x = 0x40 ∨ x = 0x50 → acksOf j (react retx manage a.flight d.first d.body).callbacks = [x] → False := by
      intro x hx hacks
      rcases htl with ⟨e1, e2⟩ | ⟨e1, _, e2⟩ | ⟨e1, _, e2⟩ | ⟨e1, _, e2⟩
      · rw [e1] at hacks; cases hacks
      · have := e2 (fun _ => some []); rw [hfold, hret] at this; cases this
      · have := e2 (fun _ => some []); rw [hfold, hret] at this; cases this
      · rw [e1] at hacks
        injection hacks with hacks
        rcases hx with rfl | rfl <;> exact absurd hacks (by decide)
    generalize (react retx manage a.flight d.first d.body).state.out.phase j = x at hj' ⊢
    generalize hy : some ph = y at hj'
    cases hj' with
    | same => rfl
    | puback e => exact (hno _ (Or.inl rfl) e).elim
    | pubrec e => exact (hno _ (Or.inr rfl) e).elim
    | pubcomp e =>
      cases hy
      exact absurd h4.pending (by decide)
  · intro hg
    have := h.on hon
    rw [show a.greeted = false from hg] at this; cases this
  · intro h1; rw [show a.stage = .idle from h1] at hon; cases hon
  · intro h1; rw [show a.stage = .asking from h1] at hon; cases hon
  · intro i hi
    have ht := h.tie i hi
    rw [hd, List.filterMap_cons] at ht
    have ht' : PTie i (a.flight.out.phase i) (a.up.filterMap (upNote i)) ((downNote i d).toList ++ ds.filterMap (downNote i)) (decide (i.toNat ∈ a.server.held)) := by
      cases hn : downNote i d <;> rw [hn] at ht <;> exact ht
    exact (Tie.hear (shelf := fun _ => none) ht' (hh i) (react_tells a.flight retx manage d i).1 (fun _ => rfl)).forget

/-- An acknowledgement is sent. -/
theorem Sound.answered {a : Proto} (h : Sound retx a) {ty : AckType} {id : UInt16} (hon : a.stage = .on)
    (hr : ty = .pubrel → a.flight.out.phase id = some .sendPubrel) :
    Sound retx { a.put [answerOf ty id] with flight := (step a.flight (.ack .send ty id)).2 } := by
  have hph := fun i => ackSend_phase (s := a.flight) (ty := ty) (id := id) (i := i) hr
  refine ⟨distinct_step h.distinct _, ?_, h.unused, ?_, ?_, h.on, ?_, ?_, ?_⟩
  · rcases hph 0 with h1 | ⟨_, _, h1, _⟩
    · exact h1.trans h.zero
    · rw [h.zero] at h1; cases h1
  · intro j c hj
    obtain ⟨m, ph, h1, h2, h3, h4⟩ := h.kept j c hj
    refine ⟨m, ph, h1, h2, ?_, h4⟩
    rcases hph j with h5 | ⟨_, _, h5, _⟩
    · exact h5.trans h3
    · rw [h3] at h5
      injection h5 with h5
      subst h5
      exact absurd h4.pending (by decide)
  · intro hg
    have := h.on hon
    rw [show a.greeted = false from hg] at this; cases this
  · intro h1; rw [show a.stage = .idle from h1] at hon; cases hon
  · intro h1; rw [show a.stage = .asking from h1] at hon; cases hon
  · intro i hi
    have ht := h.tie i hi
    have hnote := ackWire_note ty id i
    have hV : ({ a.put [answerOf ty id] with flight := (step a.flight (.ack .send ty id)).2 } : Proto).up.filterMap (upNote i) =
        a.up.filterMap (upNote i) ++ if a.isOpen then (upNote i (answerOf ty id)).toList else [] := by
      show (if a.isOpen then a.up ++ [answerOf ty id] else a.up).filterMap _ = _
      by_cases ho : a.isOpen = true
      · rw [if_pos ho, if_pos ho, List.filterMap_append]
        cases hx : upNote i (answerOf ty id) <;> simp [hx]
      · rw [if_neg ho, if_neg ho, List.append_nil]
    rw [hV]
    rw [show upNote i (answerOf ty id) = if ty = .pubrel ∧ id = i then some .rel else none from hnote]
    show PTie i ((step a.flight (.ack .send ty id)).2.out.phase i) _ (a.down.filterMap _) (decide (i.toNat ∈ a.server.held))
    by_cases hc : ty = .pubrel ∧ id = i
    · obtain ⟨rfl, rfl⟩ := hc
      rw [release_phase hi (hr rfl)]
      rw [hr rfl] at ht
      refine ht.release ?_
      by_cases ho : a.isOpen = true <;> simp [ho]
    · rw [if_neg hc]
      rcases hph i with h5 | ⟨h5, h6, _⟩
      · rw [h5]
        by_cases ho : a.isOpen = true <;> simpa [ho] using ht
      · exact absurd ⟨h5, h6.symm⟩ hc

/-- A packet without a note is sent. -/
theorem Sound.plain {a : Proto} (h : Sound retx a) {u : Raw} (sent : List Publish) (hon : a.stage = .on) (hu : ∀ i, upNote i u = none) :
    Sound retx { a.put [u] with sent := sent } := by
  refine ⟨h.distinct, h.zero, h.unused, h.kept, ?_, h.on, ?_, ?_, ?_⟩
  · intro hg
    have := h.on hon
    rw [show a.greeted = false from hg] at this; cases this
  · intro h1; rw [show a.stage = .idle from h1] at hon; cases hon
  · intro h1; rw [show a.stage = .asking from h1] at hon; cases hon
  · intro i hi
    have hV : ({ a.put [u] with sent := sent } : Proto).up.filterMap (upNote i) = a.up.filterMap (upNote i) := by
      show (if a.isOpen then a.up ++ [u] else a.up).filterMap _ = _
      split
      · rw [List.filterMap_append, List.filterMap_cons, hu]; simp
      · rfl
    rw [hV]
    exact h.tie i hi

theorem Spec.PlainPacket.note {u : Raw} (h : PlainPacket u) (i : UInt16) : upNote i u = none :=
  upNote_other h.2.2.2.2 (fun h' => h.2.2.1 (by rw [← UInt8.toNat_inj, h']; rfl))

/-- The publish has the stage that belongs to its quality of service. -/
theorem reserve_fits {s : InFlight} {id : UInt16} {q : QoS} (hq : q ≠ .qos0) (h : (step s (.reserve id q)).1.1 = .success) :
    ∃ ph, (step s (.reserve id q)).2.out.phase id = some ph ∧ Fits q.toFin ph := by
  rcases (reserve_ok hq h).2.2 with ⟨rfl, h1⟩ | ⟨rfl, h1⟩
  · exact ⟨_, h1, Or.inl ⟨rfl, Or.inl rfl⟩⟩
  · exact ⟨_, h1, Or.inr ⟨rfl, Or.inl rfl⟩⟩

theorem publish_fits {s : InFlight} {id : UInt16} {q : QoS} (hq : q ≠ .qos0) (h : (step s (.reserve id q)).1.1 = .success) :
    ∃ ph, (step (step s (.reserve id q)).2 (.publish .send id q)).2.out.phase id = some ph ∧ Fits q.toFin ph := by
  rcases (note_ok (reserve_ok hq h).1 (reserve_ok hq h).2.2).2 with ⟨rfl, h1⟩ | ⟨rfl, h1⟩
  · exact ⟨_, h1, Or.inl ⟨rfl, Or.inr rfl⟩⟩
  · exact ⟨_, h1, Or.inr ⟨rfl, Or.inr rfl⟩⟩

theorem reserve_other {s : InFlight} {id i : UInt16} {q : QoS} (hi : i ≠ id) : (step s (.reserve id q)).2.out.phase i = s.out.phase i := by
  rcases reserve_phase s id i q with h | h
  · exact h
  · exact absurd h.1 hi

theorem sent_other {s : InFlight} {id i : UInt16} {q : QoS} (hi : i ≠ id) : (step s (.publish .send id q)).2.out.phase i = s.out.phase i := by
  rcases sent_phase s id i q with h | h
  · exact h
  · exact absurd h.1 hi

/-- A message is accepted: it is in flight as `s`, was sent if `V` says so, and is kept. -/
theorem Sound.accept {a : Proto} (h : Sound retx a) {s : InFlight} {m : Publish} {id : UInt16} {q : QoS} {vs : List Raw} {k : UInt16 → Option Raw}
    (o ok : Bool) (sent : List Publish) (hon : a.stage = .on) (hq : q ≠ .qos0) (hm : m.id = id.toNat) (hmq : m.qos = q.toFin)
    (hres : (step a.flight (.reserve id q)).1.1 = .success) (hd : s.out.Pairwise fun x y => x.1 ≠ y.1)
    (hph : ∃ ph, s.out.phase id = some ph ∧ Fits q.toFin ph) (hother : ∀ i, i ≠ id → s.out.phase i = a.flight.out.phase i)
    (hvs : vs = [] ∨ ∃ u, vs = [u] ∧ parsePublish u.first.toNat u.body = some m)
    (hk : k = a.shelf ∨ ∃ c, parsePublish c.first.toNat c.body = some { m with dup := true } ∧ k = fun j => if retx = true ∧ j = id then some c else a.shelf j) :
    Sound retx { a.put vs with flight := s, shelf := k, isOpen := o, ok := ok, sent := sent } := by
  obtain ⟨hid0, hnone, _⟩ := reserve_ok hq hres
  obtain ⟨ph, hph1, hph2⟩ := hph
  have hkeep : ∀ j c, a.shelf j = some c → ∃ m ph, parsePublish c.first.toNat c.body = some m ∧ m.id = j.toNat ∧ s.out.phase j = some ph ∧ Fits m.qos ph := by
    intro j c hj
    obtain ⟨m', ph', e1, e2, e3, e4⟩ := h.kept j c hj
    refine ⟨m', ph', e1, e2, ?_, e4⟩
    rw [hother j (fun he => by rw [he, hnone] at e3; cases e3)]
    exact e3
  refine ⟨hd, ?_, ?_, ?_, ?_, h.on, ?_, ?_, ?_⟩
  · exact (hother 0 (Ne.symm hid0)).trans h.zero
  · intro hr j
    show k j = none
    rcases hk with rfl | ⟨c, _, rfl⟩
    · exact h.unused hr j
    · simp only [hr, Bool.false_eq_true, false_and, if_false]; exact h.unused hr j
  · intro j c hj
    rcases hk with rfl | ⟨c', hc', rfl⟩
    · exact hkeep j c hj
    · replace hj : (if retx = true ∧ j = id then some c' else a.shelf j) = some c := hj
      split at hj
      · rename_i hc
        cases hj
        obtain ⟨_, rfl⟩ := hc
        exact ⟨_, ph, hc', hm, hph1, by rw [show ({ m with dup := true } : Publish).qos = q.toFin from hmq]; exact hph2⟩
      · exact hkeep j c hj
  · intro hg
    have := h.on hon
    rw [show a.greeted = false from hg] at this; cases this
  · intro h1; rw [show a.stage = .idle from h1] at hon; cases hon
  · intro h1; rw [show a.stage = .asking from h1] at hon; cases hon
  · intro i hi
    have ht := h.tie i hi
    have hnote : ∀ u, parsePublish u.first.toNat u.body = some m → upNote i u = if i = id then some (.pub m.message) else none := by
      intro u hu
      rw [upNote_publish hu]
      have hq0 : m.qos ≠ 0 := by rw [hmq]; exact hph2.qos
      by_cases hc : i = id
      · rw [if_pos hc, if_pos ⟨by rw [hm, hc], hq0⟩]
      · rw [if_neg hc, if_neg]
        rintro ⟨h1, _⟩
        exact hc (by rw [← UInt16.toNat_inj, ← h1, hm])
    have hV : ∃ V, ({ a.put vs with flight := s, shelf := k, isOpen := o, ok := ok, sent := sent } : Proto).up.filterMap (upNote i) =
        a.up.filterMap (upNote i) ++ V ∧ (V = [] ∨ V = [.pub m.message] ∧ i = id) := by
      show ∃ V, (if a.isOpen then a.up ++ vs else a.up).filterMap _ = _ ∧ _
      split
      · rw [List.filterMap_append]
        refine ⟨_, rfl, ?_⟩
        rcases hvs with rfl | ⟨u, rfl, hu⟩
        · exact Or.inl rfl
        · rw [List.filterMap_cons, hnote u hu]
          by_cases hc : i = id
          · rw [if_pos hc]; exact Or.inr ⟨rfl, hc⟩
          · rw [if_neg hc]; exact Or.inl rfl
      · exact ⟨[], by rw [List.append_nil], Or.inl rfl⟩
    obtain ⟨V, hV1, hV2⟩ := hV
    rw [hV1]
    show PTie i (s.out.phase i) _ (a.down.filterMap _) (decide (i.toNat ∈ a.server.held))
    by_cases hc : i = id
    · subst hc
      rw [hph1]
      rw [hnone] at ht
      exact (Tie.publish (kept' := none) ht (m := m.message) (by rw [show m.message.qos = q.toFin from hmq]; exact hph2) (by simp)
        (hV2.imp id And.left)).forget
    · rw [hother i hc]
      rcases hV2 with rfl | ⟨_, h'⟩
      · rw [List.append_nil]; exact ht
      · exact absurd h' hc

/-- The notes of the packets that the application keeps. -/
theorem copies_notes {a : Proto} (h : Sound retx a) {copies : List (UInt16 × Raw)} (hc : ∀ e ∈ copies, a.shelf e.1 = some e.2)
    (hn : (copies.map (·.1)).Nodup) (i : UInt16) :
    (copies.map (·.2)).filterMap (upNote i) = [] ∨
      i ∈ copies.map (·.1) ∧ ∃ m ph, (copies.map (·.2)).filterMap (upNote i) = [.pub m] ∧ a.flight.out.phase i = some ph ∧ Fits m.qos ph := by
  induction copies with
  | nil => exact Or.inl rfl
  | cons e l ih =>
    rw [List.map_cons, List.nodup_cons] at hn
    have ih := ih (fun e he => hc e (List.mem_cons_of_mem _ he)) hn.2
    obtain ⟨m, ph, h1, h2, h3, h4⟩ := h.kept e.1 e.2 (hc e (List.mem_cons_self ..))
    have hnote : upNote i e.2 = if e.1 = i then some (.pub m.message) else none := by
      rw [upNote_publish h1]
      by_cases hi : e.1 = i
      · rw [if_pos hi, if_pos ⟨by rw [h2, hi], h4.qos⟩]
      · rw [if_neg hi, if_neg]
        rintro ⟨h5, _⟩
        exact hi (by rw [← UInt16.toNat_inj, ← h5, h2])
    rw [List.map_cons, List.map_cons, List.filterMap_cons, hnote]
    by_cases hi : e.1 = i
    · rw [if_pos hi]
      right
      refine ⟨by simp [hi], m.message, ph, ?_, by rw [← hi]; exact h3, h4⟩
      rcases ih with ih | ⟨ih, _⟩
      · rw [ih]
      · rw [← hi] at ih; exact absurd ih hn.1
    · rw [if_neg hi]
      rcases ih with ih | ⟨ih1, ih2⟩
      · exact Or.inl ih
      · exact Or.inr ⟨List.mem_cons_of_mem _ ih1, ih2⟩

theorem pending_nodup {a : Proto} (h : Sound retx a) : a.flight.pending.Nodup := by rw [pending_ids]; exact idsOf_nodup h.distinct _
theorem releasing_nodup {a : Proto} (h : Sound retx a) : a.flight.releasing.Nodup := by rw [releasing_ids]; exact idsOf_nodup h.distinct _

theorem mem_pending {a : Proto} (h : Sound retx a) {i : UInt16} : i ∈ a.flight.pending ↔ ∃ ph, a.flight.out.phase i = some ph ∧ ph.pending = true := by
  rw [pending_ids, idsOf_phase h.distinct]
  constructor <;> (rintro ⟨p, h1, h2⟩; exact ⟨p, h1, by cases p <;> first | rfl | cases h2⟩)

theorem mem_releasing {a : Proto} (h : Sound retx a) {i : UInt16} : i ∈ a.flight.releasing ↔ ∃ ph, a.flight.out.phase i = some ph ∧ ph.pending = false := by
  rw [releasing_ids, idsOf_phase h.distinct]
  constructor <;> (rintro ⟨p, h1, h2⟩; exact ⟨p, h1, by cases p <;> first | rfl | cases h2⟩)

/-- What is sent again is a list of PUBRELs, then of packets that the application keeps. -/
theorem Spec.Resends.form {s s' : InFlight} {shelf : UInt16 → Option Raw} {whole : Bool} {vs : List Raw} (h : Resends retx s shelf whole vs s') :
    ∃ (ids : List UInt16) (copies : List (UInt16 × Raw)), vs = (ids.map fun j => ackRaw 0x62 j.toNat) ++ copies.map (·.2) ∧ s' = s.release ids ∧ ids <+: s.releasing ∧
      copies.map (·.1) <+: s.pending ∧ (∀ e ∈ copies, shelf e.1 = some e.2) := by
  cases h with
  | releases h1 => exact ⟨_, [], by rw [List.map_nil, List.append_nil]; rfl, rfl, h1, List.nil_prefix, by simp⟩
  | publishes h1 h2 h3 => exact ⟨_, _, rfl, rfl, List.prefix_refl _, h2, h3⟩
  | all h1 h2 h3 => exact ⟨_, _, rfl, rfl, List.prefix_refl _, by rw [h2]; exact List.prefix_refl _, h3⟩
  | none h1 => exact ⟨_, [], by rw [List.map_nil, List.append_nil]; rfl, rfl, List.prefix_refl _, List.nil_prefix, by simp⟩

theorem release_phases (s : InFlight) (ids : List UInt16) (i : UInt16) :
    (s.release ids).out.phase i = if i ∈ ids then (s.out.phase i).map (fun _ => .awaitPubcomp) else s.out.phase i := phase_released ids s.out i

theorem release_distinct {s : InFlight} (ids : List UInt16) (h : s.out.Pairwise fun x y => x.1 ≠ y.1) :
    (s.release ids).out.Pairwise fun x y => x.1 ≠ y.1 := by
  unfold InFlight.release
  rw [List.pairwise_map]
  refine h.imp ?_
  intro x y hxy
  have : ∀ e : UInt16 × OutPhase, (if e.1 ∈ ids then (e.1, OutPhase.awaitPubcomp) else e).1 = e.1 := by intro e; split <;> rfl
  rw [this, this]; exact hxy

theorem Awaits.accepted {a : Proto} (h : Sound retx a) (hs : a.stage = .asking) (ho : a.isOpen = true) {sp : UInt8} {ds : List Raw}
    (hd : a.down = ⟨0x20, [sp, 0]⟩ :: ds) : a.greeted = true ∧ a.up = [] ∧ (sp = 0 → a.server.held = []) ∧ ∀ i, i ≠ 0 → ds.filterMap (downNote i) = [] := by
  rcases h.asking hs ho with ⟨h1, _⟩ | ⟨h1, h2, sp', ds', h3, h4, h5⟩
  · exfalso
    obtain ⟨code, h2, h3⟩ := (h.fresh h1).2 ⟨0x20, [sp, 0]⟩ (by rw [hd]; simp)
    injection h3 with _ h3
    injection h3 with _ h3
    injection h3 with h3
    exact h2 h3.symm
  · rw [hd] at h3
    injection h3 with h3 h6
    injection h3 with _ h3
    injection h3 with h3
    subst h3 h6
    exact ⟨h1, h2, h4, h5⟩

/-- Every step. -/
theorem Sound.step {a b : Proto} (h : Sound retx a) (hs : Proto.Step strict retx cap a b) : Sound retx b := by
  cases hs with
  | read h1 h2 => exact h.read h1 h2
  | offer h1 h2 => exact h.sends h1 (fun i => Unasked.note h2.unasked i)
  | unasked h1 h2 => exact h.sends (out := a.server.out) h1 (fun i => Unasked.note h2 i)
  | hangUp => exact ⟨h.distinct, h.zero, h.unused, h.kept, h.fresh, h.on, fun _ h => (by cases h), fun _ h => (by cases h), h.tie⟩
  | dial h1 =>
    refine ⟨h.distinct, h.zero, h.unused, h.kept, fun _ => ⟨by simp, by simp⟩, fun h2 => ?_, fun _ _ => ⟨rfl, rfl, rfl⟩, fun h2 => ?_, fun i hi => (h.tie i hi).dropped⟩
    · rw [show a.stage = .on from h2] at h1; cases h1
    · rw [show a.stage = .asking from h2] at h1; cases h1
  | @ask u h1 h2 =>
    have hup : ∀ x, x ∈ (a.put [u]).up → x ∈ a.up ∨ x = u := by
      intro x hx
      unfold Proto.put at hx
      dsimp only at hx
      split at hx
      · rcases List.mem_append.mp hx with hx | hx
        · exact Or.inl hx
        · exact Or.inr (List.mem_singleton.mp hx)
      · exact Or.inl hx
    refine ⟨h.distinct, h.zero, h.unused, h.kept, ?_, fun h => (by cases h), fun h => (by cases h), ?_, ?_⟩
    · intro hg
      refine ⟨fun x hx => ?_, (h.fresh hg).2⟩
      rcases hup x hx with hx | rfl
      · exact (h.fresh hg).1 x hx
      · exact h2
    · intro _ ho
      obtain ⟨e1, e2, e3⟩ := h.idle h1 ho
      refine Or.inl ⟨e1, Or.inl ⟨e3, ?_⟩⟩
      show (if a.isOpen then a.up ++ [u] else a.up).length ≤ 1
      rw [if_pos (show a.isOpen = true from ho), e2]; simp
    · intro i hi
      have hV : (a.put [u]).up.filterMap (upNote i) = a.up.filterMap (upNote i) := by
        show (if a.isOpen then a.up ++ [u] else a.up).filterMap _ = _
        split
        · rw [List.filterMap_append, List.filterMap_cons, connect_note h2]; simp
        · rfl
      show PTie i _ ((a.put [u]).up.filterMap _) _ _
      rw [hV]
      exact h.tie i hi
  | giveUp h1 => exact ⟨h.distinct, h.zero, h.unused, h.kept, h.fresh, fun h => (by cases h), fun _ h => (by cases h), fun h => (by cases h), h.tie⟩
  | @welcome ds h1 h2 h3 =>
    obtain ⟨e1, e2, e3, e4⟩ := Awaits.accepted h h1 h2 h3
    have hsh : ∀ j, (if retx = true ∧ j ∈ a.flight.pending then none else a.shelf j) = none := by
      intro j
      split
      · rfl
      · rename_i hc
        cases hj : a.shelf j with
        | none => rfl
        | some c =>
          exfalso
          obtain ⟨m, ph, _, _, f3, f4⟩ := h.kept j c hj
          refine hc ⟨?_, (mem_pending h).mpr ⟨ph, f3, f4.pending⟩⟩
          cases hr : retx
          · rw [h.unused hr j] at hj; cases hj
          · rfl
    refine ⟨.nil, rfl, fun _ => hsh, ?_, ?_, fun _ => e1, fun h => (by cases h), fun h => (by cases h), ?_⟩
    · intro j c hj
      have hj' := hsh j
      replace hj : (if retx = true ∧ j ∈ a.flight.pending then none else a.shelf j) = some c := hj
      rw [hj'] at hj; cases hj
    · intro hg; rw [show a.greeted = false from hg] at e1; cases e1
    · intro i hi
      show PTie i none (a.up.filterMap _) (ds.filterMap _) (decide (i.toNat ∈ a.server.held))
      rw [e2, e4 i hi, e3 rfl]
      exact .idle rfl (fun h => h.elim)
  | @resume ds vs whole s h1 h2 h3 h4 =>
    obtain ⟨e1, e2, e3, e4⟩ := Awaits.accepted h h1 h2 h3
    obtain ⟨ids, copies, rfl, rfl, f1, f2, f3⟩ := h4.form
    have hrel : ∀ i, i ∈ ids → ∃ ph, a.flight.out.phase i = some ph ∧ ph.pending = false := fun i hi => (mem_releasing h).mp (f1.subset hi)
    refine ⟨release_distinct _ h.distinct, ?_, h.unused, ?_, ?_, fun _ => e1, fun h => (by cases h), fun h => (by cases h), ?_⟩
    · refine (release_phases a.flight ids 0).trans ?_
      rw [h.zero]
      split <;> rfl
    · intro j c hj
      obtain ⟨m, ph, g1, g2, g3, g4⟩ := h.kept j c hj
      refine ⟨m, ph, g1, g2, ?_, g4⟩
      refine (release_phases a.flight ids j).trans ?_
      rw [if_neg]
      · exact g3
      · intro hj'
        obtain ⟨ph', g5, g6⟩ := hrel j hj'
        rw [g3] at g5
        injection g5 with g5
        rw [← g5, g4.pending] at g6; cases g6
    · intro hg; rw [show a.greeted = false from hg] at e1; cases e1
    · intro i hi
      have ht := h.tie i hi
      rw [e2, h3, List.filterMap_cons, connack_note] at ht
      replace ht : PTie i (a.flight.out.phase i) [] (ds.filterMap (downNote i)) (decide (i.toNat ∈ a.server.held)) := ht
      rw [e4 i hi] at ht
      show PTie i ((a.flight.release ids).out.phase i) ((if a.isOpen then a.up ++ _ else a.up).filterMap _) (ds.filterMap _) (decide (i.toNat ∈ a.server.held))
      rw [if_pos h2, e2, List.nil_append, List.filterMap_append, e4 i hi, (pubrels_raw ids i (f1.sublist.nodup (releasing_nodup h))).2.2]
      rw [release_phases a.flight ids i]
      by_cases hii : i ∈ ids
      · obtain ⟨ph, g1, g2⟩ := hrel i hii
        rw [if_pos hii, if_pos hii, g1]
        rw [g1] at ht
        rcases copies_notes h f3 (f2.sublist.nodup (pending_nodup h)) i with hc | ⟨hc, _⟩
        · rw [hc, List.append_nil]
          exact PTie.resumeRel ht g2 (Or.inr rfl)
        · exfalso
          obtain ⟨ph', g3, g4⟩ := (mem_pending h).mp (f2.subset hc)
          rw [g1] at g3
          injection g3 with g3
          rw [g3, g4] at g2; cases g2
      · rw [if_neg hii, if_neg hii, List.nil_append]
        rcases copies_notes h f3 (f2.sublist.nodup (pending_nodup h)) i with hc | ⟨_, m, ph, hc, g1, g2⟩
        · rw [hc]; exact ht
        · rw [hc, g1]
          rw [g1] at ht
          exact PTie.resumePub ht g2
  | plain h1 h2 => exact h.plain a.sent h1 h2.note
  | publish0 h1 h2 h3 => exact h.plain _ h1 (fun i => by rw [upNote_publish h2, if_neg (by simp [h3])])
  | publish h1 h2 h3 h4 h5 h6 h7 =>
    exact h.accept a.isOpen a.ok _ h1 h6 h4 h5 h7 (distinct_step (distinct_step h.distinct _) _) (publish_fits h6 h7)
      (fun i hi => (sent_other hi).trans (reserve_other hi)) (Or.inr ⟨_, rfl, h2⟩) (Or.inr ⟨_, h3, rfl⟩)
  | @unsaved m id q h1 h2 h4 h5 h6 h7 =>
    have hx := h.accept (vs := []) a.isOpen false (a.sent ++ [m.message]) h1 h6 h4 h5 h7 (distinct_step h.distinct _) (reserve_fits h6 h7) (fun i hi => reserve_other hi) (Or.inl rfl) (Or.inl rfl)
    have he : a.put [] = a := by unfold Proto.put; split <;> simp
    rw [he] at hx
    exact hx
  | @unsent c m id q h1 h3 h4 h5 h6 h7 =>
    have hx := h.accept (vs := []) false a.ok (a.sent ++ [m.message]) h1 h6 h4 h5 h7 (distinct_step h.distinct _) (reserve_fits h6 h7) (fun i hi => reserve_other hi) (Or.inl rfl) (Or.inr ⟨_, h3, rfl⟩)
    have he : a.put [] = a := by unfold Proto.put; split <;> simp
    rw [he] at hx
    exact hx
  | take h1 h2 h3 => exact h.reacted h1 h2 _ _
  | @answer d ds manage ty id h1 h2 h3 =>
    have hx := h.reacted h1 h2 manage a.ok
    refine hx.answered (ty := ty) (id := id) h1 ?_
    rintro rfl
    exact (react_pubrel h3).1
  | mute h1 h2 => exact h.reacted h1 h2 _ _
  | close h1 => exact ⟨h.distinct, h.zero, h.unused, h.kept, h.fresh, fun h => (by cases h), fun _ h => (by cases h), fun h => (by cases h), h.tie⟩

theorem Sound.run {a b : Proto} (h : Sound retx a) (hr : Proto.Run strict retx cap a b) : Sound retx b := by
  induction hr with
  | refl => exact h
  | step _ h2 ih => exact ih.step h2

end Mqtt
