/-
On a connection that is in order some packet about every exchange in progress is under way.
-/
import Verif.Proof.PacketsSound
import Verif.Proof.InboundTake

namespace Mqtt
open Spec
set_option linter.unusedSimpArgs false

variable {strict retx : Bool} {cap : Nat}

/-! ### Outgoing publishes -/

/-- A packet about the outgoing publish `i` is under way. -/
def Moving (i : UInt16) (up down : List Raw) : Prop := up.filterMap (upNote i) ≠ [] ∨ down.filterMap (downNote i) ≠ []

theorem Moving.more {i : UInt16} {up down : List Raw} (h : Moving i up down) (vs ds : List Raw) : Moving i (up ++ vs) (down ++ ds) := by
  rcases h with h | h
  · left; rw [List.filterMap_append]; simp [h]
  · right; rw [List.filterMap_append]; simp [h]

theorem Moving.put {i : UInt16} {a : Proto} {down : List Raw} (h : Moving i a.up down) (vs : List Raw) : Moving i (a.put vs).up down := by
  show Moving i (if a.isOpen then a.up ++ vs else a.up) down
  split
  · simpa using h.more vs []
  · exact h

theorem filter_ne_nil {α β : Type} {f : α → Option β} {l : List α} {x : α} (hx : x ∈ l) (h : f x ≠ none) : l.filterMap f ≠ [] := by
  intro h'
  rw [List.filterMap_eq_nil_iff] at h'
  exact h (h' x hx)

/-- The server answers each packet about an exchange. -/
theorem Reads.moves {v v' : Server} {u : Raw} {us ds outs : List Raw} {g' : Bool} (h : Reads strict cap true v u g' v' outs) {i : UInt16} (hi : i ≠ 0)
    (hm : Moving i (u :: us) ds) : Moving i us (ds ++ outs) := by
  by_cases hn : upNote i u = none
  · unfold Moving at hm
    rw [List.filterMap_cons, hn] at hm
    simpa using Moving.more (i := i) (up := us) (down := ds) hm [] outs
  right
  have key : ∀ {t : UInt8} {id : Nat}, (t = 0x40 ∨ t = 0x50 ∨ t = 0x70) → id < 65536 → id = i.toNat →
      (ds ++ [(⟨t, be16 id⟩ : Raw)]).filterMap (downNote i) ≠ [] := by
    intro t id ht hid he
    have := ackRaw_note (t := t) hid hi
    unfold ackRaw at this
    refine filter_ne_nil (x := ⟨t, be16 id⟩) (by simp) ?_
    rw [this, if_pos he]
    rcases ht with rfl | rfl | rfl <;> simp
  have pub : ∀ {m : Publish}, parsePublish u.first.toNat u.body = some m → m.id < 65536 ∧ m.id = i.toNat ∧ m.qos ≠ 0 := by
    intro m hm
    rw [upNote_publish hm] at hn
    have : m.id = i.toNat ∧ m.qos ≠ 0 := Classical.byContradiction fun hc => hn (if_neg hc)
    exact ⟨(parsePublish_facts hm).2.1, this⟩
  generalize hg : true = g at h
  cases h with
  | refuse => cases hg
  | begin => cases hg
  | resume => cases hg
  | qos0 e1 e2 => exact absurd e2 (pub e1).2.2
  | qos1 e1 e2 => exact key (Or.inl rfl) (pub e1).1 (pub e1).2.1
  | qos2 e1 e2 => exact key (Or.inr (Or.inl rfl)) (pub e1).1 (pub e1).2.1
  | again e1 e2 => exact key (Or.inr (Or.inl rfl)) (pub e1).1 (pub e1).2.1
  | @release _ _ id e1 e2 =>
    rw [upNote_rel e1 e2] at hn
    exact key (Or.inr (Or.inr rfl)) (read16_lt e2) (Classical.byContradiction fun hc => hn (if_neg hc))
  | other e1 e2 =>
    exact absurd (upNote_other e1 (fun h => e2 (by rw [← UInt8.toNat_inj, h]; rfl))) hn
  | settle e1 e2 =>
    refine absurd (upNote_other ?_ ?_) hn
    · rcases e2.type with h | h | h <;> rw [h] <;> decide
    · rcases e2.type with h | h | h <;> rw [h] <;> decide

/-- Each acknowledgement of an outgoing publish, if it is dealt with without error, ends it or is answered with PUBREL. -/
theorem react_done {s : InFlight} {manage : Bool} {d : Raw} {i : UInt16} (hi : i ≠ 0) (hd : downNote i d ≠ none) :
    ((react retx manage s d.first d.body).status = .success → (react retx manage s d.first d.body).ack = none →
      (react retx manage s d.first d.body).state.out.phase i = none) ∧
    ∀ ty id, (react retx manage s d.first d.body).ack = some (ty, id) → ty = .pubrel ∧ id = i := by
  have hbody : idOnly d.body = some i := by
    unfold downNote at hd
    exact Classical.byContradiction fun hc => hd (if_neg hc)
  have hfirst : d.first = 0x40 ∨ d.first = 0x50 ∨ d.first = 0x70 := by
    unfold downNote at hd
    rw [if_pos hbody] at hd
    by_cases h1 : d.first = 0x40
    · exact Or.inl h1
    by_cases h2 : d.first = 0x50
    · exact Or.inr (Or.inl h2)
    by_cases h3 : d.first = 0x70
    · exact Or.inr (Or.inr h3)
    rw [if_neg h1, if_neg h2, if_neg h3] at hd
    exact absurd rfl hd
  have hr : ∃ ty, (ty = .puback ∨ ty = .pubrec ∨ ty = .pubcomp) ∧ readIncoming d.first d.body = some (.ack ty i) := by
    rcases hfirst with h | h | h
    · exact ⟨.puback, by simp, by unfold readIncoming; rw [h, hbody]; rfl⟩
    · exact ⟨.pubrec, by simp, by unfold readIncoming; rw [h, hbody]; rfl⟩
    · exact ⟨.pubcomp, by simp, by unfold readIncoming; rw [h, hbody]; rfl⟩
  obtain ⟨ty, hty, hr⟩ := hr
  have hreact : react retx manage s d.first d.body = reactAck retx s d.first d.body ty i := by unfold react; rw [hr]
  rw [hreact]
  unfold reactAck
  simp only
  by_cases hok : (step s (.ack .receive ty i)).1.1 = .success
  rotate_left
  · rw [if_neg hok]
    exact ⟨fun h => absurd h hok, fun _ _ h => by cases h⟩
  rw [if_pos hok]
  refine ⟨fun _ hack => ?_, fun ty' id' h => ?_⟩
  · have ho : forOutgoing .receive ty = true := by rcases hty with rfl | rfl | rfl <;> rfl
    simp only [step, if_neg hi, ho, if_true] at hok ⊢
    unfold ackTable at hok ⊢
    cases hp : s.out.phase i with
    | none => rw [hp] at hok; cases hok
    | some x =>
      rw [hp] at hok
      rcases hty with rfl | rfl | rfl
      · cases x <;> simp [outAck] at hok ⊢ <;> simp [Effect.apply, phase_remove]
      · cases hack
      · cases x <;> simp [outAck] at hok ⊢ <;> simp [Effect.apply, phase_remove]
  · rcases hty with rfl | rfl | rfl
    · cases h
    · cases h; exact ⟨rfl, rfl⟩
    · cases h

/-- Every outgoing publish is being dealt with. -/
def OutLive (a : Proto) : Prop :=
  a.isOpen = true → a.stage = .on → a.ok = true → ∀ i, i ≠ 0 → a.flight.out.phase i ≠ none → Moving i a.up a.down

theorem OutLive.step {a b : Proto} (hs : Sound retx a) (h : OutLive a) (st : Proto.Step strict retx cap a b) : OutLive b := by
  have heard : ∀ {d : Raw} {manage : Bool} {i : UInt16}, (react retx manage a.flight d.first d.body).state.out.phase i ≠ none → a.flight.out.phase i ≠ none := by
    intro d manage i h1 h2
    have := react_heard a.flight retx manage d.first d.body i
    rw [h2] at this
    revert h1
    generalize (react retx manage a.flight d.first d.body).state.out.phase i = x at this
    cases this with
    | same => exact fun h => h rfl
  have split : ∀ {d : Raw} {ds : List Raw} {i : UInt16}, a.down = d :: ds → Moving i a.up a.down → Moving i a.up ds ∨ downNote i d ≠ none := by
    intro d ds i hd hm
    rw [hd] at hm
    by_cases hn : downNote i d = none
    · left
      unfold Moving at hm ⊢
      rw [List.filterMap_cons, hn] at hm
      exact hm
    · exact Or.inr hn
  cases st with
  | @read u us outs g v h1 h2 =>
    intro ho hst hok i hi hp
    have hm := h ho hst hok i hi hp
    rw [h1] at hm
    rw [hs.on hst] at h2
    exact Reads.moves h2 hi hm
  | @offer p out h1 h2 =>
    intro ho hst hok i hi hp
    have := (h ho hst hok i hi hp).more [] [p]
    rwa [List.append_nil] at this
  | @unasked p h1 h2 =>
    intro ho hst hok i hi hp
    have := (h ho hst hok i hi hp).more [] [p]
    rwa [List.append_nil] at this
  | hangUp => intro ho; cases ho
  | dial h1 => intro _ hst; rw [show a.stage = .on from hst] at h1; cases h1
  | ask => intro _ hst; cases hst
  | giveUp => intro ho; cases ho
  | welcome => intro _ _ _ i _ hp; exact absurd rfl hp
  | @resume ds vs whole s h1 h2 h3 h4 =>
    intro ho _ hok i hi hp
    replace ho : whole = true := ho
    subst ho
    replace hok : retx = true := hok
    left
    obtain ⟨e1, e2, e3, e4⟩ := Awaits.accepted hs h1 h2 h3
    show (if a.isOpen then a.up ++ vs else a.up).filterMap (upNote i) ≠ []
    rw [if_pos h2, e2, List.nil_append]
    generalize hw : true = w at h4
    cases h4 with
    | releases => cases hw
    | publishes => cases hw
    | none h5 => rw [hok] at h5; cases h5
    | @all copies h5 h6 h7 =>
      replace hp : (a.flight.release a.flight.releasing).out.phase i ≠ none := hp
      rw [release_phases] at hp
      have hp' : a.flight.out.phase i ≠ none := by
        intro h'
        rw [h'] at hp
        split at hp <;> exact hp rfl
      obtain ⟨ph, hph⟩ := Option.ne_none_iff_exists'.mp hp'
      cases hpe : ph.pending with
      | false =>
        have := (mem_releasing hs).mpr ⟨ph, hph, hpe⟩
        have h8 := (pubrels_raw a.flight.releasing i (releasing_nodup hs)).2.2
        unfold ackRaw at h8
        rw [List.filterMap_append, h8, if_pos this]
        simp
      | true =>
        have := (mem_pending hs).mpr ⟨ph, hph, hpe⟩
        rw [← h6] at this
        obtain ⟨e, he, hei⟩ := List.mem_map.mp this
        obtain ⟨m, ph', f1, f2, f3, f4⟩ := hs.kept e.1 e.2 (h7 e he)
        refine filter_ne_nil (x := e.2) (List.mem_append_right _ (List.mem_map_of_mem he)) ?_
        rw [upNote_publish f1, if_pos ⟨by rw [f2, hei], f4.qos⟩]
        simp
  | plain h1 h2 => intro ho hst hok i hi hp; exact (h ho hst hok i hi hp).put _
  | publish0 h1 h2 h3 => intro ho hst hok i hi hp; exact (h ho hst hok i hi hp).put _
  | @publish u c m id q h1 h2 h3 h4 h5 h6 h7 =>
    intro ho hst hok i hi hp
    by_cases hc : i = id
    · subst hc
      left
      show (if a.isOpen then a.up ++ [u] else a.up).filterMap (upNote i) ≠ []
      rw [if_pos (show a.isOpen = true from ho)]
      refine filter_ne_nil (x := u) (by simp) ?_
      have hq0 : m.qos ≠ 0 := by rw [h5]; cases q <;> first | exact absurd rfl h6 | decide
      rw [upNote_publish h2, if_pos ⟨h4, hq0⟩]
      simp
    · refine Moving.put (a := a) (h ho hst hok i hi ?_) _
      replace hp : (Spec.step (Spec.step a.flight (.reserve id q)).2 (.publish .send id q)).2.out.phase i ≠ none := hp
      rwa [sent_other hc, reserve_other hc] at hp
  | unsaved => intro _ _ hok; cases hok
  | unsent => intro ho; cases ho
  | @take d ds manage h1 h2 h3 =>
    intro ho hst hok i hi hp
    replace hok : (a.ok && decide ((react retx manage a.flight d.first d.body).status = .success)) = true := hok
    rw [Bool.and_eq_true, decide_eq_true_eq] at hok
    rcases split h2 (h ho hst hok.1 i hi (heard hp)) with hm | hn
    · exact hm
    · exact absurd ((react_done hi hn).1 hok.2 h3) hp
  | @answer d ds manage ty id h1 h2 h3 =>
    intro ho hst hok i hi hp
    have hph := ackSend_phase (s := (react retx manage a.flight d.first d.body).state) (ty := ty) (id := id) (i := i)
      (by rintro rfl; exact (react_pubrel h3).1)
    have hp' : (react retx manage a.flight d.first d.body).state.out.phase i ≠ none := by
      intro h'
      rcases hph with h4 | ⟨_, _, h4, _⟩
      · exact hp (h4.trans h')
      · rw [h'] at h4; cases h4
    rcases split h2 (h ho hst hok i hi (heard hp')) with hm | hn
    · exact hm.put _
    · obtain ⟨rfl, rfl⟩ := (react_done hi hn).2 ty id h3
      left
      show (if a.isOpen then a.up ++ [answerOf .pubrel id] else a.up).filterMap (upNote id) ≠ []
      rw [if_pos (show a.isOpen = true from ho)]
      refine filter_ne_nil (x := answerOf .pubrel id) (by simp) ?_
      have : upNote id (answerOf .pubrel id) = _ := ackWire_note .pubrel id id
      rw [this, if_pos ⟨rfl, rfl⟩]
      simp
  | mute => intro _ _ hok; cases hok
  | close => intro ho; cases ho

/-! ### Messages from the server -/

/-- The exchange about the messages from the server with one packet id, without the messages. -/
abbrev PIn (slot : Option Slot) (U : List InUp) (D : List InDown) : Prop := InTie False [] [] slot none U D

theorem InTie.plain {O R : List Publish} {slot : Option Slot} {ph : Option InPhase} {U : List InUp} {D : List InDown} (h : InTie False O R slot ph U D) : PIn slot U D := by
  cases h with
  | free => exact .free (fun h => h.elim)
  | one h1 h2 h3 => exact .one h1 h2 h3 (fun h => h.elim)
  | two h1 h2 h3 => exact .two h1 h2 h3 (fun h => h.elim)
  | rel h1 h2 => exact .rel h1 h2 (fun h => h.elim)

theorem PIn.any {slot : Option Slot} {U : List InUp} {D : List InDown} (h : PIn slot U D) (ph : Option InPhase) : InTie False [] [] slot ph U D := by
  cases h with
  | free => exact .free (fun h => h.elim)
  | one h1 h2 h3 => exact .one h1 h2 h3 (fun h => h.elim)
  | two h1 h2 h3 => exact .two h1 h2 h3 (fun h => h.elim)
  | rel h1 h2 => exact .rel h1 h2 (fun h => h.elim)

/-- A message that was sent on this connection is being dealt with. -/
def Busy (slot : Option Slot) (U : List InUp) (D : List InDown) : Prop := ∀ x, slot = some x → x.sent = true → U ≠ [] ∨ D ≠ []

structure InLive (a : Proto) : Prop where
  zero : a.server.out.slot 0 = none
  fresh : a.greeted = false → ∀ i, a.up.filterMap (inUp i) = [] ∧ a.down.filterMap (inDown i) = []
  tie : ∀ i, i ≠ 0 → PIn (a.server.out.slot i) (a.up.filterMap (inUp i)) (a.down.filterMap (inDown i))
  busy : a.isOpen = true → a.greeted = true → a.stage = .asking ∨ a.stage = .on ∧ a.ok = true → ∀ i, i ≠ 0 →
    Busy (a.server.out.slot i) (a.up.filterMap (inUp i)) (a.down.filterMap (inDown i))

theorem InLive.initial {a : Proto} (h : a.Initial) : InLive a := by
  refine ⟨h.held.2 0, fun _ i => by rw [h.quiet.1, h.quiet.2]; exact ⟨rfl, rfl⟩, ?_, ?_⟩
  · intro i _
    rw [h.quiet.1, h.quiet.2, h.held.2 i]
    exact .free (fun h => h.elim)
  · rw [h.isOpen]; intro h; cases h

theorem PIn.head {slot : Option Slot} {x : InUp} {U : List InUp} {D : List InDown} (h : PIn slot (x :: U) D) :
    ∃ m s, slot = some ⟨m, false, s⟩ ∧ (m.qos = 1 ∧ x = .puback ∨ m.qos = 2 ∧ x = .pubrec) ∨ slot = some ⟨m, true, s⟩ ∧ x = .pubcomp := by
  generalize hV : x :: U = V at h
  cases h with
  | free => cases hV
  | @one m s _ _ _ h1 h2 h3 =>
    rcases h3 with ⟨h3, _⟩ | ⟨h3, _⟩ | ⟨h3, _⟩ <;> rw [h3] at hV <;> cases hV
    exact ⟨m, s, Or.inl ⟨rfl, Or.inl ⟨h1, rfl⟩⟩⟩
  | @two m s _ _ _ h1 h2 h3 =>
    rcases h3 with ⟨h3, _⟩ | ⟨h3, _⟩ | ⟨h3, _⟩ <;> rw [h3] at hV <;> cases hV
    exact ⟨m, s, Or.inl ⟨rfl, Or.inr ⟨h1, rfl⟩⟩⟩
  | @rel m s _ _ _ h1 h2 =>
    rcases h2 with ⟨h3, _⟩ | ⟨h3, _⟩ | ⟨h3, _⟩ <;> rw [h3] at hV <;> cases hV
    exact ⟨m, s, Or.inr ⟨rfl, rfl⟩⟩

/-- The server reads a packet. -/
theorem Reads.busy {v v' : Server} {u : Raw} {us ds outs : List Raw} {g' : Bool} (h : Reads true cap true v u g' v' outs) {i : UInt16} (hi : i ≠ 0)
    (ht : PIn (v.out.slot i) ((u :: us).filterMap (inUp i)) (ds.filterMap (inDown i))) :
    PIn (v'.out.slot i) (us.filterMap (inUp i)) ((ds ++ outs).filterMap (inDown i)) ∧
    (Busy (v.out.slot i) ((u :: us).filterMap (inUp i)) (ds.filterMap (inDown i)) →
      Busy (v'.out.slot i) (us.filterMap (inUp i)) ((ds ++ outs).filterMap (inDown i))) := by
  generalize hg : true = g at h
  have plain : inUp i u = none → outs.filterMap (inDown i) = [] → v'.out = v.out →
      PIn (v'.out.slot i) (us.filterMap (inUp i)) ((ds ++ outs).filterMap (inDown i)) ∧
      (Busy (v.out.slot i) ((u :: us).filterMap (inUp i)) (ds.filterMap (inDown i)) →
        Busy (v'.out.slot i) (us.filterMap (inUp i)) ((ds ++ outs).filterMap (inDown i))) := by
    intro h1 h2 h3
    rw [List.filterMap_append, h2, List.append_nil, h3]
    rw [List.filterMap_cons, h1] at ht ⊢
    exact ⟨ht, fun h => h⟩
  have ack : ∀ {t : UInt8} {id : Nat}, (t = 0x40 ∨ t = 0x50 ∨ t = 0x70) → [(⟨t, be16 id⟩ : Raw)].filterMap (inDown i) = [] := by
    intro t id ht
    have := ackRaw_inDown ht id i
    unfold ackRaw at this
    rw [List.filterMap_cons, this]; rfl
  cases h with
  | refuse => cases hg
  | begin => cases hg
  | resume => cases hg
  | qos0 e1 => exact plain (inUp_publish e1) rfl rfl
  | qos1 e1 => exact plain (inUp_publish e1) (ack (Or.inl rfl)) rfl
  | qos2 e1 => exact plain (inUp_publish e1) (ack (Or.inr (Or.inl rfl))) rfl
  | again e1 => exact plain (inUp_publish e1) (ack (Or.inr (Or.inl rfl))) rfl
  | release e1 e2 => exact plain (inUp_other (by rw [e1]; decide) (by rw [e1]; decide) (by rw [e1]; decide)) (ack (Or.inr (Or.inr rfl))) rfl
  | other e1 e2 e3 e4 =>
    refine plain (inUp_other (e3 rfl).1 (e3 rfl).2.1 (e3 rfl).2.2) ?_ rfl
    rw [List.filterMap_eq_nil_iff]
    exact fun p hp => Unasked.inDown (e4 p hp) i
  | @settle v u j out outs e1 e2 =>
    rw [inUp_head] at ht ⊢
    refine ⟨?_, ?_⟩
    · rw [List.filterMap_append]
      exact (ht.settles hi e1 e2).2
    · intro hb
      by_cases hj : j = i
      rotate_left
      · rw [inUp_ack e1 hj] at hb
        have e : out.slot i = v.out.slot i := by
          generalize u.first.toNat = t at e2
          cases e2 <;> first | rfl | exact Spec.Outbox.put_other hj
        intro x hx hxs
        rw [List.filterMap_append]
        rcases hb x (e.symm.trans hx) hxs with h | h
        · exact Or.inl h
        · exact Or.inr (by simp [h])
      · subst hj
        generalize ht' : u.first.toNat = t at e2
        have hf : ∀ x : UInt8, t = x.toNat → u.first = x := fun x hx => UInt8.toNat_inj.mp (by rw [ht', hx])
        have hn : inUp j u = if u.first = 0x40 then some .puback else if u.first = 0x50 then some .pubrec else if u.first = 0x70 then some .pubcomp else none := by
          unfold inUp
          rw [if_pos e1]
        cases e2 with
        | puback =>
          intro x hx
          rw [show (v.out.put j none).slot j = none from Spec.Outbox.put_same] at hx; cases hx
        | pubcomp =>
          intro x hx
          rw [show (v.out.put j none).slot j = none from Spec.Outbox.put_same] at hx; cases hx
        | pubrec =>
          intro x _ _
          right
          refine filter_ne_nil (x := ⟨0x62, be16 j.toNat⟩) (by simp) ?_
          rw [inDown_rel hi, if_pos rfl]
          simp
        | stray h0 h1 h2 =>
          exfalso
          have hV : ∃ x, inUp j u = some x := by
            rw [hn]
            rcases h0 with h0 | h0 | h0
            · exact ⟨_, by rw [hf 0x40 h0]; rfl⟩
            · exact ⟨_, by rw [hf 0x50 h0]; rfl⟩
            · exact ⟨_, by rw [hf 0x70 h0]; rfl⟩
          obtain ⟨x, hx⟩ := hV
          rw [hx] at ht
          obtain ⟨m, s, hs⟩ := PIn.head (show PIn _ (x :: us.filterMap (inUp j)) _ from ht)
          rw [hn] at hx
          rcases hs with ⟨hs, ⟨hq, rfl⟩ | ⟨hq, rfl⟩⟩ | ⟨hs, rfl⟩
          · refine (h1 m s hs).1 ⟨?_, hq⟩
            rcases h0 with h0 | h0 | h0
            · exact h0
            · rw [hf 0x50 h0] at hx; cases hx
            · rw [hf 0x70 h0] at hx; cases hx
          · refine (h1 m s hs).2 ⟨?_, hq⟩
            rcases h0 with h0 | h0 | h0
            · rw [hf 0x40 h0] at hx; cases hx
            · exact h0
            · rw [hf 0x70 h0] at hx; cases hx
          · refine h2 m s hs ?_
            rcases h0 with h0 | h0 | h0
            · rw [hf 0x40 h0] at hx; cases hx
            · rw [hf 0x50 h0] at hx; cases hx
            · exact h0

theorem Reads.slotZero {g g' : Bool} {v v' : Server} {u : Raw} {outs : List Raw} (h : Reads strict cap g v u g' v' outs) (h0 : v.out.slot 0 = none) :
    v'.out.slot 0 = none := by
  cases h with
  | begin => rfl
  | resume => show (v.out.slot 0).map _ = none; rw [h0]; rfl
  | @settle v u j out outs e1 e2 =>
    show out.slot 0 = none
    have put : ∀ {x}, v.out.slot j ≠ none → (v.out.put j x).slot 0 = none := by
      intro x hx
      have : j ≠ 0 := fun h => hx (by rw [h]; exact h0)
      rw [Spec.Outbox.put_other this]; exact h0
    generalize u.first.toNat = t at e2
    cases e2 with
    | puback h1 => exact put (by rw [h1]; simp)
    | pubrec h1 => exact put (by rw [h1]; simp)
    | pubcomp h1 => exact put (by rw [h1]; simp)
    | stray => exact h0
  | _ => exact h0

/-- Each message and each PUBREL from the server, if it is dealt with without error, is answered. -/
theorem react_answers {s : InFlight} {manage : Bool} {d : Raw} {i : UInt16} (hd : inDown i d ≠ none) :
    ((react retx manage s d.first d.body).status = .success → (react retx manage s d.first d.body).ack ≠ none) ∧
    ∀ ty id, (react retx manage s d.first d.body).ack = some (ty, id) → inUp i (answerOf ty id) ≠ none := by
  have up : ∀ ty, ty ≠ .pubrel → inUp i (answerOf ty i) ≠ none := by
    intro ty hty
    rw [show inUp i (answerOf ty i) = _ from ackRaw_inUp ty i i, if_pos rfl]
    cases ty <;> first | exact absurd rfl hty | simp [ackUp]
  unfold inDown at hd
  by_cases hf : d.first = 0x62
  · rw [if_pos hf] at hd
    have hb : idOnly d.body = some i := Classical.byContradiction fun hc => hd (if_neg hc)
    have hr : readIncoming d.first d.body = some (.ack .pubrel i) := by unfold readIncoming; rw [hf, hb]; rfl
    have hreact : react retx manage s d.first d.body = reactAck retx s d.first d.body .pubrel i := by unfold react; rw [hr]
    rw [hreact]
    unfold reactAck
    simp only
    by_cases hok : (step s (.ack .receive .pubrel i)).1.1 = .success
    · rw [if_pos hok]
      exact ⟨fun _ h => (by cases h), fun ty id h => (by cases h; exact up _ (by simp))⟩
    · rw [if_neg hok]
      exact ⟨fun h => absurd h hok, fun _ _ h => by cases h⟩
  · rw [if_neg hf] at hd
    cases hp : parsePublish d.first.toNat d.body with
    | none => rw [hp] at hd; exact absurd rfl hd
    | some m =>
      rw [hp] at hd
      obtain ⟨hid, hq⟩ : m.id = i.toNat ∧ m.qos ≠ 0 := Classical.byContradiction fun hc => hd (if_neg hc)
      have h3 := (parsePublish_facts hp).1
      have hqv : m.qos.val ≠ 0 := fun h => hq (Fin.ext h)
      by_cases hl : d.body.length < 5
      · have hr : readIncoming d.first d.body = none := by
          unfold readIncoming
          rw [if_pos h3, hp]
          simp only
          rw [if_neg hqv, if_pos hl]
        have hreact : react retx manage s d.first d.body = ⟨.badResponse, [], none, s, false⟩ := by unfold react; rw [hr]
        rw [hreact]
        exact ⟨fun h => (by cases h), fun _ _ h => (by cases h)⟩
      · have hr : readIncoming d.first d.body = some (.publish i ⟨qosName m.qos, m.retain, m.dup, m.topic, m.payload⟩) := by
          unfold readIncoming
          rw [if_pos h3, hp]
          simp only
          rw [if_neg hqv, if_neg hl, hid]
          simp
        have hreact : react retx manage s d.first d.body = reactPublish s d.first d.body i ⟨qosName m.qos, m.retain, m.dup, m.topic, m.payload⟩ := by
          unfold react; rw [hr]
        rw [hreact]
        have hack : ∃ ty, publishAck (qosName m.qos) i = some (ty, i) ∧ ty ≠ .pubrel := by
          have := qosName_ne.mpr hq
          cases hqn : qosName m.qos with
          | qos0 => exact absurd hqn this
          | qos1 => exact ⟨.puback, rfl, by simp⟩
          | qos2 => exact ⟨.pubrec, rfl, by simp⟩
        obtain ⟨ty, hty, hne⟩ := hack
        unfold reactPublish
        simp only
        have good : ∀ (cb : List Event) (s' : InFlight),
            ((⟨.success, cb, publishAck (qosName m.qos) i, s', false⟩ : Reaction).status = .success →
              (⟨.success, cb, publishAck (qosName m.qos) i, s', false⟩ : Reaction).ack ≠ none) ∧
            ∀ ty id, (⟨.success, cb, publishAck (qosName m.qos) i, s', false⟩ : Reaction).ack = some (ty, id) → inUp i (answerOf ty id) ≠ none := by
          intro cb s'
          simp only
          rw [hty]
          exact ⟨fun _ h => (by cases h), fun ty id h => (by cases h; exact up _ hne)⟩
        split
        · exact ⟨fun h => (by cases h), fun _ _ h => (by cases h)⟩
        · split
          · exact good _ _
          · rename_i hnok
            split
            · exact good _ _
            · exact ⟨fun h => absurd h hnok, fun _ _ h => (by cases h)⟩

theorem Busy.more {slot : Option Slot} {U V : List InUp} {D E : List InDown} (h : Busy slot U D) : Busy slot (U ++ V) (D ++ E) := by
  intro x h1 h2
  rcases h x h1 h2 with h | h
  · exact Or.inl (by simp [h])
  · exact Or.inr (by simp [h])

theorem put_inUp {a : Proto} {vs : List Raw} {i : UInt16} (h : ∀ u ∈ vs, inUp i u = none) : (a.put vs).up.filterMap (inUp i) = a.up.filterMap (inUp i) := by
  show (if a.isOpen then a.up ++ vs else a.up).filterMap _ = _
  split
  · rw [List.filterMap_append, (List.filterMap_eq_nil_iff.mpr h), List.append_nil]
  · rfl

/-- Packets are sent that have nothing to do with messages from the server. -/
theorem InLive.puts {a b : Proto} (h : InLive a) {vs : List Raw} (hvs : ∀ i, ∀ u ∈ vs, inUp i u = none) (h1 : b.up = (a.put vs).up) (h2 : b.down = a.down)
    (h3 : b.server = a.server) (h4 : b.greeted = a.greeted) (h5 : b.isOpen = true → a.isOpen = true) (h6 : b.stage = a.stage) (h7 : b.ok = true → a.ok = true) :
    InLive b := by
  refine ⟨by rw [h3]; exact h.zero, ?_, ?_, ?_⟩
  · intro hg i
    rw [h1, h2, put_inUp (hvs i)]
    exact h.fresh (by rw [← h4]; exact hg) i
  · intro i hi
    rw [h1, h2, h3, put_inUp (hvs i)]
    exact h.tie i hi
  · intro ho hg hs i hi
    rw [h1, h2, h3, put_inUp (hvs i)]
    rw [h6] at hs
    exact h.busy (h5 ho) (by rw [← h4]; exact hg) (hs.imp_right fun x => ⟨x.1, h7 x.2⟩) i hi

theorem InLive.read {a : Proto} (h : InLive a) {u : Raw} {us outs : List Raw} {g : Bool} {v : Server} (hu : a.up = u :: us)
    (hr : Reads true cap a.greeted a.server u g v outs) : InLive { a with up := us, down := a.down ++ outs, greeted := g, server := v } := by
  refine ⟨Reads.slotZero hr h.zero, ?_, ?_, ?_⟩
  all_goals
    by_cases hg : a.greeted = true
    · rw [hg] at hr
      have hg' := Reads.greeted hr rfl
      first
        | (intro h'; rw [show g = false from h'] at hg'; cases hg')
        | (intro i hi
           have ht := h.tie i hi
           rw [hu] at ht
           exact (Reads.busy hr hi ht).1)
        | (intro h1 h2 h3 i hi
           have ht := h.tie i hi
           rw [hu] at ht
           have hb := h.busy h1 hg h3 i hi
           rw [hu] at hb
           exact (Reads.busy hr hi ht).2 hb)
    · replace hg : a.greeted = false := by simpa using hg
      have hno := h.fresh hg
      have hus : ∀ i, us.filterMap (inUp i) = [] := by
        intro i
        have := (hno i).1
        rw [hu, List.filterMap_eq_nil_iff] at this
        rw [List.filterMap_eq_nil_iff]
        exact fun x hx => this x (List.mem_cons_of_mem _ hx)
      have hds : ∀ (x y : UInt8) (i : UInt16), (a.down ++ [(⟨0x20, [x, y]⟩ : Raw)]).filterMap (inDown i) = [] := by
        intro x y i
        rw [inNotes_snoc, connack_inDown, (hno i).2]; rfl
      have htie : ∀ i, i ≠ 0 → PIn (a.server.out.slot i) [] [] := by
        intro i hi
        have := h.tie i hi
        rw [(hno i).1, (hno i).2] at this
        exact this
      rw [hg] at hr
      generalize hgg : false = gg at hr
      cases hr with
      | refuse =>
        first
          | (intro _ i; exact ⟨hus i, hds _ _ i⟩)
          | (intro i hi
             show PIn (a.server.out.slot i) (us.filterMap _) ((a.down ++ _).filterMap _)
             rw [hus, hds]
             exact htie i hi)
          | (intro _ h'; cases h')
      | begin =>
        first
          | (intro h'; exact absurd (show true = false from h') (by decide))
          | (intro i hi
             show PIn none (us.filterMap _) ((a.down ++ _).filterMap _)
             rw [hus, hds]
             exact .free (fun h => h.elim))
          | (intro _ _ _ i _ x hx; cases hx)
      | resume =>
        first
          | (intro h'; exact absurd (show true = false from h') (by decide))
          | (intro i hi
             show PIn ((a.server.out.slot i).map _) (us.filterMap _) ((a.down ++ _).filterMap _)
             rw [hus, hds]
             exact (htie i hi).unsent)
          | (intro _ _ _ i _ x hx hxs
             replace hx : (a.server.out.slot i).map (fun x => { x with sent := false }) = some x := hx
             obtain ⟨y, _, rfl⟩ := Option.map_eq_some_iff.mp hx
             cases hxs)
      | _ => cases hgg

theorem Spec.Offers.slotZero {o o' : Outbox} {p : Raw} (h : Offers cap o p o') (h0 : o.slot 0 = none) : o'.slot 0 = none := by
  cases h with
  | @offer _ m j h1 h2 h3 h4 h5 h6 h7 =>
    have : j ≠ 0 := by
      rintro rfl
      exact (parsePublish_facts h3).2.2 h4 h6
    exact (Spec.Outbox.put_other this).trans h0
  | @offerAgain _ m j h1 h2 h3 h4 h5 =>
    have : j ≠ 0 := by rintro rfl; rw [h0] at h5; cases h5
    exact (Spec.Outbox.put_other this).trans h0
  | @releaseAgain m j h1 h2 =>
    have : j ≠ 0 := by rintro rfl; rw [h0] at h2; cases h2
    exact (Spec.Outbox.put_other this).trans h0

/-- The server sends a message or PUBREL. -/
theorem Spec.Offers.busy {o o' : Outbox} {p : Raw} {i : UInt16} {U : List InUp} {D : List InDown} (h : Offers cap o p o') (hi : i ≠ 0) (ht : PIn (o.slot i) U D)
    (hb : Busy (o.slot i) U D) : Busy (o'.slot i) U (D ++ (inDown i p).toList) := by
  have other : o'.slot i = o.slot i → Busy (o'.slot i) U (D ++ (inDown i p).toList) := by
    intro h'
    rw [h']
    have := hb.more (V := []) (E := (inDown i p).toList)
    rwa [List.append_nil] at this
  cases h with
  | @offer _ m j h1 h2 h3 h4 h5 h6 h7 =>
    by_cases hj : j = i
    · subst hj
      intro _ _ _
      right
      rw [inDown_publish h3, if_pos ⟨h6, h4⟩]
      simp
    · exact other (Spec.Outbox.put_other hj)
  | @offerAgain _ m j h1 h2 h3 h4 h5 =>
    by_cases hj : j = i
    · subst hj
      intro _ _ _
      right
      have hne : m.qos ≠ 0 := by
        rw [h5] at ht
        cases ht with
        | one h => intro h'; rw [show m.message.qos = m.qos from rfl, h'] at h; cases h
        | two h => intro h'; rw [show m.message.qos = m.qos from rfl, h'] at h; cases h
      rw [inDown_publish h3, if_pos ⟨h4, hne⟩]
      simp
    · exact other (Spec.Outbox.put_other hj)
  | @releaseAgain m j h1 h2 =>
    by_cases hj : j = i
    · subst hj
      intro _ _ _
      right
      rw [inDown_rel hi, if_pos rfl]
      simp
    · exact other (Spec.Outbox.put_other hj)

theorem InLive.step {a b : Proto} (hs : Sound retx a) (h : InLive a) (st : Proto.Step true retx cap a b) : InLive b := by
  have taken : ∀ {d : Raw} {ds : List Raw} (manage : Bool), a.stage = .on → a.down = d :: ds →
      (∀ i, i ≠ 0 → PIn (a.server.out.slot i) (a.up.filterMap (inUp i)) (ds.filterMap (inDown i))) ∧
      ∀ ty id, (react retx manage a.flight d.first d.body).ack = some (ty, id) → ∀ i, i ≠ 0 →
        PIn (a.server.out.slot i) ((a.put [answerOf ty id]).up.filterMap (inUp i)) (ds.filterMap (inDown i)) := by
    intro d ds manage hon hd
    have key : ∀ i, i ≠ 0 → InTie False [] [] (a.server.out.slot i) (a.flight.inc.phase i) (a.up.filterMap (inUp i)) ((inDown i d).toList ++ ds.filterMap (inDown i)) := by
      intro i hi
      have := h.tie i hi
      rw [hd, List.filterMap_cons] at this
      have this : PIn (a.server.out.slot i) (a.up.filterMap (inUp i)) ((inDown i d).toList ++ ds.filterMap (inDown i)) := by
        cases hn : inDown i d <;> rw [hn] at this <;> exact this
      exact PIn.any this _
    refine ⟨fun i hi => ((key i hi).takes (retx := retx) (manage := manage) hi).1.plain, ?_⟩
    intro ty id hack i hi
    have hV : (a.put [answerOf ty id]).up.filterMap (inUp i) = a.up.filterMap (inUp i) ++ if a.isOpen then (inUp i (answerOf ty id)).toList else [] := by
      show (if a.isOpen then a.up ++ [answerOf ty id] else a.up).filterMap _ = _
      by_cases ho : a.isOpen = true
      · rw [if_pos ho, if_pos ho, List.filterMap_append]
        cases hx : inUp i (answerOf ty id) <;> simp [hx]
      · rw [if_neg ho, if_neg ho, List.append_nil]
    rw [hV]
    refine (((key i hi).takes (retx := retx) (manage := manage) hi).2 ty id hack _ ?_).plain
    by_cases ho : a.isOpen = true
    · rw [if_pos ho]; exact Or.inr rfl
    · rw [if_neg ho]; exact Or.inl rfl
  have split : ∀ {d : Raw} {ds : List Raw} {i : UInt16}, a.down = d :: ds → Busy (a.server.out.slot i) (a.up.filterMap (inUp i)) (a.down.filterMap (inDown i)) →
      Busy (a.server.out.slot i) (a.up.filterMap (inUp i)) (ds.filterMap (inDown i)) ∨ inDown i d ≠ none := by
    intro d ds i hd hb
    rw [hd] at hb
    by_cases hn : inDown i d = none
    · left
      rw [List.filterMap_cons, hn] at hb
      exact hb
    · exact Or.inr hn
  cases st with
  | read h1 h2 => exact h.read h1 h2
  | @offer p out h1 h2 =>
    refine ⟨h2.slotZero h.zero, fun hg => (by rw [show a.greeted = false from hg] at h1; cases h1), ?_, ?_⟩
    · intro i hi
      show PIn (out.slot i) _ ((a.down ++ [p]).filterMap _)
      rw [inNotes_snoc]
      obtain ⟨_, _, h3⟩ := (h.tie i hi).offers hi h2
      exact h3.plain
    · intro ho _ hst i hi
      show Busy (out.slot i) _ ((a.down ++ [p]).filterMap _)
      rw [inNotes_snoc]
      exact h2.busy hi (h.tie i hi) (h.busy ho h1 hst i hi)
  | @unasked p h1 h2 =>
    have hd : ∀ i, (a.down ++ [p]).filterMap (inDown i) = a.down.filterMap (inDown i) := by
      intro i
      rw [inNotes_snoc, Unasked.inDown h2]; simp
    refine ⟨h.zero, fun hg => (by rw [show a.greeted = false from hg] at h1; cases h1), ?_, ?_⟩
    · intro i hi
      show PIn _ _ ((a.down ++ [p]).filterMap _)
      rw [hd]
      exact h.tie i hi
    · intro ho hg hst i hi
      show Busy _ _ ((a.down ++ [p]).filterMap _)
      rw [hd]
      exact h.busy ho hg hst i hi
  | hangUp => exact ⟨h.zero, h.fresh, h.tie, fun h => (by cases h)⟩
  | dial h1 => exact ⟨h.zero, fun _ _ => ⟨rfl, rfl⟩, fun i hi => (h.tie i hi).dropped, fun _ h => (by cases h)⟩
  | @ask u h1 h2 =>
    have hu : ∀ i, ∀ x ∈ [u], inUp i x = none := by
      intro i x hx
      rw [List.mem_singleton.mp hx]
      exact inUp_other (by rw [h2]; decide) (by rw [h2]; decide) (by rw [h2]; decide)
    refine ⟨h.zero, ?_, ?_, ?_⟩
    · intro hg i
      show (a.put [u]).up.filterMap _ = [] ∧ _
      rw [put_inUp (hu i)]
      exact h.fresh hg i
    · intro i hi
      show PIn _ ((a.put [u]).up.filterMap _) _
      rw [put_inUp (hu i)]
      exact h.tie i hi
    · intro ho hg
      have := (hs.idle h1 ho).1
      rw [show a.greeted = true from hg] at this; cases this
  | giveUp h1 => exact ⟨h.zero, h.fresh, h.tie, fun h => (by cases h)⟩
  | @welcome ds h1 h2 h3 =>
    have hd : ∀ i, a.down.filterMap (inDown i) = ds.filterMap (inDown i) := by
      intro i
      rw [h3, List.filterMap_cons, connack_inDown]
    have e1 := (Awaits.accepted hs h1 h2 h3).1
    refine ⟨h.zero, fun hg => (by rw [show a.greeted = false from hg] at e1; cases e1), ?_, ?_⟩
    · intro i hi
      show PIn _ _ (ds.filterMap _)
      rw [← hd]
      exact h.tie i hi
    · intro _ _ _ i hi
      show Busy _ _ (ds.filterMap _)
      rw [← hd]
      exact h.busy h2 e1 (Or.inl h1) i hi
  | @resume ds vs whole s h1 h2 h3 h4 =>
    have hd : ∀ i, a.down.filterMap (inDown i) = ds.filterMap (inDown i) := by
      intro i
      rw [h3, List.filterMap_cons, connack_inDown]
    have e1 := (Awaits.accepted hs h1 h2 h3).1
    obtain ⟨ids, copies, rfl, rfl, f1, f2, f3⟩ := h4.form
    have hvs : ∀ i, ∀ u ∈ (ids.map fun j => ackRaw 0x62 j.toNat) ++ copies.map (·.2), inUp i u = none := by
      intro i u hu
      rcases List.mem_append.mp hu with hu | hu
      · obtain ⟨j, _, rfl⟩ := List.mem_map.mp hu
        exact inUp_other (show (0x62 : UInt8) ≠ 0x40 by decide) (show (0x62 : UInt8) ≠ 0x50 by decide) (show (0x62 : UInt8) ≠ 0x70 by decide)
      · obtain ⟨e, he, rfl⟩ := List.mem_map.mp hu
        obtain ⟨m, _, g1, _⟩ := hs.kept e.1 e.2 (f3 e he)
        exact inUp_publish g1
    refine ⟨h.zero, fun hg => (by rw [show a.greeted = false from hg] at e1; cases e1), ?_, ?_⟩
    · intro i hi
      show PIn _ ((a.put _).up.filterMap _) (ds.filterMap _)
      rw [put_inUp (hvs i), ← hd]
      exact h.tie i hi
    · intro _ _ _ i hi
      show Busy _ ((a.put _).up.filterMap _) (ds.filterMap _)
      rw [put_inUp (hvs i), ← hd]
      exact h.busy h2 e1 (Or.inl h1) i hi
  | @plain u h1 h2 =>
    refine h.puts (vs := [u]) ?_ rfl rfl rfl rfl (fun h => h) rfl (fun h => h)
    intro i x hx
    rw [List.mem_singleton.mp hx]
    exact inUp_other h2.1 h2.2.1 h2.2.2.2.1
  | @publish0 u m h1 h2 h3 =>
    refine h.puts (vs := [u]) ?_ rfl rfl rfl rfl (fun h => h) rfl (fun h => h)
    intro i x hx
    rw [List.mem_singleton.mp hx]
    exact inUp_publish h2
  | @publish u c m id q h1 h2 h3 h4 h5 h6 h7 =>
    refine h.puts (vs := [u]) ?_ rfl rfl rfl rfl (fun h => h) rfl (fun h => h)
    intro i x hx
    rw [List.mem_singleton.mp hx]
    exact inUp_publish h2
  | unsaved h1 =>
    refine ⟨h.zero, h.fresh, h.tie, fun _ _ hst => ?_⟩
    rcases hst with hst | hst
    · rw [show a.stage = .asking from hst] at h1; cases h1
    · cases hst.2
  | unsent h1 => exact ⟨h.zero, h.fresh, h.tie, fun h => (by cases h)⟩
  | @take d ds manage h1 h2 h3 =>
    refine ⟨h.zero, fun hg => (by have := hs.on h1; rw [show a.greeted = false from hg] at this; cases this), (taken manage h1 h2).1, ?_⟩
    intro ho hg hst i hi
    rcases hst with hst | ⟨_, hok⟩
    · rw [show a.stage = .asking from hst] at h1; cases h1
    replace hok : (a.ok && decide ((react retx manage a.flight d.first d.body).status = .success)) = true := hok
    rw [Bool.and_eq_true, decide_eq_true_eq] at hok
    rcases split h2 (h.busy ho hg (Or.inr ⟨h1, hok.1⟩) i hi) with hb | hn
    · exact hb
    · exact absurd h3 ((react_answers hn).1 hok.2)
  | @answer d ds manage ty id h1 h2 h3 =>
    refine ⟨h.zero, fun hg => (by have := hs.on h1; rw [show a.greeted = false from hg] at this; cases this), (taken manage h1 h2).2 ty id h3, ?_⟩
    intro ho hg hst i hi
    rcases hst with hst | ⟨_, hok⟩
    · rw [show a.stage = .asking from hst] at h1; cases h1
    show Busy _ ((if a.isOpen then a.up ++ [answerOf ty id] else a.up).filterMap (inUp i)) (ds.filterMap _)
    rw [if_pos (show a.isOpen = true from ho)]
    rcases split h2 (h.busy ho hg (Or.inr ⟨h1, hok⟩) i hi) with hb | hn
    · rw [List.filterMap_append]
      have := hb.more (V := [answerOf ty id].filterMap (inUp i)) (E := [])
      rwa [List.append_nil] at this
    · intro _ _ _
      left
      exact filter_ne_nil (x := answerOf ty id) (by simp) ((react_answers hn).2 ty id h3)
  | @mute d ds manage h1 h2 =>
    refine ⟨h.zero, fun hg => (by have := hs.on h1; rw [show a.greeted = false from hg] at this; cases this), (taken manage h1 h2).1, ?_⟩
    intro _ _ hst
    rcases hst with hst | hst
    · rw [show a.stage = .asking from hst] at h1; cases h1
    · cases hst.2
  | close h1 => exact ⟨h.zero, h.fresh, h.tie, fun h => (by cases h)⟩

/-! ### Runs -/

theorem OutLive.run {a b : Proto} (h : a.Initial) (hr : Proto.Run strict retx cap a b) : OutLive b := by
  induction hr with
  | refl => intro ho; rw [h.isOpen] at ho; cases ho
  | step h1 h2 ih => exact ih.step ((Sound.initial h).run h1) h2

theorem InLive.run {a b : Proto} (h : a.Initial) (hr : Proto.Run true retx cap a b) : InLive b := by
  induction hr with
  | refl => exact InLive.initial h
  | step h1 h2 ih => exact ih.step ((Sound.initial h).run h1) h2

end Mqtt
