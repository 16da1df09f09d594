/-
The receive calls, seen from the connection.
-/
import Verif.Proof.BrokerCall
import Verif.Proof.CallRecv

namespace Mqtt
open Spec
set_option linter.unusedSimpArgs false

variable {strict : Bool}

theorem readIncoming_id {t : UInt8} {body : List UInt8} {ty : AckType} {id : UInt16} (h : readIncoming t body = some (.ack ty id)) : idOnly body = some id := by
  have key : ∀ {o : Option UInt16} {ty' : AckType}, o.map (Packet.ack ty') = some (.ack ty id) → o = some id := by
    intro o ty' h
    cases o with
    | none => cases h
    | some x => injection h with h; injection h with h1 h2; rw [h2]
  rcases readIncoming_ackByte h with ⟨rfl, rfl⟩ | ⟨rfl, rfl⟩ | ⟨rfl, rfl⟩ | ⟨rfl, rfl⟩
  all_goals
    unfold readIncoming at h
    rw [if_neg (by decide)] at h
    simp only [if_true, if_false, show ((0x50 : UInt8) = 0x40) = False by decide, show ((0x62 : UInt8) = 0x40) = False by decide,
      show ((0x62 : UInt8) = 0x50) = False by decide, show ((0x70 : UInt8) = 0x40) = False by decide, show ((0x70 : UInt8) = 0x50) = False by decide,
      show ((0x70 : UInt8) = 0x62) = False by decide] at h
    exact key h

/-- The callbacks of a reaction, for packet id `i`. -/
def Tells (retx : Bool) (i : UInt16) (p : Raw) (cb : List Event) : Prop :=
  (acksOf i cb = [] ∧ ∀ k : Shelf, cb.foldl Shelf.note k i = k i) ∨
  (acksOf i cb = [0x40] ∧ downNote i p = some .puback ∧ ∀ k : Shelf, cb.foldl Shelf.note k i = if retx then none else k i) ∨
  (acksOf i cb = [0x50] ∧ downNote i p = some .pubrec ∧ ∀ k : Shelf, cb.foldl Shelf.note k i = if retx then none else k i) ∨
  (acksOf i cb = [0x70] ∧ downNote i p = some .pubcomp ∧ ∀ k : Shelf, cb.foldl Shelf.note k i = k i)

theorem react_tells (s : InFlight) (retx manage : Bool) (p : Raw) (i : UInt16) : Tells retx i p (react retx manage s p.first p.body).callbacks ∧
    ∀ (k : Shelf) j x, (react retx manage s p.first p.body).callbacks.foldl Shelf.note k j = some x → k j = some x := by
  have app : ∀ {t : UInt8} {body : List UInt8} {id : UInt16} {st : Status} {v : Option PubView}, v ≠ none ∨ ¬ (t = 0x40 ∨ t = 0x50 ∨ t = 0x70) →
      Tells retx i p [.app t body id st v] ∧ ∀ (k : Shelf) j x, [Event.app t body id st v].foldl Shelf.note k j = some x → k j = some x := by
    intro t body id st v h
    refine ⟨Or.inl ⟨?_, fun _ => rfl⟩, fun _ _ _ h => h⟩
    rcases h with h | h
    · cases v with
      | none => exact absurd rfl h
      | some v => simp [acksOf]
    · cases v <;> simp [acksOf, h]
  have nil : Tells retx i p [] ∧ ∀ (k : Shelf) j x, [].foldl Shelf.note k j = some x → k j = some x := ⟨Or.inl ⟨rfl, fun _ => rfl⟩, fun _ _ _ h => h⟩
  unfold react
  cases hr : readIncoming p.first p.body with
  | none => exact nil
  | some q =>
    cases q with
    | publish id v =>
      simp only
      unfold reactPublish
      split
      · exact nil
      · simp only
        split
        · exact app (Or.inl (by simp))
        · split <;> exact nil
    | ack ty id =>
      simp only
      unfold reactAck
      simp only
      split
      · rename_i hs
        simp only
        have hid := readIncoming_id hr
        have hdn : downNote i p = if id = i then (if p.first = 0x40 then some .puback else if p.first = 0x50 then some .pubrec else if p.first = 0x70 then some .pubcomp else none) else none := by
          unfold downNote
          rw [hid]
          by_cases h : id = i <;> simp [h]
        by_cases hi : id = i
        · subst hi
          rw [if_pos rfl] at hdn
          rcases readIncoming_ackByte hr with ⟨rfl, ht⟩ | ⟨rfl, ht⟩ | ⟨rfl, ht⟩ | ⟨rfl, ht⟩
          · rw [ht] at hdn ⊢
            cases retx
            · exact ⟨Or.inr (Or.inl ⟨by simp [acksOf], hdn, fun _ => rfl⟩), fun _ _ _ h => h⟩
            · refine ⟨Or.inr (Or.inl ⟨by simp [acksOf], hdn, fun k => by simp [Shelf.note]⟩), fun k j x => ?_⟩
              simp only [Shelf.note, List.foldl, true_or, true_and, and_self, if_true, List.cons_append, List.nil_append]
              by_cases hj : j = id <;> simp [hj]
          · rw [ht] at hdn ⊢
            cases retx
            · exact ⟨Or.inr (Or.inr (Or.inl ⟨by simp [acksOf], hdn, fun _ => rfl⟩)), fun _ _ _ h => h⟩
            · refine ⟨Or.inr (Or.inr (Or.inl ⟨by simp [acksOf], hdn, fun k => by simp [Shelf.note]⟩)), fun k j x => ?_⟩
              simp only [Shelf.note, List.foldl, or_true, true_and, and_self, if_true, List.cons_append, List.nil_append]
              by_cases hj : j = id <;> simp [hj]
          · rw [ht]
            exact ⟨Or.inl ⟨by simp [acksOf], fun _ => rfl⟩, fun _ _ _ h => h⟩
          · rw [ht] at hdn ⊢
            exact ⟨Or.inr (Or.inr (Or.inr ⟨by simp [acksOf], hdn, fun _ => rfl⟩)), fun _ _ _ h => h⟩
        · split
          · refine ⟨Or.inl ⟨by simp [acksOf, hi], fun k => by simp [Shelf.note, Ne.symm hi]⟩, fun k j x => ?_⟩
            simp only [Shelf.note, List.foldl, List.cons_append, List.nil_append]
            by_cases hj : j = id <;> simp [hj]
          · exact ⟨Or.inl ⟨by simp [acksOf, hi], fun _ => rfl⟩, fun _ _ _ h => h⟩
      · exact nil
    | pingresp =>
      simp only
      split
      · exact nil
      · exact app (Or.inr (readIncoming_kind hr (by simp)))
    | suback id f => exact app (Or.inr (readIncoming_kind hr (by simp)))
    | unsuback id => exact app (Or.inr (readIncoming_kind hr (by simp)))

section
variable {i : UInt16} {q : Prop} {P L : List Publish} {k c : Nat} {kept kept' : Option (List UInt8)} {ph ph' : Option OutPhase} {U : List UpNote}
  {D : List DownNote} {held : Bool} {m : Publish}

theorem Tie.dropD {d : List DownNote} (h : Tie i q P L k c kept ph U (d ++ D) held) : Tie i q P L k c kept ph U D held := by
  cases d with
  | nil => exact h
  | cons x d =>
    generalize hD : x :: d ++ D = E at h
    have hne : E ≠ [] := by rw [← hD]; simp
    have hnil : ∀ y, E = [y] → D = [] := by
      intro y hy
      rw [← hD] at hy
      simp at hy
      exact hy.2.2
    cases h with
    | idle h1 h2 => exact absurd rfl hne
    | one h1 h2 h3 h4 h5 =>
      rcases h5 with ⟨_, h⟩ | ⟨_, h⟩ | ⟨hU, h⟩
      · exact absurd h hne
      · exact absurd h hne
      · rw [hnil _ h]
        refine .one h1 h2 h3 (fun hq => ?_) (Or.inl ⟨hU, rfl⟩)
        obtain ⟨P', e1, e2, e3, e4⟩ := h4 hq
        refine ⟨P', e1, e2, e3, Or.inl ?_⟩
        rcases e4 with e4 | ⟨e4, _⟩
        · exact e4
        · exact absurd e4 hne
    | two h1 h2 h3 h4 h5 =>
      rcases h5 with ⟨_, h⟩ | ⟨_, h⟩ | ⟨hU, h, hh⟩
      · exact absurd h hne
      · exact absurd h hne
      · rw [hnil _ h]
        exact .two h1 h2 h3 h4 (Or.inl ⟨hU, rfl⟩)
    | rel h1 h2 => exact absurd rfl hne
    | comp h1 h2 h3 =>
      rcases h3 with ⟨_, h⟩ | ⟨_, h⟩ | ⟨hU, h, hh⟩
      · exact absurd h hne
      · exact absurd h hne
      · rw [hnil _ h]
        exact .comp h1 h2 (Or.inl ⟨hU, rfl⟩)

/-- The client hears of packet `p`. -/
theorem Tie.hear {p : Raw} {cb : List Event} {retx : Bool} {shelf : Shelf} (h : Tie i q P L k c (shelf i) ph U ((downNote i p).toList ++ D) held) (hh : Heard cb i ph ph')
    (ht : Tells retx i p cb) (hk : retx = false → shelf i = none) :
    Tie i q P L (k + acknowledged i cb) (c + completed i cb) (cb.foldl Shelf.note shelf i) ph' U D held := by
  have hnone : (if retx then none else shelf i) = none := by
    cases retx
    · exact hk rfl
    · rfl
  cases hh with
  | same h0 =>
    have e : cb.foldl Shelf.note shelf i = shelf i := by
      rcases ht with ⟨_, h⟩ | ⟨h, _⟩ | ⟨h, _⟩ | ⟨h, _⟩
      · exact h shelf
      all_goals rw [h0] at h; cases h
    have e1 : acknowledged i cb = 0 := by unfold acknowledged; rw [h0]; rfl
    have e2 : completed i cb = 0 := by unfold completed; rw [h0]; rfl
    rw [e, e1, e2]
    exact h.dropD
  | puback h0 =>
    have e : downNote i p = some .puback ∧ cb.foldl Shelf.note shelf i = none := by
      rcases ht with ⟨h, _⟩ | ⟨h, h', h''⟩ | ⟨h, _⟩ | ⟨h, _⟩
      · rw [h0] at h; cases h
      · exact ⟨h', by rw [h'', hnone]⟩
      all_goals rw [h0] at h; cases h
    have e1 : acknowledged i cb = 1 := by unfold acknowledged; rw [h0]; rfl
    have e2 : completed i cb = 0 := by unfold completed; rw [h0]; rfl
    rw [e.2, e1, e2]
    rw [e.1] at h
    generalize hD : Option.toList (some DownNote.puback) ++ D = E at h
    have hE : E = .puback :: D := hD.symm
    cases h with
    | one h1 h2 h3 h4 h5 =>
      rcases h5 with ⟨_, h⟩ | ⟨_, h⟩ | ⟨rfl, h⟩
      · rw [hE] at h; cases h
      · rw [hE] at h; cases h
      · rw [hE] at h
        cases h
        refine .idle rfl fun hq => ?_
        obtain ⟨P', rfl, e2, e3, e4⟩ := h4 hq
        refine ⟨?_, by simp; omega, by omega⟩
        rcases e4 with e4 | ⟨e4, _⟩
        · exact e4
        · rw [hE] at e4; cases e4
    | two h1 => rcases h1 with h1 | h1 <;> cases h1
  | pubrec h0 =>
    have e : downNote i p = some .pubrec ∧ cb.foldl Shelf.note shelf i = none := by
      rcases ht with ⟨h, _⟩ | ⟨h, _⟩ | ⟨h, h', h''⟩ | ⟨h, _⟩
      · rw [h0] at h; cases h
      · rw [h0] at h; cases h
      · exact ⟨h', by rw [h'', hnone]⟩
      · rw [h0] at h; cases h
    have e1 : acknowledged i cb = 1 := by unfold acknowledged; rw [h0]; rfl
    have e2 : completed i cb = 0 := by unfold completed; rw [h0]; rfl
    rw [e.2, e1, e2]
    rw [e.1] at h
    generalize hD : Option.toList (some DownNote.pubrec) ++ D = E at h
    have hE : E = .pubrec :: D := hD.symm
    cases h with
    | one h1 => rcases h1 with h1 | h1 <;> cases h1
    | two h1 h2 h3 h4 h5 =>
      rcases h5 with ⟨_, h⟩ | ⟨_, h⟩ | ⟨rfl, h, rfl⟩
      · rw [hE] at h; cases h
      · rw [hE] at h; cases h
      · rw [hE] at h
        cases h
        refine .rel rfl fun hq => ?_
        obtain ⟨P', rfl, e2, e3, e4⟩ := h4 hq
        refine ⟨?_, by simp; omega, by omega⟩
        rcases e4 with ⟨_, e4⟩ | ⟨e4, _⟩
        · exact e4
        · cases e4
  | pubcomp h0 =>
    have e : downNote i p = some .pubcomp ∧ cb.foldl Shelf.note shelf i = shelf i := by
      rcases ht with ⟨h, _⟩ | ⟨h, _⟩ | ⟨h, _⟩ | ⟨h, h', h''⟩
      · rw [h0] at h; cases h
      · rw [h0] at h; cases h
      · rw [h0] at h; cases h
      · exact ⟨h', h'' shelf⟩
    have e1 : acknowledged i cb = 0 := by unfold acknowledged; rw [h0]; rfl
    have e2 : completed i cb = 1 := by unfold completed; rw [h0]; rfl
    rw [e.2, e1, e2]
    rw [e.1] at h
    generalize hD : Option.toList (some DownNote.pubcomp) ++ D = E at h
    have hE : E = .pubcomp :: D := hD.symm
    cases h with
    | one h1 => rcases h1 with h1 | h1 <;> cases h1
    | two h1 => rcases h1 with h1 | h1 <;> cases h1
    | comp h1 h2 h3 =>
      rcases h3 with ⟨_, h⟩ | ⟨_, h⟩ | ⟨rfl, h, rfl⟩
      · rw [hE] at h; cases h
      · rw [hE] at h; cases h
      · rw [hE] at h
        cases h
        exact .idle h1 fun hq => ⟨(h2 hq).1, (h2 hq).2.1, (h2 hq).2.2⟩

/-- The client answers PUBREC. -/
theorem Tie.release {V : List UpNote} (h : Tie i q P L k c kept (some .sendPubrel) U D held) (hV : V = [] ∨ V = [.rel]) :
    Tie i q P L k c kept (some .awaitPubcomp) (U ++ V) D held := by
  cases h with
  | one h1 => rcases h1 with h1 | h1 <;> cases h1
  | two h1 => rcases h1 with h1 | h1 <;> cases h1
  | rel h1 h2 => exact .comp h1 h2 (by rcases hV with rfl | rfl <;> simp)

end

/-! ### One iteration -/

theorem acknowledged_append (i : UInt16) (a b : List Event) : acknowledged i (a ++ b) = acknowledged i a + acknowledged i b := by
  unfold acknowledged; rw [acksOf_append, List.filter_append, List.length_append]

theorem completed_append (i : UInt16) (a b : List Event) : completed i (a ++ b) = completed i a + completed i b := by
  unfold completed; rw [acksOf_append, List.filter_append, List.length_append]

theorem acknowledged_callbacks {i : UInt16} {a b : List Event} (h : callbacks a = b) : acknowledged i a = acknowledged i b := by
  unfold acknowledged; rw [← acksOf_callbacks, h]

theorem completed_callbacks {i : UInt16} {a b : List Event} (h : callbacks a = b) : completed i a = completed i b := by
  unfold completed; rw [← acksOf_callbacks, h]

theorem callbacks_append (a b : List Event) : callbacks (a ++ b) = callbacks a ++ callbacks b := by simp [callbacks]

theorem release_phase {s : InFlight} {i : UInt16} (hi : i ≠ 0) (h : s.out.phase i = some .sendPubrel) :
    (step s (.ack .send .pubrel i)).2.out.phase i = some .awaitPubcomp := by
  rcases ackSend_phase (s := s) (ty := .pubrel) (id := i) (i := i) (fun _ => h) with h' | h'
  · exfalso
    revert h'
    simp [step, hi, forOutgoing, ackTable, h, outAck, Effect.apply, phase_set, phase_append, phase_remove]
  · exact h'.2.2.2

theorem ackWire_raw (ty : AckType) (id : UInt16) : (ackRaw (UInt8.ofNat (ackByte ty)) id.toNat).bytes = ackWire (some (ty, id)) := by
  cases ty <;> rfl

theorem ackWire_note (ty : AckType) (id i : UInt16) :
    upNote i (ackRaw (UInt8.ofNat (ackByte ty)) id.toNat) = if ty = .pubrel ∧ id = i then some .rel else none := by
  cases ty with
  | pubrel =>
    have := pubrel_note id i
    by_cases h : id = i
    · rw [if_pos h] at this; rw [if_pos ⟨rfl, h⟩]; exact this
    · rw [if_neg h] at this; rw [if_neg (fun h' => h h'.2)]; exact this
  | puback => rw [if_neg (by simp)]; exact ack_note (Or.inl rfl) _ _
  | pubrec => rw [if_neg (by simp)]; exact ack_note (Or.inr (Or.inl rfl)) _ _
  | pubcomp => rw [if_neg (by simp)]; exact ack_note (Or.inr (Or.inr rfl)) _ _

theorem ping_pieces {x : List UInt8} (h : x = [] ∨ x = pingreqPacket) :
    ∃ vs : List Raw, x = vs.flatMap Raw.bytes ∧ (∀ v ∈ vs, Small v) ∧ ∀ i, vs.filterMap (upNote i) = [] := by
  rcases h with rfl | rfl
  · exact ⟨[], rfl, by simp, fun _ => rfl⟩
  · refine ⟨[⟨0xC0, []⟩], by rw [← pingreq_raw]; simp, by simp [Small], fun i => ?_⟩
    have : upNote i ⟨0xC0, []⟩ = none := upNote_other (by decide) (by decide)
    simp [this]

section
variable {i : UInt16} {b : Bool} {n0 : Nat} {t0 P : List Publish} {k c : Nat} {w w' : World} {n n' : Net} {shelf : Shelf} {es : List Event}

/-- Receiving, as a whole. -/
theorem Link.received {cap : Nat} {conn retx : Bool} {ph : Option OutPhase} {buffered : List UInt8}
    (h : Link i cap b n0 t0 P k c conn ph buffered retx n shelf) (hr : NetRun strict cap n es n') (hs : noSent es) (hcap : 4 ≤ cap) (hi : i ≠ 0) :
    Link i cap b n0 t0 P k c conn ph (buffered ++ Spec.received es) retx n' shelf := by
  obtain ⟨h1, h2⟩ := hr.receives hs
  have h3 := h.served h1 hcap hi
  have ho : n'.isOpen = n.isOpen := hr.isOpen
  refine h3.recv (rest := n'.down) rfl ?_
  cases hop : n.isOpen with
  | true => exact Or.inl (by rw [← hop]; exact ho)
  | false => exact Or.inr (h2 hop)

/-- All packets the client is sent fit into its buffer. -/
theorem Link.fits {cap : Nat} {conn retx : Bool} {ph : Option OutPhase} {buffered : List UInt8}
    (h : Link i cap b n0 t0 P k c conn ph buffered retx n shelf) {t : UInt8} {hl m : Nat} (hr : readHeader buffered = .known t hl m) : hl + m ≤ cap := by
  obtain ⟨us, part, ds, buf, h1, h2, h3⟩ := h.ties
  cases conn with
  | false => rw [h.idle rfl] at hr; cases hr
  | true =>
    obtain ⟨_, rfl⟩ := h2 rfl
    obtain ⟨q, ps, rfl, h4⟩ := first_length hr (fun q hq => (h1.valid q hq).1) h1.down
    rw [← h4]
    exact (h1.valid q List.mem_cons_self).2

theorem Ready.loop {g : Cfg} {m : Bool} {s : InFlight} {st : Status} (h : Ready i b n0 t0 P k c w.ctx n shelf) (hi : i ≠ 0)
    (hrep : Represents w.ctx.tables s) (hit : Iterated g m s w st es w')
    (hst : w'.ctx.connectStatus = .notConnected ↔ w.ctx.connectStatus = .notConnected) (hbs : w'.ctx.bufSize = w.ctx.bufSize)
    (hrt : w'.ctx.retransmits = w.ctx.retransmits) (hidx : w'.ctx.index ≤ w'.ctx.bufSize) (hidle : w.ctx.connectStatus = .notConnected → noSent es)
    (hn : NetRun strict w.ctx.bufSize n es n') :
    Ready i b n0 t0 P (k + acknowledged i es) (c + completed i es) w'.ctx { n' with isOpen := n'.isOpen && !(decide (st = .sendFailed)) }
      (es.foldl Shelf.note shelf) := by
  obtain ⟨fl, h1, h2, h3, h4⟩ := h
  cases represents_unique h1 hrep
  have fin : ∀ {fl' : InFlight} {buf : List UInt8} {N : Net} {S : Shelf} {K C : Nat}, Represents w'.ctx.tables fl' → w'.ctx.buffered = buf →
      Link i w.ctx.bufSize b n0 t0 P K C (decide (w.ctx.connectStatus ≠ .notConnected)) (fl'.out.phase i) buf w.ctx.retransmits N S →
      Ready i b n0 t0 P K C w'.ctx N S := by
    intro fl' buf N S K C e1 e2 e3
    refine ⟨fl', e1, hidx, by rw [hbs]; exact h3, ?_⟩
    rw [hbs, e2, hrt]
    have : decide (w'.ctx.connectStatus ≠ .notConnected) = decide (w.ctx.connectStatus ≠ .notConnected) := by simp only [ne_eq, hst]
    rw [this]
    exact e3
  have hidle' : ∀ {a x : List Event}, es = a ++ x → decide (w.ctx.connectStatus ≠ .notConnected) = false → wire x = [] := by
    intro a x he hc
    have := hidle (by simpa using hc)
    rw [he, noSent_append] at this
    exact wire_of_noSent this.2
  rcases hit.turnKeep with ⟨rfl, rfl, hb, ht⟩ | ⟨r, ka, es2, rfl, hlen, hka, hka0, hturn, hkw⟩
  · have e1 : acknowledged i [Event.recvd (w.ctx.bufSize - w.ctx.index) none, .pre, .post] = 0 := rfl
    have e2 : completed i [Event.recvd (w.ctx.bufSize - w.ctx.index) none, .pre, .post] = 0 := rfl
    rw [e1, e2]
    refine fin (by rw [ht]; exact hrep) hb ?_
    have := h4.received hn (by intro e he; simp at he; rcases he with rfl | rfl | rfl <;> rfl) h3 hi
    have e : Spec.received [Event.recvd (w.ctx.bufSize - w.ctx.index) none, .pre, .post] = [] := rfl
    rw [e, List.append_nil] at this
    exact this.close _
  · obtain ⟨n1, hn1, hn2⟩ := Spec.NetRun.split (a := [.recvd (w.ctx.bufSize - w.ctx.index) (some r)]) (b := ka ++ es2) hn
    have h5 : Link i w.ctx.bufSize b n0 t0 P k c (decide (w.ctx.connectStatus ≠ .notConnected)) (s.out.phase i) (w.ctx.buffered ++ r) w.ctx.retransmits n1 shelf := by
      have := h4.received hn1 (by intro e he; rw [List.mem_singleton.mp he]; rfl) h3 hi
      have e : Spec.received [.recvd (w.ctx.bufSize - w.ctx.index) (some r)] = r := by simp [Spec.received]
      rwa [e] at this
    have hkc : callbacks ka = [] := (callbacks_of_ack hka.1).1
    have hkr : Spec.received ka = [] := received_of_noRecv (callbacks_of_ack hka.1).2
    have hcb : callbacks (Event.recvd (w.ctx.bufSize - w.ctx.index) (some r) :: (ka ++ es2)) = callbacks es2 := by
      show callbacks ([Event.recvd (w.ctx.bufSize - w.ctx.index) (some r)] ++ (ka ++ es2)) = _
      rw [callbacks_append, callbacks_append, hkc]; rfl
    rw [acknowledged_callbacks hcb, completed_callbacks hcb, shelf_callbacks, hcb]
    have hid : decide (w.ctx.connectStatus ≠ .notConnected) = false → wire (ka ++ es2) = [] := hidle' (a := [_]) rfl
    -- nothing is taken
    have noPacket : es2 = [] → w'.ctx.buffered = w.ctx.buffered ++ r → w'.ctx.tables = w.ctx.tables →
        Ready i b n0 t0 P (k + acknowledged i (callbacks es2)) (c + completed i (callbacks es2)) w'.ctx { n' with isOpen := n'.isOpen && !(decide (st = .sendFailed)) }
          ((callbacks es2).foldl Shelf.note shelf) := by
      rintro rfl hb ht
      rw [List.append_nil] at hn2 hid
      refine fin (by rw [ht]; exact hrep) hb ?_
      obtain ⟨vs, p', e1, e2, e3, e4⟩ := Small.piece (u := ⟨0xC0, []⟩) (by simp [Small]) (x := wire ka) (by rw [pingreq_raw]; exact hka.2)
      have hv : vs.filterMap (upNote i) = [] := by
        rcases e4 with ⟨_, rfl, _⟩ | ⟨_, rfl, _⟩
        · have : upNote i ⟨0xC0, []⟩ = none := upNote_other (by decide) (by decide)
          simp [this]
        · rfl
      refine h5.sends h3 hi hn2 hkr e1 e2 e3 hid ?_ (fun _ _ _ _ _ h => h) h5.shelves h5.unused ?_
      · intro q L U D held h
        rw [hv, List.append_nil]; exact h
      · intro hp
        rcases e4 with ⟨_, _, rfl⟩ | ⟨f1, rfl, rfl⟩
        · exact absurd rfl hp
        · rcases hkw with h | h | ⟨h, _⟩
          · exact absurd h hp
          · exact absurd h f1
          · simp [h]
    cases hturn with
    | stopped _ _ hb ht => exact noPacket rfl hb ht
    | wait _ _ hb ht => exact noPacket rfl hb ht
    | drop hr hbig => exact absurd (h5.fits hr) (by omega)
    | packet hp hbuf hfit hw1 ht1 hre hmore hb ht2 =>
      rename_i st1 es3 p rest w1 w2 more
      have hmoreq : callbacks more = [] ∧ wire more = [] ∧ Spec.received more = [] := by
        rcases hmore with ⟨_, t, rfl⟩ | ⟨_, rfl⟩ <;> exact ⟨rfl, rfl, rfl⟩
      have hcb2 : callbacks (es3 ++ more) = (react w.ctx.retransmits m s p.first p.body).callbacks := by
        rw [callbacks_append, hmoreq.1, List.append_nil, hre.calls]
      rw [hcb2]
      have hw2 : wire (ka ++ (es3 ++ more)) = wire ka ++ wire es3 := by
        rw [wire_append, wire_append, hmoreq.2.1, List.append_nil]
      have hr2 : Spec.received (ka ++ (es3 ++ more)) = [] := by
        rw [received_append, received_append, hmoreq.2.2, hkr, received_of_noRecv hre.noRecv]; rfl
      obtain ⟨ht, hsub⟩ := react_tells s w.ctx.retransmits m p i
      have hheard := react_heard s w.ctx.retransmits m p.first p.body i
      have h6 := h5.take (P' := P) (k' := k + acknowledged i (react w.ctx.retransmits m s p.first p.body).callbacks)
        (c' := c + completed i (react w.ctx.retransmits m s p.first p.body).callbacks)
        (ph' := (react w.ctx.retransmits m s p.first p.body).state.out.phase i)
        (shelf' := (react w.ctx.retransmits m s p.first p.body).callbacks.foldl Shelf.note shelf) hp hbuf
        (fun q L U D held h => h.hear hheard ht (fun h => h5.unused h i))
        (fun j x hx => h5.shelves j x (hsub _ _ _ hx))
        (fun hr j => by
          cases hx : (react w.ctx.retransmits m s p.first p.body).callbacks.foldl Shelf.note shelf j with
          | none => rfl
          | some x => have := hsub _ _ _ hx; rw [h5.unused hr j] at this; cases this)
      obtain ⟨vs0, v1, v2, v3⟩ := ping_pieces hw1.2.2
      have nosend : wire es3 = [] → Represents w2.ctx.tables (react w.ctx.retransmits m s p.first p.body).state →
          Ready i b n0 t0 P (k + acknowledged i (react w.ctx.retransmits m s p.first p.body).callbacks)
            (c + completed i (react w.ctx.retransmits m s p.first p.body).callbacks) w'.ctx
            { n' with isOpen := n'.isOpen && !(decide (callerStatus st1 = .sendFailed)) }
            ((react w.ctx.retransmits m s p.first p.body).callbacks.foldl Shelf.note shelf) := by
        intro hw hre2
        refine fin (by rw [ht2]; exact hre2) hb ?_
        refine h6.sends h3 hi hn2 hr2 (vs := vs0) (p' := []) (by rw [hw2, hw, v1]) v2 rfl hid ?_ (fun _ _ _ _ _ h => h) h6.shelves h6.unused
          (fun h => absurd rfl h)
        intro q L U D held h
        rw [v3, List.append_nil]; exact h
      rcases hre.cases with ⟨_, hw, _, _, hre2⟩ | ⟨_, _, hw, _, _, hre2⟩ | ⟨hack, _, hpre, hne, hst1, hre2, _⟩ | ⟨ty, id, hack, _, hw, _, _, hre2⟩
      · exact nosend hw hre2
      · exact nosend hw hre2
      · refine fin (by rw [ht2]; exact hre2) hb ?_
        cases ha : (react w.ctx.retransmits m s p.first p.body).ack with
        | none => exact absurd ha hack
        | some a =>
          obtain ⟨ty, id⟩ := a
          rw [ha] at hpre hne
          have hpart : readPacket (wire es3) = none := by
            rw [← ackWire_raw] at hpre hne
            exact (ack_small _ _).part hpre hne
          refine h6.sends h3 hi hn2 hr2 (vs := vs0) (p' := wire es3) (by rw [hw2, v1]) v2 hpart hid ?_ (fun _ _ _ _ _ h => h) h6.shelves h6.unused ?_
          · intro q L U D held h
            rw [v3, List.append_nil]; exact h
          · intro _
            rw [hst1]; rfl
      · refine fin (by rw [ht2]; exact hre2) hb ?_
        rw [hack, ← ackWire_raw] at hw
        refine h6.sends h3 hi hn2 hr2 (vs := vs0 ++ [ackRaw (UInt8.ofNat (ackByte ty)) id.toNat]) (p' := []) (by rw [hw2, hw, v1]; simp) ?_ rfl hid ?_ ?_
          h6.shelves h6.unused (fun h => absurd rfl h)
        · intro v hv
          rcases List.mem_append.mp hv with hv | hv
          · exact v2 v hv
          · rw [List.mem_singleton.mp hv]; exact ack_small _ _
        all_goals
          intro q L U D held h
          by_cases hrel : ty = .pubrel ∧ id = i
          · obtain ⟨rfl, rfl⟩ := hrel
            have hph := (react_pubrel hack).1
            rw [release_phase hi hph]
            rw [hph] at h
            first
            | have hnote := ackWire_note .pubrel id id
              rw [if_pos ⟨rfl, rfl⟩] at hnote
              have hh := h.release (Or.inr rfl)
              rw [List.filterMap_append, v3, List.nil_append, List.filterMap_cons, hnote]
              exact hh
            | have hh := h.release (Or.inl rfl)
              rw [List.append_nil] at hh
              exact hh
          · have hph : (step (react w.ctx.retransmits m s p.first p.body).state (.ack .send ty id)).2.out.phase i =
                (react w.ctx.retransmits m s p.first p.body).state.out.phase i := by
              rcases ackSend_phase (s := (react w.ctx.retransmits m s p.first p.body).state) (ty := ty) (id := id) (i := i)
                (fun h => by subst h; exact (react_pubrel hack).1) with h | ⟨h, h', _⟩
              · exact h
              · exact absurd ⟨h, h'.symm⟩ hrel
            rw [hph]
            first
            | have hnote := ackWire_note ty id i
              rw [if_neg hrel] at hnote
              rw [List.filterMap_append, v3, List.nil_append, List.filterMap_cons, hnote, List.filterMap_nil, List.append_nil]
              exact h
            | exact h
end

end Mqtt
