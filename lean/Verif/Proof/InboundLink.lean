/-
What holds between client, network and server about the messages from the server, and the steps of the client: sending, receiving and taking packets.
-/
import Verif.Proof.InboundTie

namespace Mqtt
open Spec
set_option linter.unusedSimpArgs false

/-- What holds between the calls: `conn` says whether the client is connected, `ph` is the state of its incoming publish with packet id `i`, `buffered` are the
bytes it has received and not processed. -/
structure InLink (i : UInt16) (cap : Nat) (b : Bool) (n0 : Nat) (o0 R : List Publish) (conn : Bool) (ph : Option InPhase) (buffered : List UInt8) (n : Net)
    (shelf : Shelf) : Prop where
  ties : ∃ us part ds buf, InTies i cap b n0 o0 R ph n buf us part ds ∧ (conn = true → n.greeted = true ∧ buf = buffered) ∧
    (n.isOpen = true → part = [] ∧ (conn = false → n.greeted = false ∧ us = [] ∧ ds = []))
  idle : conn = false → buffered = []
  shelves : ∀ j x, shelf j = some x → ∃ m, Copy j m x

section
variable {i : UInt16} {cap : Nat} {b : Bool} {n0 : Nat} {o0 R R' : List Publish} {conn : Bool} {ph ph' : Option InPhase}
  {buffered : List UInt8} {n n' : Net} {shelf shelf' : Shelf} {buf buf' : List UInt8} {us vs ds xs : List Raw} {part p' : List UInt8} {es : List Event}

theorem InTies.setOpen (h : InTies i cap b n0 o0 R ph n buf us part ds) (o : Bool) :
    InTies i cap b n0 o0 R ph { n with isOpen := o } buf us part ds :=
  ⟨h.up, h.stuck, h.small, h.valid, h.down, h.fresh, h.floor, h.tie⟩

/-- The client takes the packets `xs`. -/
theorem InTies.take (h : InTies i cap b n0 o0 R ph n buf us part (xs ++ ds)) (hb : buf = xs.flatMap Raw.bytes ++ buf')
    (f : ∀ q O slot U D, InTie q O R slot ph U (xs.filterMap (inDown i) ++ D) → InTie q O R' slot ph' U D) :
    InTies i cap b n0 o0 R' ph' n buf' us part ds := by
  obtain ⟨new, h1, h2⟩ := h.tie
  rw [List.filterMap_append] at h2
  refine ⟨h.up, h.stuck, h.small, fun d hd => h.valid d (List.mem_append_right _ hd), ?_, ?_, h.floor, new, h1, f _ _ _ _ _ h2⟩
  · have := h.down
    rw [hb, List.append_assoc, List.flatMap_append] at this
    exact List.append_cancel_left this
  · intro hg
    obtain ⟨g1, g2⟩ := h.fresh hg
    rw [List.filterMap_append] at g2
    exact ⟨g1, (List.append_eq_nil_iff.mp g2).2⟩

/-- The client takes the packets `xs` and sends the packets `vs` and the bytes `p'`, which are lost when the connection is closed. -/
theorem InTies.pushed (h : InTies i cap b n0 o0 R ph n buf us part (xs ++ ds)) (hb : buf = xs.flatMap Raw.bytes ++ buf') (hp : n.isOpen = true → part = [])
    (hv : ∀ u ∈ vs, Small u) (hp' : readPacket p' = none) (hg : n.greeted = true ∨ vs.filterMap (inUp i) = [])
    (f : ∀ q O slot U D, InTie q O R slot ph U (xs.filterMap (inDown i) ++ D) → InTie q O R' slot ph' (U ++ vs.filterMap (inUp i)) D)
    (f' : ∀ q O slot U D, InTie q O R slot ph U (xs.filterMap (inDown i) ++ D) → InTie q O R' slot ph' U D) :
    ∃ us' part', InTies i cap b n0 o0 R' ph' (n.push (vs.flatMap Raw.bytes ++ p')) buf' us' part' ds ∧ (n.isOpen = true → part' = p') := by
  cases ho : n.isOpen with
  | false =>
    rw [Net.push_closed ho]
    exact ⟨us, part, h.take hb f', fun h => by cases h⟩
  | true =>
    have h' := h.take hb f'
    rw [Net.push_open ho]
    have := hp ho
    subst this
    obtain ⟨new, h1, h2⟩ := h.tie
    rw [List.filterMap_append] at h2
    refine ⟨us ++ vs, p', ⟨?_, hp', ?_, h'.valid, h'.down, ?_, h.floor, new, h1, ?_⟩, fun _ => rfl⟩
    · simp only
      rw [h.up, List.append_nil, List.flatMap_append, List.append_assoc]
    · intro u hu
      rcases List.mem_append.mp hu with hu | hu
      · exact h.small u hu
      · exact hv u hu
    · intro hg0
      rcases hg with hg | hg
      · simp only at hg0; rw [hg] at hg0; cases hg0
      · rw [List.filterMap_append, hg, List.append_nil]
        exact h'.fresh hg0
    · rw [List.filterMap_append (l := us)]
      exact f _ _ _ _ _ h2

theorem InLink.close (h : InLink i cap b n0 o0 R conn ph buffered n shelf) (cl : Bool) :
    InLink i cap b n0 o0 R conn ph buffered { n with isOpen := n.isOpen && !cl } shelf := by
  obtain ⟨us, part, ds, buf, h1, h2, h3⟩ := h.ties
  refine ⟨⟨us, part, ds, buf, h1.setOpen _, h2, fun ho => h3 ?_⟩, h.idle, h.shelves⟩
  simp only [Bool.and_eq_true] at ho
  exact ho.1

theorem InLink.serve (h : InLink i cap b n0 o0 R conn ph buffered n shelf) (hs : Serves true cap n n') (hcap : 4 ≤ cap) (hi : i ≠ 0) :
    InLink i cap b n0 o0 R conn ph buffered n' shelf := by
  obtain ⟨us, part, ds, buf, h1, h2, h3⟩ := h.ties
  obtain ⟨us', ds', h4, h5⟩ := h1.serve hs hcap hi
  refine ⟨⟨us', part, ds', buf, h4, fun hc => ⟨h5 (h2 hc).1, (h2 hc).2⟩, ?_⟩, h.idle, h.shelves⟩
  rw [hs.isOpen]
  intro ho
  obtain ⟨rfl, h6⟩ := h3 ho
  refine ⟨rfl, fun hc => ?_⟩
  obtain ⟨hg, rfl, rfl⟩ := h6 hc
  have hup : n.up = [] := by rw [h1.up]; rfl
  exfalso
  cases hs with
  | refuse _ e _ => rw [hup] at e; cases e
  | begin _ e _ => rw [hup] at e; cases e
  | resume _ e _ => rw [hup] at e; cases e
  | qos0 e => rw [hg] at e; cases e
  | qos1 e => rw [hg] at e; cases e
  | qos2 e => rw [hg] at e; cases e
  | again e => rw [hg] at e; cases e
  | release e => rw [hg] at e; cases e
  | other e => rw [hg] at e; cases e
  | settle e => rw [hg] at e; cases e
  | offer e => rw [hg] at e; cases e
  | unasked e => rw [hg] at e; cases e

theorem InLink.served (h : InLink i cap b n0 o0 R conn ph buffered n shelf) (hs : Served true cap n n') (hcap : 4 ≤ cap) (hi : i ≠ 0) :
    InLink i cap b n0 o0 R conn ph buffered n' shelf := by
  induction hs with
  | refl => exact h
  | step h1 _ ih => exact ih (h.serve h1 hcap hi)

theorem InLink.dial (h : InLink i cap b n0 o0 R false ph buffered n shelf) :
    InLink i cap b n0 o0 R false ph buffered { n with up := [], down := [], isOpen := true, greeted := false } shelf := by
  obtain ⟨us, part, ds, buf, h1, h2, h3⟩ := h.ties
  obtain ⟨new, h4, h5⟩ := h1.tie
  refine ⟨⟨[], [], [], [], ⟨rfl, rfl, by simp, by simp, rfl, fun _ => ⟨rfl, rfl⟩, h1.floor, new, h4, h5.dropped⟩, fun h => (by cases h),
    fun _ => ⟨rfl, fun _ => ⟨rfl, rfl, rfl⟩⟩⟩, h.idle, h.shelves⟩

/-- The client receives `r`. -/
theorem InLink.recv (h : InLink i cap b n0 o0 R conn ph buffered n shelf) {r rest : List UInt8} (hd : n.down = r ++ rest)
    (ho : n.isOpen = true ∨ r = []) : InLink i cap b n0 o0 R conn ph (buffered ++ r) { n with down := rest } shelf := by
  obtain ⟨us, part, ds, buf, h1, h2, h3⟩ := h.ties
  refine ⟨⟨us, part, ds, buf ++ r, ⟨h1.up, h1.stuck, h1.small, h1.valid, ?_, h1.fresh, h1.floor, h1.tie⟩, fun hc => ⟨(h2 hc).1, by rw [(h2 hc).2]⟩, h3⟩, ?_,
    h.shelves⟩
  · have := h1.down
    rw [hd, ← List.append_assoc] at this
    exact this
  · intro hc
    rw [h.idle hc, List.nil_append]
    rcases ho with ho | ho
    · obtain ⟨_, h4⟩ := h3 ho
      obtain ⟨_, _, rfl⟩ := h4 hc
      have := h1.down
      rw [hd] at this
      exact (List.append_eq_nil_iff.mp (List.append_eq_nil_iff.mp this).2).1
    · exact ho

/-- The client takes the packets `xs`, at most one, and sends. -/
theorem InLink.react {rest : List UInt8} (h : InLink i cap b n0 o0 R conn ph buffered n shelf) (hcap : 4 ≤ cap) (hi : i ≠ 0)
    (hxs : xs = [] ∨ ∃ p, xs = [p] ∧ p.Valid) (hbuf : buffered = xs.flatMap Raw.bytes ++ rest) (hr : NetRun true cap n es n')
    (hrecv : received es = []) (hw : wire es = vs.flatMap Raw.bytes ++ p') (hv : ∀ u ∈ vs, Small u) (hp' : readPacket p' = none)
    (hc : conn = false → wire es = [])
    (f : ∀ q O slot U D, InTie q O R slot ph U (xs.filterMap (inDown i) ++ D) → InTie q O R' slot ph' (U ++ vs.filterMap (inUp i)) D)
    (f' : ∀ q O slot U D, InTie q O R slot ph U (xs.filterMap (inDown i) ++ D) → InTie q O R' slot ph' U D)
    (hs : ∀ j x, shelf' j = some x → ∃ m, Copy j m x) {closing : Bool} (hcl : p' ≠ [] → closing = true) :
    InLink i cap b n0 o0 R' conn ph' rest { n' with isOpen := n'.isOpen && !closing } shelf' := by
  have hsv := hr.sends hrecv
  have hop : n'.isOpen = n.isOpen := hr.isOpen
  obtain ⟨us, part, ds, buf, h1, h2, h3⟩ := h.ties
  have hds : ∃ ds' buf', ds = xs ++ ds' ∧ buf = xs.flatMap Raw.bytes ++ buf' ∧ (conn = true → buf' = rest) ∧ (conn = false → xs = []) := by
    rcases hxs with rfl | ⟨p, rfl, hp⟩
    · exact ⟨ds, buf, rfl, rfl, fun hc => by rw [(h2 hc).2, hbuf]; rfl, fun _ => rfl⟩
    · have hconn : conn = true := by
        cases conn with
        | true => rfl
        | false =>
          have := h.idle rfl
          rw [hbuf] at this
          simp at this
          exact absurd this.1 (Raw.bytes_ne_nil p)
      subst hconn
      obtain ⟨_, rfl⟩ := h2 rfl
      have hb : buf = p.bytes ++ rest := by rw [hbuf]; simp
      have hd := h1.down
      rw [hb] at hd
      obtain ⟨ds', rfl, _⟩ := first_packet hp (fun q hq => (h1.valid q hq).1) hd
      exact ⟨ds', rest, rfl, by rw [hb]; simp, fun _ => rfl, fun h => by cases h⟩
  obtain ⟨ds', buf', rfl, hb, hbc, hxc⟩ := hds
  cases conn with
  | false =>
    have hx := hxc rfl
    rw [hc rfl, Net.push_nil] at hsv
    have hidle : rest = [] := by
      have := h.idle rfl
      rw [hbuf, hx] at this
      exact this
    have : InLink i cap b n0 o0 R' false ph' rest n shelf' :=
      ⟨⟨us, part, ds', buf', h1.take hb f', fun h => (by cases h), fun ho => ⟨(h3 ho).1, fun hc => by
        obtain ⟨g1, g2, g3⟩ := (h3 ho).2 hc
        exact ⟨g1, g2, (List.append_eq_nil_iff.mp g3).2⟩⟩⟩, fun _ => hidle, hs⟩
    exact (this.served hsv hcap hi).close closing
  | true =>
    obtain ⟨hg, _⟩ := h2 rfl
    have := hbc rfl
    subst this
    rw [hw] at hsv
    obtain ⟨us', part', h4, h5⟩ := h1.pushed hb (fun ho => (h3 ho).1) hv hp' (Or.inl hg) f f'
    obtain ⟨us2, ds2, h6, h7⟩ := h4.served hsv hcap hi
    refine ⟨⟨us2, part', ds2, buf', h6.setOpen _, fun _ => ⟨h7 hg, rfl⟩, fun ho => ⟨?_, fun h => (by cases h)⟩⟩, fun h => (by cases h), hs⟩
    simp only [Bool.and_eq_true] at ho
    rw [h5 (by rw [← hop]; exact ho.1)]
    cases hp : p' with
    | nil => rfl
    | cons a l =>
      rw [hcl (by rw [hp]; simp)] at ho
      exact absurd ho.2 (by simp)

/-- The client only sends packets that have nothing to do with packet id `i`. -/
theorem InLink.sends (h : InLink i cap b n0 o0 R conn ph buffered n shelf) (hcap : 4 ≤ cap) (hi : i ≠ 0) (hr : NetRun true cap n es n')
    (hrecv : received es = []) (hw : wire es = vs.flatMap Raw.bytes ++ p') (hv : ∀ u ∈ vs, Small u) (hp' : readPacket p' = none)
    (hc : conn = false → wire es = []) (hn : vs.filterMap (inUp i) = []) (hs : ∀ j x, shelf' j = some x → ∃ m, Copy j m x)
    {closing : Bool} (hcl : p' ≠ [] → closing = true) :
    InLink i cap b n0 o0 R conn ph buffered { n' with isOpen := n'.isOpen && !closing } shelf' :=
  h.react (xs := []) hcap hi (Or.inl rfl) rfl hr hrecv hw hv hp' hc (fun q O slot U D h => by rw [hn, List.append_nil]; exact h) (fun _ _ _ _ _ h => h) hs hcl

/-- Receiving, as a whole. -/
theorem InLink.received (h : InLink i cap b n0 o0 R conn ph buffered n shelf) (hr : NetRun true cap n es n') (hs : noSent es) (hcap : 4 ≤ cap) (hi : i ≠ 0) :
    InLink i cap b n0 o0 R conn ph (buffered ++ Spec.received es) n' shelf := by
  obtain ⟨h1, h2⟩ := hr.receives hs
  have h3 := h.served h1 hcap hi
  have ho : n'.isOpen = n.isOpen := hr.isOpen
  refine h3.recv (rest := n'.down) rfl ?_
  cases hop : n.isOpen with
  | true => exact Or.inl (by rw [← hop]; exact ho)
  | false => exact Or.inr (h2 hop)

/-- All packets the client is sent fit into its buffer. -/
theorem InLink.fits (h : InLink i cap b n0 o0 R conn ph buffered n shelf) {t : UInt8} {hl m : Nat} (hr : readHeader buffered = .known t hl m) : hl + m ≤ cap := by
  obtain ⟨us, part, ds, buf, h1, h2, h3⟩ := h.ties
  cases conn with
  | false => rw [h.idle rfl] at hr; cases hr
  | true =>
    obtain ⟨_, rfl⟩ := h2 rfl
    obtain ⟨q, ps, rfl, h4⟩ := first_length hr (fun q hq => (h1.valid q hq).1) h1.down
    rw [← h4]
    exact (h1.valid q List.mem_cons_self).2

end

/-! ### Between the calls -/

def InReady (i : UInt16) (b : Bool) (n0 : Nat) (o0 R : List Publish) (ctx : Ctx) (n : Net) (shelf : Shelf) : Prop :=
  ∃ fl, Represents ctx.tables fl ∧ ctx.index ≤ ctx.bufSize ∧ 4 ≤ ctx.bufSize ∧
    InLink i ctx.bufSize b n0 o0 R (decide (ctx.connectStatus ≠ .notConnected)) (fl.inc.phase i) ctx.buffered n shelf

theorem Alike.inReady {a a' : Ctx} (h : Alike a a') {i : UInt16} {b : Bool} {n0 : Nat} {o0 R : List Publish} {n : Net} {shelf : Shelf}
    {fl : InFlight} (hrep : Represents a'.tables fl) (hidx : a.index ≤ a.bufSize) (hcap : 4 ≤ a.bufSize)
    (hl : InLink i a.bufSize b n0 o0 R (decide (a.connectStatus ≠ .notConnected)) (fl.inc.phase i) a.buffered n shelf) :
    InReady i b n0 o0 R a' n shelf := by
  have e : a'.bufSize = a.bufSize := by unfold Ctx.bufSize; rw [h.buf]
  have e2 : a'.buffered = a.buffered := by unfold Ctx.buffered; rw [h.buf, h.index]
  refine ⟨fl, hrep, by rw [h.index, e]; exact hidx, by rw [e]; exact hcap, ?_⟩
  rw [e, e2, h.conn]
  exact hl

section
variable {i : UInt16} {b : Bool} {n0 : Nat} {o0 R : List Publish} {ctx ctx' : Ctx} {n n' : Net} {shelf : Shelf} {es : List Event}

/-- A call that sends at most a packet that has nothing to do with packet id `i`. -/
theorem InReady.plain (h : InReady i b n0 o0 R ctx n shelf) (hi : i ≠ 0) (ha : Alike ctx ctx')
    (ht : ∀ fl, Represents ctx.tables fl → ∃ fl', Represents ctx'.tables fl' ∧ fl'.inc.phase i = fl.inc.phase i)
    (hn : NetRun true ctx.bufSize n es n') (hrecv : received es = []) {u : Raw} (hu : Small u) (hnote : inUp i u = none)
    (hw : wire es <+: u.bytes) (hconn : ctx.connectStatus = .notConnected → wire es = []) {shelf' : Shelf} (hs : ∀ j x, shelf' j = some x → ∃ m, Copy j m x)
    {closing : Bool} (hcl : wire es ≠ [] → wire es ≠ u.bytes → closing = true) :
    InReady i b n0 o0 R ctx' { n' with isOpen := n'.isOpen && !closing } shelf' := by
  obtain ⟨fl, h1, h2, h3, h4⟩ := h
  obtain ⟨fl', h5, h6⟩ := ht fl h1
  refine ha.inReady h5 h2 h3 ?_
  rw [h6]
  obtain ⟨vs, p', e1, e2, e3, e4⟩ := hu.piece hw
  have hv : vs.filterMap (inUp i) = [] := by
    rcases e4 with ⟨_, rfl, _⟩ | ⟨_, rfl, _⟩
    · simp [hnote]
    · rfl
  refine h4.sends h3 hi hn hrecv e1 e2 e3 (fun h => hconn (by simpa using h)) hv hs ?_
  intro hp
  rcases e4 with ⟨_, _, rfl⟩ | ⟨f1, rfl, rfl⟩
  · exact absurd rfl hp
  · exact hcl hp f1

theorem InReady.shelves (h : InReady i b n0 o0 R ctx n shelf) : ∀ j x, shelf j = some x → ∃ m, Copy j m x := by
  obtain ⟨_, _, _, _, h⟩ := h
  exact h.shelves

/-- A call that does nothing. -/
theorem InReady.nothing (h : InReady i b n0 o0 R ctx n shelf) (hi : i ≠ 0) (ha : Alike ctx ctx')
    (ht : ∀ fl, Represents ctx.tables fl → ∃ fl', Represents ctx'.tables fl' ∧ fl'.inc.phase i = fl.inc.phase i)
    (hn : NetRun true ctx.bufSize n es n') (hcb : callbacks es = []) (hrecv : received es = []) (hw : wire es = []) {closing : Bool} :
    InReady i b n0 o0 R ctx' { n' with isOpen := n'.isOpen && !closing } (es.foldl Shelf.note shelf) :=
  h.plain hi ha ht hn hrecv (u := ⟨0xC0, []⟩) (by simp [Small]) (inUp_other (by decide) (by decide) (by decide)) (by rw [hw]; exact List.nil_prefix)
    (fun _ => hw) (by rw [shelf_quiet hcb]; exact h.shelves) (fun h => absurd hw h)

end

end Mqtt
