/-
The system of bytes and the protocol of packets: the calls that send.
-/
import Verif.Proof.PacketsLink

namespace Mqtt
open Spec
set_option linter.unusedSimpArgs false

variable {strict : Bool}

/-- What holds between the calls. -/
structure Tracks (retx : Bool) (cap : Nat) (a : Proto) (ctx : Ctx) (n : Net) (shelf : Shelf) : Prop where
  agrees : ∃ buf part, Agrees cap a n buf part shelf ∧ (a.stage = .on → buf = ctx.buffered) ∧ (a.isOpen = true → part = []) ∧
    (a.stage = .idle → a.isOpen = true → a.greeted = false ∧ a.up = [] ∧ a.down = [])
  tables : Represents ctx.tables a.flight
  index : ctx.index ≤ ctx.bufSize
  size : ctx.bufSize = cap
  room : 4 ≤ cap
  retx : ctx.retransmits = retx
  stage : a.stage = if ctx.connectStatus = .notConnected then .idle else .on
  idle : ctx.connectStatus = .notConnected → ctx.buffered = []

theorem Served.quiet {cap : Nat} {n n' : Net} (h : Served strict cap n n') (hu : n.up = []) (hg : n.greeted = false) : n' = n := by
  cases h with
  | refl => rfl
  | step h _ =>
    exfalso
    cases h with
    | refuse _ e _ => rw [hu] at e; cases e
    | begin _ e _ => rw [hu] at e; cases e
    | resume _ e _ => rw [hu] at e; cases e
    | qos0 e => rw [hg] at e; cases e
    | qos1 e => rw [hg] at e; cases e
    | qos2 e => rw [hg] at e; cases e
    | again e => rw [hg] at e; cases e
    | release e => rw [hg] at e; cases e
    | other e => rw [hg] at e; cases e
    | settle e => rw [hg] at e; cases e
    | offer e => rw [hg] at e; cases e
    | unasked e => rw [hg] at e; cases e

/-- The server works on after the connection is closed. -/
theorem Spec.Serves.shut {cap : Nat} {x y : Net} (h : Serves strict cap x y) : Serves strict cap { x with isOpen := false } { y with isOpen := false } := by
  cases h with
  | refuse e1 e2 e3 => exact Serves.refuse (n := { x with isOpen := false }) e1 e2 e3
  | begin e1 e2 e3 => exact Serves.begin (n := { x with isOpen := false }) e1 e2 e3
  | resume e1 e2 e3 e4 e5 => exact Serves.resume (n := { x with isOpen := false }) e1 e2 e3 e4 e5
  | qos0 e1 e2 e3 e4 => exact Serves.qos0 (n := { x with isOpen := false }) e1 e2 e3 e4
  | qos1 e1 e2 e3 e4 => exact Serves.qos1 (n := { x with isOpen := false }) e1 e2 e3 e4
  | qos2 e1 e2 e3 e4 e5 => exact Serves.qos2 (n := { x with isOpen := false }) e1 e2 e3 e4 e5
  | again e1 e2 e3 e4 e5 => exact Serves.again (n := { x with isOpen := false }) e1 e2 e3 e4 e5
  | release e1 e2 e3 => exact Serves.release (n := { x with isOpen := false }) e1 e2 e3
  | other e1 e2 e3 e4 e5 e6 => exact Serves.other (n := { x with isOpen := false }) e1 e2 e3 e4 e5 e6
  | settle e1 e2 e3 e4 => exact Serves.settle (n := { x with isOpen := false }) e1 e2 e3 e4
  | offer e1 e2 => exact Serves.offer (n := { x with isOpen := false }) e1 e2
  | unasked e1 e2 => exact Serves.unasked (n := { x with isOpen := false }) e1 e2

theorem Served.shut {cap : Nat} {x y : Net} (h : Served strict cap x y) : Served strict cap { x with isOpen := false } { y with isOpen := false } := by
  induction h with
  | refl => exact .refl _
  | step q1 _ ih => exact .step q1.shut ih

/-- The protocol can follow. -/
def Follows (strict retx : Bool) (cap : Nat) (a : Proto) (c : ApiCall) (r : ApiRet) (ctx : Ctx) (n : Net) (shelf : Shelf) : Prop :=
  ∃ a', Proto.Run strict retx cap a a' ∧ Tracks retx cap a' ctx n shelf ∧ a'.sent = a.sent ++ accepted [(c, r)] ∧
    (Calm retx c r → a.ok = true → a'.ok = true) ∧ (∀ sp, r = .connect .success sp → Calm retx c r → a'.ok = true)

section
variable {cap : Nat} {retx : Bool} {a b : Proto} {ctx ctx' : Ctx} {n n1 n' : Net} {buf part : List UInt8} {shelf shelf' : Shelf} {c : ApiCall} {r : ApiRet}

/-- After the client has done its part. -/
theorem Agrees.finish (h : Agrees cap b n1 buf part shelf) (hs : Served strict cap n1 n') {closing : Bool} (hbuf : b.stage = .on → buf = ctx'.buffered)
    (hpart : b.isOpen = true → closing = false → part = []) (hq : b.stage = .idle → b.isOpen = true → closing = false → b.greeted = false ∧ b.up = [] ∧ b.down = [])
    (ht : Represents ctx'.tables b.flight) (hi : ctx'.index ≤ ctx'.bufSize) (hc : ctx'.bufSize = cap) (hr : 4 ≤ cap) (hre : ctx'.retransmits = retx)
    (hst : b.stage = if ctx'.connectStatus = .notConnected then .idle else .on) (hid : ctx'.connectStatus = .notConnected → ctx'.buffered = []) :
    ∃ a', Proto.Run strict retx cap b a' ∧ Tracks retx cap a' ctx' { n' with isOpen := n'.isOpen && !closing } shelf ∧ a'.sent = b.sent ∧ a'.ok = b.ok := by
  obtain ⟨a1, r1, k1, h1⟩ := h.served (retx := retx) hr hs
  cases closing with
  | true =>
    have e : (n'.isOpen && !true) = false := by cases n'.isOpen <;> rfl
    rw [e]
    refine ⟨{ a1 with isOpen := false }, .step r1 .hangUp, ⟨⟨buf, part, h1.setOpen false, fun h => hbuf (by rw [← k1.stage]; exact h), fun h => (by cases h),
      fun _ h => by cases h⟩, ?_, hi, hc, hr, hre, ?_, hid⟩, k1.sent, k1.ok⟩
    · show Represents ctx'.tables a1.flight
      rw [k1.flight]; exact ht
    · show a1.stage = _
      rw [k1.stage]; exact hst
  | false =>
    have e : ({ n' with isOpen := n'.isOpen && !false } : Net) = n' := by
      obtain ⟨u, d, o, g, s⟩ := n'
      cases o <;> rfl
    rw [e]
    refine ⟨a1, r1, ⟨⟨buf, part, h1, fun h => hbuf (by rw [← k1.stage]; exact h), fun h => hpart (by rw [← k1.isOpen]; exact h) rfl, ?_⟩, by rw [k1.flight]; exact ht,
      hi, hc, hr, hre, by rw [k1.stage]; exact hst, hid⟩, k1.sent, k1.ok⟩
    intro hs1 ho
    obtain ⟨g1, g2, g3⟩ := hq (by rw [← k1.stage]; exact hs1) (by rw [← k1.isOpen]; exact ho) rfl
    have hp := hpart (by rw [← k1.isOpen]; exact ho) rfl
    have hu : n1.up = [] := by rw [h.up, g2, hp]; rfl
    have hg : n1.greeted = false := by rw [h.greeted, g1]
    have hn := hs.quiet hu hg
    subst hn
    refine ⟨by rw [← h1.greeted, hg], ?_, ?_⟩
    · have := h1.up
      rw [hu] at this
      cases hl : a1.up with
      | nil => rfl
      | cons x l =>
        rw [hl] at this
        simp at this
        exact absurd this.1 (Raw.bytes_ne_nil x)
    · have h2 := h.down
      rw [h1.down, g3] at h2
      cases hl : a1.down with
      | nil => rfl
      | cons x l =>
        rw [hl] at h2
        simp at h2
        exact absurd h2.1 (Raw.bytes_ne_nil x)

theorem Alike.size {x y : Ctx} (h : Alike x y) : y.bufSize = x.bufSize := by unfold Ctx.bufSize; rw [h.buf]
theorem Alike.buffered {x y : Ctx} (h : Alike x y) : y.buffered = x.buffered := by unfold Ctx.buffered; rw [h.buf, h.index]

/-- A call that leaves buffer and connection status alone, during which the protocol goes from `a` to `b`. -/
theorem Tracks.moves (h : Tracks retx cap a ctx n shelf) (ha : Alike ctx ctx') {es : List Event} (hn : NetRun strict ctx.bufSize n es n') (hrecv : received es = [])
    {vs : List Raw} {p' : List UInt8} (hw : wire es = vs.flatMap Raw.bytes ++ p') (hv : ∀ u ∈ vs, Small u) (hp' : readPacket p' = none) {closing : Bool}
    (hcl : p' ≠ [] → closing = true) (hidle : ctx.connectStatus = .notConnected → vs = []) (hrun : Proto.Run strict retx cap a b)
    (hup : b.up = (a.put vs).up) (hdown : b.down = a.down) (hgr : b.greeted = a.greeted) (hsv : b.server = a.server) (hsg : b.stage = a.stage)
    (hop : b.isOpen = a.isOpen ∨ b.isOpen = false ∧ closing = true)
    (hsh : ∀ j, shelf' j = (b.shelf j).map Raw.bytes) (hco : ∀ j x, b.shelf j = some x → Small x) (hfl : Represents ctx'.tables b.flight) :
    ∃ a', Proto.Run strict retx cap a a' ∧ Tracks retx cap a' ctx' { n' with isOpen := n'.isOpen && !closing } shelf' ∧ a'.sent = b.sent ∧ a'.ok = b.ok := by
  obtain ⟨buf, part, h1, h2, h3, h4⟩ := h.agrees
  rw [h.size] at hn
  have hs := hn.sends hrecv
  rw [hw] at hs
  obtain ⟨part', h5, h6⟩ := h1.pushed h3 hv hp'
  have hstage : b.stage = if ctx'.connectStatus = .notConnected then .idle else .on := by
    rw [hsg, h.stage]
    simp only [ha.status]
  -- the connection is closed at the end of the call
  have done : ∀ {b1 : Proto} {m1 m2 : Net}, Served strict cap m1 m2 → Agrees cap b1 m1 buf part' shelf' → b1.stage = b.stage → b1.flight = b.flight →
      (b1.isOpen = true → closing = false → part' = []) →
      (b1.stage = .idle → b1.isOpen = true → closing = false → b1.greeted = false ∧ b1.up = [] ∧ b1.down = []) →
      ∃ a', Proto.Run strict retx cap b1 a' ∧ Tracks retx cap a' ctx' { m2 with isOpen := m2.isOpen && !closing } shelf' ∧ a'.sent = b1.sent ∧ a'.ok = b1.ok := by
    intro b1 m1 m2 q1 q2 q3 q4 q5 q6
    refine q2.finish q1 (fun hst => ?_) q5 q6 (by rw [q4]; exact hfl) (by rw [ha.index, ha.size]; exact h.index) (by rw [ha.size]; exact h.size) h.room
      (by rw [ha.retransmits]; exact h.retx) (by rw [q3]; exact hstage) (fun hc => by rw [ha.buffered]; exact h.idle (ha.status.mp hc))
    rw [ha.buffered]
    exact h2 (by rw [← hsg, ← q3]; exact hst)
  have hput : ∀ x : Proto, x.up = (a.put vs).up → x.down = a.down → x.greeted = a.greeted → x.server = a.server → x.isOpen = a.isOpen →
      (∀ j, shelf' j = (x.shelf j).map Raw.bytes) → (∀ j y, x.shelf j = some y → Small y) → Agrees cap x (n.push (vs.flatMap Raw.bytes ++ p')) buf part' shelf' :=
    fun x e1 e2 e3 e4 e5 e6 e7 => ⟨by rw [e1]; exact h5.up, h5.stuck, by rw [e1]; exact h5.small, by rw [e2]; exact h5.valid, by rw [e2]; exact h5.down,
      by rw [e5]; exact h5.isOpen, by rw [e3]; exact h5.greeted, by rw [e4]; exact h5.server, e6, e7⟩
  rcases hop with hop | ⟨hop, rfl⟩
  · obtain ⟨a', r1, r2, r3, r4⟩ := done hs (hput b hup hdown hgr hsv hop hsh hco) rfl rfl
      (fun ho hc => by
        rw [h6 (by rw [← hop]; exact ho)]
        cases p' with
        | nil => rfl
        | cons x l => rw [hcl (by simp)] at hc; cases hc)
      (fun hst ho hc => by
        obtain ⟨g1, g2, g3⟩ := h4 (by rw [← hsg]; exact hst) (by rw [← hop]; exact ho)
        refine ⟨by rw [hgr]; exact g1, ?_, by rw [hdown]; exact g3⟩
        have hvs := hidle (by
          have := h.stage
          rw [← hsg, hst] at this
          by_cases hx : ctx.connectStatus = .notConnected
          · exact hx
          · rw [if_neg hx] at this; cases this)
        rw [hup, hvs]
        unfold Proto.put
        simp [g2])
    exact ⟨a', hrun.trans r1, r2, r3, r4⟩
  · have ha2 := hput { b with isOpen := a.isOpen } hup hdown hgr hsv rfl hsh hco
    have ha3 := ha2.setOpen false
    have hs' : Served strict cap { n.push (vs.flatMap Raw.bytes ++ p') with isOpen := false } { n' with isOpen := false } := by
      clear done hput ha2 ha3 h5
      exact hs.shut
    have hb : ({ { b with isOpen := a.isOpen } with isOpen := false } : Proto) = b := by
      obtain ⟨x1, x2, x3, x4, x5, x6, x7, x8, x9, x10⟩ := b
      simp only at hop
      subst hop
      rfl
    rw [hb] at ha3
    obtain ⟨a', r1, r2, r3, r4⟩ := done hs' ha3 rfl rfl (fun ho => by rw [hop] at ho; cases ho) (fun _ ho => by rw [hop] at ho; cases ho)
    refine ⟨a', hrun.trans r1, ?_, r3, r4⟩
    have e1 : ({ n' with isOpen := n'.isOpen && !true } : Net) = { { n' with isOpen := false } with isOpen := ({ n' with isOpen := false } : Net).isOpen && !true } := by
      cases n'.isOpen <;> rfl
    rw [e1]
    exact r2

theorem accepted_other {c : ApiCall} {r : ApiRet} (h : ∀ p id, c ≠ .publish (some p) id) : accepted [(c, r)] = [] := by
  unfold accepted
  rw [List.filterMap_cons]
  cases c with
  | publish p id =>
    cases p with
    | none => rfl
    | some p => exact absurd rfl (h p id)
  | _ => rfl

/-- A call that sends at most a packet that is not part of an exchange. -/
theorem Tracks.plain (h : Tracks retx cap a ctx n shelf) (ha : Alike ctx ctx') (ht : ctx'.tables = ctx.tables) {es : List Event}
    (hn : NetRun strict ctx.bufSize n es n') (hrecv : received es = []) (hcb : callbacks es = []) {u : Raw} (hu : Small u) (hpl : PlainPacket u)
    (hw : wire es <+: u.bytes) (hconn : ctx.connectStatus = .notConnected → wire es = []) (hclose : wire es ≠ [] → wire es ≠ u.bytes → closes c r = true)
    (hc : ∀ p id, c ≠ .publish (some p) id) (hr : ∀ sp, r ≠ .connect .success sp) :
    Follows strict retx cap a c r ctx' { n' with isOpen := n'.isOpen && !closes c r } (es.foldl Shelf.note shelf) := by
  obtain ⟨buf, part, h1, h2, h3, h4⟩ := id h.agrees
  obtain ⟨vs, p', e1, e2, e3, e4⟩ := hu.piece hw
  have hp : p' ≠ [] → closes c r = true := by
    intro hp
    rcases e4 with ⟨_, _, rfl⟩ | ⟨f1, rfl, rfl⟩
    · exact absurd rfl hp
    · exact hclose hp f1
  have hvs : ctx.connectStatus = .notConnected → vs = [] := by
    intro hx
    rcases e4 with ⟨f, rfl, _⟩ | ⟨_, rfl, _⟩
    · rw [hconn hx] at f
      exact absurd f.symm (Raw.bytes_ne_nil u)
    · rfl
  rw [shelf_quiet hcb]
  have hrun : ∃ b, Proto.Run strict retx cap a b ∧ b = a.put vs := by
    rcases e4 with ⟨f, rfl, _⟩ | ⟨_, rfl, _⟩
    · refine ⟨_, .one (.plain ?_ hpl), rfl⟩
      rw [h.stage, if_neg]
      intro hx
      have := hvs hx
      cases this
    · refine ⟨a, .refl a, ?_⟩
      obtain ⟨x1, x2, x3, x4, x5, x6, x7, x8, x9, x10⟩ := a
      cases x4 <;> simp [Proto.put]
  obtain ⟨b, g1, rfl⟩ := hrun
  obtain ⟨a', q1, q2, q3, q4⟩ := h.moves ha hn hrecv e1 e2 e3 hp hvs g1 rfl rfl rfl rfl rfl (Or.inl rfl) h1.shelf h1.copies (by rw [ht]; exact h.tables)
  refine ⟨a', q1, q2, ?_, fun _ ho => by rw [q4]; exact ho, fun sp hs => absurd hs (hr sp)⟩
  rw [q3, accepted_other hc, List.append_nil]
  rfl

/-- A call that does nothing. -/
theorem Tracks.nothing (h : Tracks retx cap a ctx n shelf) (ha : Alike ctx ctx') (ht : ctx'.tables = ctx.tables) {es : List Event}
    (hn : NetRun strict ctx.bufSize n es n') (hrecv : received es = []) (hcb : callbacks es = []) (hw : wire es = [])
    (hc : ∀ p id, c ≠ .publish (some p) id) (hr : ∀ sp, r ≠ .connect .success sp) :
    Follows strict retx cap a c r ctx' { n' with isOpen := n'.isOpen && !closes c r } (es.foldl Shelf.note shelf) :=
  h.plain ha ht hn hrecv hcb (u := ⟨0xC0, []⟩) (by simp [Small]) (by unfold PlainPacket; decide) (by rw [hw]; exact List.nil_prefix) (fun _ => hw)
    (fun h => absurd hw h) hc hr

end

theorem plain_first {u : Raw} {x : UInt8} {l : List UInt8} (h : u.bytes = x :: l) (hx : x ≠ 0x40 ∧ x ≠ 0x50 ∧ x ≠ 0x62 ∧ x ≠ 0x70 ∧ x.toNat / 16 ≠ 3) : PlainPacket u := by
  have e : u.bytes = UInt8.ofNat u.first.toNat :: (varInt u.body.length ++ u.body) := rfl
  rw [e] at h
  injection h with h _
  have h : u.first = x := by rw [← h]; simp
  unfold PlainPacket
  rw [h]
  exact hx

theorem sub_plain {ty : SubType} {id : UInt16} {l : List SubscribeInfo} {u : Raw} (h : u.bytes = subPacket ty id l) : PlainPacket u := by
  cases ty with
  | subscribe => exact plain_first (x := 0x82) h (by decide)
  | unsubscribe => exact plain_first (x := 0xA2) h (by decide)

/-- The packet of a publish. -/
theorem publish_parse {ctx : Ctx} {p : PublishInfo} {id : UInt16} (hv : p.Valid) (ha : PublishArgsOk ctx p id) (d : Bool) :
    ∃ u : Raw, u.bytes = publishPacket { p.toSpec id with dup := d } ∧ Small u ∧
      parsePublish u.first.toNat u.body = some { p.toSpec (if p.qos = .qos0 then 0 else id) with dup := d } := by
  have hf : publishFirst d p.qos.toFin p.retain < 256 := by
    have : ∀ (d : Bool) (q : Fin 3) (r : Bool), publishFirst d q r < 256 := by decide
    exact this _ _ _
  have hn : (UInt8.ofNat (publishFirst d p.qos.toFin p.retain)).toNat = publishFirst d p.qos.toFin p.retain := toNat_ofNat_lt hf
  refine ⟨⟨UInt8.ofNat (publishFirst d p.qos.toFin p.retain), publishBody { p.toSpec id with dup := d }⟩, ?_, ?_, ?_⟩
  · show packet (UInt8.ofNat _).toNat _ = _
    rw [hn]; rfl
  · show (publishBody { p.toSpec id with dup := d }).length ≤ maxRemaining
    have e : publishBody { p.toSpec id with dup := d } = publishBody (p.toSpec id) := rfl
    rw [e, publishBody_length hv ha.topic.1]
    · have := ha.size
      show pubLen p ≤ _
      unfold publishLength at this
      unfold pubLen maxRemaining
      omega
    · by_cases h : p.payloadLength = 0
      · exact Or.inr h
      · exact Or.inl (ha.payload h)
  · show parsePublish (UInt8.ofNat _).toNat _ = _
    rw [hn]
    have e : publishBody { p.toSpec id with dup := d } = publishBody { p.toSpec (if p.qos = .qos0 then 0 else id) with dup := d } := by
      by_cases hq : p.qos = .qos0
      · rw [if_pos hq]
        unfold publishBody
        have : p.qos.toFin.val = 0 := by rw [hq]; rfl
        simp only [PublishInfo.toSpec, this, if_true]
      · rw [if_neg hq]
    rw [e]
    refine parsePublish_body (s := { p.toSpec (if p.qos = .qos0 then 0 else id) with dup := d })
      (Nat.lt_of_le_of_lt (bytesOf_length _ _) p.topicNameLength.toNat_lt) (UInt16.toNat_lt _) ?_
    show if p.qos.toFin.val = 0 then (if p.qos = .qos0 then (0 : UInt16) else id).toNat = 0 else (if p.qos = .qos0 then (0 : UInt16) else id).toNat ≠ 0
    by_cases hq : p.qos = .qos0
    · rw [if_pos (by rw [hq]; rfl), if_pos hq]; rfl
    · rw [if_neg (by cases h : p.qos <;> simp_all [QoS.toFin]), if_neg hq]
      intro h
      exact ha.id hq (by rw [← UInt16.toNat_inj]; exact h)

theorem accepted_publish (p : PublishInfo) (id : UInt16) (st : Status) : accepted [(.publish (some p) id, .status st)] =
    (if p.qos = .qos0 then if st = .success then some (p.toSpec 0).message else none
      else if st = .success ∨ st = .sendFailed ∨ st = .publishStoreFailed then some (p.toSpec id).message else none).toList := by
  unfold accepted
  rw [List.filterMap_cons]
  simp only
  split <;> rename_i h <;> rw [h] <;> rfl

section
variable {cap : Nat} {retx : Bool} {a b : Proto} {w w' : World} {n n' : Net} {shelf : Shelf} {c : ApiCall} {r : ApiRet} {es : List Event} {st : Status} {s : InFlight}

theorem Tracks.sub {ty : SubType} {l : List SubscribeInfo} {id : UInt16} (h : Tracks retx cap a w.ctx n shelf)
    (hd : SubDone ty l id w st es w') (hn : NetRun strict w.ctx.bufSize n es n') (hc : ∀ p id, c ≠ .publish (some p) id)
    (hcl : closes c (.status st) = decide (st = .sendFailed)) :
    Follows strict retx cap a c (.status st) w'.ctx { n' with isOpen := n'.isOpen && !closes c (.status st) } (es.foldl Shelf.note shelf) := by
  have hal : Alike w.ctx w'.ctx ∧ w'.ctx.tables = w.ctx.tables := by
    obtain ⟨t, h⟩ := hd.ctx
    rw [h]
    exact ⟨⟨rfl, rfl, rfl, afterFail_not _ _⟩, rfl⟩
  have hrc := received_of_noRecv (noRecv_of_ack hd.kinds)
  have hcb := callbacks_ack hd.kinds
  have hr : ∀ sp, (.status st : ApiRet) ≠ .connect .success sp := by simp
  rcases hd.cases with ⟨_, rfl, _⟩ | ⟨_, _, rfl, _⟩ | ⟨h1, _, h2, _, h3⟩
  · exact h.nothing hal.1 hal.2 hn hrc hcb rfl hc hr
  · exact h.nothing hal.1 hal.2 hn hrc hcb rfl hc hr
  · obtain ⟨u, u1, u2, u3⟩ := sub_raw h2
    obtain ⟨h4, h5⟩ := sent_done h3
    have hu := sub_plain u1
    rw [← u1] at h4 h5
    exact h.plain hal.1 hal.2 hn hrc hcb u2 hu h4 (fun h => by rw [h1] at h; cases h) (fun _ hx => by rw [hcl]; simpa using h5 hx) hc hr

theorem Tracks.ping (h : Tracks retx cap a w.ctx n shelf) (hd : PingDone w st es w') (hn : NetRun strict w.ctx.bufSize n es n') :
    Follows strict retx cap a .ping (.status st) w'.ctx { n' with isOpen := n'.isOpen && !closes .ping (.status st) } (es.foldl Shelf.note shelf) := by
  have hal : Alike w.ctx w'.ctx ∧ w'.ctx.tables = w.ctx.tables := by
    obtain ⟨t, p, q, h⟩ := hd.ctx
    rw [h]
    exact ⟨⟨rfl, rfl, rfl, afterFail_not _ _⟩, rfl⟩
  have hrc := received_of_noRecv (noRecv_of_ack hd.kinds)
  have hcb := callbacks_ack hd.kinds
  have hu : Small ⟨0xC0, []⟩ := by simp [Small]
  have hpl : PlainPacket ⟨0xC0, []⟩ := by unfold PlainPacket; decide
  rcases hd.cases with ⟨_, h1, _⟩ | ⟨h1, h2, h3, h4, _⟩ | ⟨h1, h2, _⟩
  · exact h.nothing hal.1 hal.2 hn hrc hcb h1 (by simp) (by simp)
  · exact h.plain hal.1 hal.2 hn hrc hcb hu hpl (by rw [pingreq_raw]; exact h2) (fun h => by rw [h1] at h; cases h)
      (fun _ _ => by simp [closes, h4]) (by simp) (by simp)
  · exact h.plain hal.1 hal.2 hn hrc hcb hu hpl (by rw [pingreq_raw, h2]; exact List.prefix_refl _) (fun h => by rw [h1] at h; cases h)
      (fun _ h => absurd h2 (by rw [pingreq_raw] at h; exact h)) (by simp) (by simp)

theorem publish_rejected {p : PublishInfo} {id : UInt16} (h1 : st ≠ .success) (h2 : st ≠ .sendFailed) (h3 : st ≠ .publishStoreFailed) :
    accepted [(.publish (some p) id, .status st)] = [] := by
  have e : ¬ (st = .success ∨ st = .sendFailed ∨ st = .publishStoreFailed) := fun h => by rcases h with h | h | h <;> contradiction
  rw [accepted_publish]
  by_cases hq : p.qos = .qos0
  · rw [if_pos hq, if_neg h1]; rfl
  · rw [if_neg hq, if_neg e]; rfl

theorem Proto.put_nil (a : Proto) : a.put [] = a := by
  obtain ⟨x1, x2, x3, x4, x5, x6, x7, x8, x9, x10⟩ := a
  cases x4 <;> simp [Proto.put]

theorem Tracks.publish {p : PublishInfo} {id : UInt16} (h : Tracks retx cap a w.ctx n shelf) (hrep : Represents w.ctx.tables s)
    (hv : p.Valid) (hd : PublishDone p id s w st es w') (hn : NetRun strict w.ctx.bufSize n es n') (hdis : p.qos = .qos0 ∨ p.dup = false) :
    Follows strict retx cap a (.publish (some p) id) (.status st) w'.ctx { n' with isOpen := n'.isOpen && !(decide (st = .sendFailed)) }
      (es.foldl Shelf.note shelf) := by
  have hal : Alike w.ctx w'.ctx := by
    obtain ⟨t, T, h⟩ := hd.ctx
    rw [h]
    exact ⟨rfl, rfl, rfl, afterFail_not _ _⟩
  cases represents_unique h.tables hrep
  have ⟨buf, part, h1, h2, h3, h4⟩ := h.agrees
  -- nothing happens
  have quiet : received es = [] → callbacks es = [] → wire es = [] → Represents w'.ctx.tables a.flight → st ≠ .success → st ≠ .sendFailed → st ≠ .publishStoreFailed →
      Follows strict retx cap a (.publish (some p) id) (.status st) w'.ctx { n' with isOpen := n'.isOpen && !(decide (st = .sendFailed)) }
        (es.foldl Shelf.note shelf) := by
    intro e1 e2 e3 e4 e5 e6 e7
    rw [shelf_quiet e2]
    obtain ⟨a', q1, q2, q3, q4⟩ := h.moves (vs := []) (p' := []) (closing := decide (st = .sendFailed)) hal hn e1 (by rw [e3]; rfl) (by simp) rfl (fun h => absurd rfl h) (fun _ => rfl) (.refl a)
      (by rw [Proto.put_nil]) rfl rfl rfl rfl (Or.inl rfl) h1.shelf h1.copies e4
    exact ⟨a', q1, q2, by rw [q3, publish_rejected e5 e6 e7, List.append_nil], fun _ ho => by rw [q4]; exact ho, by simp⟩
  have hnc : ∀ x : ConnStatus, x ≠ .connected → notConnectedStatus x ≠ .success ∧ notConnectedStatus x ≠ .sendFailed ∧ notConnectedStatus x ≠ .publishStoreFailed := by
    intro x
    cases x <;> simp [notConnectedStatus]
  rcases hd.cases with ⟨rfl, rfl, e1, _⟩ | ⟨e0, rfl, rfl, e1⟩ | ⟨_, _, e1, e2, rfl, e3, _⟩ | ⟨hconn, zs, s1, st0, es0, w0, w1, hres, hw0, hps, rfl, hfin⟩
  · exact quiet rfl rfl rfl (by rw [e1]; exact hrep) (by simp) (by simp) (by simp)
  · exact quiet rfl rfl rfl (by rw [e1]; exact hrep) (hnc _ e0).1 (hnc _ e0).2.1 (hnc _ e0).2.2
  · exact quiet rfl rfl rfl e3 e1 (by rw [e2]; exact (reserve_statuses _ _ _).1) (by rw [e2]; exact (reserve_statuses _ _ _).2)
  · have ha := hd.args (by simp)
    obtain ⟨hst, hrecv, _, hpart⟩ := hps.kinds
    have hw0r : w0.ctx.retransmits = retx := by rw [hw0]; exact h.retx
    have hstage : a.stage = .on := by
      rw [h.stage, if_neg (by rw [hconn]; decide)]
    have hrecv' : received (Event.pre :: (es0 ++ [.post])) = [] := by
      show received ([.pre] ++ (es0 ++ [.post])) = _
      rw [received_append, received_append, hrecv]; rfl
    have hsf : (Event.pre :: (es0 ++ [.post])).foldl Shelf.note shelf = es0.foldl Shelf.note shelf := by
      rw [List.foldl_cons, List.foldl_append]; rfl
    rw [hsf]
    obtain ⟨u, hu1, hu2, hu3⟩ := publish_parse hv ha p.dup
    obtain ⟨cp, hc1, hc2, hc3⟩ := publish_parse hv ha true
    have hue : u.bytes = publishPacket (p.toSpec id) := hu1
    have hw : wire (Event.pre :: (es0 ++ [.post])) <+: u.bytes := by rw [wire_hooked, hue]; exact hps.sent.1
    have hclose : wire (Event.pre :: (es0 ++ [.post])) ≠ [] → wire (Event.pre :: (es0 ++ [.post])) ≠ u.bytes → st = .sendFailed := by
      rw [wire_hooked]
      intro f1 f2
      have := hpart f1 (by rw [← hue]; exact f2)
      rcases hfin with ⟨_, rfl, _⟩ | ⟨h, _⟩
      · exact this
      · rw [h] at this; cases this
    obtain ⟨vs, p', e1, e2, e3, e4⟩ := hu2.piece hw
    have hp' : p' ≠ [] → decide (st = .sendFailed) = true := by
      intro hp
      rcases e4 with ⟨_, _, rfl⟩ | ⟨f1, rfl, rfl⟩
      · exact absurd rfl hp
      · simpa using hclose hp f1
    have hidle : w.ctx.connectStatus = .notConnected → vs = [] := fun hx => by rw [hconn] at hx; cases hx
    -- what was sent
    have hvs : (st0 = .success → vs = [u]) ∧ (st0 ≠ .success → vs = []) := by
      have key : ∀ {x : List Event}, wire x = wire es0 → SentResult (publishPacket (p.toSpec id)) st0 x → (st0 = .success → vs = [u]) ∧ (st0 ≠ .success → vs = []) := by
        intro x hx hr
        rw [wire_hooked] at e4
        constructor
        · rintro rfl
          rcases hr with ⟨_, _, f⟩ | ⟨f, _⟩
          · rcases e4 with ⟨_, g, _⟩ | ⟨g, _⟩
            · exact g
            · exact absurd (hx.symm.trans (f.trans hue.symm)) g
          · cases f
        · intro hne
          rcases hr with ⟨f, _⟩ | ⟨_, _, f⟩
          · exact absurd f hne
          · rcases e4 with ⟨g, _⟩ | ⟨_, g, _⟩
            · exact absurd (hx.trans (g.trans hue)) f
            · exact g
      rcases hps.2.2 with ⟨_, _, f⟩ | ⟨_, _, rfl, rfl⟩ | ⟨_, _, snd, rfl, _, f⟩
      · exact key rfl f
      · refine ⟨fun h => (by cases h), fun _ => ?_⟩
        rcases e4 with ⟨g, _⟩ | ⟨_, g, _⟩
        · rw [wire_hooked] at g
          exact absurd (g.symm.trans (show wire [Event.store id (storedVectors p zs id) false] = [] from rfl)) (Raw.bytes_ne_nil u)
        · exact g
      · exact key (wire_store _ _ _ _).symm f
    by_cases hq : p.qos = .qos0
    · -- QoS 0
      have hs1 : s1 = a.flight := by
        rcases hres with ⟨_, rfl⟩ | ⟨g, _⟩
        · rfl
        · exact absurd hq g
      have hsh : es0.foldl Shelf.note shelf = shelf := funext fun j => (hps.shelf shelf).1 j (Or.inr (Or.inl hq))
      rw [hsh]
      have hnote : noteSent s1 p id = (.success, a.flight) := by unfold noteSent; rw [if_pos hq, hs1]
      rcases hfin with ⟨f1, rfl, f2⟩ | ⟨rfl, rfl, f2⟩
      · have hv0 := hvs.2 f1
        obtain ⟨a', q1, q2, q3, q4⟩ := h.moves (closing := decide (st = .sendFailed)) hal hn hrecv' e1 e2 e3 hp' hidle (.refl a)
          (by rw [hv0, Proto.put_nil]) rfl rfl rfl rfl (Or.inl rfl) h1.shelf h1.copies (by rw [← hs1]; exact f2)
        refine ⟨a', q1, q2, ?_, fun _ ho => by rw [q4]; exact ho, by simp⟩
        rw [q3, accepted_publish, if_pos hq, if_neg f1, Option.toList_none, List.append_nil]
      · rw [hnote] at f2 ⊢
        rw [hnote] at hp'
        have hv1 := hvs.1 rfl
        rw [if_pos hq] at hu3
        have hm : ({ p.toSpec 0 with dup := p.dup } : Publish) = p.toSpec 0 := rfl
        rw [hm] at hu3
        obtain ⟨a', q1, q2, q3, q4⟩ := h.moves (closing := decide (Status.success = .sendFailed)) hal hn hrecv' e1 e2 e3 hp' hidle
          (.one (.publish0 (m := p.toSpec 0) hstage hu3 (by show p.qos.toFin = 0; rw [hq]; rfl)))
          (by rw [hv1]) rfl rfl rfl rfl (Or.inl rfl) h1.shelf h1.copies f2
        refine ⟨a', q1, q2, ?_, fun _ ho => by rw [q4]; exact ho, by simp⟩
        rw [q3, accepted_publish, if_pos hq, if_pos rfl]
        rfl
    · -- QoS 1 and QoS 2
      have hdup : p.dup = false := hdis.resolve_left hq
      have hs1 : (step a.flight (.reserve id p.qos)).1.1 = .success ∧ s1 = (step a.flight (.reserve id p.qos)).2 := by
        rcases hres with ⟨g, _⟩ | ⟨_, g | ⟨_, g⟩, rfl⟩
        · exact absurd g hq
        · exact ⟨g, rfl⟩
        · rw [hdup] at g; cases g
      obtain ⟨hs1, rfl⟩ := hs1
      rw [if_neg hq] at hu3 hc3
      have hm : ({ p.toSpec id with dup := p.dup } : Publish) = p.toSpec id := rfl
      rw [hm] at hu3
      have hok := reserve_ok hq hs1
      have hno := note_ok hok.1 hok.2.2
      have hnote : noteSent (step a.flight (.reserve id p.qos)).2 p id =
          (.success, (step (step a.flight (.reserve id p.qos)).2 (.publish .send id p.qos)).2) := by
        unfold noteSent
        rw [if_neg hq, hno.1]
      have hcopies : ∀ j x, (if retx = true ∧ j = id then some cp else a.shelf j) = some x → Small x := by
        intro j x hx
        split at hx
        · cases hx; exact hc2
        · exact h1.copies j x hx
      have hacc : ∀ {st}, st = .success ∨ st = .sendFailed ∨ st = .publishStoreFailed → accepted [(.publish (some p) id, .status st)] = [(p.toSpec id).message] := by
        intro st g
        rw [accepted_publish, if_neg hq, if_pos g]
        rfl
      -- the application's copy
      have hshelf : (st0 = .publishStoreFailed ∧ retx = true ∧ es0.foldl Shelf.note shelf = shelf) ∨
          (st0 ≠ .publishStoreFailed ∧ ∀ j, es0.foldl Shelf.note shelf j = (if retx = true ∧ j = id then some cp else a.shelf j).map Raw.bytes) := by
        rcases hps.2.2 with ⟨g1, g2, g3⟩ | ⟨_, g2, rfl, rfl⟩ | ⟨_, g2, snd, rfl, g3, g4⟩
        · refine Or.inr ⟨by rcases g3 with ⟨g, _⟩ | ⟨g, _⟩ <;> rw [g] <;> decide, fun j => ?_⟩
          rw [shelf_quiet (callbacks_send g2), if_neg, h1.shelf]
          rintro ⟨g, _⟩
          exact g1 ⟨hq, by rw [hw0r]; exact g⟩
        · exact Or.inl ⟨rfl, by rw [← hw0r]; exact g2, rfl⟩
        · refine Or.inr ⟨by rcases g4 with ⟨g, _⟩ | ⟨g, _⟩ <;> rw [g] <;> decide, fun j => ?_⟩
          have hb := (hps.2.1 _ _ _ List.mem_cons_self).2.2.contents
          rw [List.foldl_cons, shelf_quiet (callbacks_send g3)]
          show (if j = id then some _ else shelf j) = _
          rw [hb]
          rw [hw0r] at g2
          by_cases hj : j = id
          · rw [if_pos hj, if_pos ⟨g2, hj⟩]
            show some _ = some cp.bytes
            rw [hc1]
          · rw [if_neg hj, if_neg (fun h => hj h.2), h1.shelf]
      rcases hfin with ⟨f1, rfl, f2⟩ | ⟨rfl, rfl, f2⟩
      · have hv0 := hvs.2 f1
        rcases hshelf with ⟨rfl, g1, g2⟩ | ⟨g1, g2⟩
        · rw [g2]
          obtain ⟨a', q1, q2, q3, q4⟩ := h.moves (closing := decide (Status.publishStoreFailed = .sendFailed)) hal hn hrecv' e1 e2 e3 hp' hidle
            (.one (.unsaved (m := p.toSpec id) hstage g1 rfl rfl hq hs1))
            (by rw [hv0, Proto.put_nil]) rfl rfl rfl rfl (Or.inl rfl) h1.shelf h1.copies f2
          refine ⟨a', q1, q2, ?_, fun hcalm => absurd rfl hcalm, by simp⟩
          rw [q3, hacc (by simp)]
        · have hsf : st = .sendFailed := by
            rcases hst with h | h | h
            · exact absurd h f1
            · exact h
            · exact absurd h g1
          subst hsf
          obtain ⟨a', q1, q2, q3, q4⟩ := h.moves (closing := decide (Status.sendFailed = .sendFailed)) hal hn hrecv' e1 e2 e3 hp' hidle
            (.one (.unsent (m := p.toSpec id) (c := cp) hstage hc3 rfl rfl hq hs1))
            (by rw [hv0, Proto.put_nil]) rfl rfl rfl rfl (Or.inr ⟨rfl, rfl⟩) g2 hcopies f2
          refine ⟨a', q1, q2, ?_, fun _ ho => by rw [q4]; exact ho, by simp⟩
          rw [q3, hacc (by simp)]
      · rw [hnote] at f2 ⊢
        rw [hnote] at hp'
        have hv1 := hvs.1 rfl
        rcases hshelf with ⟨g, _⟩ | ⟨_, g2⟩
        · cases g
        · obtain ⟨a', q1, q2, q3, q4⟩ := h.moves (closing := decide (Status.success = .sendFailed)) hal hn hrecv' e1 e2 e3 hp' hidle
            (.one (.publish (m := p.toSpec id) (c := cp) hstage hu3 hc3 rfl rfl hq hs1))
            (by rw [hv1]) rfl rfl rfl rfl (Or.inl rfl) g2 hcopies f2
          refine ⟨a', q1, q2, ?_, fun _ ho => by rw [q4]; exact ho, by simp⟩
          rw [q3, hacc (by simp)]

theorem Tracks.disconnect (h : Tracks retx cap a w.ctx n shelf) (hd : DisconnectDone w st es w') (hn : NetRun strict w.ctx.bufSize n es n') :
    Follows strict retx cap a .disconnect (.status st) w'.ctx { n' with isOpen := n'.isOpen && !true } (es.foldl Shelf.note shelf) := by
  rcases hd.cases with ⟨h1, h2, rfl, h3⟩ | ⟨h1, snd, rfl, h2, h3, h4, t, h5⟩
  · exact h.nothing (c := .disconnect) (r := .status st) (by rw [h3]; exact ⟨rfl, rfl, rfl, Iff.rfl⟩) (by rw [h3]) hn rfl rfl rfl (by simp) (by simp)
  · have hw : wire (.pre :: (snd ++ [.post])) <+: (Raw.bytes ⟨0xE0, []⟩) := by
      rw [wire_hooked, disconnect_raw]
      rcases h4 with ⟨_, _, h⟩ | ⟨_, h, _⟩
      · rw [h]; exact List.prefix_refl _
      · exact h
    have hrcv : received (.pre :: (snd ++ [.post])) = [] := by
      show received ([Event.pre] ++ (snd ++ [.post])) = []
      rw [received_append, received_append, received_of_kinds h2]; rfl
    have hcb : callbacks (.pre :: (snd ++ [.post])) = [] := by
      show callbacks ([Event.pre] ++ (snd ++ [.post])) = []
      rw [callbacks_append, callbacks_append, callbacks_send h2]; rfl
    obtain ⟨a1, k1, k2, k3, k4, _⟩ := h.plain (ctx' := w.ctx) (c := .disconnect) (r := .status st) ⟨rfl, rfl, rfl, Iff.rfl⟩ rfl hn hrcv hcb (u := ⟨0xE0, []⟩) (by simp [Small])
      (by unfold PlainPacket; decide) hw (fun h => absurd h h1) (fun _ _ => rfl) (by simp) (by simp)
    obtain ⟨buf, part, q1, q2, q3, q4⟩ := k2.agrees
    have hon : a1.stage = .on := by rw [k2.stage, if_neg h1]
    refine ⟨_, .step k1 (.close hon), ⟨⟨buf, part, ?_, fun h => (by cases h), fun h => (by cases h), fun _ h => (by cases h)⟩, ?_, ?_, ?_, h.room, ?_, ?_, ?_⟩, k3, fun hc ho => k4 trivial ho, by simp⟩
    · have := q1.setOpen false
      have e : ({ { n' with isOpen := n'.isOpen && !closes .disconnect (.status st) } with isOpen := false } : Net) = { n' with isOpen := n'.isOpen && !true } := by
        cases n'.isOpen <;> rfl
      rw [e] at this
      exact ⟨this.up, this.stuck, this.small, this.valid, this.down, this.isOpen, this.greeted, this.server, this.shelf, this.copies⟩
    · rw [h5]; exact k2.tables
    · rw [h5]; exact Nat.zero_le _
    · rw [h5]; show (List.replicate _ 0).length = _; rw [List.length_replicate]; exact h.size
    · rw [h5]; exact h.retx
    · rw [h5]; rfl
    · intro _; exact buffered_zero (c := w'.ctx) (by rw [h5]; rfl)

end

end Mqtt
