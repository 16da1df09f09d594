/-
The calls that only send, seen from the connection.
-/
import Verif.Proof.BrokerLink
import Verif.Proof.CallVec
import Verif.Proof.CallLife
import Verif.Proof.CallConnack

namespace Mqtt
open Spec
set_option linter.unusedSimpArgs false

variable {strict : Bool}

/-! ### Packets of the client -/

/-- Part of a packet. -/
theorem Small.piece {u : Raw} (hu : Small u) {x : List UInt8} (hx : x <+: u.bytes) :
    ∃ vs p', x = vs.flatMap Raw.bytes ++ p' ∧ (∀ v ∈ vs, Small v) ∧ readPacket p' = none ∧ (x = u.bytes ∧ vs = [u] ∧ p' = [] ∨ x ≠ u.bytes ∧ vs = [] ∧ p' = x) := by
  by_cases h : x = u.bytes
  · exact ⟨[u], [], by simp [h], by simpa using hu, rfl, Or.inl ⟨h, rfl, rfl⟩⟩
  · exact ⟨[], x, by simp, by simp, hu.part hx h, Or.inr ⟨h, rfl, rfl⟩⟩

theorem ack_small (t : UInt8) (id : Nat) : Small (ackRaw t id) := by simp [Small, ackRaw, be16, maxRemaining]

theorem ack_note {t : UInt8} (ht : t = 0x40 ∨ t = 0x50 ∨ t = 0x70) (id : Nat) (i : UInt16) : upNote i (ackRaw t id) = none := by
  refine upNote_other ?_ ?_ <;> show _ ≠ _
  · show t.toNat / 16 ≠ 3
    rcases ht with rfl | rfl | rfl <;> decide
  · show t.toNat ≠ 0x62
    rcases ht with rfl | rfl | rfl <;> decide

theorem pubrel_note (j i : UInt16) : upNote i (ackRaw 0x62 j.toNat) = if j = i then some .rel else none := by
  have h := read16_be16 (n := j.toNat) j.toNat_lt []
  rw [List.append_nil] at h
  rw [upNote_rel (u := ackRaw 0x62 j.toNat) rfl h]
  simp only [UInt16.toNat_inj]

theorem pingreq_raw : Raw.bytes ⟨0xC0, []⟩ = pingreqPacket := rfl
theorem disconnect_raw : Raw.bytes ⟨0xE0, []⟩ = disconnectPacket := rfl

theorem Publish.copy_raw {s : Publish} (ht : s.topic.length < 65536) (hid : s.id < 65536) (h0 : s.qos.val ≠ 0 → s.id ≠ 0) (hb : (publishBody s).length ≤ maxRemaining) :
    ∃ u : Raw, u.bytes = publishPacket s ∧ Small u ∧ ∀ i : UInt16, upNote i u = if s.id = i.toNat ∧ s.qos ≠ 0 then some (.pub s.message) else none := by
  have hf : publishFirst s.dup s.qos s.retain < 256 := by
    have : ∀ (d : Bool) (q : Fin 3) (r : Bool), publishFirst d q r < 256 := by decide
    exact this _ _ _
  have hn : (UInt8.ofNat (publishFirst s.dup s.qos s.retain)).toNat = publishFirst s.dup s.qos s.retain := toNat_ofNat_lt hf
  refine ⟨⟨UInt8.ofNat (publishFirst s.dup s.qos s.retain), publishBody s⟩, ?_, hb, fun i => ?_⟩
  · show packet (UInt8.ofNat _).toNat _ = _
    rw [hn]; rfl
  · by_cases hq : s.qos.val = 0
    · have e : publishBody s = publishBody { s with id := 0 } := by unfold publishBody; simp only [hq, if_true]
      have := parsePublish_body (s := { s with id := 0 }) ht (by simp) (by simp [hq])
      rw [upNote_publish (m := { s with id := 0 })]
      · have : s.qos = 0 := Fin.ext hq
        rw [if_neg (by simp [this]), if_neg (by simp [this])]
      · show parsePublish (UInt8.ofNat _).toNat _ = _
        rw [hn, e]; exact this
    · have := parsePublish_body (s := s) ht hid (by rw [if_neg hq]; exact h0 hq)
      rw [upNote_publish (m := s)]
      show parsePublish (UInt8.ofNat _).toNat _ = _
      rw [hn]; exact this

theorem bytesOf_length (p : Ptr) (n : Nat) : (bytesOf p n).length ≤ n := by
  unfold bytesOf
  rw [List.length_take]; omega

/-- The packet of a publish. -/
theorem publish_raw {ctx : Ctx} {p : PublishInfo} {id : UInt16} (hv : p.Valid) (ha : PublishArgsOk ctx p id) (d : Bool) :
    ∃ u : Raw, u.bytes = publishPacket { p.toSpec id with dup := d } ∧ Small u ∧
      ∀ i, upNote i u = if i = id ∧ p.qos ≠ .qos0 then some (.pub (p.toSpec id).message) else none := by
  obtain ⟨u, h1, h2, h3⟩ := Publish.copy_raw (s := { p.toSpec id with dup := d })
    (Nat.lt_of_le_of_lt (bytesOf_length _ _) p.topicNameLength.toNat_lt) id.toNat_lt
    (by
      intro hq
      have : p.qos ≠ .qos0 := by
        rintro h
        exact hq (by show p.qos.toFin.val = 0; rw [h]; rfl)
      have := ha.id this
      intro h
      exact this (by rw [← UInt16.toNat_inj]; exact h))
    (by
      have e : publishBody { p.toSpec id with dup := d } = publishBody (p.toSpec id) := rfl
      rw [e, publishBody_length hv ha.topic.1]
      · have := ha.size
        show pubLen p ≤ _
        unfold publishLength at this
        unfold pubLen maxRemaining
        omega
      · by_cases h : p.payloadLength = 0
        · exact Or.inr h
        · exact Or.inl (ha.payload h))
  refine ⟨u, h1, h2, fun i => ?_⟩
  rw [h3 i]
  have e2 : p.qos.toFin ≠ 0 ↔ p.qos ≠ .qos0 := by cases p.qos <;> simp [QoS.toFin]
  show (if id.toNat = i.toNat ∧ p.qos.toFin ≠ 0 then some (UpNote.pub (p.toSpec id).message) else none) = _
  by_cases hc : i = id ∧ p.qos ≠ .qos0
  · rw [if_pos hc, if_pos ⟨by rw [hc.1], e2.2 hc.2⟩]
  · rw [if_neg hc, if_neg (fun h => hc ⟨(UInt16.toNat_inj.1 h.1).symm, e2.1 h.2⟩)]

theorem sub_raw {ty : SubType} {id : UInt16} {l : List SubscribeInfo} (h : (subBody ty id l).length ≤ maxRemaining) :
    ∃ u : Raw, u.bytes = subPacket ty id l ∧ Small u ∧ ∀ i, upNote i u = none := by
  cases ty with
  | subscribe =>
    exact ⟨⟨0x82, subBody .subscribe id l⟩, rfl, h, fun i => upNote_other (show (0x82 : UInt8).toNat / 16 ≠ 3 by decide) (show (0x82 : UInt8).toNat ≠ 0x62 by decide)⟩
  | unsubscribe =>
    exact ⟨⟨0xA2, subBody .unsubscribe id l⟩, rfl, h, fun i => upNote_other (show (0xA2 : UInt8).toNat / 16 ≠ 3 by decide) (show (0xA2 : UInt8).toNat ≠ 0x62 by decide)⟩

/-! ### The application's memory -/

theorem shelf_callbacks (es : List Event) : ∀ k : Shelf, es.foldl Shelf.note k = (callbacks es).foldl Shelf.note k := by
  induction es with
  | nil => intro k; rfl
  | cons e es ih =>
    intro k
    rw [List.foldl_cons, ih]
    cases e <;> rfl

theorem shelf_quiet {es : List Event} (h : callbacks es = []) (k : Shelf) : es.foldl Shelf.note k = k := by
  rw [shelf_callbacks, h]; rfl

/-! ### Between the calls -/

/-- What holds between the calls. -/
def Ready (i : UInt16) (b : Bool) (n0 : Nat) (t0 P : List Publish) (k c : Nat) (ctx : Ctx) (n : Net) (shelf : Shelf) : Prop :=
  ∃ fl, Represents ctx.tables fl ∧ ctx.index ≤ ctx.bufSize ∧ 4 ≤ ctx.bufSize ∧
    Link i ctx.bufSize b n0 t0 P k c (decide (ctx.connectStatus ≠ .notConnected)) (fl.out.phase i) ctx.buffered ctx.retransmits n shelf

/-- The call did not touch the buffer or the connection. -/
structure Alike (a b : Ctx) : Prop where
  buf : b.netBuf = a.netBuf
  index : b.index = a.index
  retransmits : b.retransmits = a.retransmits
  status : b.connectStatus = .notConnected ↔ a.connectStatus = .notConnected

theorem afterFail_not (f : Bool) (s : ConnStatus) : afterFail f s = .notConnected ↔ s = .notConnected := by
  cases f <;> cases s <;> simp [afterFail]

theorem Alike.conn {a b : Ctx} (h : Alike a b) : decide (b.connectStatus ≠ .notConnected) = decide (a.connectStatus ≠ .notConnected) := by
  simp only [ne_eq, h.status]

theorem Alike.ready {a a' : Ctx} (h : Alike a a') {i : UInt16} {b : Bool} {n0 : Nat} {t0 P : List Publish} {k c : Nat} {n : Net} {shelf : Shelf}
    {fl : InFlight} (hrep : Represents a'.tables fl) (hidx : a.index ≤ a.bufSize) (hcap : 4 ≤ a.bufSize)
    (hl : Link i a.bufSize b n0 t0 P k c (decide (a.connectStatus ≠ .notConnected)) (fl.out.phase i) a.buffered a.retransmits n shelf) :
    Ready i b n0 t0 P k c a' n shelf := by
  have e : a'.bufSize = a.bufSize := by unfold Ctx.bufSize; rw [h.buf]
  have e2 : a'.buffered = a.buffered := by unfold Ctx.buffered; rw [h.buf, h.index]
  refine ⟨fl, hrep, by rw [h.index, e]; exact hidx, by rw [e]; exact hcap, ?_⟩
  rw [e, e2, h.retransmits, h.conn]
  exact hl

section
variable {i : UInt16} {b : Bool} {n0 : Nat} {t0 P P' : List Publish} {k k' c c' : Nat} {ctx ctx' : Ctx} {n n' : Net} {shelf : Shelf} {es : List Event}

/-- A call that sends at most a packet that has nothing to do with packet id `i`. -/
theorem Ready.plain (h : Ready i b n0 t0 P k c ctx n shelf) (hi : i ≠ 0) (ha : Alike ctx ctx')
    (ht : ∀ fl, Represents ctx.tables fl → ∃ fl', Represents ctx'.tables fl' ∧ fl'.out.phase i = fl.out.phase i)
    (hn : NetRun strict ctx.bufSize n es n') (hcb : callbacks es = []) (hrecv : received es = []) {u : Raw} (hu : Small u) (hnote : upNote i u = none)
    (hw : wire es <+: u.bytes) (hconn : ctx.connectStatus = .notConnected → wire es = []) {closing : Bool}
    (hcl : wire es ≠ [] → wire es ≠ u.bytes → closing = true) :
    Ready i b n0 t0 P k c ctx' { n' with isOpen := n'.isOpen && !closing } (es.foldl Shelf.note shelf) := by
  obtain ⟨fl, h1, h2, h3, h4⟩ := h
  obtain ⟨fl', h5, h6⟩ := ht fl h1
  refine ha.ready h5 h2 h3 ?_
  rw [h6, shelf_quiet hcb]
  obtain ⟨vs, p', e1, e2, e3, e4⟩ := hu.piece hw
  have hv : vs.filterMap (upNote i) = [] := by
    rcases e4 with ⟨_, rfl, _⟩ | ⟨_, rfl, _⟩
    · simp [hnote]
    · rfl
  refine h4.sends h3 hi hn hrecv e1 e2 e3 (fun h => hconn (by simpa using h)) ?_ (fun _ _ _ _ _ h => h) h4.shelves h4.unused ?_
  · intro q L U D held h
    rw [hv, List.append_nil]; exact h
  · intro hp
    rcases e4 with ⟨_, _, rfl⟩ | ⟨f1, rfl, rfl⟩
    · exact absurd rfl hp
    · exact hcl hp f1

/-- A call that does nothing. -/
theorem Ready.nothing (h : Ready i b n0 t0 P k c ctx n shelf) (hi : i ≠ 0) (ha : Alike ctx ctx')
    (ht : ∀ fl, Represents ctx.tables fl → ∃ fl', Represents ctx'.tables fl' ∧ fl'.out.phase i = fl.out.phase i)
    (hn : NetRun strict ctx.bufSize n es n') (hcb : callbacks es = []) (hrecv : received es = []) (hw : wire es = []) {closing : Bool} :
    Ready i b n0 t0 P k c ctx' { n' with isOpen := n'.isOpen && !closing } (es.foldl Shelf.note shelf) :=
  h.plain hi ha ht hn hcb hrecv (u := ⟨0xC0, []⟩) (by simp [Small]) (upNote_other (by decide) (by decide)) (by rw [hw]; exact List.nil_prefix)
    (fun _ => hw) (fun h => absurd hw h)

end

/-! ### `MQTT_Publish` -/

theorem VecBytes.contents {vec : List IoVec} {bs : List UInt8} (h : VecBytes vec bs) : vecContents vec = bs := by
  induction vec generalizing bs with
  | nil => obtain ⟨vecs, h1, rfl⟩ := h; cases h1; rfl
  | cons v vs ih =>
    obtain ⟨vecs, h1, rfl⟩ := h
    unfold resolveVec at h1
    cases hr : readMem v.iov_base v.iov_len with
    | ub e => rw [hr] at h1; cases h1
    | ok b =>
      rw [hr] at h1
      simp only [Res.ok_bind] at h1
      cases hv : resolveVec vs with
      | ub e => rw [hv] at h1; cases h1
      | ok bs =>
        rw [hv] at h1
        cases h1
        have := ih ⟨bs, hv, rfl⟩
        unfold vecContents at this ⊢
        rw [List.flatMap_cons, this, List.flatten_cons]
        congr 1
        revert hr
        unfold readMem bytesOf
        repeat' split
        all_goals intro hr; cases hr
        all_goals first | rfl | simp_all

theorem reserve_ok {s : InFlight} {id : UInt16} {q : QoS} (hq : q ≠ .qos0) (h : (step s (.reserve id q)).1.1 = .success) :
    id ≠ 0 ∧ s.out.phase id = none ∧ (q = .qos1 ∧ (step s (.reserve id q)).2.out.phase id = some .toSend1 ∨
      q = .qos2 ∧ (step s (.reserve id q)).2.out.phase id = some .toSend2) := by
  have hins : ∀ p : OutPhase, (s.out.insert s.outCap id p).1 = .success → s.out.phase id = none ∧ (s.out.insert s.outCap id p).2.phase id = some p := by
    intro p
    unfold Table.insert
    split
    · intro h; cases h
    · rename_i hn
      split
      · intro h; cases h
      · intro _
        have : s.out.phase id = none := Classical.byContradiction fun h => hn (phase_mem.mpr h)
        refine ⟨this, ?_⟩
        simp only
        rw [phase_append, this]
        simp
  cases q with
  | qos0 => exact absurd rfl hq
  | qos1 =>
    simp only [step] at h ⊢
    by_cases h0 : id = 0
    · rw [if_pos h0] at h; cases h
    · rw [if_neg h0] at h ⊢
      obtain ⟨h1, h2⟩ := hins .toSend1 h
      exact ⟨h0, h1, Or.inl ⟨trivial, h2⟩⟩
  | qos2 =>
    simp only [step] at h ⊢
    by_cases h0 : id = 0
    · rw [if_pos h0] at h; cases h
    · rw [if_neg h0] at h ⊢
      obtain ⟨h1, h2⟩ := hins .toSend2 h
      exact ⟨h0, h1, Or.inr ⟨trivial, h2⟩⟩

theorem reserve_statuses (s : InFlight) (id : UInt16) (q : QoS) : (step s (.reserve id q)).1.1 ≠ .sendFailed ∧ (step s (.reserve id q)).1.1 ≠ .publishStoreFailed := by
  constructor
  all_goals
    simp only [step]
    repeat' split
    all_goals simp [Table.insert]
    all_goals repeat' split
    all_goals simp

theorem note_ok {s : InFlight} {id : UInt16} {q : QoS} (h0 : id ≠ 0) (h : q = .qos1 ∧ s.out.phase id = some .toSend1 ∨ q = .qos2 ∧ s.out.phase id = some .toSend2) :
    (step s (.publish .send id q)).1.1 = .success ∧ (q = .qos1 ∧ (step s (.publish .send id q)).2.out.phase id = some .awaitPuback ∨
      q = .qos2 ∧ (step s (.publish .send id q)).2.out.phase id = some .awaitPubrec) := by
  rcases h with ⟨rfl, h⟩ | ⟨rfl, h⟩
  · simp [step, h0, h, outQoS, sentPublish, phase_set]
  · simp [step, h0, h, outQoS, sentPublish, phase_set]

section
variable {i : UInt16} {q : Prop} {P L : List Publish} {k c : Nat} {kept kept' : Option (List UInt8)} {ph : Option OutPhase} {U V : List UpNote}
  {D : List DownNote} {held : Bool} {m : Publish}

/-- A new message. -/
theorem Tie.publish {p : OutPhase} (h : Tie i q P L k c kept none U D held)
    (hm : m.qos = 1 ∧ (p = .toSend1 ∨ p = .awaitPuback) ∨ m.qos = 2 ∧ (p = .toSend2 ∨ p = .awaitPubrec))
    (hk : kept = none → ∀ x, kept' = some x → Copy i m x) (hV : V = [] ∨ V = [.pub m]) : Tie i q (P ++ [m]) L k c kept' (some p) (U ++ V) D held := by
  cases h with
  | idle h1 h2 =>
    rcases hm with ⟨h3, h4⟩ | ⟨h3, h4⟩
    · refine .one h4 h3 (hk h1) (fun hq => ⟨P, rfl, (h2 hq).2.1, (h2 hq).2.2, Or.inr ⟨rfl, (h2 hq).1⟩⟩) ?_
      rcases hV with rfl | rfl <;> simp
    · refine .two h4 h3 (hk h1) (fun hq => ⟨P, rfl, (h2 hq).2.1, (h2 hq).2.2, Or.inr ⟨rfl, (h2 hq).1⟩⟩) ?_
      rcases hV with rfl | rfl <;> simp

end

theorem PubSent.shelf {p : PublishInfo} {id : UInt16} {zs : List UInt8} {w w' : World} {st : Status} {es : List Event} (h : PubSent p id zs w st es w')
    (shelf : Shelf) : (∀ j, j ≠ id ∨ p.qos = .qos0 ∨ w.ctx.retransmits = false → es.foldl Shelf.note shelf j = shelf j) ∧
      (es.foldl Shelf.note shelf id = shelf id ∨ p.qos ≠ .qos0 ∧ es.foldl Shelf.note shelf id = some (publishPacket { p.toSpec id with dup := true })) := by
  obtain ⟨_, hst, h⟩ := h
  rcases h with ⟨_, h1, _⟩ | ⟨h1, h2, rfl, _⟩ | ⟨h1, h2, snd, rfl, h3, _⟩
  · rw [shelf_quiet (callbacks_send h1)]
    exact ⟨fun _ _ => rfl, Or.inl rfl⟩
  · exact ⟨fun _ _ => rfl, Or.inl rfl⟩
  · have hb := (hst _ _ _ List.mem_cons_self).2.2.contents
    rw [List.foldl_cons, shelf_quiet (callbacks_send h3)]
    refine ⟨?_, Or.inr ⟨h1, ?_⟩⟩
    · rintro j (h | h | h)
      · show (if j = id then _ else _) = _
        rw [if_neg h]
      · exact absurd h h1
      · rw [h2] at h; cases h
    · show (if id = id then _ else _) = _
      rw [if_pos rfl, hb]

theorem PubSent.kinds {p : PublishInfo} {id : UInt16} {zs : List UInt8} {w w' : World} {st : Status} {es : List Event} (h : PubSent p id zs w st es w') :
    (st = .success ∨ st = .sendFailed ∨ st = .publishStoreFailed) ∧ received es = [] ∧ (∀ i, acksOf i es = []) ∧ (wire es ≠ [] → wire es ≠ publishPacket (p.toSpec id) → st = .sendFailed) := by
  have key : ∀ {es : List Event}, (∀ e ∈ es, isSendOrTime e = true) → SentResult (publishPacket (p.toSpec id)) st es →
      (st = .success ∨ st = .sendFailed ∨ st = .publishStoreFailed) ∧ received es = [] ∧ (∀ i, acksOf i es = []) ∧
        (wire es ≠ [] → wire es ≠ publishPacket (p.toSpec id) → st = .sendFailed) := by
    intro es hk hr
    refine ⟨?_, received_of_kinds hk, fun i => acksOf_quiet i (quiet_send hk), ?_⟩
    · rcases hr with ⟨h, _⟩ | ⟨h, _⟩ <;> simp [h]
    · intro _ h
      rcases hr with ⟨_, _, h'⟩ | ⟨h', _⟩
      · exact absurd h' h
      · exact h'
  rcases h.2.2 with ⟨_, h1, h2⟩ | ⟨_, _, rfl, rfl⟩ | ⟨_, _, snd, rfl, h1, h2⟩
  · exact key h1 h2
  · exact ⟨by simp, rfl, fun _ => rfl, fun h => absurd rfl h⟩
  · obtain ⟨k1, k2, k3, k4⟩ := key h1 h2
    refine ⟨k1, ?_, ?_, by rw [wire_store]; exact k4⟩
    · show received ([.store id (storedVectors p zs id) true] ++ snd) = _
      rw [received_append, k2]; rfl
    · intro i
      show acksOf i ([.store id (storedVectors p zs id) true] ++ snd) = _
      rw [acksOf_append, k3]; rfl

theorem published_not {i : UInt16} {p : PublishInfo} {id : UInt16} {st : Status} (h : id ≠ i ∨ p.qos = .qos0 ∨ ¬ (st = .success ∨ st = .sendFailed ∨ st = .publishStoreFailed)) :
    published i [(.publish (some p) id, .status st)] = [] := by
  unfold published
  rw [List.filterMap_cons]
  simp only
  rw [if_neg]
  · rfl
  · rintro ⟨h1, h2, h3⟩
    rcases h with h | h | h
    · exact h h1
    · exact h2 h
    · exact h h3

theorem published_one {i : UInt16} {p : PublishInfo} {st : Status} (hq : p.qos ≠ .qos0) (h : st = .success ∨ st = .sendFailed ∨ st = .publishStoreFailed) :
    published i [(.publish (some p) i, .status st)] = [(p.toSpec i).message] := by
  unfold published
  rw [List.filterMap_cons]
  simp only
  rw [if_pos ⟨trivial, hq, h⟩]
  rfl

theorem Copy.of_raw {ctx : Ctx} {p : PublishInfo} {id : UInt16} (hv : p.Valid) (ha : PublishArgsOk ctx p id) (hq : p.qos ≠ .qos0) (d : Bool) :
    Copy id (p.toSpec id).message (publishPacket { p.toSpec id with dup := d }) := by
  obtain ⟨u, h1, h2, h3⟩ := publish_raw hv ha d
  refine ⟨u, h1, h2, fun i => ?_⟩
  rw [h3 i]
  by_cases h : i = id <;> simp [h, hq]

theorem Ready.publish {i : UInt16} {b : Bool} {n0 : Nat} {t0 P : List Publish} {k c : Nat} {w w' : World} {n n' : Net} {shelf : Shelf} {es : List Event}
    {p : PublishInfo} {id : UInt16} {st : Status} {s : InFlight} (h : Ready i b n0 t0 P k c w.ctx n shelf) (hi : i ≠ 0) (hrep : Represents w.ctx.tables s)
    (hv : p.Valid) (hd : PublishDone p id s w st es w') (hn : NetRun strict w.ctx.bufSize n es n') (hdis : id = i → p.qos = .qos0 ∨ p.dup = false) :
    Ready i b n0 t0 (P ++ published i [(.publish (some p) id, .status st)]) k c w'.ctx { n' with isOpen := n'.isOpen && !(decide (st = .sendFailed)) }
      (es.foldl Shelf.note shelf) ∧ acksOf i es = [] := by
  have hal : Alike w.ctx w'.ctx := by
    obtain ⟨t, T, h⟩ := hd.ctx
    rw [h]
    exact ⟨rfl, rfl, rfl, afterFail_not _ _⟩
  have same : ∀ fl, Represents w.ctx.tables fl → Represents w'.ctx.tables s → ∃ fl', Represents w'.ctx.tables fl' ∧ fl'.out.phase i = fl.out.phase i := by
    intro fl h1 h2
    cases represents_unique h1 hrep
    exact ⟨s, h2, rfl⟩
  have nc : ∀ x : ConnStatus, ¬ (notConnectedStatus x = .success ∨ notConnectedStatus x = .sendFailed ∨ notConnectedStatus x = .publishStoreFailed) := by
    intro x; cases x <;> decide
  rcases hd.cases with ⟨rfl, rfl, h1, _⟩ | ⟨_, rfl, rfl, h1⟩ | ⟨_, _, h1, h2, rfl, h3, _⟩ | ⟨hconn, zs, s1, st0, es0, w0, w1, hres, hw0, hps, rfl, hfin⟩
  · rw [published_not (Or.inr (Or.inr (by decide))), List.append_nil]
    exact ⟨h.nothing hi hal (fun fl hf => same fl hf (by rw [h1]; exact hrep)) hn rfl rfl rfl, rfl⟩
  · rw [published_not (Or.inr (Or.inr (nc _))), List.append_nil]
    exact ⟨h.nothing hi hal (fun fl hf => same fl hf (by rw [h1]; exact hrep)) hn rfl rfl rfl, rfl⟩
  · rw [published_not, List.append_nil]
    · exact ⟨h.nothing hi hal (fun fl hf => same fl hf h3) hn rfl rfl rfl, rfl⟩
    · have := reserve_statuses s id p.qos
      rw [← h2] at this
      simp [h1, this]
  · have ha := hd.args (by simp)
    obtain ⟨hst, hrecv, hacks, hpart⟩ := hps.kinds
    have hw0r : w0.ctx.retransmits = w.ctx.retransmits := by rw [hw0]
    have hsh := hps.shelf shelf
    rw [hw0r] at hsh
    have hsf : (Event.pre :: (es0 ++ [.post])).foldl Shelf.note shelf = es0.foldl Shelf.note shelf := by
      rw [List.foldl_cons, List.foldl_append]; rfl
    have hrecv' : received (Event.pre :: (es0 ++ [.post])) = [] := by
      show received ([.pre] ++ (es0 ++ [.post])) = _
      rw [received_append, received_append, hrecv]; rfl
    have hacks' : acksOf i (Event.pre :: (es0 ++ [.post])) = [] := by
      show acksOf i ([.pre] ++ (es0 ++ [.post])) = _
      rw [acksOf_append, acksOf_append, hacks]; rfl
    refine ⟨?_, hacks'⟩
    rw [hsf]
    obtain ⟨fl, h1, h2, h3, h4⟩ := h
    cases represents_unique h1 hrep
    obtain ⟨u, hu1, hu2, hu3⟩ := publish_raw hv ha p.dup
    have hue : u.bytes = publishPacket (p.toSpec id) := hu1
    have hw : wire (Event.pre :: (es0 ++ [.post])) <+: u.bytes := by rw [wire_hooked, hue]; exact hps.sent.1
    obtain ⟨vs, p', e1, e2, e3, e4⟩ := hu2.piece hw
    have hvs : vs.filterMap (upNote i) = [] ∨ id = i ∧ p.qos ≠ .qos0 ∧ vs.filterMap (upNote i) = [.pub (p.toSpec id).message] := by
      rcases e4 with ⟨_, rfl, _⟩ | ⟨_, rfl, _⟩
      · by_cases hc : i = id ∧ p.qos ≠ .qos0
        · right
          refine ⟨hc.1.symm, hc.2, ?_⟩
          simp [hu3, hc]
        · left
          simp only [List.filterMap_cons, List.filterMap_nil, hu3, if_neg hc]
      · left; rfl
    have hcl : p' ≠ [] → decide (st = .sendFailed) = true := by
      intro hp
      rcases e4 with ⟨_, _, rfl⟩ | ⟨f1, rfl, rfl⟩
      · exact absurd rfl hp
      · rw [wire_hooked] at hp f1
        have := hpart hp (by rw [← hue]; exact f1)
        rcases hfin with ⟨_, rfl, _⟩ | ⟨h, _⟩
        · simp [this]
        · rw [h] at this; cases this
    have hs' : ∀ j x, es0.foldl Shelf.note shelf j = some x → ∃ m, Copy j m x := by
      intro j x hx
      by_cases hj : j = id
      · subst hj
        rcases hsh.2 with h | ⟨hq, h⟩
        · rw [h] at hx; exact h4.shelves j x hx
        · rw [h] at hx
          cases hx
          exact ⟨_, Copy.of_raw hv ha hq true⟩
      · rw [hsh.1 j (Or.inl hj)] at hx; exact h4.shelves j x hx
    have hun : w.ctx.retransmits = false → ∀ j, es0.foldl Shelf.note shelf j = none := by
      intro hr j
      rw [hsh.1 j (Or.inr (Or.inr hr))]; exact h4.unused hr j
    by_cases hc : id = i ∧ p.qos ≠ .qos0
    · obtain ⟨rfl, hq⟩ := hc
      -- the message is new
      have hr1 : (step s (.reserve id p.qos)).1.1 = .success ∧ s1 = (step s (.reserve id p.qos)).2 := by
        rcases hres with ⟨h, _⟩ | ⟨_, h | ⟨_, h⟩, h'⟩
        · exact absurd h hq
        · exact ⟨h, h'⟩
        · rcases hdis rfl with h'' | h''
          · exact absurd h'' hq
          · rw [h] at h''; cases h''
      obtain ⟨hr2, rfl⟩ := hr1
      obtain ⟨_, hnone, hph⟩ := reserve_ok hq hr2
      obtain ⟨k1, k2⟩ := note_ok hi hph
      have hns : noteSent (step s (.reserve id p.qos)).2 p id = ((step (step s (.reserve id p.qos)).2 (.publish .send id p.qos)).1.1,
          (step (step s (.reserve id p.qos)).2 (.publish .send id p.qos)).2) := by
        unfold noteSent; rw [if_neg hq]
      rw [hns] at hfin
      have hpub : st = .success ∨ st = .sendFailed ∨ st = .publishStoreFailed := by
        rcases hfin with ⟨_, rfl, _⟩ | ⟨_, rfl, _⟩
        · exact hst
        · exact Or.inl k1
      rw [published_one hq hpub]
      have hm1 : p.qos = .qos1 → (p.toSpec id).message.qos = 1 := by intro h; show p.qos.toFin = 1; rw [h]; rfl
      have hm2 : p.qos = .qos2 → (p.toSpec id).message.qos = 2 := by intro h; show p.qos.toFin = 2; rw [h]; rfl
      have hkept : shelf id = none → ∀ x, es0.foldl Shelf.note shelf id = some x → Copy id (p.toSpec id).message x := by
        intro h0 x hx
        rcases hsh.2 with h | ⟨_, h⟩
        · rw [h, h0] at hx; cases hx
        · rw [h] at hx
          cases hx
          exact Copy.of_raw hv ha hq true
      have hfinal : ∃ s2 ph, Represents w'.ctx.tables s2 ∧ s2.out.phase id = some ph ∧
          ((p.toSpec id).message.qos = 1 ∧ (ph = .toSend1 ∨ ph = .awaitPuback) ∨ (p.toSpec id).message.qos = 2 ∧ (ph = .toSend2 ∨ ph = .awaitPubrec)) := by
        rcases hfin with ⟨_, _, hr⟩ | ⟨_, _, hr⟩
        · rcases hph with ⟨g1, g2⟩ | ⟨g1, g2⟩
          · exact ⟨_, _, hr, g2, Or.inl ⟨hm1 g1, Or.inl rfl⟩⟩
          · exact ⟨_, _, hr, g2, Or.inr ⟨hm2 g1, Or.inl rfl⟩⟩
        · rcases k2 with ⟨g1, g2⟩ | ⟨g1, g2⟩
          · exact ⟨_, _, hr, g2, Or.inl ⟨hm1 g1, Or.inr rfl⟩⟩
          · exact ⟨_, _, hr, g2, Or.inr ⟨hm2 g1, Or.inr rfl⟩⟩
      obtain ⟨s2, ph, g1, g2, g3⟩ := hfinal
      refine hal.ready g1 h2 h3 ?_
      rw [hnone] at h4
      rw [g2]
      refine h4.sends h3 hi hn hrecv' e1 e2 e3 ?_ ?_ ?_ hs' hun hcl
      · intro h; simp [hconn] at h
      · intro q L U D held ht
        refine ht.publish g3 hkept ?_
        rcases hvs with h | ⟨_, _, h⟩ <;> simp [h]
      · intro q L U D held ht
        have := ht.publish g3 hkept (Or.inl rfl)
        rwa [List.append_nil] at this
    · have hc' : i ≠ id ∨ p.qos = .qos0 := by
        by_cases h : i = id
        · exact Or.inr (Classical.byContradiction fun h' => hc ⟨h.symm, h'⟩)
        · exact Or.inl h
      rw [published_not (by rcases hc' with h | h <;> simp [Ne.symm, h]), List.append_nil]
      have hph1 : s1.out.phase i = s.out.phase i := by
        rcases hres with ⟨_, rfl⟩ | ⟨hq, _, rfl⟩
        · rfl
        · rcases reserve_phase s id i p.qos with h | ⟨h, _⟩
          · exact h
          · rcases hc' with h' | h'
            · exact absurd h h'
            · exact absurd h' hq
      have hph2 : (noteSent s1 p id).2.out.phase i = s1.out.phase i := by
        unfold noteSent
        split
        · rfl
        · rename_i hq
          rcases sent_phase s1 id i p.qos with h | ⟨h, _⟩
          · exact h
          · rcases hc' with h' | h'
            · exact absurd h h'
            · exact absurd h' hq
      have hfinal : ∃ s2, Represents w'.ctx.tables s2 ∧ s2.out.phase i = s.out.phase i := by
        rcases hfin with ⟨_, _, hr⟩ | ⟨_, _, hr⟩
        · exact ⟨_, hr, hph1⟩
        · exact ⟨_, hr, hph2.trans hph1⟩
      obtain ⟨s2, g1, g2⟩ := hfinal
      refine hal.ready g1 h2 h3 ?_
      rw [g2]
      have hki : es0.foldl Shelf.note shelf i = shelf i := hsh.1 i (by rcases hc' with h | h <;> simp [h])
      refine h4.sends h3 hi hn hrecv' e1 e2 e3 ?_ ?_ ?_ hs' hun hcl
      · intro h; simp [hconn] at h
      · intro q L U D held ht
        rw [hki]
        rcases hvs with h | ⟨h, h', _⟩
        · rw [h, List.append_nil]; exact ht
        · exact absurd ⟨h, h'⟩ hc
      · intro q L U D held ht
        rw [hki]; exact ht

end Mqtt
