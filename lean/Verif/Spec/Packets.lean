/-
The client, the server and the network between them at the level of whole packets: the protocol of which the system of Spec/Broker, with its bytes, buffers,
records and partial transfers, is shown to be an implementation (C58).

There is no connection status, no receive buffer, no time and no transport here: a packet is sent or not, and received or not.
-/
import Verif.Spec.Broker

namespace Mqtt.Spec
open Mqtt

/-- Where the client stands: not connected, waiting for CONNACK, connected (even if the connection is already lost). -/
inductive Stage where
  | idle
  | asking
  | on
  deriving DecidableEq, Repr

/-- The state of the protocol. -/
structure Proto where
  /-- the client's publishes in flight -/
  flight : InFlight
  /-- the packets the application keeps for retransmission -/
  shelf : UInt16 → Option Raw
  stage : Stage
  /-- the client's end of the connection is open -/
  isOpen : Bool
  /-- the server has accepted a CONNECT on this connection -/
  greeted : Bool
  /-- the packets on their way to the server -/
  up : List Raw
  /-- the packets on their way to the client, those that it has received and not processed among them -/
  down : List Raw
  server : Server
  /-- history: the messages accepted from the application, in order -/
  sent : List Publish
  /-- history: since the connection was established every packet was dealt with without error, and every publish was sent or the connection closed -/
  ok : Bool

/-- The client sends packets. -/
def Proto.put (a : Proto) (vs : List Raw) : Proto := { a with up := if a.isOpen then a.up ++ vs else a.up }

/-- The server reads a packet: was it greeted, what does it know, the packet, and the same afterwards with its answers (see `Serves`). -/
inductive Reads (strict : Bool) (cap : Nat) : Bool → Server → Raw → Bool → Server → List Raw → Prop
  | refuse {v : Server} {u : Raw} {code : UInt8} : u.first = 0x10 → code ≠ 0 → Reads strict cap false v u false v [⟨0x20, [0, code]⟩]
  | begin {v : Server} {u : Raw} {c : Connect} : u.first = 0x10 → parseConnect u.body = some c →
      Reads strict cap false v u true { v with session := !c.clean, held := [], sessions := v.sessions + 1, out := v.out.dropped } [⟨0x20, [0, 0]⟩]
  | resume {v : Server} {u : Raw} {c : Connect} : u.first = 0x10 → parseConnect u.body = some c → c.clean = false → v.session = true →
      Reads strict cap false v u true { v with out := v.out.unsent } [⟨0x20, [1, 0]⟩]
  | qos0 {v : Server} {u : Raw} {m : Publish} : parsePublish u.first.toNat u.body = some m → m.qos = 0 →
      Reads strict cap true v u true { v with taken := v.taken ++ [m] } []
  | qos1 {v : Server} {u : Raw} {m : Publish} : parsePublish u.first.toNat u.body = some m → m.qos = 1 →
      Reads strict cap true v u true { v with taken := v.taken ++ [m] } [⟨0x40, be16 m.id⟩]
  | qos2 {v : Server} {u : Raw} {m : Publish} : parsePublish u.first.toNat u.body = some m → m.qos = 2 → m.id ∉ v.held →
      Reads strict cap true v u true { v with taken := v.taken ++ [m], held := m.id :: v.held } [⟨0x50, be16 m.id⟩]
  | again {v : Server} {u : Raw} {m : Publish} : parsePublish u.first.toNat u.body = some m → m.qos = 2 → m.id ∈ v.held →
      Reads strict cap true v u true v [⟨0x50, be16 m.id⟩]
  | release {v : Server} {u : Raw} {id : Nat} : u.first = 0x62 → read16 u.body = some (id, []) →
      Reads strict cap true v u true { v with held := v.held.filter fun x => x ≠ id } [⟨0x70, be16 id⟩]
  | other {v : Server} {u : Raw} {outs : List Raw} : u.first.toNat / 16 ≠ 3 → u.first ≠ 0x62 →
      (strict = true → u.first ≠ 0x40 ∧ u.first ≠ 0x50 ∧ u.first ≠ 0x70) → (∀ p ∈ outs, Unasked strict cap p) → Reads strict cap true v u true v outs
  | settle {v : Server} {u : Raw} {j : UInt16} {out : Outbox} {outs : List Raw} : read16 u.body = some (j.toNat, []) → Settles v.out u.first.toNat j out outs →
      Reads strict cap true v u true { v with out := out } outs

/-- Neither PUBACK nor PUBREC has arrived. -/
def OutPhase.pending : OutPhase → Bool
  | .toSend1 | .toSend2 | .awaitPuback | .awaitPubrec => true
  | .sendPubrel | .awaitPubcomp => false

/-- The outgoing publishes that wait for PUBACK or PUBREC, in the order in which they were published. -/
def InFlight.pending (s : InFlight) : List UInt16 := (s.out.filter fun e => e.2.pending).map (·.1)

/-- The outgoing publishes for which PUBREC has arrived. -/
def InFlight.releasing (s : InFlight) : List UInt16 := (s.out.filter fun e => !e.2.pending).map (·.1)

/-- PUBREL was sent for the packet ids of the list. -/
def InFlight.release (s : InFlight) (ids : List UInt16) : InFlight :=
  { s with out := s.out.map fun e => if e.1 ∈ ids then (e.1, .awaitPubcomp) else e }

/-- What the client sends when it resumes a session: PUBRELs, then the publishes kept by the application; `whole`: all of them. -/
inductive Resends (retx : Bool) (s : InFlight) (shelf : UInt16 → Option Raw) : Bool → List Raw → InFlight → Prop
  | releases {ids : List UInt16} : ids <+: s.releasing → Resends retx s shelf false (ids.map fun j => ⟨0x62, be16 j.toNat⟩) (s.release ids)
  | publishes {copies : List (UInt16 × Raw)} : retx = true → copies.map (·.1) <+: s.pending → (∀ e ∈ copies, shelf e.1 = some e.2) →
      Resends retx s shelf false (s.releasing.map (fun j => ⟨0x62, be16 j.toNat⟩) ++ copies.map (·.2)) (s.release s.releasing)
  | all {copies : List (UInt16 × Raw)} : retx = true → copies.map (·.1) = s.pending → (∀ e ∈ copies, shelf e.1 = some e.2) →
      Resends retx s shelf true (s.releasing.map (fun j => ⟨0x62, be16 j.toNat⟩) ++ copies.map (·.2)) (s.release s.releasing)
  | none : retx = false → Resends retx s shelf true (s.releasing.map fun j => ⟨0x62, be16 j.toNat⟩) (s.release s.releasing)

/-- The application forgets the packets it is told to forget. -/
def cleared (shelf : UInt16 → Option Raw) (cb : List Event) : UInt16 → Option Raw := fun j => if .clear j ∈ cb then none else shelf j

/-- The packets that are not part of an exchange. -/
def PlainPacket (u : Raw) : Prop :=
  u.first ≠ 0x40 ∧ u.first ≠ 0x50 ∧ u.first ≠ 0x62 ∧ u.first ≠ 0x70 ∧ u.first.toNat / 16 ≠ 3

/-- The acknowledgement as a packet. -/
def answerOf (ty : AckType) (id : UInt16) : Raw := ⟨UInt8.ofNat (ackByte ty), be16 id.toNat⟩

/-- The steps of the protocol.  `retx`: the application keeps copies of the packets for retransmission. -/
inductive Proto.Step (strict retx : Bool) (cap : Nat) : Proto → Proto → Prop
  /-- the server reads a packet -/
  | read {a : Proto} {u : Raw} {us outs : List Raw} {g : Bool} {v : Server} : a.up = u :: us → Reads strict cap a.greeted a.server u g v outs →
      Step strict retx cap a { a with up := us, down := a.down ++ outs, greeted := g, server := v }
  /-- the server sends a message or PUBREL -/
  | offer {a : Proto} {p : Raw} {out : Outbox} : a.greeted = true → Offers cap a.server.out p out →
      Step strict retx cap a { a with down := a.down ++ [p], server := { a.server with out := out } }
  /-- the server sends something else -/
  | unasked {a : Proto} {p : Raw} : a.greeted = true → Unasked strict cap p → Step strict retx cap a { a with down := a.down ++ [p] }
  /-- the connection is lost or closed -/
  | hangUp {a : Proto} : Step strict retx cap a { a with isOpen := false }
  /-- the application opens a new connection -/
  | dial {a : Proto} : a.stage = .idle → Step strict retx cap a { a with up := [], down := [], isOpen := true, greeted := false }
  /-- the client sends CONNECT -/
  | ask {a : Proto} {u : Raw} : a.stage = .idle → u.first = 0x10 → Step strict retx cap a { a.put [u] with stage := .asking }
  /-- no acceptable CONNACK arrives -/
  | giveUp {a : Proto} : a.stage = .asking → Step strict retx cap a { a with stage := .idle, isOpen := false }
  /-- the server has a new session: the client forgets the old one -/
  | welcome {a : Proto} {ds : List Raw} : a.stage = .asking → a.isOpen = true → a.down = ⟨0x20, [0, 0]⟩ :: ds →
      Step strict retx cap a { a with stage := .on, down := ds, flight := { a.flight with out := [], inc := [] }, ok := true,
                                      shelf := fun j => if retx = true ∧ j ∈ a.flight.pending then none else a.shelf j }
  /-- the server still has the session: the client sends again what is not acknowledged; if it fails the connection is closed -/
  | resume {a : Proto} {ds vs : List Raw} {whole : Bool} {s : InFlight} : a.stage = .asking → a.isOpen = true → a.down = ⟨0x20, [1, 0]⟩ :: ds →
      Resends retx a.flight a.shelf whole vs s →
      Step strict retx cap a { a.put vs with stage := .on, down := ds, flight := s, isOpen := whole, ok := if whole then retx else a.ok }
  /-- the client sends a packet that is not part of an exchange -/
  | plain {a : Proto} {u : Raw} : a.stage = .on → PlainPacket u → Step strict retx cap a (a.put [u])
  /-- a QoS 0 message -/
  | publish0 {a : Proto} {u : Raw} {m : Publish} : a.stage = .on → parsePublish u.first.toNat u.body = some m → m.qos = 0 →
      Step strict retx cap a { a.put [u] with sent := a.sent ++ [m.message] }
  /-- a QoS 1 or QoS 2 message, of which the application keeps the copy `c` -/
  | publish {a : Proto} {u c : Raw} {m : Publish} {id : UInt16} {q : QoS} : a.stage = .on → parsePublish u.first.toNat u.body = some m →
      parsePublish c.first.toNat c.body = some { m with dup := true } → m.id = id.toNat → m.qos = q.toFin → q ≠ .qos0 →
      (step a.flight (.reserve id q)).1.1 = .success →
      Step strict retx cap a { a.put [u] with flight := (step (step a.flight (.reserve id q)).2 (.publish .send id q)).2, sent := a.sent ++ [m.message],
                                              shelf := fun j => if retx = true ∧ j = id then some c else a.shelf j }
  /-- the message could not be stored -/
  | unsaved {a : Proto} {m : Publish} {id : UInt16} {q : QoS} : a.stage = .on → retx = true → m.id = id.toNat → m.qos = q.toFin → q ≠ .qos0 →
      (step a.flight (.reserve id q)).1.1 = .success →
      Step strict retx cap a { a with flight := (step a.flight (.reserve id q)).2, sent := a.sent ++ [m.message], ok := false }
  /-- the message could not be sent; the connection is closed -/
  | unsent {a : Proto} {c : Raw} {m : Publish} {id : UInt16} {q : QoS} : a.stage = .on →
      parsePublish c.first.toNat c.body = some { m with dup := true } → m.id = id.toNat → m.qos = q.toFin → q ≠ .qos0 →
      (step a.flight (.reserve id q)).1.1 = .success →
      Step strict retx cap a { a with flight := (step a.flight (.reserve id q)).2, sent := a.sent ++ [m.message], isOpen := false,
                                      shelf := fun j => if retx = true ∧ j = id then some c else a.shelf j }
  /-- the client deals with a packet that needs no answer -/
  | take {a : Proto} {d : Raw} {ds : List Raw} {manage : Bool} : a.stage = .on → a.down = d :: ds → (react retx manage a.flight d.first d.body).ack = none →
      Step strict retx cap a { a with down := ds, flight := (react retx manage a.flight d.first d.body).state,
                                      shelf := cleared a.shelf (react retx manage a.flight d.first d.body).callbacks,
                                      ok := a.ok && decide ((react retx manage a.flight d.first d.body).status = .success) }
  /-- the client deals with a packet and answers -/
  | answer {a : Proto} {d : Raw} {ds : List Raw} {manage : Bool} {ty : AckType} {id : UInt16} : a.stage = .on → a.down = d :: ds →
      (react retx manage a.flight d.first d.body).ack = some (ty, id) →
      Step strict retx cap a
        { a.put [answerOf ty id] with down := ds, flight := (step (react retx manage a.flight d.first d.body).state (.ack .send ty id)).2,
                                      shelf := cleared a.shelf (react retx manage a.flight d.first d.body).callbacks }
  /-- the answer cannot be sent -/
  | mute {a : Proto} {d : Raw} {ds : List Raw} {manage : Bool} : a.stage = .on → a.down = d :: ds →
      Step strict retx cap a { a with down := ds, flight := (react retx manage a.flight d.first d.body).state,
                                      shelf := cleared a.shelf (react retx manage a.flight d.first d.body).callbacks, ok := false }
  /-- the client disconnects -/
  | close {a : Proto} : a.stage = .on → Step strict retx cap a { a with stage := .idle, isOpen := false }

/-- Any number of steps. -/
inductive Proto.Run (strict retx : Bool) (cap : Nat) : Proto → Proto → Prop
  | refl (a : Proto) : Proto.Run strict retx cap a a
  | step {a b c : Proto} : Proto.Run strict retx cap a b → Proto.Step strict retx cap b c → Proto.Run strict retx cap a c

/-! ### Histories -/

/-- The messages that `MQTT_Publish` accepted, in order: those of QoS 0 that were sent; those of QoS 1 and QoS 2 that it has in flight, even if it failed to store
or to send them. -/
def accepted (h : List (ApiCall × ApiRet)) : List Publish :=
  h.filterMap fun x => match x with
    | (.publish (some p) id, .status st) =>
      if p.qos = .qos0 then if st = .success then some (p.toSpec 0).message else none
      else if st = .success ∨ st = .sendFailed ∨ st = .publishStoreFailed then some (p.toSpec id).message else none
    | _ => none

/-- A call that was not in the way of the exchanges in progress: a message was stored, the packet that was received could be dealt with, and a session was resumed
only by a client that retransmits. -/
def Calm (retx : Bool) : ApiCall → ApiRet → Prop
  | .publish _ _, .status st => st ≠ .publishStoreFailed
  | .processLoop, .status st => st = .success ∨ st = .needMoreBytes
  | .receiveLoop, .status st => st = .success ∨ st = .needMoreBytes
  | _, .connect st sp => st = .success → sp = some true → retx = true
  | _, _ => True

/-- Since the connection was established the history was calm. -/
def Steady (retx : Bool) (h : List (ApiCall × ApiRet)) : Prop :=
  ∃ h1 ci will t sp0 sp h2, h = h1 ++ (.connect ci will t sp0, .connect .success sp) :: h2 ∧
    ∀ x ∈ (ApiCall.connect ci will t sp0, ApiRet.connect .success sp) :: h2, Calm retx x.1 x.2

/-- `got` consists of messages of `sent`, whose positions in `sent` are `idx`: each is either one that was sent after all those that arrived before, or a QoS 1
or QoS 2 message that arrived before.  (So messages may be missing, but none overtakes another.) -/
inductive InOrder (sent : List Publish) : List Publish → List Nat → Prop
  | nil : InOrder sent [] []
  | next {got : List Publish} {idx : List Nat} {j : Nat} {m : Publish} : InOrder sent got idx → sent[j]? = some m → (∀ i ∈ idx, i < j) →
      InOrder sent (got ++ [m]) (idx ++ [j])
  | again {got : List Publish} {idx : List Nat} {j : Nat} {m : Publish} : InOrder sent got idx → sent[j]? = some m → j ∈ idx → m.qos ≠ 0 →
      InOrder sent (got ++ [m]) (idx ++ [j])

/-! ### The protocol and the system -/

/-- The state of the protocol is the state of the system with whole packets in place of bytes; only of the last packet sent over a connection that is now closed
may a part have been sent. -/
structure Proto.Shows (a : Proto) (s : Sys) : Prop where
  flight : Represents s.world.ctx.tables a.flight
  shelf : ∀ j, s.shelf j = (a.shelf j).map Raw.bytes
  stage : a.stage = if s.world.ctx.connectStatus = .notConnected then .idle else .on
  isOpen : a.isOpen = s.net.isOpen
  greeted : a.greeted = s.net.greeted
  server : a.server = s.net.server
  up : ∃ part, s.net.up = a.up.flatMap Raw.bytes ++ part ∧ readPacket part = none ∧ (s.net.isOpen = true → part = [])
  down : a.stage = .on → s.world.ctx.buffered ++ s.net.down = a.down.flatMap Raw.bytes

/-- Before the first call: no connection, nothing in flight, nothing kept, nothing under way. -/
structure Proto.Initial (a : Proto) : Prop where
  flight : a.flight.out = [] ∧ a.flight.inc = []
  shelf : ∀ j, a.shelf j = none
  stage : a.stage = .idle
  isOpen : a.isOpen = false
  quiet : a.up = [] ∧ a.down = []
  held : a.server.held = [] ∧ ∀ j, a.server.out.slot j = none
  sent : a.sent = []
  ok : a.ok = false

end Mqtt.Spec
