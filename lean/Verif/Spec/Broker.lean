/-
A client, a server and the network between them: the system the end-to-end properties C56 (client to server) and C57 (server to client) are about.

The server is written from the standard (3.1.4, 3.2.2, 3.3.4, 3.6.4, 4.1, 4.3): it reads the bytes the client's transport accepted with the
decoder of Spec/Wire and answers.  It may take its time, stop answering, send other packets at any time, refuse a connection or lose the session.  The
network may lose everything that has not arrived whenever a connection is closed.
-/
import Verif.Spec.Calls
import Verif.Spec.Life
import Verif.Spec.Stream

namespace Mqtt.Spec
open Mqtt

/-- A message on its way from the server to the client (4.3.2, 4.3.3). -/
structure Slot where
  message : Publish
  /-- PUBREC has arrived, PUBCOMP has not -/
  released : Bool
  /-- the PUBLISH or PUBREL has been sent on the present connection -/
  sent : Bool

/-- The QoS 1 and QoS 2 messages from the server to the client. -/
structure Outbox where
  /-- the messages in flight by packet id -/
  slot : UInt16 → Option Slot
  /-- all messages sent for the first time, in order -/
  offered : List Publish

/-- A new session has no messages in flight. -/
def Outbox.dropped (o : Outbox) : Outbox := { o with slot := fun _ => none }

/-- A new connection: nothing has been sent on it. -/
def Outbox.unsent (o : Outbox) : Outbox := { o with slot := fun j => (o.slot j).map fun x => { x with sent := false } }

def Outbox.put (o : Outbox) (j : UInt16) (x : Option Slot) : Outbox := { o with slot := fun i => if i = j then x else o.slot i }

/-- What the server knows about the client. -/
structure Server where
  /-- the session outlives the connection -/
  session : Bool
  /-- packet ids of QoS 2 publishes that were taken over and not released (4.3.3) -/
  held : List Nat
  /-- all messages taken over, in order -/
  taken : List Publish
  /-- number of sessions begun -/
  sessions : Nat
  /-- the messages for the client -/
  out : Outbox

/-- The server and the connection. -/
structure Net where
  /-- bytes from the client that the server has not processed -/
  up : List UInt8
  /-- bytes from the server that the client's transport has not delivered -/
  down : List UInt8
  /-- the client's end is open: what it sends may arrive, and it can receive -/
  isOpen : Bool
  /-- the server has accepted a CONNECT on this connection -/
  greeted : Bool
  server : Server

/-- A message, whether sent for the first time or again. -/
def Publish.message (m : Publish) : Publish := { m with dup := false }

/-- The server sends a PUBLISH or PUBREL packet `p` of its own accord, one that fits into `cap` bytes. -/
inductive Offers (cap : Nat) : Outbox → Raw → Outbox → Prop
  /-- a new message under a free packet id -/
  | offer {o : Outbox} {p : Raw} {m : Publish} {j : UInt16} : p.Valid → p.bytes.length ≤ cap → parsePublish p.first.toNat p.body = some m →
      m.qos ≠ 0 → m.topic ≠ [] → m.id = j.toNat → o.slot j = none →
      Offers cap o p { o.put j (some ⟨m.message, false, true⟩) with offered := o.offered ++ [m.message] }
  /-- a message that was not acknowledged on an earlier connection (4.4) -/
  | offerAgain {o : Outbox} {p : Raw} {m : Publish} {j : UInt16} : p.Valid → p.bytes.length ≤ cap → parsePublish p.first.toNat p.body = some m →
      m.id = j.toNat → o.slot j = some ⟨m.message, false, false⟩ → Offers cap o p (o.put j (some ⟨m.message, false, true⟩))
  /-- the PUBREL of a message that was not completed on an earlier connection (4.4) -/
  | releaseAgain {o : Outbox} {m : Publish} {j : UInt16} : 4 ≤ cap → o.slot j = some ⟨m, true, false⟩ →
      Offers cap o ⟨0x62, be16 j.toNat⟩ (o.put j (some ⟨m, true, true⟩))

/-- The server has received PUBACK, PUBREC or PUBCOMP with packet id `j` and answers with the packets of the list. -/
inductive Settles : Outbox → Nat → UInt16 → Outbox → List Raw → Prop
  | puback {o : Outbox} {j : UInt16} {m : Publish} {s : Bool} : o.slot j = some ⟨m, false, s⟩ → m.qos = 1 → Settles o 0x40 j (o.put j none) []
  | pubrec {o : Outbox} {j : UInt16} {m : Publish} {s : Bool} : o.slot j = some ⟨m, false, s⟩ → m.qos = 2 →
      Settles o 0x50 j (o.put j (some ⟨m, true, true⟩)) [⟨0x62, be16 j.toNat⟩]
  | pubcomp {o : Outbox} {j : UInt16} {m : Publish} {s : Bool} : o.slot j = some ⟨m, true, s⟩ → Settles o 0x70 j (o.put j none) []
  /-- an acknowledgement that is not expected is ignored -/
  | stray {o : Outbox} {t : Nat} {j : UInt16} : (t = 0x40 ∨ t = 0x50 ∨ t = 0x70) →
      (∀ m s, o.slot j = some ⟨m, false, s⟩ → ¬ (t = 0x40 ∧ m.qos = 1) ∧ ¬ (t = 0x50 ∧ m.qos = 2)) → (∀ m s, o.slot j = some ⟨m, true, s⟩ → t ≠ 0x70) →
      Settles o t j o []

/-- A packet with which the server may interrupt or answer everything but PUBLISH and PUBREL: any that fits into `cap` bytes, other than PUBACK,
PUBREC and PUBCOMP.  With `strict` the server sends QoS 1 and QoS 2 messages and PUBREL only as in `Offers` and `Settles`. -/
def Unasked (strict : Bool) (cap : Nat) (p : Raw) : Prop :=
  p.Valid ∧ p.bytes.length ≤ cap ∧ p.first ≠ 0x40 ∧ p.first ≠ 0x50 ∧ p.first ≠ 0x70 ∧
  (strict = true → p.first ≠ 0x62 ∧ ∀ m, parsePublish p.first.toNat p.body = some m → m.qos = 0)

/-- The server does something. -/
inductive Serves (strict : Bool) (cap : Nat) : Net → Net → Prop
  /-- CONNECT is refused (3.2.2.3) -/
  | refuse {n : Net} {body rest : List UInt8} {code : UInt8} : n.greeted = false → readPacket n.up = some (0x10, body, rest) → code ≠ 0 →
      Serves strict cap n { n with up := rest, down := n.down ++ packet 0x20 [0, code] }
  /-- CONNECT is accepted with a new session; the session is kept unless the client asked for a clean one (3.1.2.4) -/
  | begin {n : Net} {body rest : List UInt8} {c : Connect} : n.greeted = false → readPacket n.up = some (0x10, body, rest) → parseConnect body = some c →
      Serves strict cap n { n with up := rest, down := n.down ++ packet 0x20 [0, 0], greeted := true,
                                   server := { n.server with session := !c.clean, held := [], sessions := n.server.sessions + 1, out := n.server.out.dropped } }
  /-- CONNECT is accepted with the session that was kept -/
  | resume {n : Net} {body rest : List UInt8} {c : Connect} : n.greeted = false → readPacket n.up = some (0x10, body, rest) → parseConnect body = some c →
      c.clean = false → n.server.session = true → Serves strict cap n
        { n with up := rest, down := n.down ++ packet 0x20 [1, 0], greeted := true,
                 server := { n.server with out := n.server.out.unsent } }
  /-- a QoS 0 message -/
  | qos0 {n : Net} {t : Nat} {body rest : List UInt8} {m : Publish} : n.greeted = true → readPacket n.up = some (t, body, rest) → parsePublish t body = some m →
      m.qos = 0 → Serves strict cap n { n with up := rest, server := { n.server with taken := n.server.taken ++ [m] } }
  /-- a QoS 1 message is taken over and acknowledged -/
  | qos1 {n : Net} {t : Nat} {body rest : List UInt8} {m : Publish} : n.greeted = true → readPacket n.up = some (t, body, rest) → parsePublish t body = some m →
      m.qos = 1 → Serves strict cap n { n with up := rest, down := n.down ++ idPacket 0x40 m.id, server := { n.server with taken := n.server.taken ++ [m] } }
  /-- a QoS 2 message with a new id is taken over and acknowledged -/
  | qos2 {n : Net} {t : Nat} {body rest : List UInt8} {m : Publish} : n.greeted = true → readPacket n.up = some (t, body, rest) → parsePublish t body = some m →
      m.qos = 2 → m.id ∉ n.server.held →
      Serves strict cap n { n with up := rest, down := n.down ++ idPacket 0x50 m.id,
                                   server := { n.server with taken := n.server.taken ++ [m], held := m.id :: n.server.held } }
  /-- a QoS 2 message with an id that was not released is the same message again -/
  | again {n : Net} {t : Nat} {body rest : List UInt8} {m : Publish} : n.greeted = true → readPacket n.up = some (t, body, rest) → parsePublish t body = some m →
      m.qos = 2 → m.id ∈ n.server.held → Serves strict cap n { n with up := rest, down := n.down ++ idPacket 0x50 m.id }
  /-- PUBREL: the id is free again -/
  | release {n : Net} {body rest : List UInt8} {id : Nat} : n.greeted = true → readPacket n.up = some (0x62, body, rest) → read16 body = some (id, []) →
      Serves strict cap n { n with up := rest, down := n.down ++ idPacket 0x70 id, server := { n.server with held := n.server.held.filter fun x => x ≠ id } }
  /-- any other packet -/
  | other {n : Net} {t : Nat} {body rest : List UInt8} {outs : List Raw} : n.greeted = true → readPacket n.up = some (t, body, rest) →
      t / 16 ≠ 3 → t ≠ 0x62 → (strict = true → t ≠ 0x40 ∧ t ≠ 0x50 ∧ t ≠ 0x70) → (∀ p ∈ outs, Unasked strict cap p) →
      Serves strict cap n { n with up := rest, down := n.down ++ outs.flatMap Raw.bytes }
  /-- PUBACK, PUBREC or PUBCOMP -/
  | settle {n : Net} {t : Nat} {body rest : List UInt8} {j : UInt16} {out : Outbox} {outs : List Raw} : n.greeted = true → readPacket n.up = some (t, body, rest) →
      read16 body = some (j.toNat, []) → Settles n.server.out t j out outs →
      Serves strict cap n { n with up := rest, down := n.down ++ outs.flatMap Raw.bytes, server := { n.server with out := out } }
  /-- the server sends a message or PUBREL -/
  | offer {n : Net} {p : Raw} {out : Outbox} : n.greeted = true → Offers cap n.server.out p out →
      Serves strict cap n { n with down := n.down ++ p.bytes, server := { n.server with out := out } }
  /-- the server sends something else of its own accord -/
  | unasked {n : Net} {p : Raw} : n.greeted = true → Unasked strict cap p → Serves strict cap n { n with down := n.down ++ p.bytes }

/-- Interactions of the client with its environment, with the server working in between.  What is sent over a closed connection is lost, and nothing can be
received. -/
inductive NetRun (strict : Bool) (cap : Nat) : Net → List Event → Net → Prop
  | done (n : Net) : NetRun strict cap n [] n
  | serve {n n1 n2 : Net} {es : List Event} : Serves strict cap n n1 → NetRun strict cap n1 es n2 → NetRun strict cap n es n2
  | send {n n2 : Net} {bytes : List UInt8} {k : Nat} {es : List Event} :
      NetRun strict cap { n with up := if n.isOpen then n.up ++ bytes.take k else n.up } es n2 → NetRun strict cap n (.sent bytes (some k) :: es) n2
  | receive {n n2 : Net} {k : Nat} {bytes rest : List UInt8} {es : List Event} : n.down = bytes ++ rest → (n.isOpen = true ∨ bytes = []) →
      NetRun strict cap { n with down := rest } es n2 → NetRun strict cap n (.recvd k (some bytes) :: es) n2
  | event {n n2 : Net} {e : Event} {es : List Event} : (∀ bytes k, e ≠ .sent bytes (some k)) → (∀ k bytes, e ≠ .recvd k (some bytes)) →
      NetRun strict cap n es n2 → NetRun strict cap n (e :: es) n2

/-! ### The application -/

/-- The packets the application keeps for retransmission, by packet id. -/
abbrev Shelf := UInt16 → Option (List UInt8)

/-- The store and the clear callback. -/
def Shelf.note (k : Shelf) : Event → Shelf
  | .store id vec true => fun j => if j = id then some (vecContents vec) else k j
  | .clear id => fun j => if j = id then none else k j
  | _ => k

/-- The retrieve callback gives back what was stored, if anything. -/
def Faithful : Shelf → List Event → Prop
  | _, [] => True
  | k, e :: es => (∀ id bytes, e = .retrieve id (some bytes) → k id = some bytes) ∧ Faithful (k.note e) es

/-- The application closes the connection when a packet could not be sent, when `MQTT_Connect` fails, and after `MQTT_Disconnect`. -/
def closes : ApiCall → ApiRet → Bool
  | .disconnect, _ => true
  | _, .connect st _ => decide (st ≠ .success)
  | _, .status st => decide (st = .sendFailed)
  | _, .packetId _ => false

/-- Client, network and application's memory. -/
structure Sys where
  world : World
  net : Net
  shelf : Shelf

/-- What can happen. -/
inductive Sys.Run (g : Cfg) (strict : Bool) : Sys → List (ApiCall × ApiRet) → Sys → Prop
  | start (s : Sys) : Sys.Run g strict s [] s
  /-- the server does something -/
  | serve {s s1 : Sys} {h : List (ApiCall × ApiRet)} {n : Net} : Sys.Run g strict s h s1 → Serves strict s1.world.ctx.bufSize s1.net n → Sys.Run g strict s h { s1 with net := n }
  /-- the connection is lost or closed -/
  | hangUp {s s1 : Sys} {h : List (ApiCall × ApiRet)} : Sys.Run g strict s h s1 → Sys.Run g strict s h { s1 with net := { s1.net with isOpen := false } }
  /-- the application, which is not connected, opens a new connection; what was under way on the old one is lost -/
  | dial {s s1 : Sys} {h : List (ApiCall × ApiRet)} : Sys.Run g strict s h s1 → s1.world.ctx.connectStatus = .notConnected →
      Sys.Run g strict s h { s1 with net := { s1.net with up := [], down := [], isOpen := true, greeted := false } }
  /-- the application calls a function of the library, which returns -/
  | call {s s1 : Sys} {h : List (ApiCall × ApiRet)} {e : Env} {c : ApiCall} {r : ApiRet} {w : World} {n : Net} : Sys.Run g strict s h s1 → ValidCall g c →
      callIn g s1.world e c = .done r w → NetRun strict s1.world.ctx.bufSize s1.net (callEvents g s1.world e c) n →
      Faithful s1.shelf (callEvents g s1.world e c) →
      Sys.Run g strict s (h ++ [(c, r)])
        ⟨w, { n with isOpen := n.isOpen && !closes c r }, (callEvents g s1.world e c).foldl Shelf.note s1.shelf⟩

/-- Before the first call: an initialised context with room for an acknowledgement, no connection, nothing stored. -/
structure Sys.Initial (g : Cfg) (s : Sys) : Prop where
  cfg : CfgOk g
  ctx : Initialised s.world.ctx
  buffer : 4 ≤ s.world.ctx.bufSize
  trace : s.world.trace = []
  closed : s.net.isOpen = false
  quiet : s.net.up = [] ∧ s.net.down = []
  held : s.net.server.held = [] ∧ ∀ j, s.net.server.out.slot j = none
  shelf : ∀ id, s.shelf id = none

/-- The application leaves the repetition of the publishes with packet id `i` to the library and does not cancel them. -/
def Disciplined (i : UInt16) (h : List (ApiCall × ApiRet)) : Prop :=
  ∀ x ∈ h, (∀ p, x.1 = .publish (some p) i → p.qos = .qos0 ∨ p.dup = false) ∧ x.1 ≠ .cancelCallback i

/-! ### The messages -/

/-- The QoS 1 and QoS 2 messages with packet id `i` that `MQTT_Publish` accepted, in order: the call succeeded, or it failed to store or to send the packet
but keeps it in flight. -/
def published (i : UInt16) (h : List (ApiCall × ApiRet)) : List Publish :=
  h.filterMap fun x => match x with
    | (.publish (some p) id, .status st) =>
      if id = i ∧ p.qos ≠ .qos0 ∧ (st = .success ∨ st = .sendFailed ∨ st = .publishStoreFailed) then some (p.toSpec id).message else none
    | _ => none

/-- The QoS 1 and QoS 2 messages with packet id `i` the server took over, in order. -/
def takenOver (i : UInt16) (l : List Publish) : List Publish :=
  (l.filter fun m => m.id = i.toNat ∧ m.qos ≠ 0).map Publish.message

/-- `got` consists of the messages of `sent` in order, none of them missing and none added, each QoS 2 message once and each QoS 1 message at least once. -/
inductive Arrived : List Publish → List Publish → Prop
  | nil : Arrived [] []
  | next {sent got : List Publish} (m : Publish) : Arrived sent got → Arrived (sent ++ [m]) (got ++ [m])
  | repeated {sent got : List Publish} {m : Publish} : Arrived (sent ++ [m]) got → m.qos = 1 → Arrived (sent ++ [m]) (got ++ [m])

/-- The QoS 1 and QoS 2 messages with packet id `i` presented to the application, in order. -/
def presented (i : UInt16) (es : List Event) : List Publish :=
  es.filterMap fun e => match e with
    | .app _ _ id _ (some v) => if id = i ∧ v.qos ≠ .qos0 then some ⟨false, v.qos.toFin, v.retain, v.topic, id.toNat, v.payload⟩ else none
    | _ => none

/-- The messages with packet id `i`. -/
def withId (i : UInt16) (l : List Publish) : List Publish := l.filter fun m => m.id = i.toNat

/-- The client has begun to receive a message with this packet id and has not completed the exchange. -/
def Receiving (t : Tables) (i : UInt16) : Prop := ∃ r ∈ inFlight t.incoming, r.packetId = i

/-- The number of messages whose PUBACK or PUBREC was presented to the application. -/
def acknowledged (i : UInt16) (es : List Event) : Nat := ((acksOf i es).filter fun t => t = 0x40 ∨ t = 0x50).length

/-- The number of QoS 2 messages whose PUBCOMP was presented to the application. -/
def completed (i : UInt16) (es : List Event) : Nat := ((acksOf i es).filter fun t => t = 0x70).length

end Mqtt.Spec
