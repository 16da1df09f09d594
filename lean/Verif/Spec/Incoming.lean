/-
Specification of the reaction of an MQTT 3.1.1 client to a complete incoming packet: what is presented to the application, what is
acknowledged, and how the in-flight publishes change.
-/
import Verif.Spec.Wire
import Verif.Spec.InFlight
import Verif.Model.World

namespace Mqtt.Spec
open Mqtt

/-- The packets a server may send after CONNACK. -/
inductive Packet where
  | publish (id : UInt16) (v : PubView)
  | ack (type : AckType) (id : UInt16)
  | pingresp
  | suback (id : UInt16) (refused : Bool)
  | unsuback (id : UInt16)
  deriving DecidableEq, Repr

/-- A body that consists of a packet id only. -/
def idOnly : List UInt8 → Option UInt16
  | [a, b] => if 256 * a.toNat + b.toNat = 0 then none else some (UInt16.ofNat (256 * a.toNat + b.toNat))
  | _ => none

/-- A SUBACK body: packet id and at least one return code; `true`: some subscription was refused. -/
def subackBody : List UInt8 → Option (UInt16 × Bool)
  | a :: b :: codes =>
    if 256 * a.toNat + b.toNat = 0 ∨ codes = [] then none
    else if codes.all (fun c => c = 0 ∨ c = 1 ∨ c = 2 ∨ c = 0x80) then
      some (UInt16.ofNat (256 * a.toNat + b.toNat), decide ((0x80 : UInt8) ∈ codes))
    else none
  | _ => none

/-- The C name of a QoS. -/
def qosName (q : Fin 3) : QoS := if q.val = 0 then .qos0 else if q.val = 1 then .qos1 else .qos2

/-- Read a packet given by its first byte and the bytes after the fixed header.  `none`: malformed or not expected by a client.
(A PUBLISH body has at least 3 bytes, 5 with a packet id: the topic name is not empty or there is a payload.) -/
def readIncoming (first : UInt8) (body : List UInt8) : Option Packet :=
  if first.toNat / 16 = 3 then
    match parsePublish first.toNat body with
    | none => none
    | some s =>
      if body.length < (if s.qos.val = 0 then 3 else 5) then none
      else some (.publish (UInt16.ofNat s.id) ⟨qosName s.qos, s.retain, s.dup, s.topic, s.payload⟩)
  else if first = 0x40 then (idOnly body).map (.ack .puback)
  else if first = 0x50 then (idOnly body).map (.ack .pubrec)
  else if first = 0x62 then (idOnly body).map (.ack .pubrel)
  else if first = 0x70 then (idOnly body).map (.ack .pubcomp)
  else if first = 0x90 then (subackBody body).map fun p => .suback p.1 p.2
  else if first = 0xB0 then (idOnly body).map .unsuback
  else if first = 0xD0 then (if body = [] then some .pingresp else none)
  else none

/-- What the client has to do. -/
structure Reaction where
  /-- result of the call, if there is nothing to send -/
  status : Status
  /-- calls of the application callback and of the clear callback, in order -/
  callbacks : List Event
  /-- acknowledgement to send -/
  ack : Option (AckType × UInt16)
  /-- in-flight publishes before the acknowledgement is sent -/
  state : InFlight
  /-- a ping is answered -/
  pong : Bool

/-- Acknowledgement of an incoming publish. -/
def publishAck : QoS → UInt16 → Option (AckType × UInt16)
  | .qos0, _ => none
  | .qos1, id => some (.puback, id)
  | .qos2, id => some (.pubrec, id)

/-- Answer to an acknowledgement. -/
def nextAck : AckType → UInt16 → Option (AckType × UInt16)
  | .pubrec, id => some (.pubrel, id)
  | .pubrel, id => some (.pubcomp, id)
  | _, _ => none

/-- Reaction to a PUBLISH. -/
def reactPublish (s : InFlight) (first : UInt8) (body : List UInt8) (id : UInt16) (v : PubView) : Reaction :=
  if s.inCap = 0 ∧ v.qos ≠ .qos0 then ⟨.recvFailed, [], none, s, false⟩
  else
    let a := step s (.publish .receive id v.qos)
    if a.1.1 = .success then ⟨.success, [.app first body id .success (some v)], publishAck v.qos id, a.2, false⟩
    else if a.1.1 = .stateCollision then ⟨.success, [], publishAck v.qos id, s, false⟩
    else ⟨a.1.1, [], none, s, false⟩

/-- Reaction to PUBACK, PUBREC, PUBREL, PUBCOMP.  `retx`: copies of outgoing publishes are kept. -/
def reactAck (retx : Bool) (s : InFlight) (first : UInt8) (body : List UInt8) (type : AckType) (id : UInt16) : Reaction :=
  let a := step s (.ack .receive type id)
  if a.1.1 = .success then
    ⟨.success, (if (type = .puback ∨ type = .pubrec) ∧ retx then [.clear id] else []) ++ [.app first body id .success none],
      nextAck type id, a.2, false⟩
  else ⟨a.1.1, [], none, s, false⟩

/-- `manage`: pings are answered to the library (MQTT_ProcessLoop) and not to the application (MQTT_ReceiveLoop). -/
def react (retx manage : Bool) (s : InFlight) (first : UInt8) (body : List UInt8) : Reaction :=
  match readIncoming first body with
  | none => ⟨.badResponse, [], none, s, false⟩
  | some (.publish id v) => reactPublish s first body id v
  | some (.ack type id) => reactAck retx s first body type id
  | some .pingresp => ⟨.success, if manage then [] else [.app first body 0 .success none], none, s, manage⟩
  | some (.suback id refused) => ⟨.success, [.app first body id (if refused then .serverRefused else .success) none], none, s, false⟩
  | some (.unsuback id) => ⟨.success, [.app first body id .success none], none, s, false⟩

/-- First byte of an acknowledgement (3.4-3.7). -/
def ackByte : AckType → Nat
  | .puback => 0x40
  | .pubrec => 0x50
  | .pubrel => 0x62
  | .pubcomp => 0x70

/-- The acknowledgement on the wire. -/
def ackWire : Option (AckType × UInt16) → List UInt8
  | none => []
  | some (type, id) => idPacket (ackByte type) id.toNat

end Mqtt.Spec
