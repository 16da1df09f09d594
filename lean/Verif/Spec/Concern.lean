/-
Specification for C89: which exchange a call is about.
-/
import Verif.Spec.Calls
import Verif.Spec.Incoming
import Verif.Spec.Stream

namespace Mqtt.Spec

/-- The packet at the front of a stream of bytes, if it has arrived completely and is well-formed. -/
def frontPacket (stream : List UInt8) : Option Packet :=
  match readHeader stream with
  | .known t hl n => if hl + n ≤ stream.length then readIncoming t ((stream.drop hl).take n) else none
  | _ => none

/-- The outgoing publish an incoming packet is about: PUBACK, PUBREC and PUBCOMP carry its packet id. -/
def aboutOutgoing : Packet → Option UInt16
  | .ack .pubrel _ => none
  | .ack _ id => some id
  | _ => none

/-- The incoming publish an incoming packet is about. -/
def aboutIncoming : Packet → Option UInt16
  | .publish id v => if v.qos = .qos0 then none else some id
  | .ack .pubrel id => some id
  | _ => none

/-- The outgoing publish a call is about; `stream` are the bytes the client had received by the end of the call and not consumed before it. -/
def outgoingOf (stream : List UInt8) : ApiCall → Option UInt16
  | .publish (some p) id => if p.qos = .qos0 then none else some id
  | .cancelCallback id => some id
  | .processLoop | .receiveLoop => (frontPacket stream).bind aboutOutgoing
  | _ => none

/-- The incoming publish a call is about. -/
def incomingOf (stream : List UInt8) : ApiCall → Option UInt16
  | .processLoop | .receiveLoop => (frontPacket stream).bind aboutIncoming
  | _ => none

/-- The publishes in flight in an array, in order, without the one with packet id `k`. -/
def apartFrom (k : Option UInt16) (recs : Records) : Records := (inFlight recs).filter fun r => some r.packetId ≠ k

end Mqtt.Spec
