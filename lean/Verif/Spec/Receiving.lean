/-
What a client does with a stream of packets: a fold of the reaction to single packets (Spec/Incoming) over the stream.
-/
import Verif.Spec.Incoming
import Verif.Spec.Stream

namespace Mqtt.Spec
open Mqtt

/-- The in-flight publishes once the acknowledgement has been sent; without one nothing changes any more. -/
def acked (r : Reaction) : InFlight :=
  match r.ack with
  | none => r.state
  | some (type, id) => (step r.state (.ack .send type id)).2

/-- The callbacks for a stream of packets and the in-flight publishes at its end, if every acknowledgement goes out.  Packets of more than `cap` bytes
are dropped. -/
def present (retx manage : Bool) (cap : Nat) : InFlight → List Raw → List Event × InFlight
  | s, [] => ([], s)
  | s, p :: ps =>
    if cap < p.bytes.length then present retx manage cap s ps
    else
      let r := react retx manage s p.first p.body
      let next := present retx manage cap (acked r) ps
      (r.callbacks ++ next.1, next.2)

/-- The same when some acknowledgements are not sent, because the connection is lost. -/
inductive Seen (retx manage : Bool) (cap : Nat) : InFlight → List Raw → List Event → InFlight → Prop
  | nil (s : InFlight) : Seen retx manage cap s [] [] s
  | dropped {s s' : InFlight} {p : Raw} {ps : List Raw} {cb : List Event} : cap < p.bytes.length → Seen retx manage cap s ps cb s' →
      Seen retx manage cap s (p :: ps) cb s'
  | taken {s s1 s' : InFlight} {p : Raw} {ps : List Raw} {cb : List Event} : p.bytes.length ≤ cap →
      (s1 = acked (react retx manage s p.first p.body) ∨ s1 = (react retx manage s p.first p.body).state) → Seen retx manage cap s1 ps cb s' →
      Seen retx manage cap s (p :: ps) ((react retx manage s p.first p.body).callbacks ++ cb) s'

/-- The acknowledgement that answers a packet. -/
def answerTo : Packet → Option (AckType × UInt16)
  | .publish id v => publishAck v.qos id
  | .ack type id => nextAck type id
  | _ => none

/-- When an answer is due: for a QoS 1 or QoS 2 publish if it has a record already or there is room for one, for PUBREC if it is awaited, for PUBREL if it
is awaited or has arrived before without being answered. -/
def answerDue (t : Tables) : Packet → Prop
  | .publish id v => v.qos ≠ .qos0 ∧ ((∃ r ∈ inFlight t.incoming, r.packetId = id) ∨ (inFlight t.incoming).length < t.incoming.length)
  | .ack .pubrec id => ∃ r ∈ inFlight t.outgoing, r.packetId = id ∧ r.publishState = .pubRecPending
  | .ack .pubrel id => ∃ r ∈ inFlight t.incoming, r.packetId = id ∧ (r.publishState = .pubRelPending ∨ r.publishState = .pubCompSend)
  | _ => False

/-- The statuses that say that an acknowledgement could not be sent. -/
def cannotSend : List Status := [.sendFailed, .statusNotConnected, .statusDisconnectPending]

/-- The statuses with which the keep-alive check ends a call: the PINGRESP is overdue, or a PINGREQ is due and cannot be sent. -/
def keepAliveErrors : List Status := [.keepAliveTimeout, .sendFailed, .statusNotConnected, .statusDisconnectPending]

end Mqtt.Spec
