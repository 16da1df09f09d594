/-
What a client sends while it receives a stream of packets.
-/
import Verif.Spec.Receiving

namespace Mqtt.Spec
open Mqtt

/-- The answers to a stream of packets, in order (empty for a packet without an answer), if all of them go out.  Packets of more than `cap` bytes are
dropped.  Which packets are answered depends on the publishes in flight. -/
def answers (retx manage : Bool) (cap : Nat) : InFlight → List Raw → List (List UInt8)
  | _, [] => []
  | s, p :: ps =>
    if cap < p.bytes.length then answers retx manage cap s ps
    else
      let r := react retx manage s p.first p.body
      ackWire r.ack :: answers retx manage cap (acked r) ps

/-- The bytes `out` are the packets of the list, one after the other, with any number of PINGREQs before, between and after them if `pings`. -/
inductive Pinged (pings : Bool) : List (List UInt8) → List UInt8 → Prop
  | nil : Pinged pings [] []
  | ping {l : List (List UInt8)} {out : List UInt8} : pings = true → Pinged pings l out → Pinged pings l (pingreqPacket ++ out)
  | packet {p : List UInt8} {l : List (List UInt8)} {out : List UInt8} : Pinged pings l out → Pinged pings (p :: l) (p ++ out)

end Mqtt.Spec
