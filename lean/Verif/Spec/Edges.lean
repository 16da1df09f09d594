/-
The QoS 1 / QoS 2 protocol diagrams of MQTT 3.1.1 (4.3.2, 4.3.3) as edges between the public states of one publish,
labelled with the call that takes the edge.  `none` means: not in flight.
-/
import Verif.Spec.InFlight

namespace Mqtt.Spec

/-- The QoS and state of packet id `id` in an array, if it is in flight. -/
def stateOf (recs : Records) (id : UInt16) : Option (QoS × PubState) :=
  (recs.find? fun r => r.packetId = id).map fun r => (r.qos, r.publishState)

/-- Life of an outgoing publish with packet id `id`. -/
inductive SenderEdge (id : UInt16) : Call → Option (QoS × PubState) → Option (QoS × PubState) → Prop
  | reserve {q} : q ≠ .qos0 → SenderEdge id (.reserve id q) none (some (q, .publishSend))
  | sent1 : SenderEdge id (.publish .send id .qos1) (some (.qos1, .publishSend)) (some (.qos1, .pubAckPending))
  | puback : SenderEdge id (.ack .receive .puback id) (some (.qos1, .pubAckPending)) none
  | sent2 : SenderEdge id (.publish .send id .qos2) (some (.qos2, .publishSend)) (some (.qos2, .pubRecPending))
  | pubrec : SenderEdge id (.ack .receive .pubrec id) (some (.qos2, .pubRecPending)) (some (.qos2, .pubRelSend))
  | pubrel : SenderEdge id (.ack .send .pubrel id) (some (.qos2, .pubRelSend)) (some (.qos2, .pubCompPending))
  | pubcomp : SenderEdge id (.ack .receive .pubcomp id) (some (.qos2, .pubCompPending)) none
  | cancel {x} : SenderEdge id (.cancel id) (some x) none

/-- Life of an incoming publish with packet id `id`. -/
inductive ReceiverEdge (id : UInt16) : Call → Option (QoS × PubState) → Option (QoS × PubState) → Prop
  | publish1 : ReceiverEdge id (.publish .receive id .qos1) none (some (.qos1, .pubAckSend))
  | puback : ReceiverEdge id (.ack .send .puback id) (some (.qos1, .pubAckSend)) none
  | publish2 : ReceiverEdge id (.publish .receive id .qos2) none (some (.qos2, .pubRecSend))
  | pubrec : ReceiverEdge id (.ack .send .pubrec id) (some (.qos2, .pubRecSend)) (some (.qos2, .pubRelPending))
  | pubrel : ReceiverEdge id (.ack .receive .pubrel id) (some (.qos2, .pubRelPending)) (some (.qos2, .pubCompSend))
  | pubcomp : ReceiverEdge id (.ack .send .pubcomp id) (some (.qos2, .pubCompSend)) none

end Mqtt.Spec
