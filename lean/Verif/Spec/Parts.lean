/-
The parts of a session, and which function may change which of them.
-/
import Verif.Spec.Calls

namespace Mqtt.Spec
open Mqtt

/-- The parts of what a context holds (`MQTTContext_t`, core_mqtt.h 230-300; the flag `controlPacketSent`, which no function reads, is left out). -/
inductive Part where
  /-- what `MQTT_CheckConnectStatus` reports -/
  | status
  /-- the agreed keep-alive interval -/
  | interval
  /-- whether a PINGRESP is awaited, and since when -/
  | ping
  /-- the time of the last transmission -/
  | sentAt
  /-- the time of the last reception -/
  | receivedAt
  /-- the packet identifier to be given out next -/
  | nextId
  /-- the bytes in the network buffer -/
  | buffer
  /-- the outgoing publishes in flight -/
  | outgoing
  /-- the incoming publishes in flight -/
  | incoming
  /-- what the application set up: buffer size, sizes of the record arrays, `writev`, callbacks for retransmission -/
  | setup
  deriving DecidableEq, Repr

/-- A part is the same in two contexts. -/
def Same : Part → Ctx → Ctx → Prop
  | .status, c, c' => c'.connectStatus = c.connectStatus
  | .interval, c, c' => c'.keepAliveIntervalSec = c.keepAliveIntervalSec
  | .ping, c, c' => c'.waitingForPingResp = c.waitingForPingResp ∧ c'.pingReqSendTimeMs = c.pingReqSendTimeMs
  | .sentAt, c, c' => c'.lastPacketTxTime = c.lastPacketTxTime
  | .receivedAt, c, c' => c'.lastPacketRxTime = c.lastPacketRxTime
  | .nextId, c, c' => c'.nextPacketId = c.nextPacketId
  | .buffer, c, c' => c'.index = c.index ∧ c'.netBuf = c.netBuf
  | .outgoing, c, c' => c'.tables.outgoing = c.tables.outgoing
  | .incoming, c, c' => c'.tables.incoming = c.tables.incoming
  | .setup, c, c' => c'.netBuf.length = c.netBuf.length ∧ c'.tables.outgoing.length = c.tables.outgoing.length ∧
      c'.tables.incoming.length = c.tables.incoming.length ∧ c'.hasWritev = c.hasWritev ∧ c'.retransmits = c.retransmits

instance (p : Part) (c c' : Ctx) : Decidable (Same p c c') := by
  cases p <;> unfold Same <;> infer_instance

/-- What each function may change. -/
def changes : ApiCall → List Part
  | .connect .. => [.status, .interval, .ping, .sentAt, .buffer, .outgoing, .incoming]
  | .subscribe .. | .unsubscribe .. => [.status, .sentAt]
  | .publish .. => [.status, .sentAt, .outgoing]
  | .ping => [.status, .ping, .sentAt]
  | .disconnect => [.status, .sentAt, .buffer]
  | .processLoop => [.status, .ping, .sentAt, .receivedAt, .buffer, .outgoing, .incoming]
  | .receiveLoop => [.status, .sentAt, .receivedAt, .buffer, .outgoing, .incoming]
  | .cancelCallback _ => [.outgoing]
  | .checkConnectStatus => []
  | .getPacketId => [.nextId]

end Mqtt.Spec
