/-
Which arguments the functions that only read or write packets (core_mqtt_serializer.h, and MQTT_GetSubAckStatusCodes) refuse with MQTTBadParameter.
A missing pointer is `none`.
-/
import Verif.Model.Util

namespace Mqtt.Spec
open Mqtt

/-- No buffer, or a buffer without memory. -/
def noBuffer (fb : Option FixedBuffer) : Prop := ∀ x, fb = some x → x.pBuffer = none

/-- The memory of a buffer, if there is any. -/
def memoryOf (fb : Option FixedBuffer) : Ptr := fb.bind (·.pBuffer)

/-- Refused by MQTT_SerializePublish; without the condition on the payload, by MQTT_SerializePublishHeader. -/
def publishRefused (withPayload : Bool) (p : Option PublishInfo) (id : UInt16) (fb : Option FixedBuffer) : Prop :=
  noBuffer fb ∨ ∀ x, p = some x →
    x.pTopicName = none ∨ x.topicNameLength = 0 ∨ (x.qos ≠ .qos0 ∧ id = 0) ∨ (x.dup = true ∧ x.qos = .qos0) ∨
    (withPayload = true ∧ 0 < x.payloadLength ∧ x.pPayload = none)

/-- Refused by MQTT_SerializeConnect. -/
def connectRefused (ci : Option ConnectInfo) (will : Option PublishInfo) (fb : Option FixedBuffer) : Prop :=
  noBuffer fb ∨ ci = none ∨ ∃ x, will = some x ∧ x.pTopicName = none

/-- Refused by MQTT_GetConnectPacketSize. -/
def connectSizeRefused (ci : Option ConnectInfo) (will : Option PublishInfo) (out : Bool) : Prop :=
  out = false ∨ (∀ x, ci = some x → x.pClientIdentifier = none ∨ x.clientIdentifierLength = 0) ∨ ∃ x, will = some x ∧ 65535 < x.payloadLength

/-- Refused by MQTT_SerializeSubscribe and MQTT_SerializeUnsubscribe. -/
def filtersRefused (subs : Option (List SubscribeInfo)) (id : UInt16) (fb : Option FixedBuffer) : Prop :=
  noBuffer fb ∨ (∀ l, subs = some l → l = []) ∨ id = 0

/-- Refused by MQTT_SerializeAck (if the buffer has at least four bytes). -/
def ackRefused (t : UInt8) (id : UInt16) : Prop := id = 0 ∨ ¬ (t = 0x40 ∨ t = 0x50 ∨ t = 0x62 ∨ t = 0x70)

/-- Refused by MQTT_DeserializePublish. -/
def publishPacketRefused (pk : Option PacketInfo) : Prop := ∀ x, pk = some x → x.type.toNat / 16 ≠ 3 ∨ x.pRemainingData = none

/-- Refused by MQTT_DeserializeAck: `id` and `session` are the places for the results.  A CONNACK needs the second, a PINGRESP none, everything else the
first; everything but a PINGRESP needs a body. -/
def ackPacketRefused (pk : Option PacketInfo) (id : Option UInt16) (session : Option Bool) : Prop :=
  ∀ x, pk = some x →
    (x.type = 0x20 ∧ session = none) ∨ (x.type ≠ 0x20 ∧ x.type ≠ 0xD0 ∧ id = none) ∨ (x.type ≠ 0xD0 ∧ x.pRemainingData = none)

/-- Refused by MQTT_GetSubAckStatusCodes. -/
def statusCodesRefused (pk : Option PacketInfo) (out : Bool) : Prop :=
  out = false ∨ ∀ x, pk = some x → x.type ≠ 0x90 ∨ x.pRemainingData = none ∨ x.remainingLength < 3

/-- All bytes a packet claims to have can be read. -/
def readable (pk : Option PacketInfo) : Prop := ∀ x m, pk = some x → x.pRemainingData = some m → x.remainingLength ≤ m.length

end Mqtt.Spec
