/-
Model of the small helper functions of source/core_mqtt.c that do not touch transport or records:
packet ids, SUBACK status codes, MQTT vectors.
-/
import Verif.Model.Base

namespace Mqtt

/-- `MQTT_GetPacketId`, core_mqtt.c 3491-3516, on a non-null context: the returned id and the new
`nextPacketId` (`uint16_t` arithmetic).  The hooks around it are events of the effectful model (`Verif/Model/Core`). -/
def getPacketId (nextPacketId : UInt16) : UInt16 × UInt16 :=
  (nextPacketId, if nextPacketId = 65535 then 1 else nextPacketId + 1)

/-- `MQTT_GetSubAckStatusCodes`, core_mqtt.c 3589-3644.  `pOut = false`: one of the output pointers is `NULL`.
Result: status, and on success the payload pointer (memory from there on) and size. -/
def getSubAckStatusCodes (pk : Option PacketInfo) (pOut : Bool) : Status × Option (Ptr × Nat) :=
  match pk with
  | none => (.badParameter, none)
  | some pk =>
    if pOut = false then (.badParameter, none)
    else if pk.type ≠ ptSUBACK then (.badParameter, none)
    else match pk.pRemainingData with
      | none => (.badParameter, none)
      | some m =>
        if pk.remainingLength < 3 then (.badParameter, none)
        else (.success, some (some (m.drop 2), pk.remainingLength - 2))

/-- `TransportOutVector_t`, transport_interface.h 252-263 -/
structure IoVec where
  iov_base : Ptr
  iov_len : Nat
  deriving DecidableEq, Repr

/-- `MQTT_GetBytesInMQTTVec`, core_mqtt.c 3732-3745 (sums modulo `W`). -/
def getBytesInMQTTVec (W : Nat) (vec : List IoVec) : Nat :=
  vec.foldl (fun acc v => (acc + v.iov_len) % W) 0

/-- The loop of `MQTT_SerializeMQTTVec`, core_mqtt.c 3757-3761. -/
def serializeMQTTVecLoop : Cur → List IoVec → Res Cur
  | c, [] => pure c
  | c, v :: rest => do
    let bs ← readMem v.iov_base v.iov_len
    let c ← put c bs
    serializeMQTTVecLoop c rest

/-- `MQTT_SerializeMQTTVec`, core_mqtt.c 3749-3762: the memory afterwards.  Simplification: `memcpy` of zero bytes from a
null pointer is `ub` here (as in the C standard). -/
def serializeMQTTVec (mem : List UInt8) (vec : List IoVec) : Res (List UInt8) := do
  let c ← serializeMQTTVecLoop ⟨mem, 0⟩ vec
  pure c.mem

end Mqtt
