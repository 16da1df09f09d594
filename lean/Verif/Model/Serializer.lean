/-
Model of source/core_mqtt_serializer.c: sizes, serializers, deserializers.
Output parameters of the C functions become components of the result.  Null checks of output
pointers are modelled only where noted (the callers in core_mqtt.c always pass
addresses of locals).
-/
import Verif.Model.Base

namespace Mqtt

/-- `remainingLengthEncodedSize`, core_mqtt_serializer.c 456-489 -/
def remainingLengthEncodedSize (length : Nat) : Nat :=
  if length < 128 then 1
  else if length < 16384 then 2
  else if length < 2097152 then 3
  else 4

/-- `encodeRemainingLength`, core_mqtt_serializer.c 493-522 (the do-while loop).  The
`assert( pDestination != NULL )` cannot fail: the cursor is a real object. -/
def encodeRemainingLength (c : Cur) (length : Nat) : Res Cur :=
  let lengthByte := UInt8.ofNat (length % 128)
  let remaining := length / 128
  if remaining > 0 then do
    let c ← put c [setBit lengthByte 7]
    encodeRemainingLength c remaining
  else
    put c [lengthByte]
termination_by length
decreasing_by omega

/-- `encodeString`, core_mqtt_serializer.c 526-554.  With a `NULL` source the C code
leaves the destination bytes as they are and still advances. -/
def encodeString (c : Cur) (pSource : Ptr) (sourceLength : UInt16) : Res Cur := do
  let c ← put c [highByte sourceLength]
  let c ← put c [lowByte sourceLength]
  match pSource with
  | some _ => do
      let bs ← readMem pSource sourceLength.toNat
      put c bs
  | none => skip c sourceLength.toNat

/-- Result of a size computation: status and the two output parameters
`*pRemainingLength`, `*pPacketSize` (meaningful on success only). -/
structure SizeRes where
  status : Status
  remainingLength : Nat
  packetSize : Nat
  deriving DecidableEq, Repr

/-- `calculatePublishPacketSize`, core_mqtt_serializer.c 558-633; `none` is the C result
`false`.  `W` is the number of `size_t` values; every `size_t` operation of
the C code is reduced modulo `W`. -/
def calculatePublishPacketSize (W : Nat) (p : PublishInfo) : Option (Nat × Nat) :=
  let packetSize := (p.topicNameLength.toNat + 2) % W
  let packetSize := if p.qos ≠ .qos0 then (packetSize + 2) % W else packetSize
  -- payloadLimit = MQTT_MAX_REMAINING_LENGTH - packetSize - 1U
  let payloadLimit := (maxRemainingLength + W - packetSize + W - 1) % W
  if p.payloadLength > payloadLimit then none
  else
    let packetSize := (packetSize + p.payloadLength) % W
    let payloadLimit := (payloadLimit + W - remainingLengthEncodedSize packetSize) % W
    if p.payloadLength > payloadLimit then none
    else some (packetSize, (packetSize + (1 + remainingLengthEncodedSize packetSize)) % W)

/-- The first byte of a PUBLISH packet as computed in
core_mqtt_serializer.c 647-684 and again in 714-750 (the same statements twice). -/
def publishFlags (p : PublishInfo) : UInt8 :=
  let f := ptPUBLISH
  let f := match p.qos with
    | .qos1 => setBit f 1
    | .qos2 => setBit f 2
    | .qos0 => f
  let f := if p.retain then setBit f 0 else f
  if p.dup then setBit f 3 else f

/-- `MQTT_SerializePublishHeaderWithoutTopic`, core_mqtt_serializer.c 637-701.
Returns the buffer contents after the writes and `*headerSize`. -/
def serializePublishHeaderWithoutTopic (p : PublishInfo) (remainingLength : Nat)
    (buf : List UInt8) : Res (List UInt8 × Nat) := do
  let headerLength := 1 + remainingLengthEncodedSize remainingLength + 2
  let c ← put ⟨buf, 0⟩ [publishFlags p]
  let c ← encodeRemainingLength c remainingLength
  let c ← put c [highByte p.topicNameLength]
  let c ← put c [lowByte p.topicNameLength]
  pure (c.mem, headerLength)

/-- `serializePublishCommon`, core_mqtt_serializer.c 705-793.  `buf` is `pFixedBuffer->pBuffer`,
`size` is `pFixedBuffer->size`. -/
def serializePublishCommon (p : PublishInfo) (remainingLength : Nat) (packetIdentifier : UInt16)
    (buf : List UInt8) (size : Nat) (serializePayload : Bool) : Res (List UInt8) := do
  cassert (p.qos == .qos0 || packetIdentifier != 0)
  cassert (p.dup != true || p.qos != .qos0)
  let c ← put ⟨buf, 0⟩ [publishFlags p]
  let c ← encodeRemainingLength c remainingLength
  let c ← encodeString c p.pTopicName p.topicNameLength
  let c ← if p.qos ≠ .qos0 then do
      let c ← put c [highByte packetIdentifier]
      put c [lowByte packetIdentifier]
    else pure c
  let c ← if p.payloadLength > 0 && serializePayload then do
      let bs ← readMem p.pPayload p.payloadLength
      put c bs
    else pure c
  cassert (c.pos ≤ size)
  pure c.mem

/-- One answer of a transport receive call that asks for one byte. -/
inductive OneRecv where
  | byte (b : UInt8)
  | none
  | fail
  deriving DecidableEq, Repr

/-- The do-while loop of `getRemainingLength`, core_mqtt_serializer.c 795-829: recursion on the
transport's answers; an exhausted list stands for "no more data" (0 bytes received). -/
def getRemainingLengthLoop (script : List OneRecv) (remainingLength multiplier bytesDecoded : Nat) :
    Nat × Nat × List OneRecv :=
  if multiplier > 2097152 then (remainingLengthInvalid, bytesDecoded, script)
  else match script with
    | .byte encodedByte :: rest =>
      let remainingLength := remainingLength + (encodedByte &&& 0x7F).toNat * multiplier
      let multiplier := multiplier * 128
      let bytesDecoded := bytesDecoded + 1
      if remainingLength = remainingLengthInvalid then (remainingLengthInvalid, bytesDecoded, rest)
      else if (encodedByte &&& 0x80) ≠ 0 then
        getRemainingLengthLoop rest remainingLength multiplier bytesDecoded
      else (remainingLength, bytesDecoded, rest)
    | _ :: rest => (remainingLengthInvalid, bytesDecoded, rest)
    | [] => (remainingLengthInvalid, bytesDecoded, [])

/-- `getRemainingLength`, core_mqtt_serializer.c 795-843 -/
def getRemainingLength (script : List OneRecv) : Nat × List OneRecv :=
  let (remainingLength, bytesDecoded, rest) := getRemainingLengthLoop script 0 1 0
  if remainingLength ≠ remainingLengthInvalid then
    if bytesDecoded ≠ remainingLengthEncodedSize remainingLength then (remainingLengthInvalid, rest)
    else (remainingLength, rest)
  else (remainingLength, rest)

/-- The do-while loop of `processRemainingLength`, core_mqtt_serializer.c 858-895.
Result: status, remainingLength, bytesDecoded. -/
def processRemainingLengthLoop (pBuffer : List UInt8) (index : Nat)
    (remainingLength multiplier bytesDecoded : Nat) : Res (Status × Nat × Nat) :=
  if multiplier > 2097152 then .ok (.badResponse, remainingLengthInvalid, bytesDecoded)
  else if h : index > bytesDecoded + 1 then
    (readByte pBuffer (bytesDecoded + 1)).bind fun encodedByte =>
      let remainingLength := remainingLength + (encodedByte &&& 0x7F).toNat * multiplier
      let multiplier := multiplier * 128
      let bytesDecoded' := bytesDecoded + 1
      if remainingLength = remainingLengthInvalid then .ok (.success, remainingLength, bytesDecoded')
      else if (encodedByte &&& 0x80) ≠ 0 then
        processRemainingLengthLoop pBuffer index remainingLength multiplier bytesDecoded'
      else .ok (.success, remainingLength, bytesDecoded')
  else .ok (.needMoreBytes, remainingLength, bytesDecoded)
termination_by index - bytesDecoded
decreasing_by omega

/-- `processRemainingLength`, core_mqtt_serializer.c 847-914.  Result: status, and on success
`remainingLength`, `headerLength`. -/
def processRemainingLength (pBuffer : List UInt8) (index : Nat) : Res (Status × Nat × Nat) := do
  let (status, remainingLength, bytesDecoded) ← processRemainingLengthLoop pBuffer index 0 1 0
  if status = .success then
    if bytesDecoded ≠ remainingLengthEncodedSize remainingLength then pure (.badResponse, 0, 0)
    else pure (.success, remainingLength, bytesDecoded + 1)
  else pure (status, 0, 0)

/-- `incomingPacketValid`, core_mqtt_serializer.c 918-955 -/
def incomingPacketValid (packetType : UInt8) : Bool :=
  let t := packetType &&& 0xF0
  if t = ptCONNACK ∨ t = ptPUBLISH ∨ t = ptPUBACK ∨ t = ptPUBREC ∨ t = ptPUBCOMP ∨
     t = ptSUBACK ∨ t = ptUNSUBACK ∨ t = ptPINGRESP then true
  else if t = (ptPUBREL &&& 0xF0) then decide ((packetType &&& 0x02) > 0)
  else false

/-- `checkPublishRemainingLength`, core_mqtt_serializer.c 959-992 -/
def checkPublishRemainingLength (remainingLength : Nat) (qos : QoS) (qos0Minimum : Nat) : Status :=
  if qos = .qos0 then
    if remainingLength < qos0Minimum then .badResponse else .success
  else
    if remainingLength < qos0Minimum + 2 then .badResponse else .success

/-- `processPublishFlags`, core_mqtt_serializer.c 996-1045: `none` is `MQTTBadResponse`,
otherwise (qos, retain, dup). -/
def processPublishFlags (flags : UInt8) : Option (QoS × Bool × Bool) :=
  let qos : Option QoS :=
    if checkBit flags 2 then
      if checkBit flags 1 then none else some .qos2
    else if checkBit flags 1 then some .qos1
    else some .qos0
  match qos with
  | none => none
  | some q => some (q, checkBit flags 0, checkBit flags 3)

/-- `pRemainingData[ i ]` through a possibly null pointer. -/
def readPtr (p : Ptr) (i : Nat) : Res UInt8 :=
  match p with
  | none => .ub .nullDeref
  | some m => readByte m i

/-- `deserializeConnack`, core_mqtt_serializer.c 1081-1160 (with `logConnackResponse` 1049-1077,
whose assertion is kept).  `sp0` is `*pSessionPresent` before the call; the result is
the status and `*pSessionPresent` afterwards. -/
def deserializeConnack (pk : PacketInfo) (sp0 : Bool) : Res (Status × Bool) := do
  if pk.remainingLength ≠ 2 then pure (.badResponse, sp0)
  else
    let b0 ← readPtr pk.pRemainingData 0
    if (b0 ||| 0x01) ≠ 0x01 then pure (.badResponse, sp0)
    else
      let b1 ← readPtr pk.pRemainingData 1
      let (status, sp) : Status × Bool :=
        if (b0 &&& 0x01) = 0x01 then
          (if b1 ≠ 0 then (Status.badResponse, true) else (Status.success, true))
        else (Status.success, false)
      if status = .success then
        if b1 > 5 then pure (.badResponse, sp)
        else
          cassert (b1 ≤ 5)
          if b1 > 0 then pure (.serverRefused, sp) else pure (.success, sp)
      else pure (status, sp)

/-- `MQTTSubscriptionType_t`, core_mqtt_serializer.c 156-160 -/
inductive SubType where
  | subscribe | unsubscribe
  deriving DecidableEq, Repr

/-- The loop of `calculateSubscriptionPacketSize`, core_mqtt_serializer.c 1185-1208:
accumulated packet size (modulo `W`) and status. -/
def subscriptionSizeLoop (W : Nat) (ty : SubType) :
    List SubscribeInfo → Nat → Status → Nat × Status
  | [], packetSize, status => (packetSize, status)
  | s :: rest, packetSize, status =>
    let packetSize := (packetSize + (s.topicFilterLength.toNat + 2)) % W
    let packetSize := if ty = .subscribe then (packetSize + 1) % W else packetSize
    let status := if s.topicFilterLength = 0 ∨ s.pTopicFilter = none then .badParameter else status
    subscriptionSizeLoop W ty rest packetSize status

/-- `calculateSubscriptionPacketSize`, core_mqtt_serializer.c 1164-1238.  The array and its count
are one list (its length is `subscriptionCount`, which the callers check to be non-zero). -/
def calculateSubscriptionPacketSize (W : Nat) (subs : List SubscribeInfo) (ty : SubType) : SizeRes :=
  let (packetSize, status) := subscriptionSizeLoop W ty subs (2 % W) .success
  let status := if packetSize > maxRemainingLength then .badParameter else status
  if status = .success then
    ⟨.success, packetSize, (packetSize + (1 + remainingLengthEncodedSize packetSize)) % W⟩
  else ⟨status, 0, 0⟩

/-- The loop of `readSubackStatus`, core_mqtt_serializer.c 1252-1292, on the memory at `pStatusStart`:
`i` counts up to `statusCount`. -/
def readSubackStatusLoop (mem : List UInt8) : Nat → Nat → Status → Res Status
  | 0, _, status => .ok status
  | n + 1, i, status => do
    let b ← readByte mem i
    let status : Status :=
      if b = 0x00 ∨ b = 0x01 ∨ b = 0x02 then status
      else if b = 0x80 then .serverRefused
      else .badResponse
    if status = .badResponse then pure status
    else readSubackStatusLoop mem n (i + 1) status

/-- `readSubackStatus`, core_mqtt_serializer.c 1242-1295 -/
def readSubackStatus (statusCount : Nat) (pStatusStart : List UInt8) : Res Status :=
  readSubackStatusLoop pStatusStart statusCount 0 .success

/-- `deserializeSuback`, core_mqtt_serializer.c 1299-1339.  `id0` is `*pPacketIdentifier` before. -/
def deserializeSuback (pk : PacketInfo) (id0 : UInt16) : Res (Status × UInt16) := do
  if pk.remainingLength < 3 then pure (.badResponse, id0)
  else
    let hi ← readPtr pk.pRemainingData 0
    let lo ← readPtr pk.pRemainingData 1
    let id := decode16 hi lo
    if id = 0 then pure (.badResponse, id)
    else
      match pk.pRemainingData with
      | none => .ub .nullDeref
      | some m => do
        let st ← readSubackStatus (pk.remainingLength - 2) (m.drop 2)
        pure (st, id)

/-- `validateSubscriptionSerializeParams`, core_mqtt_serializer.c 1343-1396.  The list argument is
`none` for a `NULL` pointer. -/
def validateSubscriptionSerializeParams (W : Nat) (subs : Option (List SubscribeInfo))
    (packetId : UInt16) (remainingLength : Nat) (fb : Option FixedBuffer) : Status :=
  match fb, subs with
  | some fb, some subs =>
    if fb.pBuffer = none then .badParameter
    else if subs.length = 0 then .badParameter
    else if packetId = 0 then .badParameter
    else
      let packetSize := (1 + remainingLengthEncodedSize remainingLength + remainingLength) % W
      if packetSize > fb.size then .noMemory else .success
  | _, _ => .badParameter

/-- `a - b` on `size_t` values (wraps around modulo `W`). -/
def sizeSub (W a b : Nat) : Nat := (a + W - b) % W

/-- `deserializePublish`, core_mqtt_serializer.c 1400-1490.  Result: status, packet id and publish
info.  Simplification: on failure the partially written output parameters are not
reported (no caller uses them); `id0` is `*pPacketId` before the call, which a QoS 0
publish leaves unchanged. -/
def deserializePublish (W : Nat) (pk : PacketInfo) (id0 : UInt16) :
    Res (Status × Option (UInt16 × PublishInfo)) :=
  match pk.pRemainingData with
  | none => .ub .assertFailed
  | some m =>
    match processPublishFlags (pk.type &&& 0x0F) with
    | none => .ok (.badResponse, none)
    | some (qos, retain, dup) =>
      if checkPublishRemainingLength pk.remainingLength qos 3 ≠ .success then .ok (.badResponse, none)
      else do
        let hi ← readByte m 0
        let lo ← readByte m 1
        let topicNameLength := decode16 hi lo
        if checkPublishRemainingLength pk.remainingLength qos (topicNameLength.toNat + 2) ≠ .success then
          pure (.badResponse, none)
        else
          -- pTopicName = &pVariableHeader[ 2 ]
          let topic := m.drop 2
          let (id, bad, payloadStart) ← (if qos ≠ .qos0 then do
              let h ← readByte m (2 + topicNameLength.toNat)
              let l ← readByte m (2 + topicNameLength.toNat + 1)
              let id := decode16 h l
              pure (id, decide (id = 0), 2 + topicNameLength.toNat + 2)
            else (pure (id0, false, 2 + topicNameLength.toNat) : Res (UInt16 × Bool × Nat)))
          if bad then pure (.badResponse, none)
          else
            let payloadLength := sizeSub W (sizeSub W pk.remainingLength topicNameLength.toNat) 2
            let payloadLength := if qos ≠ .qos0 then sizeSub W payloadLength 2 else payloadLength
            let payload : Ptr := if payloadLength ≠ 0 then some (m.drop payloadStart) else none
            pure (.success, some (id,
              { qos := qos, retain := retain, dup := dup,
                pTopicName := some topic, topicNameLength := topicNameLength,
                pPayload := payload, payloadLength := payloadLength }))

/-- `deserializeSimpleAck`, core_mqtt_serializer.c 1494-1527 -/
def deserializeSimpleAck (pk : PacketInfo) (id0 : UInt16) : Res (Status × UInt16) := do
  if pk.remainingLength ≠ 2 then pure (.badResponse, id0)
  else
    let hi ← readPtr pk.pRemainingData 0
    let lo ← readPtr pk.pRemainingData 1
    let id := decode16 hi lo
    if id = 0 then pure (.badResponse, id) else pure (.success, id)

/-- `deserializePingresp`, core_mqtt_serializer.c 1531-1547 -/
def deserializePingresp (pk : PacketInfo) : Status :=
  if pk.remainingLength ≠ 0 then .badResponse else .success

/-- The connect flags byte computed in core_mqtt_serializer.c 1555-1616 -/
def connectFlags (ci : ConnectInfo) (will : Option PublishInfo) : UInt8 :=
  let f : UInt8 := 0
  let f := if ci.cleanSession then setBit f 1 else f
  let f := if ci.pUserName ≠ none then setBit f 7 else f
  let f := if ci.pPassword ≠ none then setBit f 6 else f
  match will with
  | none => f
  | some w =>
    let f := setBit f 2
    let f := match w.qos with
      | .qos1 => setBit f 3
      | .qos2 => setBit f 4
      | .qos0 => f
    if w.retain then setBit f 5 else f

/-- The bytes of the C string literal "MQTT" -/
def mqttName : List UInt8 := [0x4D, 0x51, 0x54, 0x54]

/-- `MQTT_SerializeConnectFixedHeader`, core_mqtt_serializer.c 1549-1625 -/
def serializeConnectFixedHeader (c : Cur) (ci : ConnectInfo) (will : Option PublishInfo)
    (remainingLength : Nat) : Res Cur := do
  let c ← put c [ptCONNECT]
  let c ← encodeRemainingLength c remainingLength
  let c ← encodeString c (some mqttName) 4
  let c ← put c [4]
  let c ← put c [connectFlags ci will]
  let c ← put c [highByte ci.keepAliveSeconds]
  put c [lowByte ci.keepAliveSeconds]

/-- `serializeConnectPacket`, core_mqtt_serializer.c 1628-1682 -/
def serializeConnectPacket (ci : ConnectInfo) (will : Option PublishInfo) (remainingLength : Nat)
    (buf : List UInt8) (size : Nat) : Res (List UInt8) := do
  let c ← serializeConnectFixedHeader ⟨buf, 0⟩ ci will remainingLength
  let c ← encodeString c ci.pClientIdentifier ci.clientIdentifierLength
  let c ← match will with
    | some w => do
      let c ← encodeString c w.pTopicName w.topicNameLength
      encodeString c w.pPayload (UInt16.ofNat w.payloadLength)
    | none => pure c
  let c ← if ci.pUserName ≠ none then encodeString c ci.pUserName ci.userNameLength else pure c
  let c ← if ci.pPassword ≠ none then encodeString c ci.pPassword ci.passwordLength else pure c
  cassert (c.pos ≤ size)
  pure c.mem

/-- `MQTT_GetConnectPacketSize`, core_mqtt_serializer.c 1686-1782.  `none` for `pConnectInfo` is
`NULL`; the output pointers are assumed non-null (`pOut = false` models a null one).
All sums stay below 327700, so no reduction modulo `W` is needed for `W ≥ 2^32`. -/
def getConnectPacketSize (ci : Option ConnectInfo) (will : Option PublishInfo) (pOut : Bool := true) :
    SizeRes :=
  match ci with
  | none => ⟨.badParameter, 0, 0⟩
  | some ci =>
    if pOut = false then ⟨.badParameter, 0, 0⟩
    else if ci.clientIdentifierLength = 0 ∨ ci.pClientIdentifier = none then ⟨.badParameter, 0, 0⟩
    else if will.any (fun w => decide (w.payloadLength > 65535)) then
      ⟨.badParameter, 0, 0⟩
    else
      let sz := 10
      let sz := sz + (ci.clientIdentifierLength.toNat + 2)
      let sz := match will with
        | some w => sz + (w.topicNameLength.toNat + 2 + w.payloadLength + 2)
        | none => sz
      let sz := if ci.pUserName ≠ none then sz + (ci.userNameLength.toNat + 2) else sz
      let sz := if ci.pPassword ≠ none then sz + (ci.passwordLength.toNat + 2) else sz
      ⟨.success, sz, sz + (1 + remainingLengthEncodedSize sz)⟩

/-- `MQTT_SerializeConnect`, core_mqtt_serializer.c 1786-1840.  Result: status and
the buffer memory afterwards. -/
def serializeConnect (W : Nat) (ci : Option ConnectInfo) (will : Option PublishInfo)
    (remainingLength : Nat) (fb : Option FixedBuffer) : Res (Status × Ptr) :=
  match ci, fb with
  | some ci, some fb =>
    match fb.pBuffer with
    | none => .ok (.badParameter, none)
    | some buf =>
      if will.any (fun w => w.pTopicName.isNone) then
        .ok (.badParameter, some buf)
      else
        let connectPacketSize := (remainingLength + remainingLengthEncodedSize remainingLength + 1) % W
        if connectPacketSize > fb.size then .ok (.noMemory, some buf)
        else do
          let m ← serializeConnectPacket ci will remainingLength buf fb.size
          pure (.success, some m)
  | _, some fb => .ok (.badParameter, fb.pBuffer)
  | _, none => .ok (.badParameter, none)

/-- `MQTT_GetSubscribePacketSize` (core_mqtt_serializer.c 1844-1878) and
`MQTT_GetUnsubscribePacketSize` (1974-2008), which differ only in the type constant. -/
def getSubscriptionPacketSize (W : Nat) (ty : SubType) (subs : Option (List SubscribeInfo)) : SizeRes :=
  match subs with
  | none => ⟨.badParameter, 0, 0⟩
  | some subs =>
    if subs.length = 0 then ⟨.badParameter, 0, 0⟩
    else calculateSubscriptionPacketSize W subs ty

/-- `MQTT_SerializeSubscribeHeader` (core_mqtt_serializer.c 1882-1902) and
`MQTT_SerializeUnsubscribeHeader` (1906-1926). -/
def serializeSubscriptionHeader (ty : SubType) (remainingLength : Nat) (c : Cur) (packetId : UInt16) :
    Res Cur := do
  let c ← put c [match ty with | .subscribe => ptSUBSCRIBE | .unsubscribe => ptUNSUBSCRIBE]
  let c ← encodeRemainingLength c remainingLength
  let c ← put c [highByte packetId]
  put c [lowByte packetId]

/-- The loops of `MQTT_SerializeSubscribe` (core_mqtt_serializer.c 1953-1963) and
`MQTT_SerializeUnsubscribe` (2037-2042). -/
def serializeFilters (ty : SubType) : Cur → List SubscribeInfo → Res Cur
  | c, [] => pure c
  | c, s :: rest => do
    let c ← encodeString c s.pTopicFilter s.topicFilterLength
    let c ← match ty with
      | .subscribe => put c [s.qos.toByte]
      | .unsubscribe => pure c
    serializeFilters ty c rest

/-- `MQTT_SerializeSubscribe` (core_mqtt_serializer.c 1928-1970) and
`MQTT_SerializeUnsubscribe` (2012-2049). -/
def serializeSubscription (W : Nat) (ty : SubType) (subs : Option (List SubscribeInfo))
    (packetId : UInt16) (remainingLength : Nat) (fb : Option FixedBuffer) : Res (Status × Ptr) :=
  let status := validateSubscriptionSerializeParams W subs packetId remainingLength fb
  match status, subs, fb with
  | .success, some subs, some ⟨some buf, _⟩ => do
    let c ← serializeSubscriptionHeader ty remainingLength ⟨buf, 0⟩ packetId
    let c ← serializeFilters ty c subs
    pure (.success, some c.mem)
  | .success, _, _ => .ub .nullDeref
  | st, _, some fb => .ok (st, fb.pBuffer)
  | st, _, none => .ok (st, none)

/-- `MQTT_GetPublishPacketSize`, core_mqtt_serializer.c 2053-2090 -/
def getPublishPacketSize (W : Nat) (p : Option PublishInfo) : SizeRes :=
  match p with
  | none => ⟨.badParameter, 0, 0⟩
  | some p =>
    if p.pTopicName = none ∨ p.topicNameLength = 0 then ⟨.badParameter, 0, 0⟩
    else match calculatePublishPacketSize W p with
      | none => ⟨.badParameter, 0, 0⟩
      | some (r, s) => ⟨.success, r, s⟩

/-- The parameter checks shared by `MQTT_SerializePublish` (2102-2151, `payloadCheck = true`)
and `MQTT_SerializePublishHeader` (2188-2225, `payloadCheck = false`). -/
def serializePublishParams (payloadCheck : Bool) (p : Option PublishInfo) (packetId : UInt16)
    (fb : Option FixedBuffer) : Status :=
  match fb, p with
  | some fb, some p =>
    if fb.pBuffer = none then .badParameter
    else if payloadCheck && (decide (p.payloadLength > 0) && p.pPayload.isNone) then .badParameter
    else if p.pTopicName = none ∨ p.topicNameLength = 0 then .badParameter
    else if p.qos ≠ .qos0 ∧ packetId = 0 then .badParameter
    else if p.dup = true ∧ p.qos = .qos0 then .badParameter
    else .success
  | _, _ => .badParameter

/-- `MQTT_SerializePublish`, core_mqtt_serializer.c 2094-2175 -/
def serializePublish (W : Nat) (p : Option PublishInfo) (packetId : UInt16) (remainingLength : Nat)
    (fb : Option FixedBuffer) : Res (Status × Ptr) :=
  match serializePublishParams true p packetId fb, p, fb with
  | .success, some p, some ⟨some buf, size⟩ =>
    let packetSize := (1 + remainingLengthEncodedSize remainingLength + remainingLength) % W
    if packetSize > size then .ok (.noMemory, some buf)
    else do
      let m ← serializePublishCommon p remainingLength packetId buf size true
      pure (.success, some m)
  | .success, _, _ => .ub .nullDeref
  | st, _, some fb => .ok (st, fb.pBuffer)
  | st, _, none => .ok (st, none)

/-- `MQTT_SerializePublishHeader`, core_mqtt_serializer.c 2179-2258.  Result: status, buffer memory
and `*pHeaderSize` (on success). -/
def serializePublishHeader (W : Nat) (p : Option PublishInfo) (packetId : UInt16)
    (remainingLength : Nat) (fb : Option FixedBuffer) : Res (Status × Ptr × Nat) :=
  match serializePublishParams false p packetId fb, p, fb with
  | .success, some p, some ⟨some buf, size⟩ =>
    let packetSize :=
      ((1 + remainingLengthEncodedSize remainingLength + remainingLength) % W + W
        - p.payloadLength % W) % W
    if packetSize > size then .ok (.noMemory, some buf, 0)
    else do
      let m ← serializePublishCommon p remainingLength packetId buf size false
      pure (.success, some m, packetSize)
  | .success, _, _ => .ub .nullDeref
  | st, _, some fb => .ok (st, fb.pBuffer, 0)
  | st, _, none => .ok (st, none, 0)

/-- `MQTT_SerializeAck`, core_mqtt_serializer.c 2262-2313 -/
def serializeAck (fb : Option FixedBuffer) (packetType : UInt8) (packetId : UInt16) :
    Res (Status × Ptr) :=
  match fb with
  | none => .ok (.badParameter, none)
  | some fb =>
    match fb.pBuffer with
    | none => .ok (.badParameter, none)
    | some buf =>
      if fb.size < 4 then .ok (.noMemory, some buf)
      else if packetId = 0 then .ok (.badParameter, some buf)
      else if packetType = ptPUBACK ∨ packetType = ptPUBREC ∨ packetType = ptPUBREL ∨
              packetType = ptPUBCOMP then do
        let c ← put ⟨buf, 0⟩ [packetType]
        let c ← put c [2]
        let c ← put c [highByte packetId]
        let c ← put c [lowByte packetId]
        pure (.success, some c.mem)
      else .ok (.badParameter, some buf)

/-- `MQTT_SerializeDisconnect` (core_mqtt_serializer.c 2336-2376, first byte DISCONNECT) and
`MQTT_SerializePingreq` (2399-2439, first byte PINGREQ): the same statements. -/
def serializeTwoBytes (first : UInt8) (fb : Option FixedBuffer) : Res (Status × Ptr) :=
  match fb with
  | none => .ok (.badParameter, none)
  | some fb =>
    match fb.pBuffer with
    | none => .ok (.badParameter, none)
    | some buf =>
      if fb.size < 2 then .ok (.noMemory, some buf)
      else do
        let c ← put ⟨buf, 0⟩ [first]
        let c ← put c [0]
        pure (.success, some c.mem)

/-- `MQTT_SerializeDisconnect`, core_mqtt_serializer.c 2336-2376 -/
def serializeDisconnect := serializeTwoBytes ptDISCONNECT
/-- `MQTT_SerializePingreq`, core_mqtt_serializer.c 2399-2439 -/
def serializePingreq := serializeTwoBytes ptPINGREQ
/-- `MQTT_GetDisconnectPacketSize`, core_mqtt_serializer.c 2317-2332 (`pOut = false`: null pointer) -/
def getDisconnectPacketSize (pOut : Bool) : Status × Nat := if pOut then (.success, 2) else (.badParameter, 0)
/-- `MQTT_GetPingreqPacketSize`, core_mqtt_serializer.c 2380-2395 -/
def getPingreqPacketSize (pOut : Bool) : Status × Nat := if pOut then (.success, 2) else (.badParameter, 0)

/-- `MQTT_DeserializePublish`, core_mqtt_serializer.c 2443-2476 -/
def mqttDeserializePublish (W : Nat) (pk : Option PacketInfo) (id0 : UInt16) :
    Res (Status × Option (UInt16 × PublishInfo)) :=
  match pk with
  | none => .ok (.badParameter, none)
  | some pk =>
    if (pk.type &&& 0xF0) ≠ ptPUBLISH then .ok (.badParameter, none)
    else if pk.pRemainingData = none then .ok (.badParameter, none)
    else deserializePublish W pk id0

/-- `MQTT_DeserializeAck`, core_mqtt_serializer.c 2480-2553.  `pId`, `pSp` are the output
pointers (`none` is `NULL`) holding their previous contents; the result carries the
status and the new contents. -/
def mqttDeserializeAck (pk : Option PacketInfo) (pId : Option UInt16) (pSp : Option Bool) :
    Res (Status × Option UInt16 × Option Bool) :=
  match pk with
  | none => .ok (.badParameter, pId, pSp)
  | some pk =>
    if pId = none ∧ (pk.type ≠ ptCONNACK ∧ pk.type ≠ ptPINGRESP) then .ok (.badParameter, pId, pSp)
    else if pSp = none ∧ pk.type = ptCONNACK then .ok (.badParameter, pId, pSp)
    else if pk.pRemainingData = none ∧ pk.type ≠ ptPINGRESP then .ok (.badParameter, pId, pSp)
    else if pk.type = ptCONNACK then
      match pSp with
      | none => .ub .assertFailed
      | some sp0 => do
        let (st, sp) ← deserializeConnack pk sp0
        pure (st, pId, some sp)
    else if pk.type = ptSUBACK then
      match pId with
      | none => .ub .assertFailed
      | some id0 => do
        let (st, id) ← deserializeSuback pk id0
        pure (st, some id, pSp)
    else if pk.type = ptPINGRESP then .ok (deserializePingresp pk, pId, pSp)
    else if pk.type = ptUNSUBACK ∨ pk.type = ptPUBACK ∨ pk.type = ptPUBREC ∨ pk.type = ptPUBREL ∨
            pk.type = ptPUBCOMP then
      match pId with
      | none => .ub .assertFailed
      | some id0 => do
        let (st, id) ← deserializeSimpleAck pk id0
        pure (st, some id, pSp)
    else .ok (.badResponse, pId, pSp)

/-- Result of the header parsers: status and, on success, type, remaining length and header length
(the byte-wise parser does not report a header length). -/
structure HeaderRes where
  status : Status
  type : UInt8
  remainingLength : Nat
  headerLength : Nat
  deriving DecidableEq, Repr

/-- `MQTT_GetIncomingPacketTypeAndLength`, core_mqtt_serializer.c 2557-2618, driven by the transport's answers to
its one-byte receive calls; also returns the unused answers. -/
def getIncomingPacketTypeAndLength (script : List OneRecv) : HeaderRes × List OneRecv :=
  match script with
  | .byte t :: rest =>
    if incomingPacketValid t then
      let (n, rest) := getRemainingLength rest
      if n = remainingLengthInvalid then (⟨.badResponse, t, n, 0⟩, rest)
      else (⟨.success, t, n, 0⟩, rest)
    else (⟨.badResponse, t, 0, 0⟩, rest)
  | .none :: rest => (⟨.noDataAvailable, 0, 0, 0⟩, rest)
  | [] => (⟨.noDataAvailable, 0, 0, 0⟩, [])
  | .fail :: rest => (⟨.recvFailed, 0, 0, 0⟩, rest)

/-- `MQTT_UpdateDuplicatePublishFlag`, core_mqtt_serializer.c 2622-2647: status and the header byte
afterwards. -/
def updateDuplicatePublishFlag (pHeader : Option UInt8) (set : Bool) : Status × Option UInt8 :=
  match pHeader with
  | none => (.badParameter, none)
  | some h =>
    if (h &&& 0xF0) ≠ ptPUBLISH then (.badParameter, some h)
    else if set then (.success, some (setBit h 3))
    else (.success, some (clearBit h 3))

/-- `MQTT_ProcessIncomingPacketTypeAndLength`, core_mqtt_serializer.c 2651-2703, with non-null
`pIncomingPacket` and `pIndex`; `pBuffer = none` is `NULL`. -/
def processIncomingPacketTypeAndLength (pBuffer : Ptr) (index : Nat) : Res HeaderRes :=
  match pBuffer with
  | none => .ok ⟨.badParameter, 0, 0, 0⟩
  | some buf =>
    if index < 1 then .ok ⟨.noDataAvailable, 0, 0, 0⟩
    else do
      let t ← readByte buf 0
      if incomingPacketValid t then
        let (st, n, h) ← processRemainingLength buf index
        pure ⟨st, t, n, h⟩
      else pure ⟨.badResponse, t, 0, 0⟩

end Mqtt
