/-
Model of the sending half of source/core_mqtt.c: the two send loops, the zero-copy packet senders, acknowledgements and pings.

Byte counts: the C code casts lengths to `int32_t`.  Packets are at most 268435455 + 5 bytes and a batch of vectors at most
`MQTT_SUB_UNSUB_MAX_VECTORS * 65535`, so for configurations with fewer than 32768 vectors the casts do not change the values; the
model uses natural numbers.  For packets returned by the retrieve callback a length below 2^31 is assumed.
-/
import Verif.Model.World

namespace Mqtt

/-- The statements of the send loops that handle the transport's answer, core_mqtt.c 818-846 and 901-930:
on progress note the transmission time, on error leave the connected state. -/
def noteSendResult (r : Option Nat) : M Unit :=
  match r with
  | none => markPending
  | some k =>
    if k > 0 then do
      let t ← getTime
      modifyCtx fun c => { c with lastPacketTxTime := t }
    else pure ()

/-- The loop of `sendBuffer`, core_mqtt.c 895-938.  `rest` is what `pIndex` points to (`bytesToSend - bytesSentOrError` bytes).
Result: `none` for a negative `bytesSentOrError`.  The assertion on `sendResult` holds by the transport contract. -/
def sendBufferLoop (g : Cfg) (startTime : UInt32) : Nat → List UInt8 → Nat → M (Option Nat)
  | 0, _, _ => stuckM
  | fuel + 1, rest, sent =>
    if rest.length > 0 then do
      let r ← transportSend rest
      noteSendResult r
      let now ← getTime
      match r with
      | none => pure none
      | some k =>
        if calculateElapsedTime now startTime ≥ g.sendTimeoutMs then pure (some (sent + k))
        else sendBufferLoop g startTime fuel (rest.drop k) (sent + k)
    else pure (some sent)

/-- `sendBuffer`, core_mqtt.c 878-941: number of bytes sent, or `none` for an error. -/
def sendBuffer (g : Cfg) (bytes : List UInt8) : M (Option Nat) := do
  let startTime ← getTime
  let fuel ← sendFuel
  sendBufferLoop g startTime fuel bytes 0

/-- "Update the send pointer to the correct vector and offset", core_mqtt.c 855-872, on the vectors from `pIoVectIterator` on. -/
def advanceVec : Nat → List (List UInt8) → List (List UInt8)
  | _, [] => []
  | k, v :: vs => if k ≥ v.length then advanceVec (k - v.length) vs else v.drop k :: vs

/-- The operand of the transport call in `sendMessageVector`, core_mqtt.c 805-816: all remaining vectors for `writev`, the first
remaining one for `send`. -/
def offeredBytes (hasWritev : Bool) (vecs : List (List UInt8)) : Res (List UInt8) :=
  if hasWritev then .ok vecs.flatten
  else match vecs with
    | [] => .ub .oobRead
    | v :: _ => .ok v

/-- The loop of `sendMessageVector`, core_mqtt.c 803-873.  `vecs` are the vectors from `pIoVectIterator` on. -/
def sendVecLoop (g : Cfg) (startTime : UInt32) (bytesToSend : Nat) : Nat → List (List UInt8) → Nat → M (Option Nat)
  | 0, _, _ => stuckM
  | fuel + 1, vecs, sent =>
    if sent < bytesToSend then do
      let c ← getCtx
      let bytes ← liftRes (offeredBytes c.hasWritev vecs)
      let r ← transportSend bytes
      liftRes (cassert (r.all fun k => decide (k ≤ bytesToSend - sent)))
      noteSendResult r
      let now ← getTime
      match r with
      | none => pure none
      | some k =>
        if calculateElapsedTime now startTime > g.sendTimeoutMs then pure (some (sent + k))
        else sendVecLoop g startTime bytesToSend fuel (advanceVec k vecs) (sent + k)
    else pure (some sent)

/-- The memory behind an array of vectors.  Simplification: all vectors are read when the send starts (the transport may
not get as far as reading the later ones). -/
def resolveVec : List IoVec → Res (List (List UInt8))
  | [] => pure []
  | v :: vs => do
    let b ← readMem v.iov_base v.iov_len
    let bs ← resolveVec vs
    pure (b :: bs)

/-- `sendMessageVector`, core_mqtt.c 774-876.  An empty array would make `&pIoVec[ ioVecCount - 1 ]` point outside. -/
def sendMessageVector (g : Cfg) (vec : List IoVec) : M (Option Nat) := do
  let vecs ← liftRes (resolveVec vec)
  if vec.isEmpty then ubM .oobRead
  else do
    let startTime ← getTime
    let fuel ← sendFuel
    sendVecLoop g startTime vecs.flatten.length fuel vecs 0

/-- Sum of the `iov_len` fields, the `totalPacketLength` / `totalMessageLength` the callers accumulate. -/
def vecLength (vec : List IoVec) : Nat := (vec.map (·.iov_len)).sum

/-- `sendMessageVector( … ) != ( int32_t ) totalPacketLength` turned into a status, core_mqtt.c 2040-2045, 2133-2136, 2246-2250,
2391-2396. -/
def sendWholeVector (g : Cfg) (vec : List IoVec) : M Status := do
  let r ← sendMessageVector g vec
  if r ≠ some (vecLength vec) then pure .sendFailed else pure .success

/-- `addEncodedStringToVector`, core_mqtt.c 1916-1952: the vectors it adds. -/
def addEncodedStringToVector (string : Ptr) (length : UInt16) : Res (List IoVec) := do
  cassert (length == 0 || string.isSome)
  let first : IoVec := ⟨some [highByte length, lowByte length], 2⟩
  if string ≠ none ∧ length ≠ 0 then pure [first, ⟨string, length.toNat⟩] else pure [first]

/-- `CORE_MQTT_SUBSCRIBE_PER_TOPIC_VECTOR_LENGTH` and `CORE_MQTT_UNSUBSCRIBE_PER_TOPIC_VECTOR_LENGTH`, core_mqtt.c 83 and 91 -/
def perTopicVectors : SubType → Nat
  | .subscribe => 3
  | .unsubscribe => 2

/-- The vectors for one filter, core_mqtt.c 2012-2028 (subscribe) and 2115-2123 (unsubscribe).  The requested QoS is sent as the
first byte in memory of the enumeration member; assumption: little-endian machine (or one-byte enumerations). -/
def filterVectors (ty : SubType) (s : SubscribeInfo) : Res (List IoVec) := do
  let v ← addEncodedStringToVector s.pTopicFilter s.topicFilterLength
  match ty with
  | .subscribe => pure (v ++ [⟨some [s.qos.toByte], 1⟩])
  | .unsubscribe => pure v

/-- The inner loops, core_mqtt.c 2009-2038 and 2112-2131: fill the vector array as long as the next filter fits.  Storing more
than `MQTT_SUB_UNSUB_MAX_VECTORS` vectors would be a write outside the array. -/
def fillVectors (g : Cfg) (ty : SubType) : List IoVec → List SubscribeInfo → Res (List IoVec × List SubscribeInfo)
  | vec, [] => pure (vec, [])
  | vec, s :: rest =>
    if vec.length ≤ g.subUnsubMaxVectors - perTopicVectors ty then do
      let v ← filterVectors ty s
      if vec.length + v.length ≤ g.subUnsubMaxVectors then fillVectors g ty (vec ++ v) rest
      else .ub .oobWrite
    else pure (vec, s :: rest)

/-- The outer loops, core_mqtt.c 2002-2053 and 2106-2144.  Every iteration but possibly the first one takes at least one
filter, so the bound (number of filters + 2) is never reached. -/
def sendFiltersLoop (g : Cfg) (ty : SubType) : Nat → List IoVec → List SubscribeInfo → M Status
  | 0, _, _ => stuckM
  | n + 1, vec, subs =>
    if subs.isEmpty then pure .success
    else do
      let (vec, rest) ← liftRes (fillVectors g ty vec subs)
      let st ← sendWholeVector g vec
      if st ≠ .success then pure st else sendFiltersLoop g ty n [] rest

/-- `sendSubscribeWithoutCopy`, core_mqtt.c 1956-2056, and `sendUnsubscribeWithoutCopy`, 2060-2147.  The local header
array has 7 bytes.  Simplification here and below: uninitialised local arrays start with zeros; only bytes written by the serializer are
sent. -/
def sendFiltersWithoutCopy (g : Cfg) (ty : SubType) (subs : List SubscribeInfo) (packetId : UInt16) (remainingLength : Nat) : M Status := do
  liftRes (cassert (decide (g.subUnsubMaxVectors ≥ perTopicVectors ty)))
  let c ← liftRes (serializeSubscriptionHeader ty remainingLength ⟨List.replicate 7 0, 0⟩ packetId)
  sendFiltersLoop g ty (subs.length + 2) [⟨some c.mem, c.pos⟩] subs

/-- The vectors of `sendPublishWithoutCopy`, core_mqtt.c 2174-2209; `header` is the memory of `pMqttHeader`. -/
def publishVectors (p : PublishInfo) (header : List UInt8) (headerSize : Nat) (packetId : UInt16) : List IoVec :=
  [⟨some header, headerSize⟩, ⟨p.pTopicName, p.topicNameLength.toNat⟩]
  ++ (if p.qos ≠ .qos0 then [⟨some [highByte packetId, lowByte packetId], 2⟩] else [])
  ++ (if p.payloadLength > 0 then [⟨p.pPayload, p.payloadLength⟩] else [])

/-- `MQTT_UpdateDuplicatePublishFlag( pMqttHeader, set )` on the header array: status and array afterwards. -/
def updateHeaderDup (header : List UInt8) (set : Bool) : Status × List UInt8 :=
  match header with
  | [] => (.badParameter, [])
  | h :: rest =>
    let (st, h') := updateDuplicatePublishFlag (some h) set
    (st, h'.getD h :: rest)

/-- Storing a copy for retransmission, core_mqtt.c 2211-2244: status and header array afterwards. -/
def storePublish (p : PublishInfo) (header : List UInt8) (headerSize : Nat) (packetId : UInt16) : M (Status × List UInt8) := do
  let (st, hdr) := if p.dup then (Status.success, header) else updateHeaderDup header true
  if st ≠ .success then pure (st, hdr)
  else do
    let ok ← storeCallback packetId (publishVectors p hdr headerSize packetId)
    if ok = false then pure (.publishStoreFailed, hdr)
    else if p.dup then pure (.success, hdr)
    else pure (updateHeaderDup hdr false)

/-- `sendPublishWithoutCopy`, core_mqtt.c 2151-2253 -/
def sendPublishWithoutCopy (g : Cfg) (p : PublishInfo) (header : List UInt8) (headerSize : Nat) (packetId : UInt16) : M Status := do
  let c ← getCtx
  let (st, hdr) ← (if p.qos ≠ .qos0 ∧ c.retransmits then storePublish p header headerSize packetId
    else pure (.success, header))
  if st ≠ .success then pure st
  else sendWholeVector g (publishVectors p hdr headerSize packetId)

/-- The optional vectors of `sendConnectWithoutCopy` for the last will, core_mqtt.c 2336-2360 -/
def willVectors (will : Option PublishInfo) : Res (List IoVec) :=
  match will with
  | none => pure []
  | some w => do
    let t ← addEncodedStringToVector w.pTopicName w.topicNameLength
    let m ← addEncodedStringToVector w.pPayload (UInt16.ofNat w.payloadLength)
    pure (t ++ m)

/-- The optional vectors for user name and password, core_mqtt.c 2362-2389 -/
def optionalVectors (p : Ptr) (length : UInt16) : Res (List IoVec) :=
  match p with
  | none => pure []
  | some _ => addEncodedStringToVector p length

/-- The vectors of `sendConnectWithoutCopy`, core_mqtt.c 2305-2389 (the local header array has 15 bytes). -/
def connectVectors (ci : ConnectInfo) (will : Option PublishInfo) (remainingLength : Nat) : Res (List IoVec) := do
  let c ← serializeConnectFixedHeader ⟨List.replicate 15 0, 0⟩ ci will remainingLength
  cassert (c.pos ≤ 15)
  let i ← addEncodedStringToVector ci.pClientIdentifier ci.clientIdentifierLength
  let w ← willVectors will
  let u ← optionalVectors ci.pUserName ci.userNameLength
  let p ← optionalVectors ci.pPassword ci.passwordLength
  pure ([⟨some c.mem, c.pos⟩] ++ i ++ w ++ u ++ p)

/-- `sendConnectWithoutCopy`, core_mqtt.c 2257-2400 -/
def sendConnectWithoutCopy (g : Cfg) (ci : ConnectInfo) (will : Option PublishInfo) (remainingLength : Nat) : M Status :=
  if will.any (fun w => w.pTopicName.isNone) then pure .badParameter
  else do
    let vec ← liftRes (connectVectors ci will remainingLength)
    sendWholeVector g vec

/-- `getAckTypeToSend`, core_mqtt.c 1255-1283 (0: no acknowledgement to send) -/
def getAckTypeToSend (state : PubState) : UInt8 :=
  match state with
  | .pubAckSend => ptPUBACK
  | .pubRecSend => ptPUBREC
  | .pubRelSend => ptPUBREL
  | .pubCompSend => ptPUBCOMP
  | _ => 0

/-- `getAckFromPacketType`, core_mqtt.c 953-981 -/
def getAckFromPacketType (packetType : UInt8) : Res AckType :=
  if packetType = ptPUBACK then .ok .puback
  else if packetType = ptPUBREC then .ok .pubrec
  else if packetType = ptPUBREL then .ok .pubrel
  else do
    cassert (packetType == ptPUBCOMP)
    pure .pubcomp

/-- Send `bytes` if the connection is established: the statements between the hooks in core_mqtt.c 1319-1338 and 3260-3282. -/
def sendIfConnected (g : Cfg) (bytes : List UInt8) : M Status := do
  let c ← getCtx
  if c.connectStatus ≠ .connected then pure (notConnectedStatus c.connectStatus)
  else do
    let r ← sendBuffer g bytes
    -- sendResult < ( int32_t ) size
    if r.all (fun n => decide (n < bytes.length)) then pure .sendFailed else pure .success

/-- `MQTT_UpdateStateAck` on the context -/
def updateStateAckM (packetId : UInt16) (ack : AckType) (op : Op) : M (Status × Option PubState) :=
  onTables fun t => do
    let (st, s, t) ← updateStateAckApi t packetId ack op
    pure ((st, s), t)

/-- `MQTT_UpdateStatePublish` on the context -/
def updateStatePublishM (packetId : UInt16) (op : Op) (qos : QoS) : M (Status × Option PubState) :=
  onTables fun t => do
    let (st, s, t) ← updateStatePublishApi t packetId op qos
    pure ((st, s), t)

/-- `sendPublishAcks`, core_mqtt.c 1287-1373 -/
def sendPublishAcks (g : Cfg) (packetId : UInt16) (publishState : PubState) : M Status := do
  let packetTypeByte := getAckTypeToSend publishState
  if packetTypeByte = 0 then pure .success
  else do
    let packetType ← liftRes (getAckFromPacketType packetTypeByte)
    let (st, buf) ← liftRes (serializeAck (some ⟨some [0, 0, 0, 0], 4⟩) packetTypeByte packetId)
    if st ≠ .success then pure st
    else do
      preHook
      let st ← sendIfConnected g (buf.getD [])
      postHook
      if st ≠ .success then pure st
      else do
        modifyCtx fun c => { c with controlPacketSent := true }
        preHook
        let (st, _) ← updateStateAckM packetId packetType .send
        postHook
        pure st

/-- `MQTT_Ping`, core_mqtt.c 3211-3296, on a non-null context -/
def mqttPing (g : Cfg) : M Status := do
  let (st, packetSize) := getPingreqPacketSize true
  if st ≠ .success then pure st
  else do
    liftRes (cassert (packetSize == 2))
    let (st, buf) ← liftRes (serializePingreq (some ⟨some [0, 0], 2⟩))
    if st ≠ .success then pure st
    else do
      preHook
      let st ← sendIfConnected g (buf.getD [])
      if st = .success then
        modifyCtx fun c => { c with pingReqSendTimeMs := c.lastPacketTxTime, waitingForPingResp := true }
      else pure ()
      postHook
      pure st

end Mqtt
