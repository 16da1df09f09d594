/-
Model of the public functions of source/core_mqtt.c and of session establishment.  The functions take a non-null context (the
`World`'s).
-/
import Verif.Model.Receive

namespace Mqtt

/-- One byte received by `MQTT_GetIncomingPacketTypeAndLength`, core_mqtt_serializer.c 806 and 2580. -/
def recvOne : M OneRecv := do
  let r ← transportRecv 1
  match r with
  | none => pure .fail
  | some [] => pure .none
  | some (b :: _) => pure (.byte b)

/-- The do-while loop of `getRemainingLength`, core_mqtt_serializer.c 795-829, on the world's transport (compare
`getRemainingLengthLoop`).  The multiplier exceeds its limit after four rounds, so five is enough as bound. -/
def getRemainingLengthLoopM : Nat → Nat → Nat → Nat → M (Nat × Nat)
  | 0, _, _, _ => stuckM
  | n + 1, remainingLength, multiplier, bytesDecoded =>
    if multiplier > 2097152 then pure (remainingLengthInvalid, bytesDecoded)
    else do
      let r ← recvOne
      match r with
      | .byte encodedByte => do
        let remainingLength := remainingLength + (encodedByte &&& 0x7F).toNat * multiplier
        if remainingLength = remainingLengthInvalid then pure (remainingLengthInvalid, bytesDecoded + 1)
        else if (encodedByte &&& 0x80) ≠ 0 then
          getRemainingLengthLoopM n remainingLength (multiplier * 128) (bytesDecoded + 1)
        else pure (remainingLength, bytesDecoded + 1)
      | _ => pure (remainingLengthInvalid, bytesDecoded)

/-- `getRemainingLength`, core_mqtt_serializer.c 795-843 -/
def getRemainingLengthM : M Nat := do
  let (remainingLength, bytesDecoded) ← getRemainingLengthLoopM 5 0 1 0
  if remainingLength ≠ remainingLengthInvalid ∧ bytesDecoded ≠ remainingLengthEncodedSize remainingLength then
    pure remainingLengthInvalid
  else pure remainingLength

/-- `MQTT_GetIncomingPacketTypeAndLength`, core_mqtt_serializer.c 2557-2618 -/
def getIncomingPacketTypeAndLengthM : M HeaderRes := do
  let r ← recvOne
  match r with
  | .byte t =>
    if incomingPacketValid t then do
      let n ← getRemainingLengthM
      if n = remainingLengthInvalid then pure ⟨.badResponse, t, n, 0⟩ else pure ⟨.success, t, n, 0⟩
    else pure ⟨.badResponse, t, 0, 0⟩
  | .none => pure ⟨.noDataAvailable, 0, 0, 0⟩
  | .fail => pure ⟨.recvFailed, 0, 0, 0⟩

/-- `breakFromLoop`, core_mqtt.c 2444-2452; `timeoutMs = 0` counts the rounds instead of reading the clock. -/
def connackBreak (g : Cfg) (timeoutMs entryTimeMs : UInt32) (loopCount : Nat) : M Bool :=
  if timeoutMs > 0 then do
    let t ← getTime
    pure (decide (calculateElapsedTime t entryTimeMs ≥ timeoutMs))
  else pure (decide (loopCount ≥ g.connackRetryCount))

/-- The do-while loop of `receiveConnack`, core_mqtt.c 2425-2455.  `loopCount` is a `uint16_t`; assumption:
`MQTT_MAX_CONNACK_RECEIVE_RETRY_COUNT` fits in it. -/
def connackLoop (g : Cfg) (timeoutMs entryTimeMs : UInt32) : Nat → Nat → M HeaderRes
  | 0, _ => stuckM
  | fuel + 1, loopCount => do
    let h ← getIncomingPacketTypeAndLengthM
    let brk ← connackBreak g timeoutMs entryTimeMs loopCount
    if h.status = .noDataAvailable ∧ brk = false then connackLoop g timeoutMs entryTimeMs fuel (loopCount + 1)
    else pure h

/-- Reading and checking the rest of the first packet, core_mqtt.c 2457-2511: status and `*pSessionPresent`. -/
def finishConnack (g : Cfg) (timeoutMs entryTimeMs : UInt32) (cleanSession : Bool) (h : HeaderRes) (sp0 : Bool) :
    M (Status × Bool) := do
  let t ← getTime
  let timeTakenMs := calculateElapsedTime t entryTimeMs
  let remainingTimeMs := if timeTakenMs < timeoutMs then timeoutMs - timeTakenMs else 0
  if h.type = ptCONNACK then do
    let st ← receivePacket g h.remainingLength remainingTimeMs
    if st ≠ .success then pure (st, sp0)
    else do
      let c ← getCtx
      let (st, _, sp) ← liftRes (mqttDeserializeAck (some ⟨h.type, some c.netBuf, h.remainingLength, h.headerLength⟩) none (some sp0))
      let sp := sp.getD sp0
      if st = .success ∧ cleanSession ∧ sp then pure (.badResponse, sp) else pure (st, sp)
  else pure (.badResponse, sp0)

/-- `receiveConnack`, core_mqtt.c 2404-2524: status and `*pSessionPresent` (`sp0` before the call). -/
def receiveConnack (g : Cfg) (timeoutMs : UInt32) (cleanSession : Bool) (sp0 : Bool) : M (Status × Bool) := do
  let entryTimeMs ← getTime
  let fuel ← recvFuel
  let h ← connackLoop g timeoutMs entryTimeMs fuel 0
  if h.status ≠ .success then pure (h.status, sp0)
  else finishConnack g timeoutMs entryTimeMs cleanSession h sp0

/-- The PUBREL loop of `handleUncleanSessionResumption`, core_mqtt.c 2539-2549.  The cursor grows with every record found, so the
number of records (plus one) bounds the rounds. -/
def resendPubrels (g : Cfg) : Nat → Nat → M Status
  | 0, _ => stuckM
  | n + 1, cursor => do
    let c ← getCtx
    let (packetId, cursor, state) ← liftRes (pubrelToResend c.tables cursor)
    if packetId = 0 then pure .success
    else do
      let st ← sendPublishAcks g packetId (state.getD .null)
      -- the C code looks up the next record before it looks at the status; the lookup has no effect
      if st ≠ .success then pure st else resendPubrels g n cursor

/-- The PUBLISH loop of `handleUncleanSessionResumption`, core_mqtt.c 2554-2580 -/
def resendPublishes (g : Cfg) : Nat → Nat → M Status
  | 0, _ => stuckM
  | n + 1, cursor => do
    let c ← getCtx
    let (packetId, cursor) ← liftRes (publishToResend c.tables cursor)
    if packetId = 0 then pure .success
    else do
      let r ← retrieveCallback packetId
      match r with
      | none => pure .publishRetrieveFailed
      | some bytes => do
        preHook
        let r ← sendBuffer g bytes
        postHook
        if r ≠ some bytes.length then pure .sendFailed else resendPublishes g n cursor

/-- `handleUncleanSessionResumption`, core_mqtt.c 2528-2584 -/
def handleUncleanSessionResumption (g : Cfg) : M Status := do
  let c ← getCtx
  let n := c.tables.outgoing.length + 1
  let st ← resendPubrels g n 0
  if st = .success ∧ c.retransmits then resendPublishes g n 0 else pure st

/-- The loop of `handleCleanSession` over the stored publishes, core_mqtt.c 2602-2612 -/
def clearStored : Nat → Nat → M Unit
  | 0, _ => stuckM
  | n + 1, cursor => do
    let c ← getCtx
    let (packetId, cursor) ← liftRes (publishToResend c.tables cursor)
    if packetId = 0 then pure ()
    else do
      clearCallback packetId
      clearStored n cursor

/-- `handleCleanSession`, core_mqtt.c 2586-2631 -/
def handleCleanSession : M Status := do
  resetBuffer
  let c ← getCtx
  if c.retransmits then clearStored (c.tables.outgoing.length + 1) 0 else pure ()
  modifyCtx fun c => { c with tables := ⟨List.replicate c.tables.outgoing.length Rec.empty,
    List.replicate c.tables.incoming.length Rec.empty⟩ }
  pure .success

/-- The part of `MQTT_Connect` between the hooks, core_mqtt.c 2947-2984 -/
def connectLocked (g : Cfg) (ci : ConnectInfo) (will : Option PublishInfo) (remainingLength : Nat) (timeoutMs : UInt32) (sp0 : Bool) :
    M (Status × Bool) := do
  let c ← getCtx
  if c.connectStatus ≠ .notConnected then
    pure (if c.connectStatus = .connected then .statusConnected else .statusDisconnectPending, sp0)
  else do
    let st ← sendConnectWithoutCopy g ci will remainingLength
    if st ≠ .success then pure (st, sp0)
    else do
      let (st, sp) ← receiveConnack g timeoutMs ci.cleanSession sp0
      if st ≠ .success then pure (st, sp)
      else do
        let st ← (if sp = false then handleCleanSession else pure .success)
        if st = .success then
          modifyCtx fun c => { c with connectStatus := .connected, keepAliveIntervalSec := ci.keepAliveSeconds,
                                      waitingForPingResp := false, pingReqSendTimeMs := 0 }
        else pure ()
        pure (st, sp)

/-- The failure path at the end of `MQTT_Connect`, core_mqtt.c 2995-3028 (non-null context) -/
def connectFailed (st : Status) : M Unit :=
  if st = .success ∨ st = .statusConnected ∨ st = .statusDisconnectPending then pure ()
  else markPendingHooked

/-- The part of `MQTT_Connect` after the parameter checks, core_mqtt.c 2943-2993 -/
def connectCore (g : Cfg) (ci : ConnectInfo) (will : Option PublishInfo) (remainingLength : Nat) (timeoutMs : UInt32) (sp0 : Bool) :
    M (Status × Bool) := do
  preHook
  let (st, sp) ← connectLocked g ci will remainingLength timeoutMs sp0
  postHook
  if st = .success ∧ sp then do
    let st ← handleUncleanSessionResumption g
    pure (st, sp)
  else pure (st, sp)

/-- `MQTT_Connect`, core_mqtt.c 2908-3031, on a non-null context.  `sp` is the memory behind `pSessionPresent` (`none`: null); the
result is the status and its final content. -/
def mqttConnect (g : Cfg) (ci : Option ConnectInfo) (will : Option PublishInfo) (timeoutMs : UInt32) (sp : Option Bool) :
    M (Status × Option Bool) :=
  match ci, sp with
  | some ci, some sp0 => do
    let sz := getConnectPacketSize (some ci) will
    let (st, sp1) ← (if sz.status = .success then connectCore g ci will sz.remainingLength timeoutMs sp0
      else pure (sz.status, sp0))
    connectFailed st
    pure (st, some sp1)
  | _, _ => do
    connectFailed .badParameter
    pure (.badParameter, sp)

/-- `validateSubscribeUnsubscribeParams`, core_mqtt.c 1865-1912 (non-null context).  The list pointer and the count are one
optional list. -/
def validateSubscribeUnsubscribeParams (c : Ctx) (subs : Option (List SubscribeInfo)) (packetId : UInt16) : Status :=
  match subs with
  | none => .badParameter
  | some subs =>
    if subs.length = 0 then .badParameter
    else if packetId = 0 then .badParameter
    else if c.tables.incoming = [] ∧ subs.any (fun s => decide (s.qos ≠ .qos0)) then .badParameter
    else .success

/-- `MQTT_Subscribe`, core_mqtt.c 3035-3086, and `MQTT_Unsubscribe`, 3300-3351, which differ only in the functions for their packet
type; on a non-null context. -/
def mqttSubUnsub (g : Cfg) (ty : SubType) (subs : Option (List SubscribeInfo)) (packetId : UInt16) : M Status := do
  let c ← getCtx
  let st := validateSubscribeUnsubscribeParams c subs packetId
  if st ≠ .success then pure st
  else do
    let sz := getSubscriptionPacketSize g.W ty subs
    if sz.status ≠ .success then pure sz.status
    else do
      preHook
      let c ← getCtx
      let st ← (if c.connectStatus ≠ .connected then pure (notConnectedStatus c.connectStatus)
        else sendFiltersWithoutCopy g ty (subs.getD []) packetId sz.remainingLength)
      postHook
      pure st

/-- `MQTT_Subscribe`, core_mqtt.c 3035-3086 -/
def mqttSubscribe (g : Cfg) := mqttSubUnsub g .subscribe
/-- `MQTT_Unsubscribe`, core_mqtt.c 3300-3351 -/
def mqttUnsubscribe (g : Cfg) := mqttSubUnsub g .unsubscribe

/-- `validatePublishParams`, core_mqtt.c 2633-2675 (non-null context) -/
def validatePublishParams (c : Ctx) (p : Option PublishInfo) (packetId : UInt16) : Status :=
  match p with
  | none => .badParameter
  | some p =>
    if p.qos ≠ .qos0 ∧ packetId = 0 then .badParameter
    else if p.payloadLength > 0 ∧ p.pPayload = none then .badParameter
    else if c.tables.outgoing = [] ∧ p.qos ≠ .qos0 then .badParameter
    else .success

/-- `MQTT_ReserveState` in `MQTT_Publish`, core_mqtt.c 3145-3160 -/
def reservePublish (p : PublishInfo) (packetId : UInt16) : M Status :=
  if p.qos ≠ .qos0 then do
    let st ← onTables fun t => reserveState t packetId p.qos
    if st = .stateCollision ∧ p.dup then pure .success else pure st
  else pure .success

/-- The state update after sending in `MQTT_Publish`, core_mqtt.c 3171-3190 -/
def notePublishSent (p : PublishInfo) (packetId : UInt16) : M Status :=
  if p.qos ≠ .qos0 then do
    let (st, _) ← updateStatePublishM packetId .send p.qos
    pure st
  else pure .success

/-- The part of `MQTT_Publish` between the hooks, core_mqtt.c 3138-3190 -/
def publishLocked (g : Cfg) (p : PublishInfo) (header : List UInt8) (headerSize : Nat) (packetId : UInt16) : M Status := do
  let c ← getCtx
  if c.connectStatus ≠ .connected then pure (notConnectedStatus c.connectStatus)
  else do
    let st ← reservePublish p packetId
    if st ≠ .success then pure st
    else do
      let st ← sendPublishWithoutCopy g p header headerSize packetId
      if st ≠ .success then pure st else notePublishSent p packetId

/-- `MQTT_Publish`, core_mqtt.c 3090-3207, on a non-null context (`mqttHeader` has 7 bytes) -/
def mqttPublish (g : Cfg) (p : Option PublishInfo) (packetId : UInt16) : M Status := do
  let c ← getCtx
  let st := validatePublishParams c p packetId
  if st ≠ .success then pure st
  else match p with
    | none => ubM .nullDeref
    | some p => do
      let sz := getPublishPacketSize g.W (some p)
      if sz.status ≠ .success then pure sz.status
      else do
        let (header, headerSize) ← liftRes (serializePublishHeaderWithoutTopic p sz.remainingLength (List.replicate 7 0))
        preHook
        let st ← publishLocked g p header headerSize packetId
        postHook
        pure st

/-- `MQTT_Disconnect`, core_mqtt.c 3355-3434, on a non-null context -/
def mqttDisconnect (g : Cfg) : M Status := do
  let (st, buf) ← liftRes (serializeDisconnect (some ⟨some [0, 0], 2⟩))
  if st ≠ .success then pure st
  else do
    preHook
    let c ← getCtx
    let st ← (if c.connectStatus = .notConnected then pure .statusNotConnected
      else do
        modifyCtx fun c => { c with connectStatus := .notConnected }
        resetBuffer
        let bytes := buf.getD []
        let r ← sendBuffer g bytes
        if r.all (fun n => decide (n < bytes.length)) then pure Status.sendFailed else pure .success)
    postHook
    pure st

/-- `MQTT_CancelCallback`, core_mqtt.c 2835-2863, on a non-null context -/
def mqttCancelCallback (packetId : UInt16) : M Status := do
  let c ← getCtx
  if c.tables.outgoing = [] then pure .badParameter
  else do
    preHook
    let st ← onTables fun t => removeStateRecord t packetId
    postHook
    pure st

/-- The result of `MQTT_CheckConnectStatus` for a connection status, core_mqtt.c 2887-2900 -/
def connectStatusCode (s : ConnStatus) : Status :=
  match s with
  | .connected => .statusConnected
  | .disconnectPending => .statusDisconnectPending
  | .notConnected => .statusNotConnected

/-- `MQTT_CheckConnectStatus`, core_mqtt.c 2867-2904, on a non-null context -/
def mqttCheckConnectStatus : M Status := do
  preHook
  let c ← getCtx
  postHook
  pure (connectStatusCode c.connectStatus)

/-- `MQTT_GetPacketId`, core_mqtt.c 3491-3516, on a non-null context -/
def mqttGetPacketId : M UInt16 := do
  preHook
  let c ← getCtx
  let (id, next) := getPacketId c.nextPacketId
  modifyCtx fun c => { c with nextPacketId := next }
  postHook
  pure id

/-- Which of the pointers given to `MQTT_Init` are non-null, core_mqtt.c 2679-2683: the arguments and the two functions of the transport
interface it needs. -/
structure InitPtrs where
  pContext : Bool
  pTransportInterface : Bool
  getTimeFunction : Bool
  userCallback : Bool
  pNetworkBuffer : Bool
  recv : Bool
  send : Bool

/-- `MQTT_Init`, core_mqtt.c 2679-2734: status and the initialised context (`none`: the context is left as it was). -/
def mqttInit (a : InitPtrs) (hasWritev : Bool) (networkBuffer : List UInt8) : Status × Option Ctx :=
  if a.pContext = false ∨ a.pTransportInterface = false ∨ a.pNetworkBuffer = false then (.badParameter, none)
  else if a.getTimeFunction = false then (.badParameter, none)
  else if a.userCallback = false then (.badParameter, none)
  else if a.recv = false then (.badParameter, none)
  else if a.send = false then (.badParameter, none)
  else (.success, some
    { connectStatus := .notConnected, keepAliveIntervalSec := 0, pingReqSendTimeMs := 0, lastPacketTxTime := 0,
      lastPacketRxTime := 0, waitingForPingResp := false, controlPacketSent := false, nextPacketId := 1, index := 0,
      netBuf := networkBuffer, tables := ⟨[], []⟩, hasWritev := hasWritev, retransmits := false })

/-- `MQTT_InitStatefulQoS`, core_mqtt.c 2738-2791, on an initialised context.  Each array is an optional list of
records (its memory) with the count the caller claims. -/
def mqttInitStatefulQoS (c : Ctx) (out : Option Records) (outCount : Nat) (inc : Option Records) (incCount : Nat) : Status × Ctx :=
  if decide (outCount = 0) ≠ out.isNone then (.badParameter, c)
  else if decide (incCount = 0) ≠ inc.isNone then (.badParameter, c)
  else (.success, { c with tables := ⟨(out.getD []).take outCount, (inc.getD []).take incCount⟩ })

/-- `MQTT_InitRetransmits`, core_mqtt.c 2795-2831 (arguments: which of the three callbacks are non-null) -/
def mqttInitRetransmits (c : Ctx) (store retrieve clear : Bool) : Status × Ctx :=
  if store = false ∨ retrieve = false ∨ clear = false then (.badParameter, c)
  else (.success, { c with retransmits := true })

/-- A call of a public function on a non-null context. -/
inductive ApiCall where
  | connect (ci : Option ConnectInfo) (will : Option PublishInfo) (timeoutMs : UInt32) (sp : Option Bool)
  | subscribe (subs : Option (List SubscribeInfo)) (packetId : UInt16)
  | unsubscribe (subs : Option (List SubscribeInfo)) (packetId : UInt16)
  | publish (p : Option PublishInfo) (packetId : UInt16)
  | ping
  | disconnect
  | processLoop
  | receiveLoop
  | cancelCallback (packetId : UInt16)
  | checkConnectStatus
  | getPacketId

/-- What a public function returns. -/
inductive ApiRet where
  | status (s : Status)
  | connect (s : Status) (sp : Option Bool)
  | packetId (id : UInt16)
  deriving DecidableEq, Repr

/-- Run one public function. -/
def apiCall (g : Cfg) : ApiCall → M ApiRet
  | .connect ci will t sp => do
    let (st, sp) ← mqttConnect g ci will t sp
    pure (.connect st sp)
  | .subscribe subs id => do pure (.status (← mqttSubscribe g subs id))
  | .unsubscribe subs id => do pure (.status (← mqttUnsubscribe g subs id))
  | .publish p id => do pure (.status (← mqttPublish g p id))
  | .ping => do pure (.status (← mqttPing g))
  | .disconnect => do pure (.status (← mqttDisconnect g))
  | .processLoop => do pure (.status (← mqttProcessLoop g))
  | .receiveLoop => do pure (.status (← mqttReceiveLoop g))
  | .cancelCallback id => do pure (.status (← mqttCancelCallback id))
  | .checkConnectStatus => do pure (.status (← mqttCheckConnectStatus))
  | .getPacketId => do pure (.packetId (← mqttGetPacketId))

end Mqtt
