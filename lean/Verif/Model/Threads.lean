/-
Several threads that share one context.

The contract of `MQTT_PRE_STATE_UPDATE_HOOK` / `MQTT_POST_STATE_UPDATE_HOOK` (core_mqtt.c 54-69) is mutual exclusion.  A public function is
therefore cut at the hooks: a `Prog` is a tree of atomic steps, where a step is either everything between the two hooks or one
unlocked access (a read or write of the context, a call of the transport, of the clock or of a callback).  Other threads may run between two
steps.  `Verif/Proof/Threads` proves that running the steps of a program without interruption is the sequential function of
`Verif/Model`.
-/
import Verif.Model.Api

namespace Mqtt

/-- A program cut into atomic steps. -/
inductive Prog : Type → Type 1 where
  | ret {α : Type} (a : α) : Prog α
  | step {α β : Type} (m : M β) (k : β → Prog α) : Prog α

namespace Prog

def bind {α β : Type} : Prog α → (α → Prog β) → Prog β
  | .ret a, f => f a
  | .step m k, f => .step m fun b => (k b).bind f

instance : Monad Prog where
  pure := Prog.ret
  bind := Prog.bind

/-- The program without interruption. -/
def run {α : Type} : Prog α → M α
  | .ret a => pure a
  | .step m k => m >>= fun b => (k b).run

end Prog

/-- `MQTT_PRE_STATE_UPDATE_HOOK`; `m`; `MQTT_POST_STATE_UPDATE_HOOK` -/
def locked {α : Type} (m : M α) : M α := do
  preHook
  let a ← m
  postHook
  pure a

/-- One unlocked access. -/
def act {α : Type} (m : M α) : Prog α := .step m .ret

/-- One critical section. -/
def sect {α : Type} (m : M α) : Prog α := .step (locked m) .ret

/-- The loop of `recvExact`, core_mqtt.c 1009-1064 (compare `recvExactLoop`) -/
def recvExactLoopP (g : Cfg) : Nat → Nat → Nat → UInt32 → Prog (Option Nat)
  | 0, _, _, _ => act stuckM
  | fuel + 1, pos, n, lastDataRecvTimeMs =>
    if n > 0 then do
      let r ← act (recvInto pos n)
      match r with
      | none => do
        sect markPending
        pure none
      | some k =>
        if k > 0 then do
          let t ← act getTime
          act (liftRes (cassert (decide (k ≤ n))))
          recvExactLoopP g fuel (pos + k) (n - k) t
        else do
          let t ← act getTime
          if calculateElapsedTime t lastDataRecvTimeMs ≥ g.recvPollingTimeoutMs then pure (some pos)
          else recvExactLoopP g fuel pos n lastDataRecvTimeMs
    else pure (some pos)

/-- `recvExact`, core_mqtt.c 985-1067 -/
def recvExactP (g : Cfg) (bytesToRecv : Nat) : Prog (Option Nat) := do
  let c ← act getCtx
  act (liftRes (cassert (decide (bytesToRecv ≤ c.bufSize))))
  let t ← act getTime
  let fuel ← act recvFuel
  recvExactLoopP g fuel 0 bytesToRecv t

/-- The loop of `discardStoredPacket`, core_mqtt.c 1163-1184 -/
def discardStoredLoopP (g : Cfg) : Nat → Nat → Nat → Prog Nat
  | 0, _, _ => act stuckM
  | fuel + 1, left, bytesToReceive =>
    if left > 0 then do
      let bytesToReceive := if left < bytesToReceive then left else bytesToReceive
      let r ← recvExactP g bytesToReceive
      if r ≠ some bytesToReceive then pure left
      else discardStoredLoopP g fuel (left - bytesToReceive) bytesToReceive
    else pure 0

/-- `discardStoredPacket`, core_mqtt.c 1137-1203 -/
def discardStoredPacketP (g : Cfg) (mqttPacketSize : Nat) : Prog Status := do
  let c ← act getCtx
  act (liftRes (cassert (decide (mqttPacketSize > c.bufSize))))
  let fuel ← act clockFuel
  let left ← discardStoredLoopP g fuel (mqttPacketSize - c.index) c.bufSize
  act resetBuffer
  if left = 0 then pure .noDataAvailable else pure .recvFailed

/-- `sendPublishAcks`, core_mqtt.c 1287-1373: one section sends the packet, a second one updates the state. -/
def sendPublishAcksP (g : Cfg) (packetId : UInt16) (publishState : PubState) : Prog Status := do
  let packetTypeByte := getAckTypeToSend publishState
  if packetTypeByte = 0 then pure .success
  else do
    let packetType ← act (liftRes (getAckFromPacketType packetTypeByte))
    let (st, buf) ← act (liftRes (serializeAck (some ⟨some [0, 0, 0, 0], 4⟩) packetTypeByte packetId))
    if st ≠ .success then pure st
    else do
      let st ← sect (sendIfConnected g (buf.getD []))
      if st ≠ .success then pure st
      else do
        act (modifyCtx fun c => { c with controlPacketSent := true })
        let (st, _) ← sect (updateStateAckM packetId packetType .send)
        pure st

/-- The part of `MQTT_Ping` between the hooks, core_mqtt.c 3257-3283 -/
def pingLocked (g : Cfg) (bytes : List UInt8) : M Status := do
  let st ← sendIfConnected g bytes
  if st = .success then
    modifyCtx fun c => { c with pingReqSendTimeMs := c.lastPacketTxTime, waitingForPingResp := true }
  else pure ()
  pure st

/-- `MQTT_Ping`, core_mqtt.c 3211-3296 -/
def pingP (g : Cfg) : Prog Status := do
  let (st, packetSize) := getPingreqPacketSize true
  if st ≠ .success then pure st
  else do
    act (liftRes (cassert (packetSize == 2)))
    let (st, buf) ← act (liftRes (serializePingreq (some ⟨some [0, 0], 2⟩)))
    if st ≠ .success then pure st
    else sect (pingLocked g (buf.getD []))

/-- `handleKeepAlive`, core_mqtt.c 1377-1428: `waitingForPingResp` and `pingReqSendTimeMs` are read outside the section. -/
def handleKeepAliveP (g : Cfg) : Prog Status := do
  let now ← act getTime
  let c ← act getCtx
  let packetTxTimeoutMs : UInt32 := 1000 * c.keepAliveIntervalSec.toUInt32
  let packetTxTimeoutMs := if g.packetTxTimeoutMs < packetTxTimeoutMs then g.packetTxTimeoutMs else packetTxTimeoutMs
  if c.waitingForPingResp then
    if calculateElapsedTime now c.pingReqSendTimeMs > g.pingrespTimeoutMs then pure .keepAliveTimeout
    else pure .success
  else do
    let c ← sect getCtx
    if packetTxTimeoutMs ≠ 0 ∧ calculateElapsedTime now c.lastPacketTxTime ≥ packetTxTimeoutMs then pingP g
    else do
      let timeElapsed := calculateElapsedTime now c.lastPacketRxTime
      if timeElapsed ≠ 0 ∧ timeElapsed ≥ g.packetRxTimeoutMs then pingP g
      else pure .success

/-- The state update of `handleIncomingPublish`, core_mqtt.c 1461-1530 -/
def recordIncomingPublishP (id : UInt16) (qos : QoS) : Prog (Status × PubState × Bool) := do
  let (st, s) ← sect (updateStatePublishM id .receive qos)
  if st = .success then pure (.success, s.getD .null, false)
  else if st = .stateCollision then pure (.success, calculateStatePublish .receive qos, true)
  else pure (st, .null, false)

/-- `handleIncomingPublish`, core_mqtt.c 1432-1557 -/
def handleIncomingPublishP (g : Cfg) (pk : PacketInfo) : Prog Status := do
  let (st, out) ← act (liftRes (mqttDeserializePublish g.W (some pk) 0))
  match out with
  | none => pure st
  | some (id, p) => do
    let c ← act getCtx
    if st ≠ .success then pure st
    else if c.tables.incoming = [] ∧ p.qos ≠ .qos0 then pure .recvFailed
    else do
      let (st, s, dup) ← recordIncomingPublishP id p.qos
      if st ≠ .success then pure st
      else do
        if dup = false then act (appCallback pk id .success (some p)) else pure ()
        sendPublishAcksP g id s

/-- `handlePublishAcks`, core_mqtt.c 1561-1635 -/
def handlePublishAcksP (g : Cfg) (pk : PacketInfo) : Prog Status := do
  let ackType ← act (liftRes (getAckFromPacketType pk.type))
  let (st, id, _) ← act (liftRes (mqttDeserializeAck (some pk) (some 0) none))
  if st ≠ .success then pure st
  else do
    let id := id.getD 0
    let (st, s) ← sect (updateStateAckM id ackType .receive)
    if st ≠ .success then pure st
    else do
      let c ← act getCtx
      if (ackType = .puback ∨ ackType = .pubrec) ∧ c.retransmits then act (clearCallback id) else pure ()
      act (appCallback pk id .success none)
      sendPublishAcksP g id (s.getD .null)

/-- `handleIncomingAck`, core_mqtt.c 1639-1714: `waitingForPingResp` is written outside a section. -/
def handleIncomingAckP (g : Cfg) (pk : PacketInfo) (manageKeepAlive : Bool) : Prog Status := do
  if pk.type = ptPUBACK ∨ pk.type = ptPUBREC ∨ pk.type = ptPUBREL ∨ pk.type = ptPUBCOMP then handlePublishAcksP g pk
  else if pk.type = ptPINGRESP then do
    let (st, id, _) ← act (liftRes (mqttDeserializeAck (some pk) (some 0) none))
    if st ≠ .success then pure st
    else if manageKeepAlive then do
      act (modifyCtx fun c => { c with waitingForPingResp := false })
      pure .success
    else do
      act (appCallback pk (id.getD 0) st none)
      pure .success
  else if pk.type = ptSUBACK ∨ pk.type = ptUNSUBACK then do
    let (st, id, _) ← act (liftRes (mqttDeserializeAck (some pk) (some 0) none))
    if st = .success ∨ st = .serverRefused then do
      act (appCallback pk (id.getD 0) st none)
      pure .success
    else pure st
  else pure .badResponse

/-- The first part of `receiveSingleIteration`, core_mqtt.c 1728-1766 -/
def receiveHeaderP : Prog (Option Nat × HeaderRes) := do
  let c ← act getCtx
  let r ← act (recvInto c.index (c.bufSize - c.index))
  match r with
  | none => do
    sect markPending
    pure (none, ⟨.recvFailed, 0, 0, 0⟩)
  | some k =>
    if k = 0 ∧ c.index = 0 then pure (some 0, ⟨.noDataAvailable, 0, 0, 0⟩)
    else do
      act (modifyCtx fun c => { c with index := c.index + k })
      let c ← act getCtx
      let h ← act (liftRes (processIncomingPacketTypeAndLength (some c.netBuf) c.index))
      pure (some k, h)

/-- The keep-alive check of `receiveSingleIteration`, core_mqtt.c 1768-1791 -/
def keepAliveCheckP (g : Cfg) (recvBytes : Option Nat) (manageKeepAlive : Bool) (status : Status) : Prog Status :=
  if recvBytes = some 0 ∧ manageKeepAlive then do
    let st ← handleKeepAliveP g
    if st = .success then pure status else pure st
  else pure status

/-- The size checks of `receiveSingleIteration`, core_mqtt.c 1793-1821 -/
def checkCompleteP (g : Cfg) (status : Status) (total : Nat) : Prog Status := do
  let c ← act getCtx
  if status ≠ .success then pure status
  else if total > c.bufSize then discardStoredPacketP g total
  else if total > c.index then pure .needMoreBytes
  else pure .success

/-- `index -= total; memmove( pBuffer, &pBuffer[ total ], index )`, core_mqtt.c 1840-1846; both are undefined (or wrap to a huge size) unless
`total` bytes are in the buffer. -/
def dropPacket (total : Nat) : M Unit := do
  let c ← getCtx
  if total ≤ c.index ∧ c.index ≤ c.bufSize then
    modifyCtx fun c =>
      { c with index := c.index - total, netBuf := writeAt c.netBuf 0 ((c.netBuf.drop total).take (c.index - total)) }
  else ubM .oobRead

/-- Handling of a complete packet in `receiveSingleIteration`, core_mqtt.c 1823-1851.  The packet is read where it lies in the buffer; nobody
but the thread that receives writes there, so the model takes the bytes at the start. -/
def handlePacketP (g : Cfg) (manageKeepAlive : Bool) (h : HeaderRes) : Prog Status := do
  let total := h.remainingLength + h.headerLength
  let c ← act getCtx
  let pk : PacketInfo := ⟨h.type, some (c.netBuf.drop h.headerLength), h.remainingLength, h.headerLength⟩
  let st ← (if (h.type &&& 0xF0) = ptPUBLISH then handleIncomingPublishP g pk else handleIncomingAckP g pk manageKeepAlive)
  act (dropPacket total)
  if st = .success then do
    let t ← act getTime
    act (modifyCtx fun c => { c with lastPacketRxTime := t })
  else pure ()
  pure st

/-- `receiveSingleIteration`, core_mqtt.c 1717-1861 -/
def receiveSingleIterationP (g : Cfg) (manageKeepAlive : Bool) : Prog Status := do
  let (recvBytes, h) ← receiveHeaderP
  let st ← keepAliveCheckP g recvBytes manageKeepAlive h.status
  let st ← checkCompleteP g st (h.remainingLength + h.headerLength)
  let st ← (if st = .success then handlePacketP g manageKeepAlive h else pure st)
  if st = .noDataAvailable then pure .success else pure st

/-- `MQTT_ProcessLoop`, core_mqtt.c 3438-3461 -/
def processLoopP (g : Cfg) : Prog Status := do
  act (modifyCtx fun c => { c with controlPacketSent := false })
  receiveSingleIterationP g true

/-- The PUBREL loop of `handleUncleanSessionResumption`, core_mqtt.c 2539-2549: the records are read outside a section. -/
def resendPubrelsP (g : Cfg) : Nat → Nat → Prog Status
  | 0, _ => act stuckM
  | n + 1, cursor => do
    let c ← act getCtx
    let (packetId, cursor, state) ← act (liftRes (pubrelToResend c.tables cursor))
    if packetId = 0 then pure .success
    else do
      let st ← sendPublishAcksP g packetId (state.getD .null)
      if st ≠ .success then pure st else resendPubrelsP g n cursor

/-- The PUBLISH loop of `handleUncleanSessionResumption`, core_mqtt.c 2554-2580 -/
def resendPublishesP (g : Cfg) : Nat → Nat → Prog Status
  | 0, _ => act stuckM
  | n + 1, cursor => do
    let c ← act getCtx
    let (packetId, cursor) ← act (liftRes (publishToResend c.tables cursor))
    if packetId = 0 then pure .success
    else do
      let r ← act (retrieveCallback packetId)
      match r with
      | none => pure .publishRetrieveFailed
      | some bytes => do
        let r ← sect (sendBuffer g bytes)
        if r ≠ some bytes.length then pure .sendFailed else resendPublishesP g n cursor

/-- `handleUncleanSessionResumption`, core_mqtt.c 2528-2584 -/
def handleUncleanSessionResumptionP (g : Cfg) : Prog Status := do
  let c ← act getCtx
  let n := c.tables.outgoing.length + 1
  let st ← resendPubrelsP g n 0
  if st = .success ∧ c.retransmits then resendPublishesP g n 0 else pure st

/-- The failure path at the end of `MQTT_Connect`, core_mqtt.c 2995-3028 -/
def connectFailedP (st : Status) : Prog Unit :=
  if st = .success ∨ st = .statusConnected ∨ st = .statusDisconnectPending then pure ()
  else sect markPending

/-- The part of `MQTT_Connect` after the parameter checks, core_mqtt.c 2943-2993 -/
def connectCoreP (g : Cfg) (ci : ConnectInfo) (will : Option PublishInfo) (remainingLength : Nat) (timeoutMs : UInt32) (sp0 : Bool) :
    Prog (Status × Bool) := do
  let (st, sp) ← sect (connectLocked g ci will remainingLength timeoutMs sp0)
  if st = .success ∧ sp then do
    let st ← handleUncleanSessionResumptionP g
    pure (st, sp)
  else pure (st, sp)

/-- `MQTT_Connect`, core_mqtt.c 2908-3031 -/
def connectP (g : Cfg) (ci : Option ConnectInfo) (will : Option PublishInfo) (timeoutMs : UInt32) (sp : Option Bool) :
    Prog (Status × Option Bool) :=
  match ci, sp with
  | some ci, some sp0 => do
    let sz := getConnectPacketSize (some ci) will
    let (st, sp1) ← (if sz.status = .success then connectCoreP g ci will sz.remainingLength timeoutMs sp0
      else pure (sz.status, sp0))
    connectFailedP st
    pure (st, some sp1)
  | _, _ => do
    connectFailedP .badParameter
    pure (.badParameter, sp)

/-- The part of `MQTT_Subscribe` / `MQTT_Unsubscribe` between the hooks, core_mqtt.c 3061-3079, 3326-3344 -/
def subUnsubLocked (g : Cfg) (ty : SubType) (subs : List SubscribeInfo) (packetId : UInt16) (remainingLength : Nat) : M Status := do
  let c ← getCtx
  if c.connectStatus ≠ .connected then pure (notConnectedStatus c.connectStatus)
  else sendFiltersWithoutCopy g ty subs packetId remainingLength

/-- `MQTT_Subscribe`, core_mqtt.c 3035-3086, and `MQTT_Unsubscribe`, 3300-3351 -/
def subUnsubP (g : Cfg) (ty : SubType) (subs : Option (List SubscribeInfo)) (packetId : UInt16) : Prog Status := do
  let c ← act getCtx
  let st := validateSubscribeUnsubscribeParams c subs packetId
  if st ≠ .success then pure st
  else do
    let sz := getSubscriptionPacketSize g.W ty subs
    if sz.status ≠ .success then pure sz.status
    else sect (subUnsubLocked g ty (subs.getD []) packetId sz.remainingLength)

/-- `MQTT_Publish`, core_mqtt.c 3090-3207 -/
def publishP (g : Cfg) (p : Option PublishInfo) (packetId : UInt16) : Prog Status := do
  let c ← act getCtx
  let st := validatePublishParams c p packetId
  if st ≠ .success then pure st
  else match p with
    | none => act (ubM .nullDeref)
    | some p => do
      let sz := getPublishPacketSize g.W (some p)
      if sz.status ≠ .success then pure sz.status
      else do
        let (header, headerSize) ← act (liftRes (serializePublishHeaderWithoutTopic p sz.remainingLength (List.replicate 7 0)))
        sect (publishLocked g p header headerSize packetId)

/-- The part of `MQTT_Disconnect` between the hooks, core_mqtt.c 3390-3429 -/
def disconnectLocked (g : Cfg) (bytes : List UInt8) : M Status := do
  let c ← getCtx
  if c.connectStatus = .notConnected then pure .statusNotConnected
  else do
    modifyCtx fun c => { c with connectStatus := .notConnected }
    resetBuffer
    let r ← sendBuffer g bytes
    if r.all (fun n => decide (n < bytes.length)) then pure Status.sendFailed else pure .success

/-- `MQTT_Disconnect`, core_mqtt.c 3355-3434 -/
def disconnectP (g : Cfg) : Prog Status := do
  let (st, buf) ← act (liftRes (serializeDisconnect (some ⟨some [0, 0], 2⟩)))
  if st ≠ .success then pure st
  else sect (disconnectLocked g (buf.getD []))

/-- `MQTT_CancelCallback`, core_mqtt.c 2835-2863 -/
def cancelP (packetId : UInt16) : Prog Status := do
  let c ← act getCtx
  if c.tables.outgoing = [] then pure .badParameter
  else sect (onTables fun t => removeStateRecord t packetId)

/-- `MQTT_CheckConnectStatus`, core_mqtt.c 2867-2904 -/
def checkP : Prog Status := do
  let c ← sect getCtx
  pure (connectStatusCode c.connectStatus)

/-- `MQTT_GetPacketId`, core_mqtt.c 3491-3516 -/
def getPacketIdP : Prog UInt16 := sect do
  let c ← getCtx
  let (id, next) := getPacketId c.nextPacketId
  modifyCtx fun c => { c with nextPacketId := next }
  pure id

/-- A public function as a program (compare `apiCall`). -/
def callP (g : Cfg) : ApiCall → Prog ApiRet
  | .connect ci will t sp => do
    let (st, sp) ← connectP g ci will t sp
    pure (.connect st sp)
  | .subscribe subs id => do pure (.status (← subUnsubP g .subscribe subs id))
  | .unsubscribe subs id => do pure (.status (← subUnsubP g .unsubscribe subs id))
  | .publish p id => do pure (.status (← publishP g p id))
  | .ping => do pure (.status (← pingP g))
  | .disconnect => do pure (.status (← disconnectP g))
  | .processLoop => do pure (.status (← processLoopP g))
  | .receiveLoop => do pure (.status (← receiveSingleIterationP g false))
  | .cancelCallback id => do pure (.status (← cancelP id))
  | .checkConnectStatus => do pure (.status (← checkP))
  | .getPacketId => do pure (.packetId (← getPacketIdP))

/-- What one thread does with the library: it calls a function, looks at the result, and decides what to call next. -/
inductive Client where
  | stop
  | call (c : ApiCall) (next : ApiRet → Client)

/-- The thread as a program. -/
def Client.prog (g : Cfg) : Client → Prog Unit
  | .stop => .ret ()
  | .call c next => (callP g c).bind fun r => (next r).prog g

/-- Threads that share one context: what each has still to do, and the world. -/
structure Pool where
  threads : List (Prog Unit)
  world : World

/-- Thread `i` executes its next step. -/
inductive Pool.Step : Nat → Pool → Pool → Prop
  | step {β : Type} {p : Pool} {i : Nat} {m : M β} {k : β → Prog Unit} {b : β} {w' : World} : p.threads[i]? = some (.step m k) →
      m p.world = .done b w' → Pool.Step i p ⟨p.threads.set i (k b), w'⟩

/-- Any number of steps, in any order of the threads. -/
inductive Pool.Steps : Pool → Pool → Prop
  | refl {p : Pool} : Pool.Steps p p
  | step {p q r : Pool} {i : Nat} : Pool.Steps p q → Pool.Step i q r → Pool.Steps p r

end Mqtt
