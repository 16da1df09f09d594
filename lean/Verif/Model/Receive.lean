/-
Model of the receiving half of source/core_mqtt.c: exact reads, discarding, keep-alive, incoming packets, `receiveSingleIteration`.
-/
import Verif.Model.Send

namespace Mqtt

/-- `memcpy` of received bytes to offset `pos` of the network buffer. -/
def writeAt (mem : List UInt8) (pos : Nat) (bs : List UInt8) : List UInt8 :=
  mem.take pos ++ bs ++ mem.drop (pos + bs.length)

/-- `recv( pNetworkContext, &networkBuffer.pBuffer[ pos ], n )`.  A request that does not fit behind `pos` allows the transport
to write outside the buffer: undefined behaviour. -/
def recvInto (pos n : Nat) : M (Option Nat) := do
  let c ← getCtx
  if pos + n ≤ c.bufSize then do
    let r ← transportRecv n
    match r with
    | none => pure none
    | some bs => do
      modifyCtx fun c => { c with netBuf := writeAt c.netBuf pos bs }
      pure (some bs.length)
  else ubM .oobWrite

/-- `markPending` inside the state-update hooks, core_mqtt.c 1022-1029 and 1738-1745 -/
def markPendingHooked : M Unit := do
  preHook
  markPending
  postHook

/-- The loop of `recvExact`, core_mqtt.c 1009-1064: `pos` is `pIndex` as an offset (also `totalBytesRecvd`), `n` is `bytesRemaining`.
Result: `none` for a negative `totalBytesRecvd`. -/
def recvExactLoop (g : Cfg) : Nat → Nat → Nat → UInt32 → M (Option Nat)
  | 0, _, _, _ => stuckM
  | fuel + 1, pos, n, lastDataRecvTimeMs =>
    if n > 0 then do
      let r ← recvInto pos n
      match r with
      | none => do
        markPendingHooked
        pure none
      | some k =>
        if k > 0 then do
          let t ← getTime
          liftRes (cassert (decide (k ≤ n)))
          recvExactLoop g fuel (pos + k) (n - k) t
        else do
          let t ← getTime
          if calculateElapsedTime t lastDataRecvTimeMs ≥ g.recvPollingTimeoutMs then pure (some pos)
          else recvExactLoop g fuel pos n lastDataRecvTimeMs
    else pure (some pos)

/-- `recvExact`, core_mqtt.c 985-1067: number of bytes stored at the front of the network buffer, or `none` for an error. -/
def recvExact (g : Cfg) (bytesToRecv : Nat) : M (Option Nat) := do
  let c ← getCtx
  liftRes (cassert (decide (bytesToRecv ≤ c.bufSize)))
  let t ← getTime
  let fuel ← recvFuel
  recvExactLoop g fuel 0 bytesToRecv t

/-- The loop of `discardPacket`, core_mqtt.c 1092-1122: `left` is `remainingLength - totalBytesReceived`; the result is its final
value (0: everything received). -/
def discardLoop (g : Cfg) (timeoutMs entryTimeMs : UInt32) : Nat → Nat → Nat → M Nat
  | 0, _, _ => stuckM
  | fuel + 1, left, bytesToReceive =>
    if left > 0 then do
      let bytesToReceive := if left < bytesToReceive then left else bytesToReceive
      let r ← recvExact g bytesToReceive
      if r ≠ some bytesToReceive then pure left
      else do
        let t ← getTime
        if calculateElapsedTime t entryTimeMs ≥ timeoutMs then pure (left - bytesToReceive)
        else discardLoop g timeoutMs entryTimeMs fuel (left - bytesToReceive) bytesToReceive
    else pure 0

/-- `discardPacket`, core_mqtt.c 1071-1133.  Every round reads the clock at least once. -/
def discardPacket (g : Cfg) (remainingLength : Nat) (timeoutMs : UInt32) : M Status := do
  let c ← getCtx
  let entryTimeMs ← getTime
  let fuel ← clockFuel
  let left ← discardLoop g timeoutMs entryTimeMs fuel remainingLength c.bufSize
  if left = 0 then pure .noDataAvailable else pure .recvFailed

/-- The loop of `discardStoredPacket`, core_mqtt.c 1163-1184 -/
def discardStoredLoop (g : Cfg) : Nat → Nat → Nat → M Nat
  | 0, _, _ => stuckM
  | fuel + 1, left, bytesToReceive =>
    if left > 0 then do
      let bytesToReceive := if left < bytesToReceive then left else bytesToReceive
      let r ← recvExact g bytesToReceive
      if r ≠ some bytesToReceive then pure left
      else discardStoredLoop g fuel (left - bytesToReceive) bytesToReceive
    else pure 0

/-- `memset( networkBuffer.pBuffer, 0, networkBuffer.size ); index = 0`, core_mqtt.c 1194-1200, 2594-2596, 3405-3407 -/
def resetBuffer : M Unit := modifyCtx fun c => { c with netBuf := List.replicate c.bufSize 0, index := 0 }

/-- `discardStoredPacket`, core_mqtt.c 1137-1203; `mqttPacketSize` is `remainingLength + headerLength`.  Every round
reads the clock at least once. -/
def discardStoredPacket (g : Cfg) (mqttPacketSize : Nat) : M Status := do
  let c ← getCtx
  liftRes (cassert (decide (mqttPacketSize > c.bufSize)))
  let fuel ← clockFuel
  let left ← discardStoredLoop g fuel (mqttPacketSize - c.index) c.bufSize
  resetBuffer
  if left = 0 then pure .noDataAvailable else pure .recvFailed

/-- `receivePacket`, core_mqtt.c 1207-1251 -/
def receivePacket (g : Cfg) (remainingLength : Nat) (remainingTimeMs : UInt32) : M Status := do
  let c ← getCtx
  if remainingLength > c.bufSize then discardPacket g remainingLength remainingTimeMs
  else do
    let r ← recvExact g remainingLength
    if r = some remainingLength then pure .success else pure .recvFailed

/-- `handleKeepAlive`, core_mqtt.c 1377-1428 -/
def handleKeepAlive (g : Cfg) : M Status := do
  let now ← getTime
  let c ← getCtx
  let packetTxTimeoutMs : UInt32 := 1000 * c.keepAliveIntervalSec.toUInt32
  let packetTxTimeoutMs := if g.packetTxTimeoutMs < packetTxTimeoutMs then g.packetTxTimeoutMs else packetTxTimeoutMs
  if c.waitingForPingResp then
    if calculateElapsedTime now c.pingReqSendTimeMs > g.pingrespTimeoutMs then pure .keepAliveTimeout
    else pure .success
  else do
    preHook
    let c ← getCtx
    postHook
    if packetTxTimeoutMs ≠ 0 ∧ calculateElapsedTime now c.lastPacketTxTime ≥ packetTxTimeoutMs then mqttPing g
    else do
      let timeElapsed := calculateElapsedTime now c.lastPacketRxTime
      if timeElapsed ≠ 0 ∧ timeElapsed ≥ g.packetRxTimeoutMs then mqttPing g
      else pure .success

/-- The state update of `handleIncomingPublish`, core_mqtt.c 1461-1530: status, state that decides the acknowledgement, and whether
the publish is a duplicate. -/
def recordIncomingPublish (id : UInt16) (qos : QoS) : M (Status × PubState × Bool) := do
  preHook
  let (st, s) ← updateStatePublishM id .receive qos
  postHook
  if st = .success then pure (.success, s.getD .null, false)
  else if st = .stateCollision then pure (.success, calculateStatePublish .receive qos, true)
  else pure (st, .null, false)

/-- `handleIncomingPublish`, core_mqtt.c 1432-1557 -/
def handleIncomingPublish (g : Cfg) (pk : PacketInfo) : M Status := do
  let (st, out) ← liftRes (mqttDeserializePublish g.W (some pk) 0)
  match out with
  | none => pure st
  | some (id, p) => do
    let c ← getCtx
    if st ≠ .success then pure st
    else if c.tables.incoming = [] ∧ p.qos ≠ .qos0 then pure .recvFailed
    else do
      let (st, s, dup) ← recordIncomingPublish id p.qos
      if st ≠ .success then pure st
      else do
        if dup = false then appCallback pk id .success (some p) else pure ()
        sendPublishAcks g id s

/-- `handlePublishAcks`, core_mqtt.c 1561-1635 -/
def handlePublishAcks (g : Cfg) (pk : PacketInfo) : M Status := do
  let ackType ← liftRes (getAckFromPacketType pk.type)
  let (st, id, _) ← liftRes (mqttDeserializeAck (some pk) (some 0) none)
  if st ≠ .success then pure st
  else do
    let id := id.getD 0
    preHook
    let (st, s) ← updateStateAckM id ackType .receive
    postHook
    if st ≠ .success then pure st
    else do
      let c ← getCtx
      if (ackType = .puback ∨ ackType = .pubrec) ∧ c.retransmits then clearCallback id else pure ()
      appCallback pk id .success none
      sendPublishAcks g id (s.getD .null)

/-- `handleIncomingAck`, core_mqtt.c 1639-1714 -/
def handleIncomingAck (g : Cfg) (pk : PacketInfo) (manageKeepAlive : Bool) : M Status := do
  if pk.type = ptPUBACK ∨ pk.type = ptPUBREC ∨ pk.type = ptPUBREL ∨ pk.type = ptPUBCOMP then handlePublishAcks g pk
  else if pk.type = ptPINGRESP then do
    let (st, id, _) ← liftRes (mqttDeserializeAck (some pk) (some 0) none)
    if st ≠ .success then pure st
    else if manageKeepAlive then do
      modifyCtx fun c => { c with waitingForPingResp := false }
      pure .success
    else do
      appCallback pk (id.getD 0) st none
      pure .success
  else if pk.type = ptSUBACK ∨ pk.type = ptUNSUBACK then do
    let (st, id, _) ← liftRes (mqttDeserializeAck (some pk) (some 0) none)
    if st = .success ∨ st = .serverRefused then do
      appCallback pk (id.getD 0) st none
      pure .success
    else pure st
  else pure .badResponse

/-- The first part of `receiveSingleIteration`, core_mqtt.c 1728-1766: read into the free part of the buffer and parse the
header.  Result: number of bytes received (`none`: error) and the parse result. -/
def receiveHeader : M (Option Nat × HeaderRes) := do
  let c ← getCtx
  let r ← recvInto c.index (c.bufSize - c.index)
  match r with
  | none => do
    markPendingHooked
    pure (none, ⟨.recvFailed, 0, 0, 0⟩)
  | some k =>
    if k = 0 ∧ c.index = 0 then pure (some 0, ⟨.noDataAvailable, 0, 0, 0⟩)
    else do
      modifyCtx fun c => { c with index := c.index + k }
      let c ← getCtx
      let h ← liftRes (processIncomingPacketTypeAndLength (some c.netBuf) c.index)
      pure (some k, h)

/-- The keep-alive check of `receiveSingleIteration`, core_mqtt.c 1768-1791 -/
def keepAliveCheck (g : Cfg) (recvBytes : Option Nat) (manageKeepAlive : Bool) (status : Status) : M Status :=
  if recvBytes = some 0 ∧ manageKeepAlive then do
    let st ← handleKeepAlive g
    if st = .success then pure status else pure st
  else pure status

/-- The size checks of `receiveSingleIteration`, core_mqtt.c 1793-1821 -/
def checkComplete (g : Cfg) (status : Status) (total : Nat) : M Status := do
  let c ← getCtx
  if status ≠ .success then pure status
  else if total > c.bufSize then discardStoredPacket g total
  else if total > c.index then pure .needMoreBytes
  else pure .success

/-- Handling of a complete packet in `receiveSingleIteration`, core_mqtt.c 1823-1851 -/
def handlePacket (g : Cfg) (manageKeepAlive : Bool) (h : HeaderRes) : M Status := do
  let total := h.remainingLength + h.headerLength
  let c ← getCtx
  let pk : PacketInfo := ⟨h.type, some (c.netBuf.drop h.headerLength), h.remainingLength, h.headerLength⟩
  let st ← (if (h.type &&& 0xF0) = ptPUBLISH then handleIncomingPublish g pk else handleIncomingAck g pk manageKeepAlive)
  let c ← getCtx
  -- index -= total; memmove( pBuffer, &pBuffer[ total ], index )
  if total ≤ c.index ∧ c.index ≤ c.bufSize then do
    modifyCtx fun c =>
      { c with index := c.index - total, netBuf := writeAt c.netBuf 0 ((c.netBuf.drop total).take (c.index - total)) }
    if st = .success then do
      let t ← getTime
      modifyCtx fun c => { c with lastPacketRxTime := t }
    else pure ()
    pure st
  else ubM .oobRead

/-- `receiveSingleIteration`, core_mqtt.c 1717-1861 -/
def receiveSingleIteration (g : Cfg) (manageKeepAlive : Bool) : M Status := do
  let (recvBytes, h) ← receiveHeader
  let st ← keepAliveCheck g recvBytes manageKeepAlive h.status
  let st ← checkComplete g st (h.remainingLength + h.headerLength)
  let st ← (if st = .success then handlePacket g manageKeepAlive h else pure st)
  if st = .noDataAvailable then pure .success else pure st

/-- `MQTT_ProcessLoop`, core_mqtt.c 3438-3461, on an initialised context -/
def mqttProcessLoop (g : Cfg) : M Status := do
  modifyCtx fun c => { c with controlPacketSent := false }
  receiveSingleIteration g true

/-- `MQTT_ReceiveLoop`, core_mqtt.c 3465-3487, on an initialised context -/
def mqttReceiveLoop (g : Cfg) : M Status := receiveSingleIteration g false

end Mqtt
