/-
State and environment of source/core_mqtt.c.

A function of core_mqtt.c that reads the clock, calls the transport or a user callback, or changes the context is modelled as
a state transformer `M α`.  The answers of the environment come from scripts in the `World`; every interaction is recorded in a
trace.  A script that is used up gives the outcome `stuck`: the call into the environment never returned (or the
device crashed there); the world reached so far is part of that outcome.
-/
import Verif.Model.Util
import Verif.Model.State
import Verif.Model.Serializer

namespace Mqtt

/-- `MQTTConnectionStatus_t`, core_mqtt.h 165-170 -/
inductive ConnStatus where
  | notConnected | connected | disconnectPending
  deriving DecidableEq, Repr

/-- Compile-time configuration, core_mqtt_config_defaults.h 76-191 (the constants keep their C meaning; `W` is the number of
`size_t` values). -/
structure Cfg where
  W : Nat
  /-- `MQTT_SUB_UNSUB_MAX_VECTORS`, core_mqtt_config_defaults.h 76 -/
  subUnsubMaxVectors : Nat
  /-- `MQTT_MAX_CONNACK_RECEIVE_RETRY_COUNT`, core_mqtt_config_defaults.h 93 -/
  connackRetryCount : Nat
  /-- `MQTT_PINGRESP_TIMEOUT_MS`, core_mqtt_config_defaults.h 117 -/
  pingrespTimeoutMs : UInt32
  /-- `PACKET_TX_TIMEOUT_MS`, core_mqtt_config_defaults.h 131 -/
  packetTxTimeoutMs : UInt32
  /-- `PACKET_RX_TIMEOUT_MS`, core_mqtt_config_defaults.h 143 -/
  packetRxTimeoutMs : UInt32
  /-- `MQTT_RECV_POLLING_TIMEOUT_MS`, core_mqtt_config_defaults.h 168 -/
  recvPollingTimeoutMs : UInt32
  /-- `MQTT_SEND_TIMEOUT_MS`, core_mqtt_config_defaults.h 191 -/
  sendTimeoutMs : UInt32
  deriving Repr

/-- `MQTTContext_t`, core_mqtt.h 230-322.  Simplifications: the function pointers that `MQTT_Init` checks are present;
`hasWritev` says whether `transportInterface.writev` is set, `retransmits` whether `MQTT_InitRetransmits` installed its three
callbacks; the network buffer is real memory of exactly `networkBuffer.size` bytes (`MQTT_Init` trusts the caller with this). -/
structure Ctx where
  connectStatus : ConnStatus
  keepAliveIntervalSec : UInt16
  pingReqSendTimeMs : UInt32
  lastPacketTxTime : UInt32
  lastPacketRxTime : UInt32
  waitingForPingResp : Bool
  controlPacketSent : Bool
  nextPacketId : UInt16
  index : Nat
  netBuf : List UInt8
  tables : Tables
  hasWritev : Bool
  retransmits : Bool
  deriving DecidableEq, Repr

/-- `networkBuffer.size` -/
def Ctx.bufSize (c : Ctx) : Nat := c.netBuf.length

/-- What the application callback can see of an incoming PUBLISH (`MQTTPublishInfo_t`): the topic and payload bytes within
their announced lengths. -/
structure PubView where
  qos : QoS
  retain : Bool
  dup : Bool
  topic : List UInt8
  payload : List UInt8
  deriving DecidableEq, Repr

/-- One interaction with the environment. -/
inductive Event where
  /-- the transport was offered `bytes` and accepted the first `k` of them (`some k`) or failed (`none`) -/
  | sent (bytes : List UInt8) (accepted : Option Nat)
  /-- the transport was asked for at most `n` bytes and delivered `got`, or failed (`none`) -/
  | recvd (n : Nat) (got : Option (List UInt8))
  | time (t : UInt32)
  /-- `MQTT_PRE_STATE_UPDATE_HOOK`, core_mqtt.c 54-60 -/
  | pre
  /-- `MQTT_POST_STATE_UPDATE_HOOK`, core_mqtt.c 62-69 -/
  | post
  /-- application callback: packet type byte, remaining data, packet id, deserialization result, publish info -/
  | app (type : UInt8) (body : List UInt8) (id : UInt16) (result : Status) (pub : Option PubView)
  | store (id : UInt16) (vec : List IoVec) (ok : Bool)
  | retrieve (id : UInt16) (packet : Option (List UInt8))
  | clear (id : UInt16)
  deriving DecidableEq, Repr

/-- Answer of transport `send` / `writev`: failure, or the number of bytes it is willing to accept. -/
inductive SendAns where
  | fail
  | accept (k : Nat)
  deriving DecidableEq, Repr

/-- Answer of transport `recv`: failure, or the number of bytes of the incoming stream it is willing to deliver. -/
inductive RecvAns where
  | fail
  | deliver (k : Nat)
  deriving DecidableEq, Repr

/-- Everything the environment will answer. -/
structure Env where
  sends : List SendAns
  recvs : List RecvAns
  /-- bytes the peer has sent and the transport has not delivered yet -/
  input : List UInt8
  clock : List UInt32
  stores : List Bool
  retrieves : List (Option (List UInt8))
  deriving DecidableEq, Repr

structure World where
  ctx : Ctx
  env : Env
  trace : List Event
  deriving DecidableEq, Repr

/-- Outcome of running a function: it returned, it is waiting forever (or the device crashed), or it has no defined
behaviour. -/
inductive Out (α : Type) where
  | done (a : α) (w : World)
  | stuck (w : World)
  | ub (e : UB) (w : World)
  deriving DecidableEq, Repr

/-- The world in which a run ended, whatever the outcome. -/
def Out.world {α : Type} : Out α → World
  | .done _ w => w
  | .stuck w => w
  | .ub _ w => w

def M (α : Type) := World → Out α

namespace M

def pure {α : Type} (a : α) : M α := fun w => .done a w

def bind {α β : Type} (m : M α) (f : α → M β) : M β := fun w =>
  match m w with
  | .done a w' => f a w'
  | .stuck w' => .stuck w'
  | .ub e w' => .ub e w'

instance : Monad M where
  pure := M.pure
  bind := M.bind

instance : LawfulMonad M := LawfulMonad.mk'
  (id_map := by intro α x; funext w; show M.bind x _ w = _; unfold M.bind; cases x w <;> rfl)
  (pure_bind := by intros; rfl)
  (bind_assoc := by
    intro α β γ x f g; funext w
    show M.bind (M.bind x f) g w = M.bind x (fun a => M.bind (f a) g) w
    unfold M.bind; cases x w <;> rfl)

end M

/-- The call never returns. -/
def stuckM {α : Type} : M α := fun w => .stuck w

/-- Undefined behaviour. -/
def ubM {α : Type} (e : UB) : M α := fun w => .ub e w

/-- Run a pure function of the serializer or state engine. -/
def liftRes {α : Type} (r : Res α) : M α := fun w =>
  match r with
  | .ok a => .done a w
  | .ub e => .ub e w

def getCtx : M Ctx := fun w => .done w.ctx w

def modifyCtx (f : Ctx → Ctx) : M Unit := fun w => .done () { w with ctx := f w.ctx }

def emit (e : Event) : M Unit := fun w => .done () { w with trace := w.trace ++ [e] }

/-- `MQTT_PRE_STATE_UPDATE_HOOK( pContext )`, core_mqtt.c 54-60 -/
def preHook : M Unit := emit .pre

/-- `MQTT_POST_STATE_UPDATE_HOOK( pContext )`, core_mqtt.c 62-69 -/
def postHook : M Unit := emit .post

/-- `pContext->getTime()` -/
def getTime : M UInt32 := fun w =>
  match w.env.clock with
  | [] => .stuck w
  | t :: rest => .done t { w with env := { w.env with clock := rest }, trace := w.trace ++ [.time t] }

/-- `transportInterface.send` on the given bytes, or `writev` on their concatenation.  The transport contract
(transport_interface.h 227-247, 266-295) bounds the answer by the number of bytes offered.  `none` is a negative result. -/
def transportSend (bytes : List UInt8) : M (Option Nat) := fun w =>
  match w.env.sends with
  | [] => .stuck w
  | .fail :: rest =>
    .done none { w with env := { w.env with sends := rest }, trace := w.trace ++ [.sent bytes none] }
  | .accept k :: rest =>
    .done (some (min k bytes.length))
      { w with env := { w.env with sends := rest }, trace := w.trace ++ [.sent bytes (some (min k bytes.length))] }

/-- `transportInterface.recv` for at most `n` bytes (transport_interface.h 197-225): the delivered bytes are the next bytes of the
incoming stream, at most `n`.  `none` is a negative result. -/
def transportRecv (n : Nat) : M (Option (List UInt8)) := fun w =>
  match w.env.recvs with
  | [] => .stuck w
  | .fail :: rest =>
    .done none { w with env := { w.env with recvs := rest }, trace := w.trace ++ [.recvd n none] }
  | .deliver k :: rest =>
    let got := w.env.input.take (min k n)
    .done (some got)
      { w with env := { w.env with recvs := rest, input := w.env.input.drop (min k n) }, trace := w.trace ++ [.recvd n (some got)] }

/-- The number of remaining answers of the transport's send function (plus one): the loops below consume one answer per
iteration, so a recursion bound of this size is never the reason for stopping. -/
def sendFuel : M Nat := fun w => .done (w.env.sends.length + 1) w

/-- The same for receive calls. -/
def recvFuel : M Nat := fun w => .done (w.env.recvs.length + 1) w

/-- The same for clock readings. -/
def clockFuel : M Nat := fun w => .done (w.env.clock.length + 1) w

/-- `pContext->appCallback( pContext, pPacketInfo, pDeserializedInfo )`.  Simplification: in the sequential model the
callback does not call back into the library; what happens when it does is in Spec/Nested.lean (C63). -/
def appCallback (pk : PacketInfo) (id : UInt16) (result : Status) (pub : Option PublishInfo) : M Unit :=
  emit (.app pk.type ((pk.pRemainingData.getD []).take pk.remainingLength) id result
    (pub.map fun p => ⟨p.qos, p.retain, p.dup, (p.pTopicName.getD []).take p.topicNameLength.toNat,
      (p.pPayload.getD []).take p.payloadLength⟩))

/-- `pContext->storeFunction( pContext, packetId, &mqttVec )` -/
def storeCallback (id : UInt16) (vec : List IoVec) : M Bool := fun w =>
  match w.env.stores with
  | [] => .stuck w
  | b :: rest => .done b { w with env := { w.env with stores := rest }, trace := w.trace ++ [.store id vec b] }

/-- `pContext->retrieveFunction( pContext, packetId, &pMqttPacket, &totalMessageLength )`; `none` is the result `false`.
Simplification: on `true` the returned pointer is valid memory of exactly the returned length. -/
def retrieveCallback (id : UInt16) : M (Option (List UInt8)) := fun w =>
  match w.env.retrieves with
  | [] => .stuck w
  | p :: rest => .done p { w with env := { w.env with retrieves := rest }, trace := w.trace ++ [.retrieve id p] }

/-- `pContext->clearFunction( pContext, packetId )` -/
def clearCallback (id : UInt16) : M Unit := emit (.clear id)

/-- Run a function of the state engine (core_mqtt_state.c) on the context's tables. -/
def onTables {α : Type} (f : Tables → Res (α × Tables)) : M α := fun w =>
  match f w.ctx.tables with
  | .ok (a, t) => .done a { w with ctx := { w.ctx with tables := t } }
  | .ub e => .ub e w

/-- `if( pContext->connectStatus == MQTTConnected ) pContext->connectStatus = MQTTDisconnectPending;` (core_mqtt.c
838-841, 922-925, 1024-1027, 1740-1743, 3016-3025) -/
def markPending : M Unit := modifyCtx fun c =>
  if c.connectStatus = .connected then { c with connectStatus := .disconnectPending } else c

/-- `calculateElapsedTime`, core_mqtt.c 945-949 (`uint32_t` arithmetic) -/
def calculateElapsedTime (later start : UInt32) : UInt32 := later - start

/-- The status returned by the senders when the connection is not established, e.g. core_mqtt.c 3067-3070. -/
def notConnectedStatus (s : ConnStatus) : Status :=
  if s = .notConnected then .statusNotConnected else .statusDisconnectPending

end Mqtt
