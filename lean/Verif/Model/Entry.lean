/-
The checks of the context at the beginning of the public functions of source/core_mqtt.c: the pointer to the context, and the pointers in it that
`MQTT_ProcessLoop`, `MQTT_ReceiveLoop` and `MQTT_InitStatefulQoS` look at.
-/
import Verif.Model.Api

namespace Mqtt

/-- Which pointers in a context are set: `getTime`, `appCallback`, `networkBuffer.pBuffer` (core_mqtt.h 230-322). -/
structure CtxPtrs where
  getTime : Bool
  appCallback : Bool
  pBuffer : Bool
  deriving DecidableEq, Repr

/-- A public function called with a pointer to a context (`none`: null).  The checks are in `MQTT_Connect` (core_mqtt.c 2921-2929 and 3007-3011),
`validateSubscribeUnsubscribeParams` (1873-1880), `validatePublishParams` (2640-2648), `MQTT_Ping` (3225-3229), `MQTT_Disconnect` (3368-3372),
`MQTT_ProcessLoop` (3442-3453), `MQTT_ReceiveLoop` (3469-3480), `MQTT_CancelCallback` (2840-2844), `MQTT_CheckConnectStatus` (2872-2877) and
`MQTT_GetPacketId` (3495). -/
def mqttEntry (g : Cfg) (p : Option CtxPtrs) (f : ApiCall) : M ApiRet :=
  match p, f with
  | none, .connect _ _ _ sp => pure (.connect .badParameter sp)
  | none, .getPacketId => pure (.packetId 0)
  | none, _ => pure (.status .badParameter)
  | some p, .processLoop => if p.getTime = false ∨ p.pBuffer = false then pure (.status .badParameter) else apiCall g .processLoop
  | some p, .receiveLoop => if p.getTime = false ∨ p.pBuffer = false then pure (.status .badParameter) else apiCall g .receiveLoop
  | some _, f => apiCall g f

/-- `MQTT_InitStatefulQoS`, core_mqtt.c 2738-2791, with a pointer to any context: the result and the context afterwards (`none`: null). -/
def mqttInitStatefulQoSAt (p : Option (CtxPtrs × Ctx)) (out : Option Records) (outCount : Nat) (inc : Option Records) (incCount : Nat) :
    Status × Option Ctx :=
  match p with
  | none => (.badParameter, none)
  | some (p, c) =>
    if decide (outCount = 0) ≠ out.isNone then (.badParameter, some c)
    else if decide (incCount = 0) ≠ inc.isNone then (.badParameter, some c)
    else if p.appCallback = false then (.badParameter, some c)
    else
      let (st, c) := mqttInitStatefulQoS c out outCount inc incCount
      (st, some c)

/-- `MQTT_InitRetransmits`, core_mqtt.c 2795-2831, with a pointer to any context. -/
def mqttInitRetransmitsAt (p : Option Ctx) (store retrieve clear : Bool) : Status × Option Ctx :=
  match p with
  | none => (.badParameter, none)
  | some c =>
    let (st, c) := mqttInitRetransmits c store retrieve clear
    (st, some c)

/-- The context whose bytes are all zero, as a static variable before `MQTT_Init` (core_mqtt.h 230-322; `MQTTNotConnected` is 0, 167). -/
def zeroCtx : Ctx :=
  { connectStatus := .notConnected, keepAliveIntervalSec := 0, pingReqSendTimeMs := 0, lastPacketTxTime := 0, lastPacketRxTime := 0,
    waitingForPingResp := false, controlPacketSent := false, nextPacketId := 0, index := 0, netBuf := [], tables := ⟨[], []⟩,
    hasWritev := false, retransmits := false }

/-- The pointers in it. -/
def zeroPtrs : CtxPtrs := ⟨false, false, false⟩

end Mqtt
