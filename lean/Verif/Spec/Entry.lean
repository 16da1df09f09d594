/-
What a context that does not exist, or that is still zero, must answer.
-/
import Verif.Model.Entry
import Verif.Spec.Calls

namespace Mqtt.Spec

/-- What a function returns to say that it refuses its arguments: MQTTBadParameter, or the invalid packet id. -/
def refusal : ApiCall → ApiRet
  | .connect _ _ _ sp => .connect .badParameter sp
  | .getPacketId => .packetId 0
  | _ => .status .badParameter

/-- An `MQTT_Connect` whose connect info, place for the result, client id or will are refused before anything is sent. -/
def connectArgsBad : ApiCall → Prop
  | .connect ci will _ sp => sp = none ∨ ci = none ∨
      (∃ c, ci = some c ∧ (c.pClientIdentifier = none ∨ c.clientIdentifierLength = 0)) ∨ ∃ x, will = some x ∧ 65535 < x.payloadLength
  | _ => False

/-- The zeroed context in which `MQTT_GetPacketId` may have been called. -/
def zeroWith (id : UInt16) : Ctx := { zeroCtx with nextPacketId := id }

/-- What a function may return on a zeroed context. -/
def zeroAnswer (id : UInt16) : ApiCall → ApiRet → Prop
  | .connect _ _ _ sp, r => r = .connect .badParameter sp
  | .subscribe .., r | .unsubscribe .., r | .publish .., r => r = .status .badParameter ∨ r = .status .statusNotConnected
  | .ping, r | .disconnect, r | .checkConnectStatus, r => r = .status .statusNotConnected
  | .processLoop, r | .receiveLoop, r | .cancelCallback _, r => r = .status .badParameter
  | .getPacketId, r => r = .packetId id

/-- Calls made one after the other with a pointer to the zeroed context, none of them an `MQTT_Connect` with acceptable arguments. -/
inductive ZeroHist (g : Cfg) : World → List (ApiCall × ApiRet) → World → Prop
  | start (w : World) : ZeroHist g w [] w
  | call {w w1 w2 : World} {h : List (ApiCall × ApiRet)} {e : Env} {f : ApiCall} {r : ApiRet} :
      ZeroHist g w h w1 → ValidCall g f → (∀ ci will t sp, f = .connect ci will t sp → connectArgsBad f) →
      mqttEntry g (some zeroPtrs) f { w1 with env := e } = .done r w2 → ZeroHist g w (h ++ [(f, r)]) w2

end Mqtt.Spec
