/-
Histories of calls of the public functions: what the theorems about core_mqtt.c quantify over.
-/
import Verif.Model.Api
import Verif.Spec.Args
import Verif.Spec.Trace
import Verif.Spec.InFlight

namespace Mqtt
open Spec

/-- `size_t` has at least 32 bits, and a group of vectors holds at least one topic filter with its length and QoS
(core_mqtt_config_defaults.h 63-77). -/
structure CfgOk (g : Cfg) : Prop where
  size : 4294967296 ≤ g.W
  vectors : 3 ≤ g.subUnsubMaxVectors

/-- The contract of the caller: pointers refer to the memory the arguments claim (null pointers are allowed), all lengths together can be
counted in a `size_t`, and `MQTT_CancelCallback` is not called with id 0. -/
def ValidCall (g : Cfg) : ApiCall → Prop
  | .connect ci will _ _ => ∀ c, ci = some c → c.Valid will
  | .subscribe subs _ => ∀ l, subs = some l → ValidSubs l ∧ 2 + filtersLen .subscribe l < g.W
  | .unsubscribe subs _ => ∀ l, subs = some l → ValidSubs l ∧ 2 + filtersLen .unsubscribe l < g.W
  | .publish p _ => ∀ q, p = some q → q.Valid ∧ q.payloadLength < g.W
  | .cancelCallback id => id ≠ 0
  | _ => True

/-- A context as `MQTT_Init` leaves it, followed by any successful calls of `MQTT_InitStatefulQoS` with zeroed arrays and of
`MQTT_InitRetransmits`. -/
inductive Initialised : Ctx → Prop
  | init {a : InitPtrs} {hasWritev : Bool} {buf : List UInt8} {c : Ctx} : mqttInit a hasWritev buf = (.success, some c) → Initialised c
  | stateful {c c' : Ctx} {out inc : Option Records} {outCount incCount : Nat} : Initialised c →
      (∀ recs, out = some recs → outCount ≤ recs.length ∧ ∀ r ∈ recs, r = Rec.empty) →
      (∀ recs, inc = some recs → incCount ≤ recs.length ∧ ∀ r ∈ recs, r = Rec.empty) →
      mqttInitStatefulQoS c out outCount inc incCount = (.success, c') → Initialised c'
  | retransmits {c c' : Ctx} {s r k : Bool} : Initialised c → mqttInitRetransmits c s r k = (.success, c') → Initialised c'

/-- A public function called in world `w` while the environment answers according to `e`. -/
def callIn (g : Cfg) (w : World) (e : Env) (c : ApiCall) : Out ApiRet := apiCall g c { w with env := e }

/-- A history: calls made one after the other that returned, each with what it returned.  The environment may answer differently in every
call. -/
inductive Hist (g : Cfg) : World → List (ApiCall × ApiRet) → World → Prop
  | start (w : World) : Hist g w [] w
  | call {w w1 w2 : World} {h : List (ApiCall × ApiRet)} {e : Env} {c : ApiCall} {r : ApiRet} :
      Hist g w h w1 → ValidCall g c → callIn g w1 e c = .done r w2 → Hist g w (h ++ [(c, r)]) w2

/-- A history from an initialised context with nothing recorded so far. -/
structure FromInit (g : Cfg) (h : List (ApiCall × ApiRet)) (w : World) : Prop where
  cfg : CfgOk g
  run : ∃ w0, Initialised w0.ctx ∧ w0.trace = [] ∧ Hist g w0 h w

/-- A call of a function other than `MQTT_Connect` and `MQTT_Disconnect`. -/
def plainCall : ApiCall → Bool
  | .connect .. | .disconnect => false
  | _ => true

/-- `MQTT_ProcessLoop` or `MQTT_ReceiveLoop`. -/
def loopCall (manage : Bool) : ApiCall := if manage then .processLoop else .receiveLoop

/-- The status code a function returns (`MQTT_GetPacketId` returns none). -/
def ApiRet.code : ApiRet → Option Status
  | .status st => some st
  | .connect st _ => some st
  | .packetId _ => none

/-- The packet a call is made to send (`MQTT_Connect` and the calls that send nothing of their own are left out). -/
def callPacket : ApiCall → Option (List UInt8)
  | .publish (some p) id => some (publishPacket (p.toSpec id))
  | .subscribe (some l) id => some (subscribePacket id.toNat (subsSpec l))
  | .unsubscribe (some l) id => some (unsubscribePacket id.toNat ((subsSpec l).map Prod.fst))
  | .ping => some pingreqPacket
  | .disconnect => some disconnectPacket
  | _ => none

/-- The bytes an array of vectors describes, one vector after the other. -/
def vecContents (vec : List IoVec) : List UInt8 := vec.flatMap fun v => bytesOf v.iov_base v.iov_len

/-- What happened in a call. -/
def callEvents (g : Cfg) (w : World) (e : Env) (c : ApiCall) : List Event := newEvents w (callIn g w e c)

end Mqtt
