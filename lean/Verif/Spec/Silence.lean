/-
A time in which nothing arrives from the server and `MQTT_ProcessLoop` keeps succeeding, measured by a real clock.
-/
import Verif.Spec.Receiving
import Verif.Spec.KeepAlive
import Verif.Spec.Calls

namespace Mqtt.Spec
open Mqtt

/-- The clock readings among the events are those of a real clock, made between the times `a` and `b`; the library sees the low 32 bits. -/
def Within (a b : Nat) (es : List Event) : Prop := ∀ t, Event.time t ∈ es → ∃ T, a ≤ T ∧ T ≤ b ∧ t = UInt32.ofNat T

/-- There is no complete packet in the buffer, and not the beginning of one that does not fit. -/
def NoPacket (c : Ctx) : Prop := ∀ t hl n, readHeader c.buffered = .known t hl n → c.buffered.length < hl + n ∧ hl + n ≤ c.bufSize

/-- `Silent g gap quiet w t0 w' poll now`: from `w` at time `t0` to `w'` at time `now` nothing was received from the server, although
`MQTT_ProcessLoop` was called again and again and each time returned MQTTSuccess or MQTTNeedMoreBytes; the last time that happened it was called at
time `poll`.  Each of these calls ended at most `gap` ms after the one before it was begun.  Between them there may be any other calls, except
for `MQTT_Connect`, `MQTT_Disconnect` and `MQTT_Ping`; if `quiet`, these do not call the transport's send functions. -/
inductive Silent (g : Cfg) (gap : Nat) (quiet : Bool) (w : World) (t0 : Nat) : World → Nat → Nat → Prop
  | start : Silent g gap quiet w t0 w t0 t0
  | other {w1 w2 : World} {poll now stop : Nat} {e : Env} {c : ApiCall} {r : ApiRet} :
      Silent g gap quiet w t0 w1 poll now → ValidCall g c → plainCall c = true → c ≠ .ping → c ≠ .processLoop → now ≤ stop →
      callIn g w1 e c = .done r w2 → received (callEvents g w1 e c) = [] → (quiet = true → ∀ x ∈ callEvents g w1 e c, isSent x = false) →
      Within now stop (callEvents g w1 e c) → Silent g gap quiet w t0 w2 poll stop
  | poll {w1 w2 : World} {poll now start stop : Nat} {e : Env} {st : Status} :
      Silent g gap quiet w t0 w1 poll now → now ≤ start → start ≤ stop → stop ≤ poll + gap →
      callIn g w1 e .processLoop = .done (.status st) w2 → st = .success ∨ st = .needMoreBytes →
      received (callEvents g w1 e .processLoop) = [] → Within start stop (callEvents g w1 e .processLoop) → Silent g gap quiet w t0 w2 start stop

end Mqtt.Spec
