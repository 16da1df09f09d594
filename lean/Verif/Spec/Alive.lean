/-
The promise of a keep-alive interval (MQTT 3.1.1, 3.1.2.10): the client does not stay silent for longer.  Times are those of a real clock.
-/
import Verif.Spec.Silence

namespace Mqtt.Spec
open Mqtt

/-- The clock readings among the events are those of a real clock that does not go back, made from `now` on and not after `now'`; the library sees the low 32
bits.  `last` is the time of the last transmission before these events and `last'` after them: the time of the reading that follows the last send call that
took at least a byte.  `pending`: such a send call came last. -/
def Clocked : Nat → Nat → Bool → List Event → Nat → Nat → Prop
  | now, last, _, [], now', last' => now ≤ now' ∧ last' = last
  | now, last, pending, .time t :: es, now', last' =>
    ∃ T, now ≤ T ∧ t = UInt32.ofNat T ∧ Clocked T (if pending then T else last) false es now' last'
  | now, last, _, .sent _ (some k) :: es, now', last' => Clocked now last (decide (0 < k)) es now' last'
  | now, last, _, _ :: es, now', last' => Clocked now last false es now' last'

/-- `Attended g gap w tx t0 w' last poll now`: from `w` at time `t0` to `w'` at time `now` the application made any calls, except for `MQTT_Connect` and
`MQTT_Disconnect`.  The last transmission before was at time `tx`, the last one until now at time `last`.  Again and again a call of
`MQTT_ProcessLoop` found no data and returned MQTTSuccess or MQTTNeedMoreBytes, each of them ending at most `gap` ms after the one before it was begun; the last one was begun at time
`poll`. -/
inductive Attended (g : Cfg) (gap : Nat) (w : World) (tx t0 : Nat) : World → Nat → Nat → Nat → Prop
  | start : Attended g gap w tx t0 w tx t0 t0
  | call {w1 w2 : World} {last poll now last' stop : Nat} {e : Env} {c : ApiCall} {r : ApiRet} :
      Attended g gap w tx t0 w1 last poll now → ValidCall g c → plainCall c = true → callIn g w1 e c = .done r w2 →
      Clocked now last false (callEvents g w1 e c) stop last' → Attended g gap w tx t0 w2 last' poll stop
  | idle {w1 w2 : World} {last poll now last' start stop n : Nat} {e : Env} {st : Status} {es : List Event} :
      Attended g gap w tx t0 w1 last poll now → now ≤ start → stop ≤ poll + gap →
      callIn g w1 e .processLoop = .done (.status st) w2 → st = .success ∨ st = .needMoreBytes →
      callEvents g w1 e .processLoop = .recvd n (some []) :: es → Clocked start last false (callEvents g w1 e .processLoop) stop last' →
      Attended g gap w tx t0 w2 last' start stop

end Mqtt.Spec
