/-
An application that calls `MQTT_ProcessLoop` again and again, in real time: how long its pauses are and how long the environment takes.
-/
import Verif.Spec.Silence
import Verif.Spec.Alive
import Verif.Spec.Duration

namespace Mqtt.Spec
open Mqtt

/-- `PolledFor g D pause quiet w t0 w' poll fin now`: from `w` at time `t0` to `w'` at time `now` nothing was received from the server.  The application called
`MQTT_ProcessLoop` again and again, each time at most `pause` ms after it had returned from the call before, and it reported MQTTSuccess or MQTTNeedMoreBytes; the last of
these calls lasted from `poll` to `fin`.  In the pauses there may be any other calls, except for `MQTT_Connect`, `MQTT_Disconnect` and `MQTT_Ping`; if `quiet`, these do not
call the transport's send functions.  Every call of the transport, the clock or a callback took at most `D` ms. -/
inductive PolledFor (g : Cfg) (D pause : Nat) (quiet : Bool) (w : World) (t0 : Nat) : World → Nat → Nat → Nat → Prop
  | start : PolledFor g D pause quiet w t0 w t0 t0 t0
  | other {w1 w2 : World} {poll fin now start stop : Nat} {e : Env} {c : ApiCall} {r : ApiRet} :
      PolledFor g D pause quiet w t0 w1 poll fin now → ValidCall g c → plainCall c = true → c ≠ .ping → c ≠ .processLoop → now ≤ start →
      callIn g w1 e c = .done r w2 → received (callEvents g w1 e c) = [] → (quiet = true → ∀ x ∈ callEvents g w1 e c, isSent x = false) →
      Timed D start (callEvents g w1 e c) stop → PolledFor g D pause quiet w t0 w2 poll fin stop
  | poll {w1 w2 : World} {poll fin now start stop : Nat} {e : Env} {st : Status} :
      PolledFor g D pause quiet w t0 w1 poll fin now → now ≤ start → start ≤ fin + pause →
      callIn g w1 e .processLoop = .done (.status st) w2 → st = .success ∨ st = .needMoreBytes →
      received (callEvents g w1 e .processLoop) = [] → Timed D start (callEvents g w1 e .processLoop) stop → PolledFor g D pause quiet w t0 w2 start stop stop

/-- `KeptFor g D pause w tx t0 w' last poll fin now`: from `w` at time `t0` to `w'` at time `now` the application made any calls, except for `MQTT_Connect` and `MQTT_Disconnect`.
Again and again, at most `pause` ms after the last time, it called `MQTT_ProcessLoop` when there was no data, and that reported MQTTSuccess or MQTTNeedMoreBytes; the last of
these calls lasted from `poll` to `fin`.  `last` is the time of the last transmission (the time read after it); before `t0` that was `tx`. -/
inductive KeptFor (g : Cfg) (D pause : Nat) (w : World) (tx t0 : Nat) : World → Nat → Nat → Nat → Nat → Prop
  | start : KeptFor g D pause w tx t0 w tx t0 t0 t0
  | call {w1 w2 : World} {last poll fin now last' start stop : Nat} {e : Env} {c : ApiCall} {r : ApiRet} :
      KeptFor g D pause w tx t0 w1 last poll fin now → ValidCall g c → plainCall c = true → now ≤ start → callIn g w1 e c = .done r w2 →
      Timed D start (callEvents g w1 e c) stop → Clocked start last false (callEvents g w1 e c) stop last' → KeptFor g D pause w tx t0 w2 last' poll fin stop
  | idle {w1 w2 : World} {last poll fin now last' start stop n : Nat} {e : Env} {st : Status} {es : List Event} :
      KeptFor g D pause w tx t0 w1 last poll fin now → now ≤ start → start ≤ fin + pause →
      callIn g w1 e .processLoop = .done (.status st) w2 → st = .success ∨ st = .needMoreBytes →
      callEvents g w1 e .processLoop = .recvd n (some []) :: es → received es = [] → Timed D start (callEvents g w1 e .processLoop) stop →
      Clocked start last false (callEvents g w1 e .processLoop) stop last' → KeptFor g D pause w tx t0 w2 last' start stop stop

end Mqtt.Spec
