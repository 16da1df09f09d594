/-
What may keep `MQTT_Connect` from receiving a CONNACK that the server sends.
-/
import Verif.Spec.Causes

namespace Mqtt.Spec
open Mqtt

/-- Of the two bytes of the fixed header one had arrived, and the receive call for the other one delivered nothing. -/
def headerGap (es : List Event) : Prop := ∃ a x b, es = a ++ .recvd 1 (some [x]) :: .recvd 1 (some []) :: b

/-- Nothing arrived, and the client waited as long as it had to: without a timeout it asked the transport `MQTT_MAX_CONNACK_RECEIVE_RETRY_COUNT` + 1 times, with a timeout
it asked until the clock showed that this time had passed. -/
def nothingArrived (g : Cfg) (timeoutMs : UInt32) (es : List Event) : Prop :=
  received es = [] ∧ (timeoutMs = 0 → polls es = g.connackRetryCount + 1) ∧
  (timeoutMs ≠ 0 → ∃ a t0 b t1 c, es = a ++ .time t0 :: (b ++ .time t1 :: c) ∧ (∀ x ∈ a ++ c, isRecvd x = false) ∧ timeoutMs ≤ t1 - t0)

/-- What the environment did that may make `MQTT_Connect` miss the answer of a server: sending failed or took too long, receiving failed or stalled in the middle of the CONNACK,
nothing arrived while it waited, or the first byte of the CONNACK arrived without the second. -/
def connectHindered (g : Cfg) (timeoutMs : UInt32) (es : List Event) : Prop :=
  sendError es ∨ sendTimeout g.sendTimeoutMs es ∨ recvError es ∨ recvTimeout g.recvPollingTimeoutMs es ∨ nothingArrived g timeoutMs es ∨ headerGap es

end Mqtt.Spec
