/-
How long calls take, in milliseconds of a real clock.
-/
import Verif.Spec.Progress

namespace Mqtt.Spec
open Mqtt

/-- The events took place one after the other from time `t` on, and the last one ended at time `t'`.  Each of them, together with the computation before it, took at most
`D` milliseconds.  A reading of the clock shows the low 32 bits of a time at which it was made. -/
def Timed (D : Nat) : Nat → List Event → Nat → Prop
  | t, [], t' => t' = t
  | t, .time x :: es, t' => ∃ r u, t ≤ r ∧ r ≤ u ∧ u ≤ t + D ∧ x = UInt32.ofNat r ∧ Timed D u es t'
  | t, _ :: es, t' => ∃ u, t ≤ u ∧ u ≤ t + D ∧ Timed D u es t'

/-- One transmission: `MQTT_SEND_TIMEOUT_MS` and the last attempt. -/
def sendTime (g : Cfg) (D : Nat) : Nat := g.sendTimeoutMs.toNat + 5 * D

/-- One acknowledgement. -/
def ackTime (g : Cfg) (D : Nat) : Nat := sendTime g D + 4 * D

/-- Every byte may arrive just before `MQTT_RECV_POLLING_TIMEOUT_MS` has passed. -/
def byteTime (g : Cfg) (D : Nat) : Nat := g.recvPollingTimeoutMs.toNat + 6 * D

/-- Waiting for the first byte of the CONNACK. -/
def connackTime (g : Cfg) (D : Nat) (timeoutMs : UInt32) : Nat :=
  if timeoutMs = 0 then (g.connackRetryCount + 1) * (6 * D) else timeoutMs.toNat + 8 * D

/-- The longest duration of a call if there are `n` records for outgoing publishes, apart from the bytes that are received one by one. -/
def callTime (g : Cfg) (D n : Nat) : ApiCall → Nat
  | .connect _ _ t _ => sendTime g D + connackTime g D t + byteTime g D + n * D + (n * ackTime g D + n * (sendTime g D + 3 * D)) + 6 * D
  | .subscribe subs _ | .unsubscribe subs _ => ((subs.getD []).length + 1) * sendTime g D + 2 * D
  | .publish _ _ => sendTime g D + 3 * D
  | .ping | .disconnect => sendTime g D + 2 * D
  | .processLoop => (sendTime g D + 5 * D) + max (byteTime g D) (ackTime g D + 5 * D) + D
  | .receiveLoop => max (byteTime g D) (ackTime g D + 5 * D) + D
  | .cancelCallback _ | .checkConnectStatus | .getPacketId => 2 * D

/-- The bytes that a call may have to wait for one by one: what `MQTT_Connect` receives, and what the receive loops receive after their first attempt, in order to drop a
packet that does not fit into the buffer. -/
def awaited : ApiCall → List Event → Nat
  | .processLoop, es | .receiveLoop, es => (received es.tail).length
  | .connect .., es => (received es).length
  | _, _ => 0

end Mqtt.Spec
