/-
How long calls of the public functions can take: clocks, environments that keep answering, and bounds on the number of interactions.
-/
import Verif.Spec.Calls

namespace Mqtt.Spec
open Mqtt

/-- The clock readings of a trace come from a real clock counting milliseconds without end, of which the library sees the low 32 bits.
`now` is the last value, `low` the least value allowed for the next reading: the clock does not run backwards, a call of the transport takes at
least a millisecond, and at most `gap` milliseconds pass between two readings. -/
def liveClock (gap : Nat) : Nat → Nat → List Event → Prop
  | _, _, [] => True
  | now, low, .time t :: es => ∃ T, low ≤ T ∧ T ≤ now + gap ∧ t = UInt32.ofNat T ∧ liveClock gap T T es
  | now, low, .sent _ _ :: es => liveClock gap now (max low (now + 1)) es
  | now, low, .recvd _ _ :: es => liveClock gap now (max low (now + 1)) es
  | now, low, _ :: es => liveClock gap now low es

/-- The environment answers at least `n` questions of each kind. -/
structure Answers (n : Nat) (e : Env) : Prop where
  sends : n ≤ e.sends.length
  recvs : n ≤ e.recvs.length
  clock : n ≤ e.clock.length
  stores : n ≤ e.stores.length
  retrieves : n ≤ e.retrieves.length

/-- The environment has stopped answering some kind of question. -/
def Dry (e : Env) : Prop := e.sends = [] ∨ e.recvs = [] ∨ e.clock = [] ∨ e.stores = [] ∨ e.retrieves = []

/-! The bounds.  They depend on the configured timeouts, the number of outgoing records and the arguments of the call only. -/

/-- One send operation: `MQTT_SEND_TIMEOUT_MS` + 1 calls, each with two clock readings, and the start time. -/
def sendBound (g : Cfg) : Nat := 3 * (g.sendTimeoutMs.toNat + 1) + 1

/-- Sending an acknowledgement. -/
def ackBound (g : Cfg) : Nat := sendBound g + 4

/-- Reading `n` bytes: every byte may arrive just before `MQTT_RECV_POLLING_TIMEOUT_MS` has passed. -/
def readBound (g : Cfg) (n : Nat) : Nat := 1 + (n + 1) * (3 * max 1 g.recvPollingTimeoutMs.toNat)

/-- Dropping a packet that does not fit into the buffer: at most the largest packet, possibly byte by byte. -/
def dropBound (g : Cfg) : Nat := 1 + 268435460 * (6 * max 1 g.recvPollingTimeoutMs.toNat + 2)

/-- One `MQTT_ProcessLoop` or `MQTT_ReceiveLoop`. -/
def loopBound (g : Cfg) : Nat := dropBound g + sendBound g + ackBound g + 13

/-- Waiting for the CONNACK and reading it. -/
def connackBound (g : Cfg) (timeoutMs : UInt32) : Nat :=
  2 + 7 * (timeoutMs.toNat + g.connackRetryCount + 1) + readBound g 268435455 + dropBound g

/-- Resuming a session with `n` records for outgoing publishes. -/
def resumeBound (g : Cfg) (n : Nat) : Nat := n * ackBound g + n * (sendBound g + 3)

/-- The most interactions with the environment a call can make if there are `n` records for outgoing publishes. -/
def callBound (g : Cfg) (n : Nat) : ApiCall → Nat
  | .connect _ _ t _ => sendBound g + connackBound g t + n + resumeBound g n + 4
  | .subscribe subs _ | .unsubscribe subs _ => ((subs.getD []).length + 2) * sendBound g + 2
  | .publish _ _ => sendBound g + 3
  | .ping => sendBound g + 2
  | .disconnect => sendBound g + 2
  | .processLoop | .receiveLoop => loopBound g
  | .cancelCallback _ => 2
  | .checkConnectStatus => 2
  | .getPacketId => 2

/-- The longest time, in milliseconds, the library waits for something in a call. -/
def longestWait (g : Cfg) : ApiCall → Nat
  | .connect _ _ t _ => t.toNat + g.sendTimeoutMs.toNat + g.recvPollingTimeoutMs.toNat + 1
  | _ => g.sendTimeoutMs.toNat + g.recvPollingTimeoutMs.toNat + 1

end Mqtt.Spec
