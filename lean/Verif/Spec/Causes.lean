/-
Why a call may report a failure: what the environment did.
-/
import Verif.Spec.Calls

namespace Mqtt.Spec
open Mqtt

/-- The transport's send function returned an error. -/
def sendError (es : List Event) : Prop := ∃ b, Event.sent b none ∈ es

/-- The transport's receive function returned an error. -/
def recvError (es : List Event) : Prop := ∃ n, Event.recvd n none ∈ es

/-- Sending a packet (or a group of filters) took `limit` milliseconds or more: the clock was read immediately before the first call of the
send function, and after nothing but calls of the send function and clock readings it showed a time at least `limit` milliseconds later (counted
modulo 2^32). -/
def sendTimeout (limit : UInt32) (es : List Event) : Prop :=
  ∃ a t0 bytes r b t1 c, es = a ++ .time t0 :: .sent bytes r :: (b ++ .time t1 :: c) ∧
    (∀ x ∈ b, (∃ bytes r, x = .sent bytes r) ∨ ∃ t, x = .time t) ∧ limit ≤ t1 - t0

/-- Nothing arrived for `limit` milliseconds or more: between two clock readings at least that far apart the receive function was called (at least
once) and delivered nothing. -/
def recvTimeout (limit : UInt32) (es : List Event) : Prop :=
  ∃ a t0 n b t1 c, es = a ++ .time t0 :: .recvd n (some []) :: (b ++ .time t1 :: c) ∧
    (∀ x ∈ b, (∃ n, x = .recvd n (some [])) ∨ ∃ t, x = .time t) ∧ limit ≤ t1 - t0

/-- The application declined to store a copy. -/
def storeDeclined (es : List Event) : Prop := ∃ id vec, Event.store id vec false ∈ es

/-- The application did not find a copy. -/
def notRetrieved (es : List Event) : Prop := ∃ id, Event.retrieve id none ∈ es

/-- The other cause of `MQTTRecvFailed`.  In the loops: the application gave no memory for the records of incoming publishes, without which QoS 1 and 2
publishes are refused.  In `MQTT_Connect`: the server answered with a CONNACK header that announces more bytes than the network buffer holds, so
that the packet has to be thrown away. -/
def otherCause (c : ApiCall) (ctx : Ctx) (es : List Event) : Prop :=
  match c with
  | .processLoop | .receiveLoop => ctx.tables.incoming = []
  | .connect .. => ∃ n rest, received es = 0x20 :: (varInt n ++ rest) ∧ n ≤ maxRemaining ∧ ctx.bufSize < n
  | _ => False

end Mqtt.Spec
