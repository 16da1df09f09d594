/-
Which publishes await retransmission, computed from the calls made and the statuses they returned, and nothing else.
-/
import Verif.Spec.InFlight

namespace Mqtt.Spec

/-- Outgoing publishes handed over whose PUBACK / PUBREC has not been accepted, oldest first: a successful reservation
adds the id at the end; an accepted PUBACK or PUBREC, or a successful cancellation, takes it away. -/
def unackedStep (l : List UInt16) : Call × Status → List UInt16
  | (.reserve id .qos1, .success) => l ++ [id]
  | (.reserve id .qos2, .success) => l ++ [id]
  | (.ack .receive .puback id, .success) => l.filter (· ≠ id)
  | (.ack .receive .pubrec id, .success) => l.filter (· ≠ id)
  | (.cancel id, .success) => l.filter (· ≠ id)
  | _ => l

/-- Outgoing QoS 2 publishes whose PUBREC was accepted and whose PUBCOMP was not, in the order in which the PUBRECs
were accepted. -/
def pubrelStep (l : List UInt16) : Call × Status → List UInt16
  | (.ack .receive .pubrec id, .success) => l ++ [id]
  | (.ack .receive .pubcomp id, .success) => l.filter (· ≠ id)
  | (.cancel id, .success) => l.filter (· ≠ id)
  | _ => l

/-- `k` consecutive calls of an enumeration function, each continuing with the cursor the previous one left. -/
def resendCalls (next : Nat → Res (UInt16 × Nat)) : (k cursor : Nat) → Res (List UInt16)
  | 0, _ => .ok []
  | k + 1, cursor => do
    let (id, cursor) ← next cursor
    let rest ← resendCalls next k cursor
    .ok (id :: rest)

/-- The first `k` values of: the elements of `l`, then 0 forever. -/
def firstThenZeros (l : List UInt16) (k : Nat) : List UInt16 := l.take k ++ List.replicate (k - l.length) 0

end Mqtt.Spec
