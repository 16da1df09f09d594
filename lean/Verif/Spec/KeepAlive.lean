/-
Specification of the keep-alive decisions, in natural numbers of milliseconds.
-/
import Verif.Spec.Incoming

namespace Mqtt.Spec
open Mqtt

/-- Milliseconds from clock reading `t` to clock reading `now`, for a clock that wraps around at 2^32. -/
def since (now t : UInt32) : Nat := (now.toNat + (4294967296 - t.toNat)) % 4294967296

/-- The longest time without transmission: the keep-alive interval from CONNECT, but not more than `PACKET_TX_TIMEOUT_MS`.  0: no limit. -/
def sendLimit (g : Cfg) (c : Ctx) : Nat := min g.packetTxTimeoutMs.toNat (1000 * c.keepAliveIntervalSec.toNat)

/-- A ping has to be sent: too long without transmission, or too long without reception. -/
def PingNeeded (g : Cfg) (c : Ctx) (now : UInt32) : Prop :=
  (sendLimit g c ≠ 0 ∧ sendLimit g c ≤ since now c.lastPacketTxTime) ∨
  (since now c.lastPacketRxTime ≠ 0 ∧ g.packetRxTimeoutMs.toNat ≤ since now c.lastPacketRxTime)

instance (g : Cfg) (c : Ctx) (now : UInt32) : Decidable (PingNeeded g c now) := by unfold PingNeeded; infer_instance

/-- Nothing, or (the beginning of) one PUBACK, PUBREC, PUBREL or PUBCOMP. -/
def AckBytes (bs : List UInt8) : Prop := ∃ a, bs <+: ackWire a

/-- The clock reading noted for the last transmission: the one that follows the last send call that took at least a byte.  `last` is the
value before the events; `pending`: such a send call came last. -/
def lastTx : UInt32 × Bool → List Event → UInt32 × Bool
  | s, [] => s
  | (last, _), .sent _ (some k) :: es => lastTx (last, decide (0 < k)) es
  | (last, pending), .time t :: es => lastTx (if pending then t else last, false) es
  | (last, _), _ :: es => lastTx (last, false) es

end Mqtt.Spec
