/-
The stream of packets from the server, written from section 2 of the standard.
-/
import Verif.Spec.Wire

namespace Mqtt.Spec

/-- First bytes a broker may send as far as the code checks them: type nibble CONNACK(2), PUBLISH(3), PUBACK(4),
PUBREC(5), PUBREL(6, with flag bit 1 set), PUBCOMP(7), SUBACK(9), UNSUBACK(11), PINGRESP(13). -/
def ServerFirstByte (t : Nat) : Prop :=
  t / 16 ∈ [2, 3, 4, 5, 7, 9, 11, 13] ∨ (t / 16 = 6 ∧ t / 2 % 2 = 1)

instance (t : Nat) : Decidable (ServerFirstByte t) := by
  unfold ServerFirstByte; infer_instance

/-- A packet: first byte and what follows the remaining length. -/
structure Raw where
  first : UInt8
  body : List UInt8
  deriving DecidableEq, Repr

/-- The packet on the wire. -/
def Raw.bytes (p : Raw) : List UInt8 := packet p.first.toNat p.body

/-- A packet as a server may send it. -/
def Raw.Valid (p : Raw) : Prop := ServerFirstByte p.first.toNat ∧ p.body.length ≤ maxRemaining

/-- What a byte string starts with. -/
inductive Header where
  /-- the fixed header is not complete -/
  | incomplete
  /-- no packet starts like this -/
  | malformed
  /-- first byte, length of the fixed header, remaining length -/
  | known (first : UInt8) (headerLen bodyLen : Nat)
  deriving DecidableEq, Repr

def readHeader : List UInt8 → Header
  | [] => .incomplete
  | first :: rest =>
    if ServerFirstByte first.toNat then
      match readVarInt 4 rest with
      | some (n, rest') => if rest = varInt n ++ rest' then .known first (1 + (varInt n).length) n else .malformed
      | none => if rest.length < 4 then .incomplete else .malformed
    else .malformed

end Mqtt.Spec
