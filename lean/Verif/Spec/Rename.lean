/-
Renaming packet identifiers: what it means for packet identifiers to be only names.
-/
import Verif.Model.State
import Verif.Spec.InFlight

namespace Mqtt.Spec

/-- A renaming of packet identifiers: different identifiers stay different, and 0 stays 0 (it is not an identifier but
marks a free record). -/
def Renaming (π : UInt16 → UInt16) : Prop := π 0 = 0 ∧ ∀ a b, π a = π b → a = b

/-- The same record for the renamed identifier. -/
def renameRec (π : UInt16 → UInt16) (r : Rec) : Rec := { r with packetId := π r.packetId }

/-- The same record arrays for the renamed identifiers. -/
def renameTables (π : UInt16 → UInt16) (t : Tables) : Tables :=
  ⟨t.outgoing.map (renameRec π), t.incoming.map (renameRec π)⟩

/-- The same call for the renamed identifier. -/
def renameCall (π : UInt16 → UInt16) : Call → Call
  | .reserve id qos => .reserve (π id) qos
  | .publish op id qos => .publish op (π id) qos
  | .ack op type id => .ack op type (π id)
  | .cancel id => .cancel (π id)

end Mqtt.Spec
