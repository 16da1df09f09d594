/-
Clients that differ in the arrays for publishes in flight.
-/
import Verif.Spec.Calls
import Verif.Spec.InFlight

namespace Mqtt.Spec

/-- The second array holds the same publishes in the same order, has at least as many records, and its unused records are cleared.  The records in use may stand elsewhere. -/
structure RoomierArray (a a' : Records) : Prop where
  same : inFlight a' = inFlight a
  size : a.length ≤ a'.length
  none : a = [] → a' = []
  clean : ∀ r ∈ a', r.packetId = 0 → r = Rec.empty

/-- Both arrays. -/
def Roomier (t t' : Tables) : Prop := RoomierArray t.outgoing t'.outgoing ∧ RoomierArray t.incoming t'.incoming

end Mqtt.Spec
