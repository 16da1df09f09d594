/-
Comparing a client that keeps copies of its publishes with one that does not.
-/
import Verif.Spec.Calls

namespace Mqtt.Spec

/-- A call of one of the callbacks installed by `MQTT_InitRetransmits`. -/
def isStorage : Event → Bool
  | .store .. | .retrieve .. | .clear _ => true
  | _ => false

/-- The events other than calls of these callbacks. -/
def noStorage (es : List Event) : List Event := es.filter fun e => !isStorage e

/-- A refused copy, or the retrieval of a copy. -/
def stored : Event → Bool
  | .store _ _ ok => !ok
  | .retrieve .. => true
  | _ => false

/-- Every copy was accepted, and none was asked for again. -/
def StoredOnly (es : List Event) : Prop := ∀ e ∈ es, stored e = false

instance (es : List Event) : Decidable (StoredOnly es) := inferInstanceAs (Decidable (∀ e ∈ es, stored e = false))

/-- The context as it would be without a call of `MQTT_InitRetransmits`. -/
abbrev noRetransmits (c : Ctx) : Ctx := { c with retransmits := false }

/-- The transport and the clock answer alike; the answers of the storage callbacks are arbitrary. -/
structure SameLink (e e' : Env) : Prop where
  sends : e'.sends = e.sends
  recvs : e'.recvs = e.recvs
  input : e'.input = e.input
  clock : e'.clock = e.clock

end Mqtt.Spec
