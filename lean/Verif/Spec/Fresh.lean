/-
Comparing a context that has a history with a freshly initialised one.
-/
import Verif.Spec.Calls

namespace Mqtt.Spec

/-- The two contexts were set up alike: buffer size, sizes of the record arrays, `writev`, retransmission callbacks. -/
structure SameSetup (c c' : Ctx) : Prop where
  buffer : c'.netBuf.length = c.netBuf.length
  outgoing : c'.tables.outgoing.length = c.tables.outgoing.length
  incoming : c'.tables.incoming.length = c.tables.incoming.length
  writev : c'.hasWritev = c.hasWritev
  retransmits : c'.retransmits = c.retransmits

/-- A call of the clear callback. -/
def isClear : Event → Bool
  | .clear _ => true
  | _ => false

/-- The events other than calls of the clear callback. -/
def noClear (es : List Event) : List Event := es.filter fun e => !isClear e

/-- `c'` is `c` but for the next packet id, the time of the last reception, and a flag that is never read. -/
def AsFresh (c c' : Ctx) : Prop :=
  ∃ id rx b, c' = { c with nextPacketId := id, lastPacketRxTime := rx, controlPacketSent := b }

end Mqtt.Spec
