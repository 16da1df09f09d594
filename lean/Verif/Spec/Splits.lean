/-
Comparing transports that accept the outgoing bytes in different pieces.
-/
import Verif.Spec.Calls

namespace Mqtt.Spec
open Mqtt

/-- What remains of an event when nobody looks at how the outgoing bytes were divided among the calls of the transport, or at the clock: each byte the transport
accepted is an event of its own. -/
def unsplit : Event → List (UInt8 ⊕ Event)
  | .sent bytes (some k) => (bytes.take k).map .inl
  | .time _ => []
  | e => [.inr e]

/-- The bytes and the other events of a run, in their order. -/
def seamless (es : List Event) : List (UInt8 ⊕ Event) := es.flatMap unsplit

/-- A transport that never fails to send (it may accept as little as it likes, also nothing), and a clock that shows `t` all the time. -/
structure Unhindered (t : UInt32) (e : Env) : Prop where
  sends : ∀ a ∈ e.sends, a ≠ .fail
  clock : ∀ u ∈ e.clock, u = t

/-- The incoming data and the answers of the storage callbacks are the same. -/
structure SameIncoming (e e' : Env) : Prop where
  recvs : e'.recvs = e.recvs
  input : e'.input = e.input
  stores : e'.stores = e.stores
  retrieves : e'.retrieves = e.retrieves

/-- The contexts are the same, but perhaps the transport of one has a `writev` function and that of the other has not. -/
def SameButWritev (c c' : Ctx) : Prop := ∃ b, c' = { c with hasWritev := b }

/-- A sequence of calls, each with its environment; every call returns.  Result: the values returned, the final world and all events. -/
inductive Plays (g : Cfg) : World → List (Env × ApiCall) → List ApiRet → World → List Event → Prop
  | nil {w : World} : Plays g w [] [] w []
  | cons {w w1 w2 : World} {e : Env} {c : ApiCall} {r : ApiRet} {rest : List (Env × ApiCall)} {rs : List ApiRet} {es : List Event} :
      callIn g w e c = .done r w1 → Plays g w1 rest rs w2 es → Plays g w ((e, c) :: rest) (r :: rs) w2 (callEvents g w e c ++ es)

/-- The same calls, each in an unhindered environment; the clock shows the same and the same arrives, but the transport may take the outgoing bytes in other pieces. -/
inductive SameCalls : List (Env × ApiCall) → List (Env × ApiCall) → Prop
  | nil : SameCalls [] []
  | cons {e e' : Env} {c : ApiCall} {t : UInt32} {l l' : List (Env × ApiCall)} : SameIncoming e e' → Unhindered t e → Unhindered t e' → SameCalls l l' →
      SameCalls ((e, c) :: l) ((e', c) :: l')

end Mqtt.Spec
