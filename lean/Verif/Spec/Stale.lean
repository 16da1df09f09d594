/-
The same world with other contents in the part of the network buffer that holds no received bytes.
-/
import Verif.Spec.Calls

namespace Mqtt.Spec

/-- The context with another network buffer. -/
abbrev withBuf (c : Ctx) (buf : List UInt8) : Ctx := { c with netBuf := buf }

/-- `c'` is `c` but for the bytes of the network buffer behind the ones that are in use (`index` counts these). -/
def StaleCtx (c c' : Ctx) : Prop :=
  ∃ buf, c' = withBuf c buf ∧ buf.length = c.netBuf.length ∧ buf.take c.index = c.netBuf.take c.index

/-- `w'` is `w` with other bytes in the unused part of the network buffer. -/
structure Stale (w w' : World) : Prop where
  ctx : StaleCtx w.ctx w'.ctx
  env : w'.env = w.env
  trace : w'.trace = w.trace

/-- Two runs end in the same way, with the same result, after the same interactions. -/
def StaleOut {α : Type} : Out α → Out α → Prop
  | .done a w, .done a' w' => a' = a ∧ Stale w w'
  | .stuck w, .stuck w' => Stale w w'
  | .ub e w, .ub e' w' => e' = e ∧ Stale w w'
  | _, _ => False

end Mqtt.Spec
