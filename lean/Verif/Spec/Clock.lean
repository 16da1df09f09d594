/-
The same world with another reading of the clock: every time the clock shows, and every time remembered from it, is `δ` milliseconds later
(in `uint32_t` arithmetic, so it may wrap around).
-/
import Verif.Spec.Calls

namespace Mqtt.Spec

/-- The event with a clock reading `δ` later; all other events are as they were. -/
def laterEvent (δ : UInt32) : Event → Event
  | .time t => .time (t + δ)
  | e => e

/-- The environment with a clock that shows `δ` more; transport, peer and callbacks answer as before. -/
def laterEnv (δ : UInt32) (e : Env) : Env := { e with clock := e.clock.map (· + δ) }

/-- The context with other remembered times. -/
abbrev withTimes (c : Ctx) (tx rx ping : UInt32) : Ctx :=
  { c with lastPacketTxTime := tx, lastPacketRxTime := rx, pingReqSendTimeMs := ping }

/-- `c'` is `c` but for the three remembered times.  With `keep` they are `δ` later too (the time of the last PINGREQ only matters
while its answer is awaited). -/
def LaterCtx (δ : UInt32) (keep : Bool) (c c' : Ctx) : Prop :=
  ∃ tx rx ping, c' = withTimes c tx rx ping ∧
    (keep = true → tx = c.lastPacketTxTime + δ ∧ rx = c.lastPacketRxTime + δ ∧
      (c.waitingForPingResp = true → ping = c.pingReqSendTimeMs + δ))

/-- `w'` is `w` with a clock that shows `δ` more. -/
structure Later (δ : UInt32) (keep : Bool) (w w' : World) : Prop where
  ctx : LaterCtx δ keep w.ctx w'.ctx
  env : w'.env = laterEnv δ w.env
  trace : w'.trace = w.trace.map (laterEvent δ)

/-- Two runs end in the same way, with the same result, in worlds that differ by the clock alone. -/
def LaterOut (δ : UInt32) (keep : Bool) {α : Type} : Out α → Out α → Prop
  | .done a w, .done a' w' => a' = a ∧ Later δ keep w w'
  | .stuck w, .stuck w' => Later δ keep w w'
  | .ub e w, .ub e' w' => e' = e ∧ Later δ keep w w'
  | _, _ => False

end Mqtt.Spec
