/-
Comparing `MQTT_ProcessLoop` with `MQTT_ReceiveLoop`.
-/
import Verif.Spec.Calls
import Verif.Spec.Trace

namespace Mqtt.Spec
open Mqtt

/-- The bytes that the transport delivers when a receive function asks for as many as there is room for. -/
def arrives (w : World) (e : Env) : List UInt8 :=
  match e.recvs with
  | .deliver k :: _ => e.input.take (min k (w.ctx.bufSize - w.ctx.index))
  | _ => []

/-- The transport fails when it is first asked for data. -/
def recvFails (e : Env) : Prop := ∃ rest, e.recvs = .fail :: rest

/-- The worlds are the same, but for a flag of the context that the library never reads. -/
def SameWorld (w w' : World) : Prop := w'.env = w.env ∧ w'.trace = w.trace ∧ ∃ b, w'.ctx = { w.ctx with controlPacketSent := b }

/-- The two calls do the same: same result, same interactions in the same order, same context but for that flag. -/
def SameCall : Out ApiRet → Out ApiRet → Prop
  | .done r w, .done r' w' => r' = r ∧ SameWorld w w'
  | .stuck w, .stuck w' => SameWorld w w'
  | .ub e w, .ub e' w' => e' = e ∧ SameWorld w w'
  | _, _ => False

end Mqtt.Spec
