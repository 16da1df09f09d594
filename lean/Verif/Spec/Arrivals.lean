/-
Which incoming messages reach the application.
-/
import Verif.Spec.Broker
import Verif.Spec.Receiving

namespace Mqtt.Spec
open Mqtt

/-- Every record for incoming messages is in use (also if there is none). -/
def InboxFull (t : Tables) : Prop := (inFlight t.incoming).length = t.incoming.length

/-- The message is given to the application: it has QoS 0, or it is new and there is a record for it. -/
def Accepted (t : Tables) (id : UInt16) (q : QoS) : Prop := q = .qos0 ∨ ¬ Receiving t id ∧ ¬ InboxFull t

/-- A receive call took the packet `p` from the stream: of the bytes that were buffered and those it received, all but the packet are buffered afterwards. -/
def Takes (g : Cfg) (w : World) (e : Env) (m : Bool) (p : Raw) (w' : World) : Prop :=
  w.ctx.buffered ++ received (callEvents g w e (loopCall m)) = p.bytes ++ w'.ctx.buffered

end Mqtt.Spec
