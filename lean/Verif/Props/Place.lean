/-
C78: what is called inside the critical section.
-/
import Verif.Proof.Place
import Verif.Props.Fresh

namespace Mqtt
open Spec

/-- **C78**.  In every call, from every state and with every behaviour of the environment (also in a call that never returns): the application callback and the
retrieve callback are called outside the critical section, the send function and the store callback inside it, entered once; the receive function and the clear
callback are called outside, except in `MQTT_Connect`, where they are called inside; and the section is never left when it was not entered. -/
theorem C78_where (g : Cfg) (w : World) (e : Env) (c : ApiCall) : Placed (isConnect c) (callEvents g w e c) := by
  obtain ⟨es, h1, d1, h2, _⟩ := Place.pl_api g c { w with env := e }
  have hes : callEvents g w e c = es := by
    unfold callEvents callIn newEvents
    rw [h1]
    simp
  intro b x a hs
  rw [← hes, hs] at h2
  exact Place.run_placed h2

/-- In particular a callback that is handed a packet may call the library although the section is guarded by a mutex that cannot be locked twice. -/
theorem C78_callback_free (g : Cfg) (w : World) (e : Env) (c : ApiCall) {before after : List Event} {t : UInt8} {body : List UInt8} {id : UInt16} {r : Status} {pub : Option PubView}
    (h : callEvents g w e c = before ++ .app t body id r pub :: after) : depth before = 0 := by
  have := C78_where g w e c before _ after h
  simpa [placed] using this

/-- And one that keeps copies may not: `MQTT_Publish` holds the section while it hands over the copy. -/
theorem C78_store_held (g : Cfg) (w : World) (e : Env) (c : ApiCall) {before after : List Event} {id : UInt16} {v : List IoVec} {ok : Bool}
    (h : callEvents g w e c = before ++ .store id v ok :: after) : depth before = 1 := by
  have := C78_where g w e c before _ after h
  simpa [placed] using this

/-! ### Examples -/

/-- The depths at which the events of a kind take place. -/
def Ex.depths (p : Event → Bool) (es : List Event) : List Nat :=
  (List.range es.length).filterMap fun i => if (es[i]?.map p).getD false then some (depth (es.take i)) else none

/-- The copy of a publish is handed over, and the publish is sent, inside the section; an acknowledgement is taken out of the storage and handed to the
application outside. -/
example :
    Ex.depths (fun x => x matches .store ..) (callEvents Ex.g Ex.after (Ex.env []) (Ex.publishCall .qos1 9)) = [1] ∧
    Ex.depths (fun x => x matches .sent ..) (callEvents Ex.g Ex.after (Ex.env []) (Ex.publishCall .qos1 9)) = [1, 1, 1, 1] := by
  constructor <;> decide +kernel

/-- A publisher with QoS 1 in flight. -/
def Ex.flight : World := (Ex.played (Ex.session ++ [(Ex.env [], Ex.publishCall .qos1 9)])).2

example :
    Ex.depths (fun x => x matches .clear _) (callEvents Ex.g Ex.flight { Ex.env [0x40, 2, 0, 9] with recvs := [.deliver 4] } .processLoop) = [0] ∧
    Ex.depths (fun x => x matches .app ..) (callEvents Ex.g Ex.flight { Ex.env [0x40, 2, 0, 9] with recvs := [.deliver 4] } .processLoop) = [0] := by
  constructor <;> decide +kernel

/-- While the CONNACK is awaited the section is held: everything is received inside it, and the copies of the old session are cleared inside it.  A resumed session asks for
copies outside. -/
example :
    Ex.depths (fun x => x matches .recvd ..) (callEvents Ex.g Ex.old (Ex.env [0x20, 2, 0, 0]) Ex.connectCall) = [1, 1, 1] ∧
    Ex.depths (fun x => x matches .clear _) (callEvents Ex.g Ex.old (Ex.env [0x20, 2, 0, 0]) Ex.connectCall) = [1] ∧
    Ex.depths (fun x => x matches .retrieve ..) (callEvents Ex.g Ex.old { Ex.env [0x20, 2, 1, 0] with retrieves := [some [1], some [1]] } Ex.connectCall) = [0] := by
  refine ⟨?_, ?_, ?_⟩ <;> decide +kernel

end Mqtt
