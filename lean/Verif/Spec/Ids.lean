/-
What the callers of a shared context see: which calls have returned, and what.
-/
import Verif.Spec.Threads

namespace Mqtt.Spec

/-- A thread is between two calls, or inside one: the call, what is left of it, and what the thread does with the result. -/
inductive Thread where
  | idle (cl : Client)
  | inside (c : ApiCall) (rest : Prog ApiRet) (next : ApiRet → Client)

/-- Threads that share one context, the world, and the calls that have returned so far: the thread, the call and the result, in the order in
which they returned. -/
structure Run where
  threads : List Thread
  world : World
  returned : List (Nat × ApiCall × ApiRet)

/-- A thread begins a call, executes the next step of it, or returns from it. -/
inductive Run.Step (g : Cfg) : Run → Run → Prop
  | begin {ts : List Thread} {w : World} {l : List (Nat × ApiCall × ApiRet)} {i : Nat} {c : ApiCall} {next : ApiRet → Client} :
      ts[i]? = some (.idle (.call c next)) → Run.Step g ⟨ts, w, l⟩ ⟨ts.set i (.inside c (callP g c) next), w, l⟩
  | step {ts : List Thread} {w w' : World} {l : List (Nat × ApiCall × ApiRet)} {i : Nat} {c : ApiCall} {next : ApiRet → Client} {β : Type}
      {m : M β} {k : β → Prog ApiRet} {b : β} : ts[i]? = some (.inside c (.step m k) next) → m w = .done b w' →
      Run.Step g ⟨ts, w, l⟩ ⟨ts.set i (.inside c (k b) next), w', l⟩
  | finish {ts : List Thread} {w : World} {l : List (Nat × ApiCall × ApiRet)} {i : Nat} {c : ApiCall} {next : ApiRet → Client} {a : ApiRet} :
      ts[i]? = some (.inside c (.ret a) next) → Run.Step g ⟨ts, w, l⟩ ⟨ts.set i (.idle (next a)), w, l ++ [(i, c, a)]⟩

/-- Any number of steps, in any order of the threads. -/
inductive Run.Steps (g : Cfg) : Run → Run → Prop
  | refl {r : Run} : Run.Steps g r r
  | step {r r' r'' : Run} : Run.Steps g r r' → Run.Step g r' r'' → Run.Steps g r r''

/-- Nothing has been called yet. -/
def Run.start (cls : List Client) (w : World) : Run := ⟨cls.map .idle, w, []⟩

/-- The packet id a call of `MQTT_GetPacketId` returned. -/
def idOf : ApiCall × ApiRet → Option UInt16
  | (.getPacketId, .packetId id) => some id
  | _ => none

/-- The packet ids that `MQTT_GetPacketId` returned, in a sequence of calls. -/
def drawnIds (h : List (ApiCall × ApiRet)) : List UInt16 := h.filterMap idOf

/-- A publish with QoS 1 or 2 and packet id `id`. -/
def usesId (id : UInt16) : ApiCall → Prop
  | .publish (some p) i => p.qos ≠ .qos0 ∧ i = id
  | _ => False

/-- The packet ids that threads obtained, in the order in which the calls returned. -/
def Run.ids (r : Run) : List UInt16 := drawnIds (r.returned.map (·.2))

/-- The thread is inside `MQTT_GetPacketId`. -/
def Thread.drawing : Thread → Bool
  | .inside .getPacketId _ _ => true
  | _ => false

/-- The number of threads that are inside `MQTT_GetPacketId`. -/
def Run.drawing (r : Run) : Nat := r.threads.countP Thread.drawing

/-- The thread as a program. -/
def Thread.prog (g : Cfg) : Thread → Prog Unit
  | .idle cl => cl.prog g
  | .inside _ p next => p.bind fun a => (next a).prog g

/-- The same threads without the record of what was returned. -/
def Run.pool (g : Cfg) (r : Run) : Pool := ⟨r.threads.map (Thread.prog g), r.world⟩

end Mqtt.Spec
