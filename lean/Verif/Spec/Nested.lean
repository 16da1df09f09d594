/-
The application's callback may itself call the library (while the receive loop that called it waits): the semantics of such executions.
-/
import Verif.Spec.Threads

namespace Mqtt
open Spec

/-- A call of the application's callback. -/
def isCallback : Event → Bool
  | .app .. => true
  | _ => false

/-- The thread that receives, what the callback it has called has still to do (if it is in a callback), the other threads, and the world. -/
structure Nest where
  main : Prog Unit
  inner : Option (Prog Unit)
  others : List (Prog Unit)
  world : World

/-- A step.  The receive loop is suspended while a callback runs; what the callback does is any program of calls that satisfies `P` (it may depend on what was
received, on the state of the application, …).  In the model of the library (Model/Threads.lean) every call of the callback is a step of its own (`act (appCallback …)`), so
that the callback runs exactly between this step and the next one of the receive loop.  The callback runs in the same thread; the steps of the other threads may come in between. -/
inductive Nest.Step (g : Cfg) (P : Client → Prop) : Nest → Nest → Prop
  /-- A step of the receive loop without callback. -/
  | main {β : Type} {m : M β} {k : β → Prog Unit} {os : List (Prog Unit)} {w w' : World} {b : β} {es : List Event} : m w = .done b w' →
      w'.trace = w.trace ++ es → es.any isCallback = false → Nest.Step g P ⟨.step m k, none, os, w⟩ ⟨k b, none, os, w'⟩
  /-- The receive loop calls the callback. -/
  | callback {β : Type} {m : M β} {k : β → Prog Unit} {os : List (Prog Unit)} {w w' : World} {b : β} {es : List Event} {cl : Client} :
      m w = .done b w' → w'.trace = w.trace ++ es → es.any isCallback = true → P cl →
      Nest.Step g P ⟨.step m k, none, os, w⟩ ⟨k b, some (cl.prog g), os, w'⟩
  /-- A step of the callback. -/
  | inner {β : Type} {m : M β} {k : β → Prog Unit} {q : Prog Unit} {os : List (Prog Unit)} {w w' : World} {b : β} : m w = .done b w' →
      Nest.Step g P ⟨q, some (.step m k), os, w⟩ ⟨q, some (k b), os, w'⟩
  /-- The callback returns. -/
  | ret {q : Prog Unit} {os : List (Prog Unit)} {w : World} : Nest.Step g P ⟨q, some (.ret ()), os, w⟩ ⟨q, none, os, w⟩
  /-- A step of another thread. -/
  | other {β : Type} {m : M β} {k : β → Prog Unit} {q : Prog Unit} {n : Option (Prog Unit)} {os : List (Prog Unit)} {w w' : World} {b : β} {i : Nat} :
      os[i]? = some (.step m k) → m w = .done b w' → Nest.Step g P ⟨q, n, os, w⟩ ⟨q, n, os.set i (k b), w'⟩

inductive Nest.Steps (g : Cfg) (P : Client → Prop) : Nest → Nest → Prop
  | refl {s : Nest} : Nest.Steps g P s s
  | step {s t u : Nest} : Nest.Steps g P s t → Nest.Step g P t u → Nest.Steps g P s u

/-- Nothing has been executed. -/
def startNest (g : Cfg) (first : Client) (others : List Client) (w : World) : Nest := ⟨first.prog g, none, others.map (Client.prog g), w⟩

/-- The program whose step is next in the thread that receives: the callback if one is active, otherwise the receive loop. -/
def Nest.active (s : Nest) : Prog Unit := s.inner.getD s.main

end Mqtt
