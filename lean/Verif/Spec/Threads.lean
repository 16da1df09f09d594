/-
What the theorem about threads says: how the events of different threads mix, and which functions which thread calls.
-/
import Verif.Model.Threads
import Verif.Spec.Calls

namespace Mqtt
open Spec

/-- One complete control packet: type byte, encoded length, and exactly that many bytes. -/
def OnePacket (bs : List UInt8) : Prop := ∃ first body, bs = packet first body ∧ body.length ≤ maxRemaining

/-- A control packet, or what the retrieve callback returned during `tr` (the application's copy of a packet). -/
def Sendable (tr : List Event) (bs : List UInt8) : Prop := OnePacket bs ∨ ∃ id, Event.retrieve id (some bs) ∈ tr

def isHook : Event → Bool
  | .pre | .post => true
  | _ => false

/-- A call of the transport's send function that failed. -/
def isSendFail : Event → Bool
  | .sent _ none => true
  | _ => false

/-- After a failed send call there is no further send call. -/
def quietAfterSendFail : List Event → Prop
  | [] => True
  | e :: es => if isSendFail e then noSent es else quietAfterSendFail es

/-- The events of a step: an access outside the critical section, without transmission; or a critical section, from the pre hook to the post
hook, that transmits (some first part of) one packet and nothing else.  Hooks inside the section occur only after the transport failed in a
receive call (`MQTT_Connect` waiting for the CONNACK, see `C46_connect_nests`). -/
inductive Chunk (tr : List Event) : List Event → Prop
  | plain {es : List Event} : (∀ e ∈ es, isSent e = false ∧ isHook e = false) → Chunk tr es
  | section {body : List Event} {pkt : List UInt8} : Sendable tr pkt → wire body <+: pkt →
      ((∃ e ∈ body, isHook e = true) → ∃ n, Event.recvd n none ∈ body) → Chunk tr (.pre :: (body ++ [.post]))

/-- The events of a step that has not been finished. -/
inductive Begun (tr : List Event) : List Event → Prop
  | plain {es : List Event} : (∀ e ∈ es, isSent e = false ∧ isHook e = false) → Begun tr es
  | section {body : List Event} {pkt : List UInt8} : Sendable tr pkt → wire body <+: pkt →
      ((∃ e ∈ body, isHook e = true) → ∃ n, Event.recvd n none ∈ body) → Begun tr (.pre :: body)

/-- The functions that threads other than the one that receives may call at any time. -/
def sharedCall : ApiCall → Bool
  | .publish .. | .subscribe .. | .unsubscribe .. | .ping | .cancelCallback _ | .checkConnectStatus | .getPacketId => true
  | _ => false

/-- The thread makes only calls that satisfy `P`. -/
inductive Client.Uses (P : ApiCall → Prop) : Client → Prop
  | stop : Client.Uses P .stop
  | call {c : ApiCall} {next : ApiRet → Client} : P c → (∀ r, Client.Uses P (next r)) → Client.Uses P (.call c next)

/-- `MQTT_Connect` is not called. -/
def noConnect : ApiCall → Bool
  | .connect .. => false
  | _ => true

/-- The thread stops once `MQTT_Connect` has reported a new session. -/
inductive OneSession : Client → Prop
  | stop : OneSession .stop
  | call {c : ApiCall} {next : ApiRet → Client} : (noConnect c = false → next (.connect .success (some false)) = .stop) →
      (∀ r, OneSession (next r)) → OneSession (.call c next)

/-- Among the events is a stretch in which the client sent a CONNECT packet and received the CONNACK packet with which the server begins a new session. -/
def newSession (es : List Event) : Prop :=
  ∃ a b c ci will, es = a ++ (b ++ c) ∧ wire b = connectPacket (ConnectInfo.toSpec ci will) ∧ received b = [0x20, 2, 0, 0]

/-- Threads that start in world `w`: the first one receives. -/
def startPool (g : Cfg) (first : Client) (others : List Client) (w : World) : Pool := ⟨(first :: others).map (Client.prog g), w⟩

/-- The events `es` that follow `tr` are a sequence of steps, one after the other. -/
inductive Chunked (tr : List Event) : List Event → Prop
  | nil : Chunked tr []
  | snoc {es new : List Event} : Chunked tr es → Chunk (tr ++ es) new → Chunked tr (es ++ new)

/-- Threads of which all but the first execute each call at once. -/
structure Coarse where
  first : Prog Unit
  others : List Client
  world : World

/-- The first thread executes its next step, or another one a whole call. -/
inductive Coarse.Step (g : Cfg) : Coarse → Coarse → Prop
  | first {β : Type} {m : M β} {k : β → Prog Unit} {cs : List Client} {w w' : World} {b : β} : m w = .done b w' →
      Coarse.Step g ⟨.step m k, cs, w⟩ ⟨k b, cs, w'⟩
  | call {p : Prog Unit} {cs : List Client} {w w' : World} {i : Nat} {c : ApiCall} {next : ApiRet → Client} {r : ApiRet} :
      cs[i]? = some (.call c next) → apiCall g c w = .done r w' → Coarse.Step g ⟨p, cs, w⟩ ⟨p, cs.set i (next r), w'⟩

inductive Coarse.Steps (g : Cfg) : Coarse → Coarse → Prop
  | refl {p : Coarse} : Coarse.Steps g p p
  | step {p q r : Coarse} : Coarse.Steps g p q → Coarse.Step g q r → Coarse.Steps g p r

end Mqtt
