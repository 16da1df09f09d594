/-
The arguments of calls, and what the client does, without the bytes of topics, messages, names and passwords.
-/
import Verif.Spec.Calls

namespace Mqtt.Spec

/-- As many zeros. -/
def blankBytes (bs : List UInt8) : List UInt8 := List.replicate bs.length 0

/-- The same amount of memory, filled with zeros. -/
def blankPtr (p : Ptr) : Ptr := p.map blankBytes

/-- Zeros in the place of topic and payload. -/
def blankPublish (p : PublishInfo) : PublishInfo := { p with pTopicName := blankPtr p.pTopicName, pPayload := blankPtr p.pPayload }

/-- Zeros in the place of client identifier, user name and password. -/
def blankConnect (ci : ConnectInfo) : ConnectInfo :=
  { ci with pClientIdentifier := blankPtr ci.pClientIdentifier, pUserName := blankPtr ci.pUserName, pPassword := blankPtr ci.pPassword }

/-- Zeros in the place of the topic filter. -/
def blankFilter (s : SubscribeInfo) : SubscribeInfo := { s with pTopicFilter := blankPtr s.pTopicFilter }

/-- The call with zeros in the place of all texts and messages. -/
def blankCall : ApiCall → ApiCall
  | .connect ci will t sp => .connect (ci.map blankConnect) (will.map blankPublish) t sp
  | .subscribe subs id => .subscribe (subs.map (List.map blankFilter)) id
  | .unsubscribe subs id => .unsubscribe (subs.map (List.map blankFilter)) id
  | .publish p id => .publish (p.map blankPublish) id
  | c => c

def blankVec (v : IoVec) : IoVec := { v with iov_base := blankPtr v.iov_base }

/-- An event with zeros in the place of the bytes that were sent, stored or retrieved. -/
def blankEvent : Event → Event
  | .sent bs k => .sent (blankBytes bs) k
  | .store id vec ok => .store id (vec.map blankVec) ok
  | .retrieve id p => .retrieve id (p.map blankBytes)
  | e => e

/-- The behaviour of the environment with zeros in the place of stored packets. -/
def blankEnv (e : Env) : Env := { e with retrieves := e.retrieves.map (Option.map blankBytes) }

/-- State, environment and events with zeros in these places.  The context is kept as it is. -/
def blankWorld (w : World) : World := ⟨w.ctx, blankEnv w.env, w.trace.map blankEvent⟩

/-- How a call ended, with zeros in these places. -/
def blankOut {α : Type} : Out α → Out α
  | .done a w => .done a (blankWorld w)
  | .stuck w => .stuck (blankWorld w)
  | .ub e w => .ub e (blankWorld w)

/-- Calls and environments with zeros in these places. -/
def blankCalls (l : List (Env × ApiCall)) : List (Env × ApiCall) := l.map fun x => (blankEnv x.1, blankCall x.2)

end Mqtt.Spec
