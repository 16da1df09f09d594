/-
Rounds of an open connection: the server reads and answers all that the client has sent, then the client processes all that the server has sent (C61).
-/
import Verif.Spec.Packets

namespace Mqtt.Spec
open Mqtt

/-- The server goes on until it has read all that the client has sent.  With `own` it may meanwhile send messages, or anything else, of its own accord; otherwise
it only answers. -/
inductive Sys.Serving (strict own : Bool) : Sys → Sys → Prop
  | done {s : Sys} : s.net.up = [] → Sys.Serving strict own s s
  | step {s s' : Sys} {n : Net} : Serves strict s.world.ctx.bufSize s.net n → (own = true ∨ n.up.length < s.net.up.length) →
      Sys.Serving strict own { s with net := n } s' → Sys.Serving strict own s s'

/-- The application calls `MQTT_ProcessLoop` or `MQTT_ReceiveLoop` until all that the server has sent is processed; the calls return `MQTTSuccess` or
`MQTTNeedMoreBytes`.  Each call gets what the transport delivers, a part of what the server has sent, and what it sends is on its way to the server. -/
inductive Sys.Listening (g : Cfg) : Sys → List (ApiCall × ApiRet) → Sys → Prop
  | done {s : Sys} : s.world.ctx.buffered = [] → s.net.down = [] → Sys.Listening g s [] s
  | call {s s' : Sys} {e : Env} {c : ApiCall} {st : Status} {w : World} {rest : List UInt8} {h : List (ApiCall × ApiRet)} :
      (c = .processLoop ∨ c = .receiveLoop) → callIn g s.world e c = .done (.status st) w → (st = .success ∨ st = .needMoreBytes) →
      s.net.down = received (callEvents g s.world e c) ++ rest →
      Sys.Listening g ⟨w, { s.net with up := s.net.up ++ wire (callEvents g s.world e c), down := rest }, (callEvents g s.world e c).foldl Shelf.note s.shelf⟩ h s' →
      Sys.Listening g s ((c, .status st) :: h) s'

end Mqtt.Spec
