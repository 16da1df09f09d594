/-
Which interactions take place inside the critical section.
-/
import Verif.Spec.Calls

namespace Mqtt.Spec

/-- How often the critical section has been entered and not left. -/
def depth (es : List Event) : Nat := es.foldl (fun d e => match e with | .pre => d + 1 | .post => d - 1 | _ => d) 0

/-- Where an interaction belongs, given whether the call is `MQTT_Connect` and how often the critical section is entered at that moment. -/
def placed (connecting : Bool) (d : Nat) : Event → Bool
  /- outside -/
  | .app .. | .retrieve .. => d == 0
  /- inside -/
  | .sent .. | .store .. => d == 1
  /- outside, but inside in `MQTT_Connect` -/
  | .recvd .. | .clear _ => d == if connecting then 1 else 0
  /- never left when it was not entered -/
  | .post => decide (d ≠ 0)
  | .pre | .time _ => true

/-- Every interaction takes place where it belongs. -/
def Placed (connecting : Bool) (es : List Event) : Prop := ∀ before e after, es = before ++ e :: after → placed connecting (depth before) e = true

def isConnect : ApiCall → Bool
  | .connect .. => true
  | _ => false

end Mqtt.Spec
