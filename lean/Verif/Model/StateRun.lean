/-
Histories of state-engine calls on the model of core_mqtt_state.c.
-/
import Verif.Model.State
import Verif.Spec.InFlight

namespace Mqtt

/-- One call with non-null pointers: `MQTT_ReserveState` (core_mqtt_state.c 819), `MQTT_UpdateStatePublish` (877),
`MQTT_UpdateStateAck` (999), `MQTT_RemoveStateRecord` (951). -/
def stateCall (t : Tables) : Spec.Call → Res (Spec.Answer × Tables)
  | .reserve id qos => do
    let (st, t) ← reserveState t id qos
    pure ((st, none), t)
  | .publish op id qos => do
    let (st, o, t) ← updateStatePublishApi t id op qos
    pure ((st, o), t)
  | .ack op type id => do
    let (st, o, t) ← updateStateAckApi t id type op
    pure ((st, o), t)
  | .cancel id => do
    let (st, t) ← removeStateRecord t id
    pure ((st, none), t)

/-- A history of calls: all answers and the final arrays. -/
def stateRun (t : Tables) : List Spec.Call → Res (List Spec.Answer × Tables)
  | [] => pure ([], t)
  | c :: cs => do
    let (a, t) ← stateCall t c
    let (as, t) ← stateRun t cs
    pure (a :: as, t)

/-- Cleared arrays with `n` and `m` slots, as a caller passes them to `MQTT_InitStatefulQoS`, core_mqtt.c 2738. -/
def freshTables (n m : Nat) : Tables := ⟨List.replicate n Rec.empty, List.replicate m Rec.empty⟩

end Mqtt
