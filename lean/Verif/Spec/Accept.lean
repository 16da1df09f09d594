/-
Which arguments the functions that send a packet accept.  A context without record arrays (`MQTT_InitStatefulQoS` not called) has empty tables.
-/
import Verif.Model.Api
import Verif.Spec.Args

namespace Mqtt
open Spec

/-- The remaining length of a PUBLISH. -/
def publishLength (p : PublishInfo) : Nat := 2 + p.topicNameLength.toNat + (if p.qos = .qos0 then 0 else 2) + p.payloadLength

/-- The arguments `MQTT_Publish` accepts. -/
structure PublishArgsOk (c : Ctx) (p : PublishInfo) (id : UInt16) : Prop where
  topic : p.pTopicName ≠ none ∧ p.topicNameLength ≠ 0
  payload : p.payloadLength ≠ 0 → p.pPayload ≠ none
  id : p.qos ≠ .qos0 → id ≠ 0
  /-- there is an array of outgoing records -/
  records : p.qos ≠ .qos0 → c.tables.outgoing ≠ []
  /-- the whole packet, not only its remaining length, is limited -/
  size : 1 + (varInt (publishLength p)).length + publishLength p ≤ 268435455

/-- The arguments `MQTT_Subscribe` and `MQTT_Unsubscribe` accept. -/
structure FiltersOk (c : Ctx) (ty : SubType) (l : List SubscribeInfo) (id : UInt16) : Prop where
  some : l ≠ []
  id : id ≠ 0
  filters : ∀ s ∈ l, s.pTopicFilter ≠ none ∧ s.topicFilterLength ≠ 0
  /-- without an array of incoming records only QoS 0 -/
  records : c.tables.incoming = [] → ∀ s ∈ l, s.qos = .qos0
  size : 2 + filtersLen ty l ≤ 268435455

/-- The arguments `MQTT_Connect` accepts (besides null pointers). -/
structure ConnectArgsOk (ci : ConnectInfo) (will : Option PublishInfo) : Prop where
  client : ci.pClientIdentifier ≠ none ∧ ci.clientIdentifierLength ≠ 0
  will : ∀ x, will = some x → x.pTopicName ≠ none ∧ x.payloadLength ≤ 65535

/-- Every call is given arguments it accepts.  (Without an array of outgoing records `MQTT_CancelCallback` accepts no id.) -/
def ArgsOk (c : Ctx) : ApiCall → Prop
  | .connect ci will _ sp => ∃ x, ci = some x ∧ sp ≠ none ∧ ConnectArgsOk x will
  | .publish p id => ∃ q, p = some q ∧ PublishArgsOk c q id
  | .subscribe subs id => ∃ l, subs = some l ∧ FiltersOk c .subscribe l id
  | .unsubscribe subs id => ∃ l, subs = some l ∧ FiltersOk c .unsubscribe l id
  | .cancelCallback _ => c.tables.outgoing ≠ []
  | _ => True

end Mqtt
