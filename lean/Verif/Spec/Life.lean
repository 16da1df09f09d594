/-
The life of an outgoing publish as the application sees it.
-/
import Verif.Spec.Calls
import Verif.Spec.Incoming

namespace Mqtt.Spec
open Mqtt

/-- The acknowledgements of outgoing publishes (PUBACK, PUBREC, PUBCOMP) with packet id `i` presented to the application, in order, by their first byte. -/
def acksOf (i : UInt16) (es : List Event) : List UInt8 :=
  es.filterMap fun e => match e with
    | .app t _ id _ none => if id = i ∧ (t = 0x40 ∨ t = 0x50 ∨ t = 0x70) then some t else none
    | _ => none

theorem acksOf_append (i : UInt16) (a b : List Event) : acksOf i (a ++ b) = acksOf i a ++ acksOf i b := by simp [acksOf]

/-- The history `h` that ended in world `w` contains an `MQTT_Publish` with packet id `i` and QoS `q` that succeeded: the whole packet was handed to the
transport.  Since then `es` happened, no new session was started, and the publish was not cancelled. -/
def Published (g : Cfg) (h : List (ApiCall × ApiRet)) (w : World) (i : UInt16) (q : QoS) (es : List Event) : Prop :=
  ∃ (h1 h2 : List (ApiCall × ApiRet)) (p : PublishInfo) (w0 w1 : World) (e : Env), p.qos = q ∧
    h = h1 ++ (.publish (some p) i, .status .success) :: h2 ∧ FromInit g h1 w0 ∧ ValidCall g (.publish (some p) i) ∧
    callIn g w0 e (.publish (some p) i) = .done (.status .success) w1 ∧ wire (callEvents g w0 e (.publish (some p) i)) = publishPacket (p.toSpec i) ∧
    Hist g w1 h2 w ∧ w.trace = w1.trace ++ es ∧
    (∀ x ∈ h2, x.2 ≠ .connect .success (some false)) ∧ (ApiCall.cancelCallback i, ApiRet.status .success) ∉ h2

/-- A whole PUBREL for packet id `i` was handed to the transport. -/
def PubrelSent (i : UInt16) (es : List Event) : Prop := idPacket 0x62 i.toNat <:+: wire es

end Mqtt.Spec
