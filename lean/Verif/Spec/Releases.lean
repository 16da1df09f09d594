/-
The end of an incoming QoS 2 exchange: for which messages the client still answers PUBREL.
-/
import Verif.Spec.Calls
import Verif.Spec.Incoming

namespace Mqtt.Spec
open Mqtt

/-- A PUBREL with packet id `i` was presented to the application. -/
def relPresented (i : UInt16) (es : List Event) : Prop := ∃ body st, Event.app 0x62 body i st none ∈ es

/-- The last thing the call sent was a whole PUBREC with packet id `i`. -/
def pubrecSent (i : UInt16) (es : List Event) : Prop := idPacket 0x50 i.toNat <:+ wire es

/-- In world `w` an incoming QoS 2 exchange with packet id `i` is open: a receive call that succeeded sent PUBREC for it; since then no new session has been started, and no call that
presented a PUBREL with this id has succeeded (if one does, it has sent PUBCOMP). -/
inductive ExchangeOpen (g : Cfg) (i : UInt16) : World → Prop
  | acknowledged {h : List (ApiCall × ApiRet)} {w w' : World} {e : Env} {m : Bool} : FromInit g h w → callIn g w e (loopCall m) = .done (.status .success) w' →
      pubrecSent i (callEvents g w e (loopCall m)) → ExchangeOpen g i w'
  | kept {w w' : World} {e : Env} {c : ApiCall} {r : ApiRet} : ExchangeOpen g i w → ValidCall g c → callIn g w e c = .done r w' → r ≠ .connect .success (some false) →
      ¬ (r = .status .success ∧ relPresented i (callEvents g w e c)) → ExchangeOpen g i w'

end Mqtt.Spec
