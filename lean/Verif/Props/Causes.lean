/-
C64: no failure without a cause.

The causes (Spec/Causes.lean) are what the environment did during the call: the transport returned an error, the clock showed that the configured time had
passed, the application declined to store a copy or did not find one.
-/
import Verif.Proof.CausesApi
import Verif.Props.Silence

namespace Mqtt
open Spec

section
variable {g : Cfg} {h : List (ApiCall × ApiRet)} {w w' : World} {e : Env} {c : ApiCall} {r : ApiRet}

/-- **C64** A call that returns MQTTSendFailed saw the transport's send function fail, or spent MQTT_SEND_TIMEOUT_MS or more sending one packet. -/
theorem C64_send (hh : FromInit g h w) (hv : ValidCall g c) (hd : callIn g w e c = .done r w') (hr : r.code = some .sendFailed) :
    sendError (callEvents g w e c) ∨ sendTimeout g.sendTimeoutMs (callEvents g w e c) :=
  (call_causes hh hv hd hr).send rfl

/-- **C64** A call that returns MQTTRecvFailed saw the transport's receive function fail, or waited MQTT_RECV_POLLING_TIMEOUT_MS or more for the next byte of a
packet; or it is one of the exceptions of `otherCause`. -/
theorem C64_recv (hh : FromInit g h w) (hv : ValidCall g c) (hd : callIn g w e c = .done r w') (hr : r.code = some .recvFailed) :
    recvError (callEvents g w e c) ∨ recvTimeout g.recvPollingTimeoutMs (callEvents g w e c) ∨ otherCause c w.ctx (callEvents g w e c) := by
  rcases (call_causes hh hv hd hr).recv rfl with (h | h) | h
  · exact Or.inl h
  · exact Or.inr (Or.inl h)
  · exact Or.inr (Or.inr h)

/-- **C64** A call returns MQTTPublishStoreFailed only if the application declined to store a copy. -/
theorem C64_store (hh : FromInit g h w) (hv : ValidCall g c) (hd : callIn g w e c = .done r w') (hr : r.code = some .publishStoreFailed) :
    storeDeclined (callEvents g w e c) :=
  (call_causes hh hv hd hr).store rfl

/-- **C64** A call returns MQTTPublishRetrieveFailed only if the application did not find the copy it was asked for. -/
theorem C64_retrieve (hh : FromInit g h w) (hv : ValidCall g c) (hd : callIn g w e c = .done r w') (hr : r.code = some .publishRetrieveFailed) :
    notRetrieved (callEvents g w e c) :=
  (call_causes hh hv hd hr).retrieve rfl

end

/-! ### Non-vacuity: each failure occurs, after the session of Props/Example.lean -/

/-- The transport takes three bytes, then 20 s pass (MQTT_SEND_TIMEOUT_MS). -/
def Ex.slowEnv : Env := { Ex.env [] with clock := [5, 6, 20007, 20008] }

example : Ex.ret (callIn Ex.g (Ex.played Ex.session).2 Ex.slowEnv (Ex.publishCall .qos1 9)) = some (.status .sendFailed) ∧
    ¬ sendError (callEvents Ex.g (Ex.played Ex.session).2 Ex.slowEnv (Ex.publishCall .qos1 9)) ∧
    sendTimeout Ex.g.sendTimeoutMs (callEvents Ex.g (Ex.played Ex.session).2 Ex.slowEnv (Ex.publishCall .qos1 9)) := by
  have h1 : Ex.ret (callIn Ex.g (Ex.played Ex.session).2 Ex.slowEnv (Ex.publishCall .qos1 9)) = some (.status .sendFailed) := by decide +kernel
  have h2 : ((callEvents Ex.g (Ex.played Ex.session).2 Ex.slowEnv (Ex.publishCall .qos1 9)).all fun
    | .sent _ none => false
    | _ => true) = true := by decide +kernel
  have h3 : ¬ sendError (callEvents Ex.g (Ex.played Ex.session).2 Ex.slowEnv (Ex.publishCall .qos1 9)) := by
    rintro ⟨b, hb⟩
    have := List.all_eq_true.mp h2 _ hb
    cases this
  exact ⟨h1, h3, (C64_send Ex.session_fromInit (Ex.publishValid _ _) (Ex.ret_done h1) rfl).resolve_left h3⟩

example : Ex.ret (callIn Ex.g (Ex.played Ex.session).2 { Ex.env [] with sends := [.accept 2, .fail] } (Ex.publishCall .qos1 9)) =
    some (.status .sendFailed) := by decide +kernel

/-- The header of a packet of 102 bytes, three bytes of it, and then nothing for 10 ms (MQTT_RECV_POLLING_TIMEOUT_MS): the rest cannot be thrown away. -/
def Ex.cutEnv : Env := ⟨[], List.replicate 20 (.deliver 64), [0x30, 100, 0, 1, 97], (List.range 20).map UInt32.ofNat, [], []⟩

example : Ex.ret (callIn Ex.g (Ex.played Ex.session).2 Ex.cutEnv .processLoop) = some (.status .recvFailed) ∧
    recvTimeout Ex.g.recvPollingTimeoutMs (callEvents Ex.g (Ex.played Ex.session).2 Ex.cutEnv .processLoop) := by
  have h1 : Ex.ret (callIn Ex.g (Ex.played Ex.session).2 Ex.cutEnv .processLoop) = some (.status .recvFailed) := by decide +kernel
  have h2 : ((callEvents Ex.g (Ex.played Ex.session).2 Ex.cutEnv .processLoop).all fun
    | .recvd _ none => false
    | _ => true) = true := by decide +kernel
  have h3 : ¬ recvError (callEvents Ex.g (Ex.played Ex.session).2 Ex.cutEnv .processLoop) := by
    rintro ⟨b, hb⟩
    have := List.all_eq_true.mp h2 _ hb
    cases this
  refine ⟨h1, ((C64_recv (c := .processLoop) Ex.session_fromInit trivial (Ex.ret_done h1) rfl).resolve_left h3).resolve_right ?_⟩
  show ¬ (Ex.played Ex.session).2.ctx.tables.incoming = []
  decide +kernel

/-- A CONNACK of 102 bytes and a clock that jumps: the exception of `MQTT_Connect` is needed, since neither did the receive function fail nor was there a receive
call that delivered nothing. -/
def Ex.bigEnv : Env :=
  ⟨List.replicate 4 (.accept 64), List.replicate 10 (.deliver 64), [0x20, 100] ++ List.replicate 100 7, (List.range 7).map UInt32.ofNat ++ [2000, 2001, 2002], [], []⟩

example : Ex.ret (callIn Ex.g Ex.w0 Ex.bigEnv Ex.connectCall) = some (.connect .recvFailed (some true)) ∧
    otherCause Ex.connectCall Ex.w0.ctx (callEvents Ex.g Ex.w0 Ex.bigEnv Ex.connectCall) ∧
    ((callEvents Ex.g Ex.w0 Ex.bigEnv Ex.connectCall).all fun
      | .recvd _ r => r != none && r != some []
      | _ => true) = true := by
  refine ⟨by decide +kernel, ⟨100, List.replicate 64 7, by decide +kernel, by decide, by decide⟩, by decide +kernel⟩

/-- A context without records for incoming publishes: a publish with QoS 1 is answered by MQTTRecvFailed. -/
def Ex.noRecords : World := ⟨{ Ex.ctx true with tables := ⟨List.replicate 2 Rec.empty, []⟩ }, Ex.env [], []⟩

example : let w1 := (callIn Ex.g Ex.noRecords (Ex.env [0x20, 2, 0, 0]) Ex.connectCall).world
    w1.ctx.connectStatus = .connected ∧
    Ex.ret (callIn Ex.g w1 ⟨[], [.deliver 64], [0x32, 5, 0, 1, 97, 0, 1], List.replicate 9 50, [], []⟩ .processLoop) = some (.status .recvFailed) ∧
    w1.ctx.tables.incoming = [] := by
  decide +kernel

/-- Storing is declined. -/
example : Ex.ret (callIn Ex.g (Ex.played Ex.session).2 { Ex.env [] with stores := [false] } (Ex.publishCall .qos1 9)) = some (.status .publishStoreFailed) := by
  decide +kernel

/-- The copy of publish 9 is not found when the session is resumed. -/
example : Ex.ret (callIn Ex.g (Ex.played (Ex.session ++ [(Ex.env [], Ex.publishCall .qos1 9), (Ex.env [], .disconnect)])).2
    { Ex.env [0x20, 2, 1, 0] with retrieves := [none] } Ex.connectCall) = some (.connect .publishRetrieveFailed (some true)) := by
  decide +kernel

end Mqtt
