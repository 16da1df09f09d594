/-
Runs that show the findings in DESIGN.md that are not attached to a property.
-/
import Verif.Props.Life
import Verif.Props.Silence

namespace Mqtt
open Spec

/-- What the calls of a run return. -/
def Ex.results (w : World) (steps : List (Env × ApiCall)) : List ApiRet := (Ex.histOf w steps).map (·.2)

/-- What a call sends and the status it leaves. -/
def Ex.sentIn (w : World) (e : Env) (c : ApiCall) : List UInt8 := wire (callEvents Ex.g w e c)
def Ex.left (w : World) (e : Env) (c : ApiCall) : Ctx := (callIn Ex.g w e c).world.ctx

/-- The transport takes one byte and then nothing until the timeout. -/
def Ex.timeout : Env := ⟨.accept 1 :: List.replicate 9 (.accept 0), [], [], [0, 0, 0, 5000, 10000, 19999, 20000, 20001, 20002], [], []⟩

/-- e: a transmission that timed out in the middle of a packet leaves the status connected, and the next packet goes on where it stopped. -/
theorem F_e_midway : Ex.ret (callIn Ex.g Ex.after Ex.timeout .ping) = some (.status .sendFailed) ∧ (Ex.left Ex.after Ex.timeout .ping).connectStatus = .connected ∧
    wire (callEvents Ex.g Ex.after Ex.timeout .ping) = [0xC0] := by
  decide +kernel

/-- e: at exactly the timeout, `sendBuffer` stops and `sendMessageVector` tries once more. -/
theorem F_e_boundary :
    let e : Env := ⟨List.replicate 3 (.accept 0), [], [], [0, 20000, 20001], [], []⟩
    ((callEvents Ex.g Ex.after e .ping).filter fun x => match x with | .sent .. => true | _ => false).length = 1 ∧
    ((callEvents Ex.g Ex.after e (Ex.publishCall .qos0 0)).filter fun x => match x with | .sent .. => true | _ => false).length = 2 := by
  decide +kernel

/-- f: a refused copy leaves the record reserved, and the next connection that resumes the session fails because of it. -/
theorem F_f_refused_copy :
    let steps := [(Ex.env [0x20, 2, 1, 0], Ex.connectCall), ({ Ex.env [] with stores := [false] }, Ex.publishCall .qos1 7), (Ex.env [], .disconnect),
      ({ Ex.env [0x20, 2, 1, 0] with retrieves := [none] }, Ex.connectCall)]
    Ex.results Ex.w0 steps = [.connect .success (some true), .status .publishStoreFailed, .status .success, .connect .publishRetrieveFailed (some true)] ∧
    (Ex.endOf Ex.w0 steps).ctx.tables.outgoing = [⟨7, .qos1, .publishSend⟩, Rec.empty] := by
  decide +kernel

/-- f: cancelling a publish does not clear its copy. -/
theorem F_f_cancel :
    let w := Ex.endOf Ex.w0 [(Ex.env [0x20, 2, 1, 0], Ex.connectCall), (Ex.env [], Ex.publishCall .qos1 7)]
    callEvents Ex.g w (Ex.env []) (.cancelCallback 7) = [.pre, .post] ∧ (Ex.left w (Ex.env []) (.cancelCallback 7)).tables.outgoing = [Rec.empty, Rec.empty] := by
  decide +kernel

/-- A connection without keep-alive. -/
def Ex.noKeepAlive : World := Ex.endOf Ex.w0 [(Ex.env [0x20, 2, 0, 0], .connect (some { Ex.ci with keepAliveSeconds := 0 }) none 1000 (some true))]

/-- g: without keep-alive, a ping is sent after a time without packets from the server. -/
theorem F_g_no_keep_alive : Ex.noKeepAlive.ctx.connectStatus = .connected ∧ Ex.noKeepAlive.ctx.keepAliveIntervalSec = 0 ∧ Ex.sentIn Ex.noKeepAlive (Ex.envAt 30010 []) .processLoop = [0xC0, 0] := by
  decide +kernel

/-- g: the answer to a ping is overlooked by `MQTT_ReceiveLoop` (it is handed to the application), so that `MQTT_ProcessLoop` reports a timeout; the connection stays
established. -/
theorem F_g_receiveLoop :
    let steps := [(Ex.env [], .ping), ({ Ex.env [0xD0, 0] with recvs := [.deliver 2] }, .receiveLoop), (Ex.envAt 25000 [], .processLoop)]
    Ex.results Ex.after steps = [.status .success, .status .success, .status .keepAliveTimeout] ∧ (Ex.endOf Ex.after steps).ctx.connectStatus = .connected := by
  decide +kernel

/-- h: the receive loops run without a connection: a publish that arrives before `MQTT_Connect` is handed to the application. -/
theorem F_h_not_connected :
    let e := { Ex.env [0x30, 4, 0, 1, 97, 98] with recvs := [.deliver 6] }
    Ex.w0.ctx.connectStatus = .notConnected ∧ Ex.ret (callIn Ex.g Ex.w0 e .processLoop) = some (.status .success) ∧
    (callEvents Ex.g Ex.w0 e .processLoop).any (fun x => match x with | .app 0x30 .. => true | _ => false) = true := by
  decide +kernel

/-- h: bytes that are in the buffer survive a connect that resumes a session (here: one received before the connect). -/
theorem F_h_stale_bytes :
    let steps := [({ Ex.env [0x30] with recvs := [.deliver 1] }, .receiveLoop), (Ex.env [0x20, 2, 1, 0], Ex.connectCall)]
    Ex.results Ex.w0 steps = [.status .needMoreBytes, .connect .success (some true)] ∧ (Ex.endOf Ex.w0 steps).ctx.index = 1 := by
  decide +kernel

/-- i: an empty topic name, and DUP with QoS 0, are accepted from the server. -/
theorem F_i_reader :
    let e := { Ex.env [0x38, 3, 0, 0, 5] with recvs := [.deliver 5] }
    Ex.ret (callIn Ex.g Ex.after e .processLoop) = some (.status .success) ∧
    (callEvents Ex.g Ex.after e .processLoop).any (fun x => match x with | .app 0x38 .. => true | _ => false) = true := by
  decide +kernel

/-- i: a publish with DUP that is not in flight is taken for a new one. -/
theorem F_i_dup_new :
    let c : ApiCall := .publish (some { Ex.pub .qos1 with dup := true }) 33
    Ex.ret (callIn Ex.g Ex.after (Ex.env []) c) = some (.status .success) ∧
    (Ex.left Ex.after (Ex.env []) c).tables.outgoing = [⟨7, .qos2, .pubCompPending⟩, ⟨33, .qos1, .pubAckPending⟩] := by
  decide +kernel

/-- j: a CONNECT with password and without user name is sent; one with an empty client id is not. -/
theorem F_j_connect :
    (Ex.sentIn Ex.w0 (Ex.env [0x20, 2, 1, 0]) (.connect (some { Ex.ci with pPassword := some [80], passwordLength := 1 }) none 1000 (some true))).take 10
      = [0x10, 17, 0, 4, 77, 81, 84, 84, 4, 0x40] ∧
    Ex.ret (callIn Ex.g Ex.w0 (Ex.env []) (.connect (some { Ex.ci with pClientIdentifier := none, clientIdentifierLength := 0 }) none 1000 (some true)))
      = some (.connect .badParameter (some true)) := by
  decide +kernel

/-- j: a will with a null payload and a length makes `MQTT_Connect` reach an assertion. -/
theorem F_j_will : ∃ w', callIn Ex.g Ex.w0 (Ex.env []) (.connect (some Ex.ci) (some ⟨.qos0, false, false, some [97, 98], 2, none, 3⟩) 1000 (some true)) = .ub .assertFailed w' := by
  refine ⟨(callIn Ex.g Ex.w0 (Ex.env []) (.connect (some Ex.ci) (some ⟨.qos0, false, false, some [97, 98], 2, none, 3⟩) 1000 (some true))).world, ?_⟩
  decide +kernel

/-- j: a second PUBREC, and a PUBREL nobody waits for. -/
theorem F_j_acks :
    Ex.ret (callIn Ex.g Ex.after { Ex.env [0x50, 2, 0, 7] with recvs := [.deliver 4] } .processLoop) = some (.status .illegalState) ∧
    Ex.ret (callIn Ex.g Ex.after { Ex.env [0x62, 2, 0, 9] with recvs := [.deliver 4] } .processLoop) = some (.status .badResponse) := by
  decide +kernel

/-- j: a QoS 1 publish with the id of a QoS 2 publish that waits for PUBREL: its PUBACK is sent, then the call reports an error; the publish is not handed over. -/
theorem F_j_mixed :
    let w := Ex.endOf Ex.after [({ Ex.env [0x34, 5, 0, 1, 97, 0, 5] with recvs := [.deliver 7] }, .processLoop)]
    let e := { Ex.env [0x32, 5, 0, 1, 97, 0, 5] with recvs := [.deliver 7] }
    w.ctx.tables.incoming = [⟨5, .qos2, .pubRelPending⟩, Rec.empty] ∧ Ex.ret (callIn Ex.g w e .processLoop) = some (.status .illegalState) ∧
    Ex.sentIn w e .processLoop = [0x40, 2, 0, 5] ∧
    (callEvents Ex.g w e .processLoop).any (fun x => match x with | .app .. => true | _ => false) = false := by
  decide +kernel

/-- k: records that were not cleared by the caller are taken for publishes in flight. -/
theorem F_k_garbage :
    let c := (mqttInitStatefulQoS Ex.w0.ctx (some [⟨7, .qos1, .pubAckPending⟩, Rec.empty]) 2 (some [Rec.empty]) 1).2
    let w := Ex.endOf ⟨c, Ex.env [], []⟩ [({ Ex.env [0x20, 2, 1, 0] with retrieves := [some [1, 2]] }, Ex.connectCall)]
    w.ctx.connectStatus = .connected ∧ Ex.ret (callIn Ex.g w (Ex.env []) (Ex.publishCall .qos1 7)) = some (.status .stateCollision) := by
  decide +kernel

/-- l: a PUBLISH whose remaining length is the largest MQTT allows is refused. -/
theorem F_l_largest : (getPublishPacketSize (2 ^ 64) (some ⟨.qos0, false, false, some [97, 98], 2, some [], 268435455 - 4⟩)).status = .badParameter ∧
    (getPublishPacketSize (2 ^ 64) (some ⟨.qos0, false, false, some [97, 98], 2, some [], 268435455 - 4 - 5⟩)).status = .success := by
  decide +kernel

/-- n: a packet that does not fit into the buffer of 64 bytes is dropped with success. -/
theorem F_n_dropped :
    let e : Env := ⟨[], [.deliver 64, .deliver 64], 0x30 :: 100 :: List.replicate 100 7, [0, 0, 0, 0], [], []⟩
    Ex.ret (callIn Ex.g Ex.after e .receiveLoop) = some (.status .success) ∧ (callEvents Ex.g Ex.after e .receiveLoop).any (fun x => match x with | .app .. => true | _ => false) = false := by
  decide +kernel

/-- q: a transport error after the first byte of the CONNACK is reported as a bad response. -/
theorem F_q_connack : Ex.ret (callIn Ex.g Ex.w0 { Ex.env [0x20] with recvs := [.deliver 1, .fail] } Ex.connectCall) = some (.connect .badResponse (some true)) := by
  decide +kernel

/-- p: one call sends a keep-alive ping and handles a packet that was in the buffer. -/
theorem F_p_both :
    let w := Ex.endOf Ex.after [({ Ex.env [0x30, 3, 0, 1, 97, 0x30, 3, 0, 1, 98] with recvs := [.deliver 10] }, .processLoop)]
    let e := { Ex.envAt 30100 [] with recvs := [.deliver 0] }
    Ex.sentIn w e .processLoop = [0xC0, 0] ∧ (callEvents Ex.g w e .processLoop).any (fun x => match x with | .app 0x30 .. => true | _ => false) = true := by
  decide +kernel

/-- r: `MQTT_Unsubscribe` looks at the QoS of its filters, although it is not sent. -/
theorem F_r_unsubscribe :
    let w : World := { Ex.after with ctx := { Ex.after.ctx with tables := ⟨Ex.after.ctx.tables.outgoing, []⟩ } }
    Ex.ret (callIn Ex.g w (Ex.env []) (.unsubscribe (some [⟨.qos1, some [97], 1⟩]) 9)) = some (.status .badParameter) ∧
    Ex.ret (callIn Ex.g w (Ex.env []) (.unsubscribe (some [⟨.qos0, some [97], 1⟩]) 9)) = some (.status .success) := by
  decide +kernel

end Mqtt
