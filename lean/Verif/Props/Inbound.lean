/-
End-to-end delivery of the messages with QoS 1 and 2 from the server to the application: C57.

The system is that of C56 (Spec/Broker).  The server is `strict`: it sends QoS 1 and 2 messages and PUBREL as the standard says (`Offers`, `Settles`), one
message at a time for each packet id.
-/
import Verif.Proof.InboundConnect
import Verif.Props.Broker

namespace Mqtt
open Spec
set_option linter.unusedSimpArgs false

/-- **C57** Take any run of the system and a moment at which neither the server nor the client has a message with packet id `i` in flight, and look at what happened since
then, in one session of the server.  The QoS 1 and 2 messages with packet id `i` that were presented to the application are the messages the server sent under this
id, in order, none changed, none missing and none invented, each QoS 2 message exactly once and each QoS 1 message at least once; only the last one may still be missing,
and then the server still keeps it and has got no acknowledgement. -/
theorem C57_delivery {g : Cfg} {s00 s0 s : Sys} {h0 h : List (ApiCall × ApiRet)} {i : UInt16} (hi : i ≠ 0) (hini : Sys.Initial g s00)
    (hr0 : Sys.Run g true s00 h0 s0) (hr : Sys.Run g true s0 h s) (hfree : s0.net.server.out.slot i = none) (hfree' : ¬ Receiving s0.world.ctx.tables i)
    (hses : s.net.server.sessions = s0.net.server.sessions) {es : List Event} (hes : s.world.trace = s0.world.trace ++ es) :
    ∃ new sent, s.net.server.out.offered = s0.net.server.out.offered ++ new ∧ Arrived sent (presented i es) ∧
      (sent = withId i new ∨ ∃ m x, withId i new = sent ++ [m] ∧ s.net.server.out.slot i = some ⟨m, false, x⟩) := by
  obtain ⟨_, _, h1⟩ := Sys.inReady hini.cfg hi hr0 (Sys.inFirst hini i)
  have h1 := h1.again hfree (by
    intro fl hfl
    by_cases hp : fl.inc.phase i = none
    · exact hp
    · exact absurd ((receiving_iff hfl i).mpr hp) hfree')
  obtain ⟨es', h2, fl, h3, _, _, h4⟩ := Sys.inReady hini.cfg hi hr h1
  have : es' = es := List.append_cancel_left (h2.symm.trans hes)
  subst this
  rw [List.nil_append] at h4
  obtain ⟨us, part, ds, buf, q1, _, _⟩ := h4.ties
  obtain ⟨new, q2, q3⟩ := q1.tie
  have hq : true = true ∧ s.net.server.sessions = s0.net.server.sessions := ⟨rfl, hses⟩
  generalize fl.inc.phase i = ph at q3
  generalize us.filterMap (inUp i) = U at q3
  generalize ds.filterMap (inDown i) = D at q3
  generalize hsl : s.net.server.out.slot i = slot at q3
  cases q3 with
  | free k => exact ⟨new, _, q2, (k hq).2, Or.inl rfl⟩
  | one _ _ _ k =>
    obtain ⟨O', k1, ⟨_, _, k2⟩ | ⟨_, k2⟩ | ⟨_, _, k2⟩⟩ := k hq
    · exact ⟨new, O', q2, k2, Or.inr ⟨_, _, k1, rfl⟩⟩
    · exact ⟨new, _, q2, k2, Or.inl rfl⟩
    · exact ⟨new, _, q2, k2, Or.inl rfl⟩
  | two _ _ _ k =>
    obtain ⟨O', k1, ⟨_, _, k2⟩ | ⟨_, _, k2⟩ | ⟨_, k2⟩⟩ := k hq
    · exact ⟨new, O', q2, k2, Or.inr ⟨_, _, k1, rfl⟩⟩
    · exact ⟨new, _, q2, k2, Or.inl rfl⟩
    · exact ⟨new, _, q2, k2, Or.inl rfl⟩
  | rel _ _ k => exact ⟨new, _, q2, (k hq).1, Or.inl rfl⟩

/-- **C57** When the server has no message with packet id `i` in flight any more, or has got PUBREC for the last one, all of them were presented to the application. -/
theorem C57_at_rest {g : Cfg} {s00 s0 s : Sys} {h0 h : List (ApiCall × ApiRet)} {i : UInt16} (hi : i ≠ 0) (hini : Sys.Initial g s00)
    (hr0 : Sys.Run g true s00 h0 s0) (hr : Sys.Run g true s0 h s) (hfree : s0.net.server.out.slot i = none) (hfree' : ¬ Receiving s0.world.ctx.tables i)
    (hses : s.net.server.sessions = s0.net.server.sessions) {es : List Event} (hes : s.world.trace = s0.world.trace ++ es)
    (hrest : ∀ x, s.net.server.out.slot i = some x → x.released = true) {new : List Publish}
    (hnew : s.net.server.out.offered = s0.net.server.out.offered ++ new) : Arrived (withId i new) (presented i es) := by
  obtain ⟨new', sent, h1, h2, h3⟩ := C57_delivery hi hini hr0 hr hfree hfree' hses hes
  have : new' = new := List.append_cancel_left (h1.symm.trans hnew)
  subst this
  rcases h3 with rfl | ⟨_, _, _, h⟩
  · exact h2
  · have := hrest _ h
    cases this

/-! ### Example runs -/

namespace Ex

/-- A message from the server with packet id 7. -/
def push (dup : Bool) : Raw := ⟨if dup then 0x3C else 0x34, [0, 2, 97, 98, 0, 7, 5, 6]⟩

/-- The message of `push`. -/
def pushed : Publish := ⟨false, 2, false, [97, 98], 7, [5, 6]⟩

/-- The environment of an `MQTT_ProcessLoop` that receives one packet. -/
def take (p : Raw) : Env := { env p.bytes with recvs := [.deliver p.bytes.length] }

/-- PUBREL for packet id 7. -/
def pushRel : Raw := ⟨0x62, [0, 7]⟩

/-- The server sends a QoS 2 message; it is presented to the application, but the connection is lost before the PUBREC arrives.  The application connects again;
the server sends the message again; then everything goes well. -/
def lossyIn : List Move :=
  [.offer (push false), .call (take (push false)) .processLoop, .hangUp, .call (env []) .disconnect, .dial, .call (env [0x20, 2, 1, 0]) connectCall,
   .offer (push true), .call (take (push true)) .processLoop, .serve, .call (take pushRel) .processLoop, .serve]

theorem lossyInOk : ∀ m ∈ lossyIn, moveOk m := by
  intro m hm
  simp only [lossyIn, List.mem_cons, List.not_mem_nil, or_false] at hm
  rcases hm with rfl | rfl | rfl | rfl | rfl | rfl | rfl | rfl | rfl | rfl | rfl
  any_goals trivial
  exact connectValid

/-- The same, but it is the PUBCOMP that is lost. -/
def compLost : List Move :=
  [.offer (push false), .call (take (push false)) .processLoop, .serve, .call (take pushRel) .processLoop, .hangUp, .call (env []) .disconnect, .dial,
   .call (env [0x20, 2, 1, 0]) connectCall, .offer pushRel, .call (take pushRel) .processLoop]

theorem compLostOk : ∀ m ∈ compLost, moveOk m := by
  intro m hm
  simp only [compLost, List.mem_cons, List.not_mem_nil, or_false] at hm
  rcases hm with rfl | rfl | rfl | rfl | rfl | rfl | rfl | rfl | rfl | rfl
  any_goals trivial
  exact connectValid

def receiving (t : Tables) (id : UInt16) : Bool := (inFlight t.incoming).any fun r => r.packetId = id

theorem receiving_ok (t : Tables) (id : UInt16) : receiving t id = true ↔ Receiving t id := by simp [receiving, Receiving]

end Ex

/-- The theorem applies to the run with the lost connection: the message was sent twice and presented once. -/
example :
    Sys.Initial Ex.g Ex.sys ∧ Sys.Run Ex.g true Ex.sys (Ex.sysAfter Ex.sys Ex.begins).2 Ex.sys1 ∧
    Sys.Run Ex.g true Ex.sys1 (Ex.sysAfter Ex.sys1 Ex.lossyIn).2 (Ex.sysAfter Ex.sys1 Ex.lossyIn).1 ∧
    (Ex.sys1.net.server.out.slot 7).isNone = true ∧ ¬ Receiving Ex.sys1.world.ctx.tables 7 ∧
    (Ex.sysAfter Ex.sys1 Ex.lossyIn).1.net.server.sessions = Ex.sys1.net.server.sessions ∧
    ((Ex.sysAfter Ex.sys1 Ex.lossyIn).1.net.server.out.slot 7).isNone = true ∧
    (Ex.sysAfter Ex.sys1 Ex.lossyIn).2.map (·.2) = [.status .success, .status .success, .connect .success (some true), .status .success, .status .success] ∧
    withId 7 (Ex.sysAfter Ex.sys1 Ex.lossyIn).1.net.server.out.offered = [Ex.pushed] ∧
    presented 7 (Ex.sysAfter Ex.sys1 Ex.lossyIn).1.world.trace = [Ex.pushed] :=
  ⟨Ex.sysInitial, Ex.begins_run, Ex.sysAfter_run Ex.lossyInOk (by decide +kernel), by decide +kernel, by rw [← Ex.receiving_ok]; decide +kernel, by decide +kernel,
    by decide +kernel, by decide +kernel, by decide +kernel, by decide +kernel⟩

/-! ### What is not guaranteed -/

/-- Delivery, but not completion: when the PUBCOMP is lost with the connection, the server sends PUBREL again on the next one, `MQTT_ProcessLoop` reports
MQTTBadResponse and does not send PUBCOMP (the standard requires it: 4.3.3).  The server goes on waiting. -/
theorem C57_pubcomp_lost :
    Sys.Run Ex.g true Ex.sys1 (Ex.sysAfter Ex.sys1 Ex.compLost).2 (Ex.sysAfter Ex.sys1 Ex.compLost).1 ∧
    (Ex.sysAfter Ex.sys1 Ex.compLost).1.net.server.sessions = Ex.sys1.net.server.sessions ∧
    (Ex.sysAfter Ex.sys1 Ex.compLost).2.map (·.2) = [.status .success, .status .success, .status .success, .connect .success (some true), .status .badResponse] ∧
    presented 7 (Ex.sysAfter Ex.sys1 Ex.compLost).1.world.trace = [Ex.pushed] ∧
    (Ex.sysAfter Ex.sys1 Ex.compLost).1.net.up = [] ∧ (Ex.sysAfter Ex.sys1 Ex.compLost).1.net.down = [] ∧
    ((Ex.sysAfter Ex.sys1 Ex.compLost).1.net.server.out.slot 7).map (fun x => (x.message, x.released)) = some (Ex.pushed, true) :=
  ⟨Ex.sysAfter_run Ex.compLostOk (by decide +kernel), by decide +kernel, by decide +kernel, by decide +kernel, by decide +kernel, by decide +kernel, by decide +kernel⟩

end Mqtt
