/-
The order of the messages (C59).
-/
import Verif.Proof.PacketsOrder
import Verif.Props.Packets

namespace Mqtt
open Spec

variable {strict : Bool}

/-- C59.  The messages the server takes over, whatever their packet ids and qualities of service, were accepted by `MQTT_Publish`, and no message arrives for the first
time after one that was published later; a QoS 0 message arrives at most once. -/
theorem C59_in_order {g : Cfg} {s0 s : Sys} {h : List (ApiCall × ApiRet)} (hini : Sys.Initial g s0) (hr : Sys.Run g strict s0 h s) (hd : ∀ i, Disciplined i h) :
    ∃ new idx, s.net.server.taken = s0.net.server.taken ++ new ∧ InOrder (accepted h) (new.map Publish.message) idx := by
  obtain ⟨a0, a, h1, h2, h3, h4, h5, _⟩ := C58_refines hini hr hd
  obtain ⟨new, ti, _, _, h6, h7⟩ := Ordering.run h1 h3
  refine ⟨new, ti, ?_, ?_⟩
  · rw [← h4.server, ← h2.server]; exact h6
  · rw [← h5]; exact h7.order

namespace Ex

/-- Three messages are published; the server takes over the first, then the connection is lost.  The application connects again; the QoS 1 and the QoS 2 message are
sent again, the QoS 0 message is lost; another one follows. -/
def ordered : List Move :=
  [.call (env []) (publishCall .qos1 5), .serve, .call (env []) (publishCall .qos0 0), .call (env []) (publishCall .qos2 7), .hangUp, .call (env []) .disconnect, .dial,
   .call { env [0x20, 2, 1, 0] with retrieves := [some (copy .qos1 5), some (copy .qos2 7)] } connectCall,
   .call (env []) (publishCall .qos0 0), .serve, .serve, .serve]

theorem orderedOk : ∀ m ∈ begins ++ ordered, moveOk m := by
  intro m hm
  rcases List.mem_append.mp hm with hm | hm
  · exact beginsOk m hm
  simp only [ordered, List.mem_cons, List.not_mem_nil, or_false] at hm
  rcases hm with rfl | rfl | rfl | rfl | rfl | rfl | rfl | rfl | rfl | rfl | rfl | rfl
  any_goals trivial
  · exact publishValid .qos1 5
  · exact publishValid .qos0 0
  · exact publishValid .qos2 7
  · exact connectValid
  · exact publishValid .qos0 0

def orderedRun : Sys × List (ApiCall × ApiRet) := sysAfter sys (begins ++ ordered)

theorem ordered_run : Sys.Run g strict sys orderedRun.2 orderedRun.1 := sysAfter_run orderedOk (by decide +kernel)

end Ex

/-- The theorem applies to a run with a lost connection, in which the first message arrives twice and the second not at all. -/
example : Sys.Initial Ex.g Ex.sys ∧ Sys.Run Ex.g strict Ex.sys Ex.orderedRun.2 Ex.orderedRun.1 ∧ (∀ i, Disciplined i Ex.orderedRun.2) ∧
    accepted Ex.orderedRun.2 = [Ex.message .qos1 5, Ex.message .qos0 0, Ex.message .qos2 7, Ex.message .qos0 0] ∧
    Ex.orderedRun.1.net.server.taken.map Publish.message = [Ex.message .qos1 5, Ex.message .qos1 5, Ex.message .qos2 7, Ex.message .qos0 0] :=
  ⟨Ex.sysInitial, Ex.ordered_run, Ex.allDisciplined_ok (by decide +kernel), by decide +kernel, by decide +kernel⟩

end Mqtt
