/-
Nothing is forgotten (C60): as long as the connection is in order an exchange is completed or a packet about it is under way.
-/
import Verif.Proof.PacketsLive
import Verif.Props.Order

namespace Mqtt
open Spec

variable {strict : Bool}

theorem flat_nil {l : List Raw} (h : l.flatMap Raw.bytes = []) : l = [] := by
  cases l with
  | nil => rfl
  | cons a l => rw [List.flatMap_cons] at h; cases h

theorem Spec.Sys.Run.trans {g : Cfg} {s0 s1 s : Sys} {h0 h : List (ApiCall × ApiRet)} (h1 : Sys.Run g strict s0 h0 s1) (h2 : Sys.Run g strict s1 h s) :
    Sys.Run g strict s0 (h0 ++ h) s := by
  induction h2 with
  | start => rw [List.append_nil]; exact h1
  | serve _ k ih => exact .serve ih k
  | hangUp _ ih => exact .hangUp ih
  | dial _ k1 ih => exact .dial ih k1
  | call _ k1 k2 k3 k4 ih => rw [← List.append_assoc]; exact .call ih k1 k2 k3 k4

/-- **C60** When nothing is under way on an open connection on which, since it was established, every packet was dealt with without error and every message could be
stored, then no outgoing publish is in flight, and the server has every message that it sent on this connection acknowledged in full. -/
theorem C60_settled {g : Cfg} {s0 s : Sys} {h : List (ApiCall × ApiRet)} (hini : Sys.Initial g s0) (hr : Sys.Run g strict s0 h s) (hd : ∀ i, Disciplined i h)
    (hst : Steady s0.world.ctx.retransmits h) (hconn : s.world.ctx.connectStatus = .connected) (hopen : s.net.isOpen = true) (hup : s.net.up = [])
    (hdown : s.world.ctx.buffered = [] ∧ s.net.down = []) :
    inFlight s.world.ctx.tables.outgoing = [] ∧ (strict = true → ∀ j x, s.net.server.out.slot j = some x → x.sent = false) := by
  obtain ⟨a0, a, h1, _, h3, h4, _, h6⟩ := C58_refines hini hr hd
  have hok := h6 hst
  have hon : a.stage = .on := by rw [h4.stage, if_neg (by rw [hconn]; simp)]
  have ho : a.isOpen = true := h4.isOpen.trans hopen
  have hau : a.up = [] := by
    obtain ⟨part, e1, _⟩ := h4.up
    rw [hup] at e1
    exact flat_nil (List.append_eq_nil_iff.mp e1.symm).1
  have had : a.down = [] := by
    have := h4.down hon
    rw [hdown.1, hdown.2] at this
    exact flat_nil this.symm
  have hs := (Sound.initial (retx := s0.world.ctx.retransmits) h1).run h3
  constructor
  · have hl := OutLive.run h1 h3 ho hon hok
    rw [hau, had] at hl
    have hnone : ∀ i, a.flight.out.phase i = none := by
      intro i
      by_cases hi : i = 0
      · rw [hi]; exact hs.zero
      · exact Classical.byContradiction fun hp => (hl i hi hp).elim (fun h => h rfl) (fun h => h rfl)
    rw [List.eq_nil_iff_forall_not_mem]
    intro r hr'
    exact (mem_inFlight h4.flight.1 r.packetId).mp ⟨r, hr', rfl⟩ (hnone _)
  · rintro rfl j x hx
    have hl := InLive.run h1 h3
    rw [← h4.server] at hx
    by_cases hj : j = 0
    · rw [hj, hl.zero] at hx; cases hx
    · cases hsent : x.sent with
      | false => rfl
      | true =>
        exfalso
        have := hl.busy ho (hs.on hon) (Or.inr ⟨hon, hok⟩) j hj x hx hsent
        rw [hau, had] at this
        exact this.elim (fun h => h rfl) (fun h => h rfl)

/-- **C60** Then all messages have arrived that were published since a moment at which none with the same packet id was in flight. -/
theorem C60_arrived {g : Cfg} {s00 s0 s : Sys} {h0 h : List (ApiCall × ApiRet)} {i : UInt16} (hi : i ≠ 0) (hini : Sys.Initial g s00)
    (hr0 : Sys.Run g strict s00 h0 s0) (hr : Sys.Run g strict s0 h s) (hd : ∀ i, Disciplined i (h0 ++ h)) (hfree : ¬ Taken s0.world.ctx.tables i)
    (hses : s.net.server.sessions = s0.net.server.sessions) {new : List Publish} (hnew : s.net.server.taken = s0.net.server.taken ++ new)
    (hst : Steady s00.world.ctx.retransmits (h0 ++ h)) (hconn : s.world.ctx.connectStatus = .connected) (hopen : s.net.isOpen = true) (hup : s.net.up = [])
    (hdown : s.world.ctx.buffered = [] ∧ s.net.down = []) : Arrived (published i h) (takenOver i new) := by
  refine C56_at_rest hi hini hr0 hr (hd i) hfree hses ?_ hnew
  rintro ⟨r, h1, _⟩
  have := (C60_settled hini (hr0.trans hr) hd hst hconn hopen hup hdown).1
  rw [this] at h1
  cases h1

namespace Ex

/-- The run of the example of C56, with the lost connection; then the server sends a QoS 2 message. -/
def both : List Move :=
  begins ++ lossy ++ [.offer (push false), .call (take (push false)) .processLoop, .serve, .call (take pushRel) .processLoop, .serve]

theorem bothOk : ∀ m ∈ both, moveOk m := by
  intro m hm
  rcases List.mem_append.mp hm with hm | hm
  · exact beginsLossyOk m hm
  simp only [List.mem_cons, List.not_mem_nil, or_false] at hm
  rcases hm with rfl | rfl | rfl | rfl | rfl <;> trivial

def bothRun : Sys × List (ApiCall × ApiRet) := sysAfter sys both

theorem both_run : Sys.Run g strict sys bothRun.2 bothRun.1 := sysAfter_run bothOk (by decide +kernel)

end Ex

/-- The theorem applies to a run in which messages were exchanged in both directions and a connection was lost. -/
example : Sys.Initial Ex.g Ex.sys ∧ Sys.Run Ex.g strict Ex.sys Ex.bothRun.2 Ex.bothRun.1 ∧ (∀ i, Disciplined i Ex.bothRun.2) ∧
    Steady Ex.sys.world.ctx.retransmits Ex.bothRun.2 ∧ Ex.bothRun.1.world.ctx.connectStatus = .connected ∧ Ex.bothRun.1.net.isOpen = true ∧ Ex.bothRun.1.net.up = [] ∧
    Ex.bothRun.1.world.ctx.buffered = [] ∧ Ex.bothRun.1.net.down = [] ∧ accepted Ex.bothRun.2 = [Ex.message .qos2 7] ∧ presented 7 Ex.bothRun.1.world.trace = [Ex.pushed] :=
  ⟨Ex.sysInitial, Ex.both_run, Ex.allDisciplined_ok (by decide +kernel), Ex.steady_ok (by decide +kernel), by decide +kernel, by decide +kernel, by decide +kernel,
    by decide +kernel, by decide +kernel, by decide +kernel, by decide +kernel⟩

end Mqtt
