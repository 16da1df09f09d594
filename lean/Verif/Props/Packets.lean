/-
The client seen from the network (C58): the protocol of Spec/Packets, in which packets are sent, received and dealt with as a whole.
-/
import Verif.Proof.PacketsRun
import Verif.Props.Inbound

namespace Mqtt
open Spec

variable {strict : Bool}

theorem Tracks.shows {retx : Bool} {cap : Nat} {a : Proto} {s : Sys} (h : Tracks retx cap a s.world.ctx s.net s.shelf) : a.Shows s := by
  obtain ⟨buf, part, h1, h2, h3, _⟩ := h.agrees
  refine ⟨h.tables, h1.shelf, h.stage, h1.isOpen.symm, h1.greeted.symm, h1.server.symm, ⟨part, h1.up, h1.stuck, fun ho => h3 (by rw [← h1.isOpen]; exact ho)⟩, ?_⟩
  intro hs
  rw [← h2 hs]
  exact h1.down

/-- C58.  Whatever the transport, the time and the callbacks do to the calls of an application that leaves retransmission to the library, the run of the system is
a run of the protocol of packets: every packet is sent as a whole or the connection closed, every packet is dealt with once, in the order of arrival, in one of the
ways the protocol knows.  The messages sent by the protocol are those `MQTT_Publish` accepted. -/
theorem C58_refines {g : Cfg} {s0 s : Sys} {h : List (ApiCall × ApiRet)} (hini : Sys.Initial g s0) (hr : Sys.Run g strict s0 h s) (hd : ∀ i, Disciplined i h) :
    ∃ a0 a, a0.Initial ∧ a0.Shows s0 ∧ Proto.Run strict s0.world.ctx.retransmits s0.world.ctx.bufSize a0 a ∧ a.Shows s ∧ a.sent = accepted h ∧
      (Steady s0.world.ctx.retransmits h → a.ok = true) := by
  obtain ⟨oc, ic, h0⟩ := Sys.tracksFirst hini
  obtain ⟨a, h1, h2, h3, h4⟩ := Sys.tracks hini.cfg hr h0 hd
  refine ⟨_, a, ?_, h0.shows, h1, h2.shows, h3, h4⟩
  exact ⟨⟨rfl, rfl⟩, fun _ => rfl, rfl, rfl, ⟨rfl, rfl⟩, hini.held, rfl, rfl⟩

namespace Ex

/-- `Disciplined` for every packet id, computed. -/
def allDisciplined (h : List (ApiCall × ApiRet)) : Bool :=
  h.all fun x => match x.1 with
    | .publish (some p) _ => decide (p.qos = .qos0 ∨ p.dup = false)
    | .cancelCallback _ => false
    | _ => true

theorem allDisciplined_ok {h : List (ApiCall × ApiRet)} (hd : allDisciplined h = true) (i : UInt16) : Disciplined i h := by
  intro x hx
  have := List.all_eq_true.mp hd x hx
  obtain ⟨c, r⟩ := x
  constructor
  · rintro p rfl
    simpa using this
  · rintro rfl
    simp at this

theorem beginsLossyOk : ∀ m ∈ begins ++ lossy, moveOk m := fun m hm => (List.mem_append.mp hm).elim (beginsOk m) (lossyOk m)

/-- The run of the example of C56, from the beginning. -/
def whole : Sys × List (ApiCall × ApiRet) := sysAfter sys (begins ++ lossy)

theorem whole_run : Sys.Run g strict sys whole.2 whole.1 := sysAfter_run beginsLossyOk (by decide +kernel)

/-- `Calm`, computed. -/
def calm (retx : Bool) : ApiCall × ApiRet → Bool
  | (.publish _ _, .status st) => decide (st ≠ .publishStoreFailed)
  | (.processLoop, .status st) => decide (st = .success ∨ st = .needMoreBytes)
  | (.receiveLoop, .status st) => decide (st = .success ∨ st = .needMoreBytes)
  | (_, .connect st sp) => decide (st = .success → sp = some true → retx = true)
  | (_, _) => true

theorem calm_ok {retx : Bool} {x : ApiCall × ApiRet} (h : calm retx x = true) : Calm retx x.1 x.2 := by
  obtain ⟨c, r⟩ := x
  cases c <;> cases r <;> first | trivial | (simp only [calm, decide_eq_true_eq] at h; exact h)

/-- `Steady`, computed. -/
def steady (retx : Bool) : List (ApiCall × ApiRet) → Bool
  | [] => false
  | x :: l => (match x with
    | (.connect _ _ _ _, .connect .success _) => (x :: l).all (calm retx)
    | _ => false) || steady retx l

theorem steady_ok {retx : Bool} {h : List (ApiCall × ApiRet)} (hs : steady retx h = true) : Steady retx h := by
  induction h with
  | nil => cases hs
  | cons x l ih =>
    simp only [steady, Bool.or_eq_true] at hs
    rcases hs with hs | hs
    · split at hs
      · rename_i ci will t sp0 sp
        exact ⟨[], ci, will, t, sp0, sp, l, rfl, fun x hx => calm_ok (List.all_eq_true.mp hs x hx)⟩
      · cases hs
    · obtain ⟨h1, ci, will, t, sp0, sp, h2, rfl, h3⟩ := ih hs
      exact ⟨x :: h1, ci, will, t, sp0, sp, h2, rfl, h3⟩

end Ex

/-- The theorem applies to the run with the lost connection. -/
example : Sys.Initial Ex.g Ex.sys ∧ Sys.Run Ex.g strict Ex.sys Ex.whole.2 Ex.whole.1 ∧ (∀ i, Disciplined i Ex.whole.2) ∧
    Ex.whole.2.map (·.2) = [.connect .success (some false), .status .success, .status .recvFailed, .status .success, .connect .success (some true), .status .success,
      .status .success] ∧
    accepted Ex.whole.2 = [Ex.message .qos2 7] ∧ Steady Ex.sys.world.ctx.retransmits Ex.whole.2 :=
  ⟨Ex.sysInitial, Ex.whole_run, Ex.allDisciplined_ok (by decide +kernel), by decide +kernel, by decide +kernel, Ex.steady_ok (by decide +kernel)⟩

end Mqtt
