/-
The system of bytes and the protocol of packets: every call and every run.
-/
import Verif.Proof.PacketsConnect

namespace Mqtt
open Spec
set_option linter.unusedSimpArgs false

variable {strict : Bool}

section
variable {cap : Nat} {retx : Bool} {b : Proto} {w w' : World} {n n' : Net} {shelf : Shelf} {s : InFlight} {a : ApiCall} {r : ApiRet} {es : List Event} {g : Cfg}

/-- A call that returned. -/
theorem Tracks.call (h : Tracks retx cap b w.ctx n shelf) (hrep : Represents w.ctx.tables s) (hv : ValidCall g a)
    (hd : Did g s w a r es w') (hn : NetRun strict w.ctx.bufSize n es n') (hf : Faithful shelf es)
    (hdis : ∀ i, (∀ p, a = .publish (some p) i → p.qos = .qos0 ∨ p.dup = false) ∧ a ≠ .cancelCallback i) :
    Follows strict retx cap b a r w'.ctx { n' with isOpen := n'.isOpen && !closes a r } (es.foldl Shelf.note shelf) := by
  cases hd with
  | @publish p id st _ _ f hd => exact h.publish hrep (hv p rfl).1 hd hn ((hdis id).1 p rfl)
  | publishNull => exact h.nothing ⟨rfl, rfl, rfl, Iff.rfl⟩ rfl hn rfl rfl rfl (by simp) (by simp)
  | subscribe f hd => exact h.sub hd hn (by simp) rfl
  | subscribeNull => exact h.nothing ⟨rfl, rfl, rfl, Iff.rfl⟩ rfl hn rfl rfl rfl (by simp) (by simp)
  | unsubscribe f hd => exact h.sub hd hn (by simp) rfl
  | unsubscribeNull => exact h.nothing ⟨rfl, rfl, rfl, Iff.rfl⟩ rfl hn rfl rfl rfl (by simp) (by simp)
  | ping f hd => exact h.ping hd hn
  | disconnect hd => exact h.disconnect hd hn
  | processLoop f hd =>
    refine Tracks.loop (w := w.fresh) ⟨h.agrees, h.tables, h.index, h.size, h.room, h.retx, h.stage, h.idle⟩ hrep hd ?_ f.bufSize ?_ f.retransmits (fun hc => f.idle (by rw [show w.ctx.connectStatus = _ from hc]; decide)) hn (Or.inl rfl)
    · rw [f.status, afterFail_not]; rfl
    · exact (f.inv _ _ ⟨h.index, s, hrep, rfl, rfl⟩).1
  | receiveLoop f hd =>
    refine Tracks.loop h hrep hd ?_ f.bufSize ?_ f.retransmits (fun hc => f.idle (by rw [hc]; decide)) hn (Or.inr rfl)
    · rw [f.status, afterFail_not]
    · exact (f.inv _ _ ⟨h.index, s, hrep, rfl, rfl⟩).1
  | @cancel id st _ _ h0 hd => exact absurd rfl (hdis id).2
  | check hd => exact h.nothing (by rw [hd]; exact ⟨rfl, rfl, rfl, Iff.rfl⟩) (by rw [hd]) hn rfl rfl rfl (by simp) (by simp)
  | getId hd => exact h.nothing (by rw [hd]; exact ⟨rfl, rfl, rfl, Iff.rfl⟩) (by rw [hd]) hn rfl rfl rfl (by simp) (by simp)
  | @connect ci will t sp0 sp st _ _ hd => exact h.connect hrep (hv ci rfl) hd hn hf
  | @connectNull ci will t sp0 _ _ hd =>
    exact h.nothing (by rw [hd]; exact ⟨rfl, rfl, rfl, afterFail_not _ _⟩) (by rw [hd]) hn rfl rfl rfl (by simp) (by simp)

end

theorem accepted_append (h h' : List (ApiCall × ApiRet)) : accepted (h ++ h') = accepted h ++ accepted h' := by
  unfold accepted
  rw [List.filterMap_append]

/-- After the last call: the history was calm since the connection was established, or this call established it. -/
theorem steady_snoc {retx : Bool} {h : List (ApiCall × ApiRet)} {c : ApiCall} {r : ApiRet} (hs : Steady retx (h ++ [(c, r)])) :
    Calm retx c r ∧ (Steady retx h ∨ ∃ sp, r = .connect .success sp) := by
  obtain ⟨h1, ci, will, t, sp0, sp, h2, e, hc⟩ := hs
  rcases List.eq_nil_or_concat h2 with rfl | ⟨l, x, rfl⟩
  · have := List.append_inj' e rfl
    have e2 := this.2
    simp only [List.cons.injEq, Prod.mk.injEq, and_true] at e2
    obtain ⟨rfl, rfl⟩ := e2
    exact ⟨hc _ (List.mem_singleton.mpr rfl), Or.inr ⟨sp, rfl⟩⟩
  · rw [List.concat_eq_append] at *
    rw [← List.cons_append, ← List.append_assoc] at e
    have := List.append_inj' e rfl
    have e2 := this.2
    simp only [List.cons.injEq, and_true] at e2
    subst e2
    refine ⟨hc (c, r) (by simp), Or.inl ⟨h1, ci, will, t, sp0, sp, l, this.1, ?_⟩⟩
    intro y hy
    refine hc y ?_
    rw [← List.cons_append]
    exact List.mem_append_left _ hy

theorem Spec.Disciplined.append {i : UInt16} {h h' : List (ApiCall × ApiRet)} (hd : Disciplined i (h ++ h')) : Disciplined i h ∧ Disciplined i h' :=
  ⟨fun x hx => hd x (List.mem_append_left _ hx), fun x hx => hd x (List.mem_append_right _ hx)⟩

/-- Every run of the system is a run of the protocol. -/
theorem Sys.tracks {g : Cfg} (hg : CfgOk g) {retx : Bool} {cap : Nat} {a0 : Proto} {s0 s : Sys} {h : List (ApiCall × ApiRet)} (hr : Sys.Run g strict s0 h s)
    (h0 : Tracks retx cap a0 s0.world.ctx s0.net s0.shelf) (hdis : ∀ i, Disciplined i h) :
    ∃ a, Proto.Run strict retx cap a0 a ∧ Tracks retx cap a s.world.ctx s.net s.shelf ∧ a.sent = a0.sent ++ accepted h ∧ (Steady retx h → a.ok = true) := by
  induction hr with
  | start =>
    refine ⟨a0, .refl _, h0, by simp [accepted], ?_⟩
    rintro ⟨h1, _, _, _, _, _, h2, e, _⟩
    simp at e
  | serve _ hs ih =>
    obtain ⟨a, r1, h1, h2, h3⟩ := ih hdis
    have ⟨buf, part, k1, k2, k3, k4⟩ := h1.agrees
    rw [h1.size] at hs
    obtain ⟨a', q1, q2, q3, q4⟩ := k1.finish (closing := false) (retx := retx) (.step hs (.refl _)) k2 (fun h _ => k3 h) (fun h h' _ => k4 h h') h1.tables h1.index h1.size
      h1.room h1.retx h1.stage h1.idle
    refine ⟨a', r1.trans q1, ?_, q3.trans h2, fun h => by rw [q4]; exact h3 h⟩
    simpa using q2
  | hangUp _ ih =>
    obtain ⟨a, r1, h1, h2, h3⟩ := ih hdis
    have ⟨buf, part, k1, k2, k3, k4⟩ := h1.agrees
    exact ⟨{ a with isOpen := false }, .step r1 .hangUp, ⟨⟨buf, part, k1.setOpen false, k2, fun h => (by cases h), fun _ h => by cases h⟩, h1.tables, h1.index, h1.size, h1.room,
      h1.retx, h1.stage, h1.idle⟩, h2, h3⟩
  | dial _ hc ih =>
    obtain ⟨a, r1, h1, h2, h3⟩ := ih hdis
    have ⟨buf, part, k1, k2, k3, k4⟩ := h1.agrees
    have hid : a.stage = .idle := by rw [h1.stage, if_pos hc]
    refine ⟨_, .step r1 (.dial hid), ⟨⟨[], [], ⟨rfl, rfl, by simp, by simp, rfl, rfl, rfl, k1.server, k1.shelf, k1.copies⟩, fun h => ?_, fun _ => rfl, fun _ _ => ⟨rfl, rfl, rfl⟩⟩,
      h1.tables, h1.index, h1.size, h1.room, h1.retx, h1.stage, h1.idle⟩, h2, h3⟩
    rw [show a.stage = .on from h] at hid
    cases hid
  | @call s1 h e c r w n hr hv hc hn hf ih =>
    obtain ⟨a, r1, h1, h2, h3⟩ := ih (fun i => (hdis i).append.1)
    obtain ⟨es', hl, hdid⟩ := callIn_done hg hv h1.index h1.tables hc
    have hes : callEvents g s1.world e c = es' := by
      unfold callEvents
      exact newEvents_done (w := { s1.world with env := e }) hc hl.trace
    rw [hes] at hn hf ⊢
    obtain ⟨a', q1, q2, q3, q4, q5⟩ := Tracks.call (w := { s1.world with env := e }) h1 h1.tables hv hdid hn hf
      (fun i => (hdis i).append.2 (c, r) (List.mem_singleton.mpr rfl))
    refine ⟨a', r1.trans q1, q2, by rw [q3, h2, accepted_append, List.append_assoc], ?_⟩
    intro hst
    obtain ⟨hcalm, h | ⟨sp, hsp⟩⟩ := steady_snoc hst
    · exact q4 hcalm (h3 h)
    · exact q5 sp hsp hcalm

/-- The protocol before the first call. -/
theorem Sys.tracksFirst {g : Cfg} {s : Sys} (h : Sys.Initial g s) :
    ∃ oc ic, Tracks s.world.ctx.retransmits s.world.ctx.bufSize
      ⟨⟨oc, ic, [], []⟩, fun _ => none, .idle, false, s.net.greeted, [], [], s.net.server, [], false⟩ s.world.ctx s.net s.shelf := by
  obtain ⟨oc, ic, h1, h2, h3⟩ := h.ctx.inv
  refine ⟨oc, ic, ⟨⟨[], [], ⟨by rw [h.quiet.1]; rfl, rfl, by simp, by simp, by rw [h.quiet.2]; rfl, h.closed, rfl, rfl, fun j => by rw [h.shelf]; rfl, by simp⟩,
    fun h => (by cases h), fun _ => rfl, fun _ h => (by cases h)⟩, by rw [h3]; exact represents_fresh oc ic, by rw [h1]; exact Nat.zero_le _, rfl, h.buffer, rfl,
    by rw [h2]; rfl, fun _ => buffered_zero h1⟩⟩

end Mqtt
