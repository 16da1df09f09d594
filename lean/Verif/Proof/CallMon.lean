/-
Every call that does not start a new session follows the monitor of Proof/Effects: no QoS 2 publish is presented a second time before its PUBREL, and no
outgoing publish is forgotten before it is acknowledged.
-/
import Verif.Proof.CallSession
import Verif.Proof.CallRecv

namespace Mqtt
open Spec
set_option linter.unusedSimpArgs false

/-- Neither the application is called nor a copy cleared. -/
def isQuietEvent : Event → Bool
  | .app .. | .clear .. => false
  | _ => true

theorem quiet_mon {es : List Event} (h : ∀ e ∈ es, isQuietEvent e = true) (m : Mon) : monRun m es = some m ∧ clearsOk es := by
  induction es with
  | nil => exact ⟨rfl, trivial⟩
  | cons e es ih =>
    obtain ⟨h1, h2⟩ := ih (fun x hx => h x (List.mem_cons_of_mem _ hx))
    have := h e List.mem_cons_self
    cases e with
    | app => cases this
    | clear => cases this
    | _ => exact ⟨h1, h2⟩

theorem quiet_send {es : List Event} (h : ∀ e ∈ es, isSendOrTime e = true) : ∀ e ∈ es, isQuietEvent e = true := by
  intro e he
  have := h e he
  cases e <;> simp_all [isSendOrTime, isQuietEvent]

theorem quiet_recv {es : List Event} (h : RecvX es) : ∀ e ∈ es, isQuietEvent e = true := by
  induction h with
  | nil => simp
  | @cons e es hk _ ih =>
    intro x hx
    rcases List.mem_cons.mp hx with rfl | hx
    · cases x <;> simp_all [isRecvOrTime, isQuietEvent]
    · exact ih x hx
  | failed n _ ih => simpa [isQuietEvent] using ih

theorem quiet_append {a b : List Event} (ha : ∀ e ∈ a, isQuietEvent e = true) (hb : ∀ e ∈ b, isQuietEvent e = true) :
    ∀ e ∈ a ++ b, isQuietEvent e = true := by
  intro e he
  rcases List.mem_append.mp he with h | h
  · exact ha e h
  · exact hb e h

theorem quiet_cons {e : Event} {es : List Event} (he : isQuietEvent e = true) (h : ∀ e ∈ es, isQuietEvent e = true) :
    ∀ x ∈ e :: es, isQuietEvent x = true := by
  intro x hx
  rcases List.mem_cons.mp hx with rfl | hx
  · exact he
  · exact h x hx

theorem mon_clears (r : Bool) (s : InFlight) (m : Mon) : monRun m (cleanClears r s) = some m := by
  unfold cleanClears
  cases r
  · rfl
  · simp only [if_true]
    induction idsOf isUnacked s.out with
    | nil => rfl
    | cons x l ih => exact ih

theorem mon_quiet_append {a b : List Event} {m : Mon} (ha : ∀ e ∈ a, isQuietEvent e = true) : monRun m (a ++ b) = monRun m b := by
  rw [monRun_append, (quiet_mon ha m).1]; rfl

theorem cancel_phase {s : InFlight} {id id' : UInt16} (h : id' ≠ id ∨ (step s (.cancel id)).1.1 ≠ .success) (hp : s.out.phase id' ≠ none) :
    (step s (.cancel id)).2.out.phase id' ≠ none := by
  simp only [step] at h ⊢
  cases hn : s.out.phase id with
  | none => exact hp
  | some p =>
    rw [hn] at h
    have hne : id' ≠ id := h.resolve_right (by simp)
    show (s.out.remove id).phase id' ≠ none
    rw [phase_remove, if_neg hne]
    exact hp

/-- A call that returns and does not start a new session. -/
theorem Did.mon {g : Cfg} {s : InFlight} {w w' : World} {c : ApiCall} {r : ApiRet} {es : List Event} (h : Did g s w c r es w')
    (hrep : Represents w.ctx.tables s) (hr : r ≠ .connect .success (some false)) {m : Mon} (hm : MonOk m w.ctx.tables)
    (hcan : ∀ id, c = .cancelCallback id → r = .status .success → id ∉ m.out) :
    ∃ m', monRun m es = some m' ∧ MonOk m' w'.ctx.tables := by
  cases h with
  | publish f _ => exact f.mon m hm
  | subscribe f _ => exact f.mon m hm
  | unsubscribe f _ => exact f.mon m hm
  | ping f _ => exact f.mon m hm
  | processLoop f _ => exact f.mon m hm
  | receiveLoop f _ => exact f.mon m hm
  | publishNull => exact ⟨m, rfl, hm⟩
  | subscribeNull => exact ⟨m, rfl, hm⟩
  | unsubscribeNull => exact ⟨m, rfl, hm⟩
  | disconnect h =>
    rcases h.cases with ⟨_, _, rfl, h'⟩ | ⟨_, snd, rfl, h1, _, _, t, h'⟩
    · exact ⟨m, rfl, by rw [h']; exact hm⟩
    · refine ⟨m, (quiet_mon (quiet_cons rfl (quiet_append (quiet_send h1) (by simp [isQuietEvent]))) m).1, by rw [h']; exact hm⟩
  | cancel _ h =>
    cases h with
    | none => exact ⟨m, rfl, hm⟩
    | some _ h1 h2 =>
      refine ⟨m, rfl, ?_⟩
      rw [h1]
      obtain ⟨s', k1, k2, k3⟩ := hm
      cases represents_unique k1 hrep
      refine ⟨_, h2, ?_, ?_⟩
      · intro i hi
        have e1 : ∀ id, (step s (.cancel id)).2.inc = s.inc := by
          intro id
          simp only [step]
          split <;> rfl
        rw [e1]
        exact k2 i hi
      · intro i hi
        refine cancel_phase ?_ (k3 i hi)
        refine Classical.byContradiction fun hn => ?_
        obtain ⟨n1, n2⟩ := not_or.mp hn
        exact hcan _ rfl (by rw [Classical.not_not.mp n2]) (Classical.not_not.mp n1 ▸ hi)
  | check h => exact ⟨m, rfl, by rw [h]; exact hm⟩
  | getId h => exact ⟨m, rfl, by rw [h]; exact hm⟩
  | connectNull _ h => exact ⟨m, rfl, by rw [h]; exact hm⟩
  | connect h =>
    cases h with
    | badSize _ _ h => exact ⟨m, rfl, by rw [h]; exact hm⟩
    | already _ _ h _ => exact ⟨m, rfl, by rw [h]; exact hm⟩
    | noTopic _ _ _ h => exact ⟨m, rfl, by rw [h]; exact hm⟩
    | notSent _ _ _ h1 _ _ h =>
      exact ⟨m, (quiet_mon (quiet_cons rfl (quiet_append (quiet_send h1) (by simp [isQuietEvent]))) m).1, by rw [h]; exact hm⟩
    | notAccepted _ _ _ h1 _ _ h2 h3 _ h =>
      obtain ⟨b, _, hb⟩ := h3.ctx
      exact ⟨m, (quiet_mon (quiet_cons rfl (quiet_append (quiet_send h1) (quiet_append (quiet_recv h3.recv) (by simp [isQuietEvent])))) m).1,
        by rw [h, hb, h2]; exact hm⟩
    | fresh => exact absurd rfl hr
    | resumed _ _ _ h1 _ _ h2 h3 h4 f _ h =>
      obtain ⟨b, _, hb⟩ := h3.ctx
      obtain ⟨m', k1, k2⟩ := f.mon m (by rw [h4]; show MonOk m _; unfold connectedCtx; dsimp only; rw [hb, h2]; exact hm)
      refine ⟨m', ?_, by rw [h]; exact k2⟩
      rw [← List.cons_append, mon_quiet_append (quiet_cons rfl (quiet_send h1)), mon_quiet_append (quiet_recv h3.recv)]
      show monRun m (_ ++ _) = _
      rw [monRun_append, k1]
      show monRun m' _ = _
      split <;> rfl

/-- In no call, not even one that does not return, a QoS 2 publish is presented a second time. -/
theorem Halted.mon {g : Cfg} {s : InFlight} {w w' : World} {c : ApiCall} {es : List Event} (h : Halted g s w c es w')
    {m : Mon} (hm : MonOk m w.ctx.tables) (hl : Linked w es w') : ∃ m', monRun m es = some m' := by
  have fx : ∀ {b : Bool}, Fx false w es b w' → ∃ m', monRun m es = some m' := fun f => (f.mon m hm).imp fun _ h => h.1
  cases h with
  | publish f _ _ => exact fx f
  | subscribe f _ _ => exact fx f
  | unsubscribe f _ _ => exact fx f
  | ping f _ _ => exact fx f
  | processLoop f _ => exact fx f
  | receiveLoop f _ => exact fx f
  | disconnect _ h =>
    obtain ⟨snd, h1, h2, _⟩ := h
    have : es = .pre :: snd := List.append_cancel_left (hl.1.symm.trans h1)
    exact ⟨m, by rw [this]; exact (quiet_mon (quiet_cons rfl (quiet_send h2)) m).1⟩
  | connect h =>
    cases h with
    | sending _ _ h1 => exact ⟨m, (quiet_mon (quiet_cons rfl (quiet_send h1)) m).1⟩
    | waiting _ _ h1 _ _ h2 => exact ⟨m, (quiet_mon (quiet_cons rfl (quiet_append (quiet_send h1) (quiet_recv h2))) m).1⟩
    | resuming _ _ h1 _ _ h2 h3 h4 f _ _ =>
      obtain ⟨b, _, hb⟩ := h3.ctx
      obtain ⟨m', k1, k2⟩ := f.mon m (by rw [h4]; show MonOk m _; unfold connectedCtx; dsimp only; rw [hb, h2]; exact hm)
      refine ⟨m', ?_⟩
      rw [← List.cons_append, mon_quiet_append (quiet_cons rfl (quiet_send h1)), mon_quiet_append (quiet_recv h3.recv)]
      exact k1

/-- Clear callbacks. -/
theorem Did.clears {g : Cfg} {s : InFlight} {w w' : World} {c : ApiCall} {r : ApiRet} {es : List Event} (h : Did g s w c r es w')
    (hr : r ≠ .connect .success (some false)) : clearsOk es := by
  have m : Mon := ⟨[], []⟩
  cases h with
  | publish f _ => exact f.clears
  | subscribe f _ => exact f.clears
  | unsubscribe f _ => exact f.clears
  | ping f _ => exact f.clears
  | processLoop f _ => exact f.clears
  | receiveLoop f _ => exact f.clears
  | publishNull => trivial
  | subscribeNull => trivial
  | unsubscribeNull => trivial
  | disconnect h =>
    rcases h.cases with ⟨_, _, rfl, h⟩ | ⟨_, snd, rfl, h1, _, _, t, h⟩
    · trivial
    · exact (quiet_mon (quiet_cons rfl (quiet_append (quiet_send h1) (by simp [isQuietEvent]))) m).2
  | cancel _ h =>
    cases h with
    | none => trivial
    | some _ h1 h2 => trivial
  | check h => trivial
  | getId h => trivial
  | connectNull _ h => trivial
  | connect h =>
    cases h with
    | badSize _ _ h => trivial
    | already _ _ h _ => trivial
    | noTopic _ _ _ h => trivial
    | notSent _ _ _ h1 _ _ h => exact (quiet_mon (quiet_cons rfl (quiet_append (quiet_send h1) (by simp [isQuietEvent]))) m).2
    | notAccepted _ _ _ h1 _ _ h2 h3 _ h =>
      exact (quiet_mon (quiet_cons rfl (quiet_append (quiet_send h1) (quiet_append (quiet_recv h3.recv) (by simp [isQuietEvent])))) m).2
    | fresh => exact absurd rfl hr
    | resumed _ _ _ h1 _ _ h2 h3 h4 f _ h =>
      rw [← List.cons_append, ← List.append_assoc]
      refine clearsOk_append (quiet_mon (quiet_append (quiet_cons rfl (quiet_send h1)) (quiet_recv h3.recv)) m).2 ?_
      refine clearsOk_append f.clears ?_
      split <;> trivial

theorem Halted.clears {g : Cfg} {s : InFlight} {w w' : World} {c : ApiCall} {es : List Event} (h : Halted g s w c es w')
    (hl : Linked w es w') : clearsOk es := by
  have m : Mon := ⟨[], []⟩
  cases h with
  | publish f _ _ => exact f.clears
  | subscribe f _ _ => exact f.clears
  | unsubscribe f _ _ => exact f.clears
  | ping f _ _ => exact f.clears
  | processLoop f _ => exact f.clears
  | receiveLoop f _ => exact f.clears
  | disconnect _ h =>
    obtain ⟨snd, h1, h2, _⟩ := h
    have : es = .pre :: snd := List.append_cancel_left (hl.1.symm.trans h1)
    rw [this]; exact (quiet_mon (quiet_cons rfl (quiet_send h2)) m).2
  | connect h =>
    cases h with
    | sending _ _ h1 => exact (quiet_mon (quiet_cons rfl (quiet_send h1)) m).2
    | waiting _ _ h1 _ _ h2 => exact (quiet_mon (quiet_cons rfl (quiet_append (quiet_send h1) (quiet_recv h2))) m).2
    | resuming _ _ h1 _ _ h2 h3 h4 f _ _ =>
      rw [← List.cons_append, ← List.append_assoc]
      exact clearsOk_append (quiet_mon (quiet_append (quiet_cons rfl (quiet_send h1)) (quiet_recv h3.recv)) m).2 f.clears

theorem monStep_out {m m' : Mon} {e : Event} (h : monStep m e = some m') {id : UInt16} (hi : id ∈ m'.out) : id ∈ m.out := by
  unfold monStep at h
  repeat' split at h
  all_goals (cases h)
  all_goals first | exact hi | exact (List.mem_filter.mp hi).1

theorem monRun_out {m m' : Mon} {es : List Event} (h : monRun m es = some m') {id : UInt16} (hi : id ∈ m'.out) : id ∈ m.out := by
  induction es generalizing m with
  | nil => cases h; exact hi
  | cons e es ih =>
    obtain ⟨m1, h1, h2⟩ := Option.bind_eq_some_iff.mp h
    exact monStep_out h1 (ih h2)

/-- A whole history. -/
theorem Hist.mon {g : Cfg} {h : List (ApiCall × ApiRet)} {w w' : World} (hs : Hist g w h w') (hg : CfgOk g) {oc ic : Nat} (hi : Inv oc ic w.ctx)
    (hr : ∀ x ∈ h, x.2 ≠ .connect .success (some false)) {m : Mon} (hm : MonOk m w.ctx.tables)
    (hcan : ∀ x ∈ h, ∀ id, x.1 = .cancelCallback id → x.2 = .status .success → id ∉ m.out) {es : List Event} (hes : w'.trace = w.trace ++ es) :
    ∃ m', monRun m es = some m' ∧ MonOk m' w'.ctx.tables := by
  induction hs generalizing es with
  | start => exact ⟨m, by rw [List.self_eq_append_right.mp hes]; rfl, hm⟩
  | @call w1 w2 h1' e c r hs hv hc ih =>
    obtain ⟨es1, h1⟩ := hs.grows hg hi
    obtain ⟨m1, k1, k2⟩ := ih (fun x hx => hr x (List.mem_append_left _ hx)) (fun x hx => hcan x (List.mem_append_left _ hx)) h1
    obtain ⟨i1, s, i2, _⟩ := hs.inv hg hi
    obtain ⟨es2, hl, hd⟩ := callIn_done hg hv i1 i2 hc
    have hx : (c, r) ∈ h1' ++ [(c, r)] := List.mem_append_right _ (List.mem_singleton.mpr rfl)
    obtain ⟨m2, j1, j2⟩ := Did.mon (m := m1) hd i2 (hr _ hx) k2 (fun id e1 e2 h => hcan _ hx id e1 e2 (monRun_out k1 h))
    have he : es = es1 ++ es2 := by
      have h2 := hl.trace
      rw [hes] at h2
      refine List.append_cancel_left (h2.trans ?_)
      show w1.trace ++ es2 = _
      rw [h1, List.append_assoc]
    exact ⟨m2, by rw [he, monRun_append, k1]; exact j1, j2⟩

end Mqtt
