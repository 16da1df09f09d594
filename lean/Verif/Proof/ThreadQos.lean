/-
Delivery guarantees while threads are interleaved: the monitor of Proof/Effects followed through the steps of the thread that receives.
-/
import Verif.Proof.ThreadMild

namespace Mqtt
open Spec
set_option linter.unusedSimpArgs false

/-- What other threads may do between two steps of the thread that receives: the application is not called, incoming records stay, and outgoing
records of the ids `K` stay. -/
structure Rk (K : UInt16 → Prop) (w w' : World) : Prop where
  trace : ∃ es, w'.trace = w.trace ++ es ∧ ∀ e ∈ es, isApp e = false
  tabs : ∀ s, Represents w.ctx.tables s → ∃ s', Represents w'.ctx.tables s' ∧ s'.inCap = s.inCap ∧ s'.inc = s.inc ∧
    ∀ id, K id → s.out.phase id ≠ none → s'.out.phase id ≠ none

section
variable {α β : Type} {K : UInt16 → Prop}

theorem Rk.refl (w : World) : Rk K w w := ⟨⟨[], by simp, by simp⟩, fun s h => ⟨s, h, rfl, rfl, fun _ _ h => h⟩⟩

theorem noApp_append {a b : List Event} (ha : ∀ e ∈ a, isApp e = false) (hb : ∀ e ∈ b, isApp e = false) : ∀ e ∈ a ++ b, isApp e = false := by
  intro e he
  rcases List.mem_append.mp he with h | h
  · exact ha e h
  · exact hb e h

theorem Rk.trans {a b c : World} (h : Rk K a b) (h' : Rk K b c) : Rk K a c := by
  obtain ⟨es, e1, e2⟩ := h.trace
  obtain ⟨fs, f1, f2⟩ := h'.trace
  refine ⟨⟨es ++ fs, by rw [f1, e1, List.append_assoc], noApp_append e2 f2⟩, fun s hs => ?_⟩
  obtain ⟨s1, a1, a2, a3, a4⟩ := h.tabs s hs
  obtain ⟨s2, b1, b2, b3, b4⟩ := h'.tabs s1 a1
  exact ⟨s2, b1, b2.trans a2, b3.trans a3, fun id hk hp => b4 id hk (a4 id hk hp)⟩

theorem Mild.rk {m : M α} (h : Mild m) {w w' : World} {a : α} (hd : m w = .done a w') : Rk K w w' := by
  obtain ⟨h1, h2⟩ := h _ _ _ hd
  exact ⟨h1, fun s hs => ⟨s, by rw [h2]; exact hs, rfl, rfl, fun _ _ h => h⟩⟩

/-- Whatever others do (`R`) before each step, as long as `I` holds then: after each step that returns `J` holds, and the result satisfies `Q`. -/
def Par {α : Type} (I : World → Prop) (R : World → World → Prop) (J : World → Prop) : Prog α → (α → World → Prop) → World → Prop
  | .ret a, Q, w => ∀ w', R w w' → Q a w'
  | .step m k, Q, w0 => ∀ w, R w0 w → I w → ∀ b w', m w = .done b w' → J w' ∧ Par I R J (k b) Q w'

variable {I J : World → Prop}

theorem Par.stable {p : Prog α} {Q : α → World → Prop} {w w' : World} (h : Par I (Rk K) J p Q w) (hr : Rk K w w') : Par I (Rk K) J p Q w' := by
  cases p with
  | ret a => exact fun w2 h2 => h w2 (hr.trans h2)
  | step m k => exact fun w2 h2 => h w2 (hr.trans h2)

theorem Par.mono {p : Prog α} {Q Q' : α → World → Prop} {w : World} (h : Par I (Rk K) J p Q w) (hq : ∀ a w, Q a w → Q' a w) : Par I (Rk K) J p Q' w := by
  induction p generalizing w with
  | ret a => exact fun w' hr => hq _ _ (h w' hr)
  | step m k ih =>
    intro w1 hr hi b w' hd
    exact ⟨(h w1 hr hi b w' hd).1, ih b (h w1 hr hi b w' hd).2⟩

theorem Par.bind {p : Prog α} {f : α → Prog β} {Q : β → World → Prop} {w : World} (h : Par I (Rk K) J p (fun a w => Par I (Rk K) J (f a) Q w) w) :
    Par I (Rk K) J (p >>= f) Q w := by
  show Par I (Rk K) J (p.bind f) Q w
  induction p generalizing w with
  | ret a => exact h w (Rk.refl w)
  | step m k ih =>
    intro w1 hr hi b w' hd
    exact ⟨(h w1 hr hi b w' hd).1, ih b (h w1 hr hi b w' hd).2⟩

/-- A program from every world that satisfies `A`. -/
abbrev Tri (I : World → Prop) (K : UInt16 → Prop) (J A : World → Prop) {α : Type} (p : Prog α) (Q : α → World → Prop) : Prop := ∀ w, A w → Par I (Rk K) J p Q w

/-- An assertion others do not invalidate, and that implies `J`. -/
structure Firm (K : UInt16 → Prop) (J A : World → Prop) : Prop where
  stable : ∀ w w', A w → Rk K w w' → A w'
  good : ∀ w, A w → J w

variable {A : World → Prop}

theorem Tri.pure (hA : Firm K J A) {a : α} {Q : α → World → Prop} (h : ∀ w, A w → Q a w) : Tri I K J A (pure a) Q :=
  fun _ hw _ hr => h _ (hA.stable _ _ hw hr)

theorem Tri.bind {B : α → World → Prop} {p : Prog α} {f : α → Prog β} {Q : β → World → Prop} (h : Tri I K J A p B)
    (hf : ∀ a, Tri I K J (B a) (f a) Q) : Tri I K J A (p >>= f) Q :=
  fun w hw => Par.bind (Par.mono (h w hw) fun a w' hb => hf a w' hb)

theorem Tri.ite {c : Prop} [Decidable c] {p q : Prog α} {Q : α → World → Prop} (hp : c → Tri I K J A p Q) (hq : ¬ c → Tri I K J A q Q) :
    Tri I K J A (if c then p else q) Q := by
  split
  · exact hp ‹_›
  · exact hq ‹_›

theorem Tri.calm (hA : Firm K J A) {p : Prog α} (h : Gentle p) : Tri I K J A p (fun _ => A) := by
  intro w hw
  induction p generalizing w with
  | ret a => exact fun w' hr => hA.stable _ _ hw hr
  | step m k ih =>
    intro w1 hr hi b w' hd
    have h1 := hA.stable _ _ (hA.stable _ _ hw hr) (h.1.rk hd)
    exact ⟨hA.good _ h1, ih b (h.2 b) w' h1⟩

theorem Tri.seq (hA : Firm K J A) {p : Prog α} {f : α → Prog β} {Q : β → World → Prop} (h : Gentle p) (hf : ∀ a, Tri I K J A (f a) Q) :
    Tri I K J A (p >>= f) Q := Tri.bind (Tri.calm hA h) hf

/-- One step. -/
theorem Tri.step (hA : Firm K J A) {m : M α} {B : α → World → Prop} (hB : ∀ a, Firm K J (B a))
    (h : ∀ w a w', A w → I w → m w = .done a w' → B a w') : Tri I K J A (.step m .ret) B := by
  intro w hw w1 hr hi b w' hd
  have h1 := h _ _ _ (hA.stable _ _ hw hr) hi hd
  exact ⟨(hB b).good _ h1, fun w2 h2 => (hB b).stable _ _ h1 h2⟩

theorem Tri.lift (hA : Firm K J A) {r : Res α} {f : α → Prog β} {Q : β → World → Prop} (h : ∀ a, r = .ok a → Tri I K J A (f a) Q) :
    Tri I K J A (act (liftRes r) >>= f) Q := by
  intro w hw w1 hr hi b w' hd
  have h1 := hA.stable _ _ hw hr
  unfold liftRes at hd
  split at hd
  · cases hd
    exact ⟨hA.good _ h1, h _ rfl _ h1⟩
  · cases hd

theorem Tri.getCtx (hA : Firm K J A) {f : Ctx → Prog β} {Q : β → World → Prop} (h : ∀ w, A w → Par I (Rk K) J (f w.ctx) Q w) :
    Tri I K J A (act getCtx >>= f) Q := by
  intro w hw w1 hr hi b w' hd
  have h1 := hA.stable _ _ hw hr
  cases hd
  exact ⟨hA.good _ h1, h _ h1⟩

end

/-! ### The monitor -/

/-- A PUBACK or PUBCOMP for `id` was presented to the application. -/
def ackedIn (id : UInt16) (es : List Event) : Prop := ∃ t body r, (t = 0x40 ∨ t = 0x70) ∧ Event.app t body id r none ∈ es

/-- No QoS 2 publish was presented twice after `tr`. -/
def Once (tr : List Event) (w : World) : Prop := ∃ es m, w.trace = tr ++ es ∧ monRun ⟨[], []⟩ es = some m

/-- Incoming QoS 2 publishes presented after `tr` and not released are recorded, except `x`; outgoing publishes `K` are in flight or
acknowledged, except `y`. -/
def Mid (tr : List Event) (ic : Nat) (K : UInt16 → Prop) (x y : Option UInt16) (w : World) : Prop :=
  ∃ es m s, w.trace = tr ++ es ∧ monRun ⟨[], []⟩ es = some m ∧ Represents w.ctx.tables s ∧ s.inCap = ic ∧
    (∀ id ∈ m.opened, x ≠ some id → s.inc.phase id = some .sendPubrec ∨ s.inc.phase id = some .awaitPubrel) ∧
    ∀ id, K id → y ≠ some id → s.out.phase id ≠ none ∨ ackedIn id es

/-- Moreover a QoS 2 publish with id `id` has been recorded and not been presented. -/
def Mid2 (tr : List Event) (ic : Nat) (K : UInt16 → Prop) (id : UInt16) (w : World) : Prop :=
  ∃ es m s, w.trace = tr ++ es ∧ monRun ⟨[], []⟩ es = some m ∧ Represents w.ctx.tables s ∧ s.inCap = ic ∧
    (∀ id ∈ m.opened, s.inc.phase id = some .sendPubrec ∨ s.inc.phase id = some .awaitPubrel) ∧
    (∀ id, K id → s.out.phase id ≠ none ∨ ackedIn id es) ∧ id ∉ m.opened ∧ s.inc.phase id = some .sendPubrec

section
variable {α β : Type} {I : World → Prop} {tr : List Event} {ic : Nat} {K : UInt16 → Prop} {x y : Option UInt16} {id : UInt16}

theorem mon_noApp {es : List Event} (h : ∀ e ∈ es, isApp e = false) (m : Mon) : monRun m es = some m := by
  induction es with
  | nil => rfl
  | cons e es ih =>
    have h1 := ih (fun x hx => h x (List.mem_cons_of_mem _ hx))
    have := h e List.mem_cons_self
    cases e with
    | app => cases this
    | _ => exact h1

theorem ackedIn.append {a b : List Event} (h : ackedIn id a) : ackedIn id (a ++ b) := by
  obtain ⟨t, body, r, h1, h2⟩ := h
  exact ⟨t, body, r, h1, List.mem_append_left _ h2⟩

theorem Once.firm : Firm K (Once tr) (Once tr) := by
  refine ⟨?_, fun _ h => h⟩
  rintro w w' ⟨es, m, h1, h2⟩ hr
  obtain ⟨fs, f1, f2⟩ := hr.trace
  exact ⟨es ++ fs, m, by rw [f1, h1, List.append_assoc], by rw [monRun_append, h2]; exact mon_noApp f2 m⟩

theorem Mid.firm : Firm K (Once tr) (Mid tr ic K x y) := by
  refine ⟨?_, fun w ⟨es, m, _, h1, h2, _⟩ => ⟨es, m, h1, h2⟩⟩
  rintro w w' ⟨es, m, s, h1, h2, h3, h4, h5, h6⟩ hr
  obtain ⟨fs, f1, f2⟩ := hr.trace
  obtain ⟨s', a1, a2, a3, a4⟩ := hr.tabs s h3
  refine ⟨es ++ fs, m, s', by rw [f1, h1, List.append_assoc], by rw [monRun_append, h2]; exact mon_noApp f2 m, a1, a2.trans h4, ?_, ?_⟩
  · rw [a3]; exact h5
  · intro i hk hy
    rcases h6 i hk hy with h | h
    · exact .inl (a4 i hk h)
    · exact .inr h.append

theorem Mid2.firm : Firm K (Once tr) (Mid2 tr ic K id) := by
  refine ⟨?_, fun w ⟨es, m, _, h1, h2, _⟩ => ⟨es, m, h1, h2⟩⟩
  rintro w w' ⟨es, m, s, h1, h2, h3, h4, h5, h6, h7, h8⟩ hr
  obtain ⟨fs, f1, f2⟩ := hr.trace
  obtain ⟨s', a1, a2, a3, a4⟩ := hr.tabs s h3
  refine ⟨es ++ fs, m, s', by rw [f1, h1, List.append_assoc], by rw [monRun_append, h2]; exact mon_noApp f2 m, a1, a2.trans h4, ?_, ?_, h7, ?_⟩
  · rw [a3]; exact h5
  · intro i hk
    rcases h6 i hk with h | h
    · exact .inl (a4 i hk h)
    · exact .inr h.append
  · rw [a3]; exact h8

/-- A section that calls the state engine. -/
theorem locked_tables {f : Tables → Res (α × Tables)} {w w' : World} {a : α} (h : locked (onTables f) w = .done a w') :
    ∃ T, f w.ctx.tables = .ok (a, T) ∧ w'.trace = w.trace ++ [.pre, .post] ∧ w'.ctx = { w.ctx with tables := T } := by
  unfold locked at h
  obtain ⟨_, w1, h1, h⟩ := M.bind_done h
  cases h1
  obtain ⟨a', w2, h2, h⟩ := M.bind_done h
  obtain ⟨_, w3, h3, h⟩ := M.bind_done h
  cases h3
  cases h
  unfold onTables at h2
  split at h2
  · rename_i a2 T hT
    cases h2
    exact ⟨T, hT, by simp, rfl⟩
  · cases h2

/-- A call of the state engine that the monitor does not notice. -/
theorem state_tri (c : Call) (hq : monQuiet c) (hroom : ∀ s : InFlight, s.inCap = ic → Room s c) (hc : c ≠ .cancel 0) :
    Tri I K (Once tr) (Mid tr ic K none none) (sect (onTables fun t => stateCall t c)) (fun _ => Mid tr ic K none none) := by
  refine Tri.step Mid.firm (fun _ => Mid.firm) ?_
  rintro w a w' ⟨es, m, s, h1, h2, h3, h4, h5, h6⟩ _ hd
  obtain ⟨T, e1, e2, e3⟩ := locked_tables hd
  obtain ⟨T', k1, k2, _, k4⟩ := stateCall_refines' h3 c (hroom s h4) hc
  rw [k1] at e1
  cases e1
  obtain ⟨q1, q2⟩ := step_quiet (s := s) hq
  refine ⟨es ++ [.pre, .post], m, (step s c).2, by rw [e2, h1, List.append_assoc], by rw [monRun_append, h2]; rfl, by rw [e3]; exact k2,
    k4.trans h4, fun i hi hx => q1 i (h5 i hi hx), ?_⟩
  intro i hk hy
  rcases h6 i hk hy with h | h
  · exact .inl (q2 i h)
  · exact .inr h.append

theorem sendPublishAcks_tri (g : Cfg) (id : UInt16) (s : PubState) :
    Tri I K (Once tr) (Mid tr ic K none none) (sendPublishAcksP g id s) (fun _ => Mid tr ic K none none) := by
  have F : Firm K (Once tr) (Mid tr ic K none none) := Mid.firm
  unfold sendPublishAcksP
  dsimp only
  refine Tri.ite (fun _ => Tri.pure F fun _ h => h) (fun _ => ?_)
  refine Tri.lift F fun ty _ => Tri.lift F fun r _ => ?_
  refine Tri.ite (fun _ => Tri.pure F fun _ h => h) (fun _ => ?_)
  refine Tri.seq F (Gentle.sect (Mild.sendIfConnected g _)) fun st => ?_
  refine Tri.ite (fun _ => Tri.pure F fun _ h => h) (fun _ => ?_)
  refine Tri.seq F (Gentle.act (Mild.modifyCtx fun _ => rfl)) fun _ => ?_
  refine Tri.bind (state_tri (.ack .send ty id) trivial (fun _ _ => trivial) (by simp)) fun r => ?_
  exact Tri.pure F fun _ h => h

/-- A call of the application that the monitor does not notice. -/
theorem appQuiet_tri (pk : PacketInfo) (id : UInt16) (st : Status) (p : Option PublishInfo) (hp : ∀ m, monStep m
      (.app pk.type ((pk.pRemainingData.getD []).take pk.remainingLength) id st
        (p.map fun p => ⟨p.qos, p.retain, p.dup, (p.pTopicName.getD []).take p.topicNameLength.toNat, (p.pPayload.getD []).take p.payloadLength⟩))
      = some m) :
    Tri I K (Once tr) (Mid tr ic K x y) (act (appCallback pk id st p)) (fun _ => Mid tr ic K x y) := by
  refine Tri.step Mid.firm (fun _ => Mid.firm) ?_
  rintro w a w' ⟨es, m, s, h1, h2, h3, h4, h5, h6⟩ _ hd
  cases hd
  refine ⟨es ++ [_], m, s, by show _ ++ _ = _; rw [h1, List.append_assoc], ?_, h3, h4, h5, fun i hk hy => (h6 i hk hy).imp (fun h => h) ackedIn.append⟩
  rw [monRun_append, h2]
  show (monStep m _).bind _ = _
  rw [hp m]
  rfl

/-- A publish is recorded. -/
theorem record_tri (id : UInt16) (q : QoS) (hroom : q = .qos0 ∨ 1 ≤ ic) :
    Tri I K (Once tr) (Mid tr ic K none none) (sect (updateStatePublishM id .receive q))
      (fun r w => Mid tr ic K none none w ∧ (r.1 = .success → q = .qos2 → Mid2 tr ic K id w)) := by
  have F1 : Firm K (Once tr) (Mid tr ic K none none) := Mid.firm
  have F2 : Firm K (Once tr) (Mid2 tr ic K id) := Mid2.firm
  refine Tri.step F1 (fun r => ⟨?_, fun w h => F1.good _ h.1⟩) ?_
  · rintro w w' ⟨h1, h2⟩ hr
    exact ⟨F1.stable _ _ h1 hr, fun a b => F2.stable _ _ (h2 a b) hr⟩
  · rintro w a w' ⟨es, m, s, h1, h2, h3, h4, h5, h6⟩ _ hd
    obtain ⟨T, e1, e2, e3⟩ := locked_tables hd
    obtain ⟨T', k1, k2, _, k4⟩ := stateCall_refines' h3 (.publish .receive id q) (by rw [← h4] at hroom; exact hroom) (by simp)
    have e1 : stateCall w.ctx.tables (.publish .receive id q) = _ := e1
    rw [k1] at e1
    cases e1
    obtain ⟨q1, q2⟩ := step_quiet (s := s) (c := .publish .receive id q) trivial
    have ht : w'.trace = tr ++ (es ++ [.pre, .post]) := by rw [e2, h1, List.append_assoc]
    have hm : monRun ⟨[], []⟩ (es ++ [.pre, .post]) = some m := by rw [monRun_append, h2]; rfl
    have hout : ∀ i, K i → (step s (.publish .receive id q)).2.out.phase i ≠ none ∨ ackedIn i (es ++ [.pre, .post]) := by
      intro i hk
      rcases h6 i hk (by simp) with h | h
      · exact .inl (q2 i h)
      · exact .inr h.append
    refine ⟨⟨_, m, _, ht, hm, by rw [e3]; exact k2, k4.trans h4, fun i hi hx => q1 i (h5 i hi hx), fun i hk _ => hout i hk⟩, ?_⟩
    intro hs hq
    have hid : id ≠ 0 := by
      rintro rfl
      rw [hq] at hs
      cases hs
    obtain ⟨p1, p2⟩ := ((step_publish_receive s id q fun _ => hid).1 hs).2 hq
    refine ⟨_, m, _, ht, hm, by rw [e3]; exact k2, k4.trans h4, fun i hi => q1 i (h5 i hi (by simp)), hout, ?_, p2⟩
    intro hmem
    rcases h5 id hmem (by simp) with h | h <;> rw [p1] at h <;> cases h

theorem handleIncomingPublish_tri (g : Cfg) (pk : PacketInfo) :
    Tri I K (Once tr) (Mid tr ic K none none) (handleIncomingPublishP g pk) (fun _ => Mid tr ic K none none) := by
  have F : Firm K (Once tr) (Mid tr ic K none none) := Mid.firm
  unfold handleIncomingPublishP
  refine Tri.lift F fun r hr => ?_
  obtain ⟨st, out⟩ := r
  cases out with
  | none => exact Tri.pure F fun _ h => h
  | some o =>
    obtain ⟨id, p⟩ := o
    dsimp only
    refine Tri.getCtx F fun w0 hw0 => ?_
    have hnil : w0.ctx.tables.incoming = [] ↔ ic = 0 := by
      obtain ⟨_, _, s, _, _, h3, h4, _⟩ := hw0
      rw [← h4, ← h3.2.size]
      exact List.length_eq_zero_iff.symm
    refine (?_ : Tri I K (Once tr) (Mid tr ic K none none) _ _) w0 hw0
    refine Tri.ite (fun _ => Tri.pure F fun _ h => h) (fun _ => ?_)
    refine Tri.ite (fun _ => Tri.pure F fun _ h => h) (fun hcap => ?_)
    have hroom : p.qos = .qos0 ∨ 1 ≤ ic := by
      by_cases hq : p.qos = .qos0
      · exact .inl hq
      · exact .inr (Nat.one_le_iff_ne_zero.mpr fun h => hcap ⟨hnil.mpr h, hq⟩)
    refine Tri.bind (B := fun r w => Mid tr ic K none none w ∧ (r.1 = .success → r.2.2 = false → p.qos = .qos2 → Mid2 tr ic K id w)) ?_ ?_
    · unfold recordIncomingPublishP
      refine Tri.bind (record_tri id p.qos hroom) fun r => ?_
      obtain ⟨st, s⟩ := r
      have F1 : Firm K (Once tr) (fun w => Mid tr ic K none none w ∧ (st = .success → p.qos = .qos2 → Mid2 tr ic K id w)) :=
        ⟨fun w w' h hr => ⟨F.stable _ _ h.1 hr, fun a b => Mid2.firm.stable _ _ (h.2 a b) hr⟩, fun w h => F.good _ h.1⟩
      dsimp only
      refine Tri.ite (fun hs => Tri.pure F1 fun _ h => ⟨h.1, fun _ _ => h.2 hs⟩) (fun hs => ?_)
      refine Tri.ite (fun _ => Tri.pure F1 fun _ h => ⟨h.1, fun _ h => by cases h⟩) (fun _ => ?_)
      exact Tri.pure F1 fun _ h => ⟨h.1, fun h => absurd h hs⟩
    · rintro ⟨st, s, dup⟩
      have F1 : Firm K (Once tr) (fun w => Mid tr ic K none none w ∧ (st = .success → dup = false → p.qos = .qos2 → Mid2 tr ic K id w)) :=
        ⟨fun w w' h hr => ⟨F.stable _ _ h.1 hr, fun a b c => Mid2.firm.stable _ _ (h.2 a b c) hr⟩, fun w h => F.good _ h.1⟩
      dsimp only
      refine Tri.ite (fun _ => Tri.pure F1 fun _ h => h.1) (fun hs => ?_)
      have hs : st = .success := Classical.not_not.mp hs
      refine Tri.ite (fun hdup => ?_) (fun _ w hw => sendPublishAcks_tri g id s w hw.1)
      refine Tri.bind (B := fun _ => Mid tr ic K none none) ?_ fun _ => sendPublishAcks_tri g id s
      refine Tri.step F1 (fun _ => F) ?_
      rintro w a w' ⟨h1, h2⟩ _ hd
      cases hd
      by_cases hq : p.qos = .qos2
      · obtain ⟨es, m, s', h1, h2, h3, h4, h5, h6, h7, h8⟩ := h2 hs hdup hq
        refine ⟨es ++ [_], { m with opened := id :: m.opened }, s', by show _ ++ _ = _; rw [h1, List.append_assoc], ?_, h3, h4, ?_,
          fun i hk _ => (h6 i hk).imp (fun h => h) ackedIn.append⟩
        · rw [monRun_append, h2]
          show (monStep m _).bind _ = _
          simp only [monStep, Option.map_some, hq, if_true, if_neg h7]
          rfl
        · intro i hi _
          rcases List.mem_cons.mp hi with rfl | hi
          · exact .inl h8
          · exact h5 i hi
      · obtain ⟨es, m, s', h1, h2, h3, h4, h5, h6⟩ := h1
        refine ⟨es ++ [_], m, s', by show _ ++ _ = _; rw [h1, List.append_assoc], ?_, h3, h4, h5,
          fun i hk hy => (h6 i hk hy).imp (fun h => h) ackedIn.append⟩
        rw [monRun_append, h2]
        show (monStep m _).bind _ = _
        simp only [monStep, Option.map_some, if_neg hq]
        rfl

theorem ackType_byte {t : UInt8} {ty : AckType} (h : getAckFromPacketType t = .ok ty) : ackByteType t ty := by
  unfold getAckFromPacketType at h
  split at h
  · cases h; exact .inl ⟨‹_›, rfl⟩
  · split at h
    · cases h; exact .inr (.inl ⟨‹_›, rfl⟩)
    · split at h
      · cases h; exact .inr (.inr (.inl ⟨‹_›, rfl⟩))
      · by_cases hc : (t == ptPUBCOMP) = true
        · simp only [cassert, hc, if_true] at h
          cases h
          exact .inr (.inr (.inr ⟨beq_iff_eq.mp hc, rfl⟩))
        · simp only [cassert, hc] at h
          cases h

/-- The exceptions between the state update for a received acknowledgement and the callback. -/
def relExc (ty : AckType) (id : UInt16) : Option UInt16 := if ty = .pubrel then some id else none
def ackExc (ty : AckType) (id : UInt16) : Option UInt16 := if ty = .puback ∨ ty = .pubcomp then some id else none

theorem ackState_tri (ty : AckType) (id : UInt16) :
    Tri I K (Once tr) (Mid tr ic K none none) (sect (updateStateAckM id ty .receive))
      (fun r w => if r.1 = .success then Mid tr ic K (relExc ty id) (ackExc ty id) w else Mid tr ic K none none w) := by
  refine Tri.step Mid.firm (fun r => ?_) ?_
  · split
    · exact Mid.firm
    · exact Mid.firm
  · rintro w ⟨st, o⟩ w' ⟨es, m, s, h1, h2, h3, h4, h5, h6⟩ _ hd
    obtain ⟨T, e1, e2, e3⟩ := locked_tables hd
    obtain ⟨T', k1, k2, _, k4⟩ := stateCall_refines' h3 (.ack .receive ty id) trivial (by simp)
    have e1 : stateCall w.ctx.tables (.ack .receive ty id) = _ := e1
    rw [k1] at e1
    injection e1 with e5
    injection e5 with e5 e4
    subst e4
    have ht : w'.trace = tr ++ (es ++ [.pre, .post]) := by rw [e2, h1, List.append_assoc]
    have hm : monRun ⟨[], []⟩ (es ++ [.pre, .post]) = some m := by rw [monRun_append, h2]; rfl
    have hst : (step s (.ack .receive ty id)).1.1 = st := by rw [e5]
    dsimp only
    by_cases hs : st = .success
    · rw [if_pos hs]
      obtain ⟨_, _, k5, k6⟩ := step_ack_receive s ty id (by rw [hst]; exact hs)
      refine ⟨_, m, _, ht, hm, by rw [e3]; exact k2, k4.trans h4, ?_, ?_⟩
      · intro i hi hx
        refine k5 i (fun hty => ?_) (h5 i hi (by simp))
        rintro rfl
        exact hx (by simp [relExc, hty])
      · intro i hk hy
        rcases h6 i hk (by simp) with h | h
        · refine .inl (k6 i (fun hty => ?_) h)
          rintro rfl
          exact hy (by simp [ackExc, hty])
        · exact .inr h.append
    · rw [if_neg hs]
      have := step_ack_fail s .receive ty id (by rw [hst]; exact hs)
      rw [this] at k2
      refine ⟨_, m, s, ht, hm, by rw [e3]; exact k2, h4, h5, fun i hk hy => (h6 i hk hy).imp (fun h => h) ackedIn.append⟩

theorem handlePublishAcks_tri (g : Cfg) (pk : PacketInfo) :
    Tri I K (Once tr) (Mid tr ic K none none) (handlePublishAcksP g pk) (fun _ => Mid tr ic K none none) := by
  have F : Firm K (Once tr) (Mid tr ic K none none) := Mid.firm
  unfold handlePublishAcksP
  refine Tri.lift F fun ty hty => Tri.lift F fun r _ => ?_
  obtain ⟨st, j, l⟩ := r
  dsimp only
  refine Tri.ite (fun _ => Tri.pure F fun _ h => h) (fun _ => ?_)
  generalize j.getD 0 = id
  refine Tri.bind (ackState_tri ty id) fun r => ?_
  obtain ⟨st, s⟩ := r
  dsimp only
  by_cases hs : st = .success
  rotate_left
  · simp only [if_neg hs, ne_eq, hs, not_false_eq_true, if_true]
    exact Tri.pure F fun _ h => h
  · simp only [hs, if_true, ne_eq, not_true, if_false]
    have F1 : Firm K (Once tr) (Mid tr ic K (relExc ty id) (ackExc ty id)) := Mid.firm
    have rest : Tri I K (Once tr) (Mid tr ic K (relExc ty id) (ackExc ty id)) (do
        act (appCallback pk id .success none)
        sendPublishAcksP g id (s.getD .null)) (fun _ => Mid tr ic K none none) := by
      refine Tri.bind (B := fun _ => Mid tr ic K none none) ?_ fun _ => sendPublishAcks_tri g _ _
      refine Tri.step F1 (fun _ => F) ?_
      rintro w a w' ⟨es, m, s', h1, h2, h3, h4, h5, h6⟩ _ hd
      cases hd
      have ht : w.trace ++ [Event.app pk.type ((pk.pRemainingData.getD []).take pk.remainingLength) id .success none] =
          tr ++ (es ++ [Event.app pk.type ((pk.pRemainingData.getD []).take pk.remainingLength) id .success none]) := by
        rw [h1, List.append_assoc]
      have hmem : Event.app pk.type ((pk.pRemainingData.getD []).take pk.remainingLength) id .success none ∈
          es ++ [Event.app pk.type ((pk.pRemainingData.getD []).take pk.remainingLength) id .success none] := by simp
      have hrun : ∀ m', monStep m (.app pk.type ((pk.pRemainingData.getD []).take pk.remainingLength) id .success none) = some m' →
          monRun ⟨[], []⟩ (es ++ [Event.app pk.type ((pk.pRemainingData.getD []).take pk.remainingLength) id .success none]) = some m' := by
        intro m' hm'
        rw [monRun_append, h2]
        show (monStep m _).bind _ = _
        rw [hm']
        rfl
      rcases ackType_byte hty with ⟨hb, rfl⟩ | ⟨hb, rfl⟩ | ⟨hb, rfl⟩ | ⟨hb, rfl⟩
      · refine ⟨_, { m with out := m.out.filter fun x => x ≠ id }, s', ht, hrun _ (by simp [monStep, hb]), h3, h4, h5, ?_⟩
        intro i hk _
        by_cases hi : i = id
        · subst hi
          exact .inr ⟨_, _, _, .inl hb, hmem⟩
        · exact (h6 i hk (by simpa [ackExc] using fun h => hi h.symm)).imp (fun h => h) ackedIn.append
      · exact ⟨_, m, s', ht, hrun _ (by simp [monStep, hb]), h3, h4, h5, fun i hk hy => (h6 i hk (by simp [ackExc])).imp (fun h => h) ackedIn.append⟩
      · refine ⟨_, { m with opened := m.opened.filter fun x => x ≠ id }, s', ht, hrun _ (by simp [monStep, hb]), h3, h4, ?_,
          fun i hk hy => (h6 i hk (by simp [ackExc])).imp (fun h => h) ackedIn.append⟩
        intro i hi _
        simp only [List.mem_filter, decide_eq_true_eq] at hi
        exact h5 i hi.1 (by simpa [relExc] using fun h => hi.2 h.symm)
      · refine ⟨_, { m with out := m.out.filter fun x => x ≠ id }, s', ht, hrun _ (by simp [monStep, hb]), h3, h4, h5, ?_⟩
        intro i hk _
        by_cases hi : i = id
        · subst hi
          exact .inr ⟨_, _, _, .inr hb, hmem⟩
        · exact (h6 i hk (by simpa [ackExc] using fun h => hi h.symm)).imp (fun h => h) ackedIn.append
    refine Tri.seq F1 (Gentle.act Mild.getCtx) fun c => ?_
    refine Tri.ite (fun _ => ?_) (fun _ => rest)
    exact Tri.seq F1 (Gentle.act (Mild.clear id)) fun _ => rest

theorem handleIncomingAck_tri (g : Cfg) (pk : PacketInfo) (manage : Bool) :
    Tri I K (Once tr) (Mid tr ic K none none) (handleIncomingAckP g pk manage) (fun _ => Mid tr ic K none none) := by
  have F : Firm K (Once tr) (Mid tr ic K none none) := Mid.firm
  unfold handleIncomingAckP
  refine Tri.ite (fun _ => handlePublishAcks_tri g pk) (fun hn => ?_)
  have quiet : ∀ i st m, monStep m (.app pk.type ((pk.pRemainingData.getD []).take pk.remainingLength) i st none) = some m := by
    intro i st m
    have n1 : pk.type ≠ 0x40 := fun h => hn (.inl h)
    have n2 : pk.type ≠ 0x62 := fun h => hn (.inr (.inr (.inl h)))
    have n3 : pk.type ≠ 0x70 := fun h => hn (.inr (.inr (.inr h)))
    simp [monStep, n1, n2, n3]
  refine Tri.ite (fun _ => ?_) (fun _ => ?_)
  · refine Tri.lift F fun r _ => ?_
    refine Tri.ite (fun _ => Tri.pure F fun _ h => h) (fun _ => ?_)
    refine Tri.ite (fun _ => ?_) (fun _ => ?_)
    · exact Tri.seq F (Gentle.act (Mild.modifyCtx fun _ => rfl)) fun _ => Tri.pure F fun _ h => h
    · exact Tri.bind (appQuiet_tri pk _ _ none (quiet _ _)) fun _ => Tri.pure F fun _ h => h
  · refine Tri.ite (fun _ => ?_) (fun _ => Tri.pure F fun _ h => h)
    refine Tri.lift F fun r _ => ?_
    refine Tri.ite (fun _ => ?_) (fun _ => Tri.pure F fun _ h => h)
    exact Tri.bind (appQuiet_tri pk _ _ none (quiet _ _)) fun _ => Tri.pure F fun _ h => h

theorem handlePacket_tri (g : Cfg) (manage : Bool) (h : HeaderRes) :
    Tri I K (Once tr) (Mid tr ic K none none) (handlePacketP g manage h) (fun _ => Mid tr ic K none none) := by
  have F : Firm K (Once tr) (Mid tr ic K none none) := Mid.firm
  unfold handlePacketP
  dsimp only
  refine Tri.seq F (Gentle.act Mild.getCtx) fun c => ?_
  refine Tri.bind (Tri.ite (fun _ => handleIncomingPublish_tri g _) (fun _ => handleIncomingAck_tri g _ manage)) fun st => ?_
  refine Tri.seq F (Gentle.act (Mild.dropPacket _)) fun _ => ?_
  refine Tri.ite (fun _ => ?_) (fun _ => Tri.pure F fun _ h => h)
  refine Tri.seq F (Gentle.act Mild.getTime) fun _ => Tri.seq F (Gentle.act (Mild.modifyCtx fun _ => rfl)) fun _ => Tri.pure F fun _ h => h

theorem receiveSingleIteration_tri (g : Cfg) (manage : Bool) :
    Tri I K (Once tr) (Mid tr ic K none none) (receiveSingleIterationP g manage) (fun _ => Mid tr ic K none none) := by
  have F : Firm K (Once tr) (Mid tr ic K none none) := Mid.firm
  unfold receiveSingleIterationP
  refine Tri.seq F receiveHeader_calm fun r => ?_
  refine Tri.seq F (keepAliveCheck_calm g _ _ _) fun st => ?_
  refine Tri.seq F (checkComplete_calm g _ _) fun st => ?_
  refine Tri.bind (Tri.ite (fun _ => handlePacket_tri g manage _) (fun _ => Tri.pure F fun _ h => h)) fun st => ?_
  exact Tri.ite (fun _ => Tri.pure F fun _ h => h) (fun _ => Tri.pure F fun _ h => h)

theorem processLoop_tri (g : Cfg) :
    Tri I K (Once tr) (Mid tr ic K none none) (processLoopP g) (fun _ => Mid tr ic K none none) :=
  Tri.seq Mid.firm (Gentle.act (Mild.modifyCtx fun _ => rfl)) fun _ => receiveSingleIteration_tri g true

theorem resendPubrels_tri (g : Cfg) (n : Nat) : ∀ cursor,
    Tri I K (Once tr) (Mid tr ic K none none) (resendPubrelsP g n cursor) (fun _ => Mid tr ic K none none) := by
  have F : Firm K (Once tr) (Mid tr ic K none none) := Mid.firm
  induction n with
  | zero => exact fun _ => Tri.calm F (Gentle.act Mild.stuck)
  | succ n ih =>
    intro cursor
    unfold resendPubrelsP
    refine Tri.seq F (Gentle.act Mild.getCtx) fun c => Tri.seq F (Gentle.act (Mild.lift _)) fun r => ?_
    refine Tri.ite (fun _ => Tri.pure F fun _ h => h) (fun _ => ?_)
    refine Tri.bind (sendPublishAcks_tri g _ _) fun st => ?_
    exact Tri.ite (fun _ => Tri.pure F fun _ h => h) (fun _ => ih _)

theorem resumption_tri (g : Cfg) :
    Tri I K (Once tr) (Mid tr ic K none none) (handleUncleanSessionResumptionP g) (fun _ => Mid tr ic K none none) := by
  have F : Firm K (Once tr) (Mid tr ic K none none) := Mid.firm
  unfold handleUncleanSessionResumptionP
  refine Tri.seq F (Gentle.act Mild.getCtx) fun c => ?_
  dsimp only
  refine Tri.bind (resendPubrels_tri g _ 0) fun st => ?_
  exact Tri.ite (fun _ => Tri.calm F (resendPublishes_calm g _ _)) (fun _ => Tri.pure F fun _ h => h)

end

end Mqtt
