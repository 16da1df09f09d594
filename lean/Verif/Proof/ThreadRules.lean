/-
Rely and guarantee: rules to show that a program cut into steps has no undefined behaviour and keeps the invariant whatever other threads do
between its steps.
-/
import Verif.Spec.Threads
import Verif.Proof.Threads
import Verif.Proof.CallMon

namespace Mqtt
open Spec
set_option linter.unusedSimpArgs false

/-- What a step did, `sess` saying whether steps of `MQTT_Connect` and `MQTT_Disconnect` are among those considered. -/
structure StepFx (sess : Bool) (w : World) (es : List Event) (w' : World) : Prop where
  trace : w'.trace = w.trace ++ es
  writev : w'.ctx.hasWritev = w.ctx.hasWritev
  retransmits : w'.ctx.retransmits = w.ctx.retransmits
  bufSize : w'.ctx.bufSize = w.ctx.bufSize
  inv : ∀ oc ic, Inv oc ic w.ctx → Inv oc ic w'.ctx
  chunk : Chunk w.trace es
  flow : sess = false → quietAfterSendFail es ∧ (w.ctx.connectStatus ≠ .connected → noSent es ∧ w'.ctx.connectStatus = w.ctx.connectStatus) ∧
    (es.any isSendFail = true → w'.ctx.connectStatus ≠ .connected)

/-- What a step that has not been finished did. -/
def StepX (w w' : World) : Prop := ∃ es, w'.trace = w.trace ++ es ∧ Begun w.trace es

/-- Others may change anything but the buffer, its index and the configuration. -/
structure Rm (w w' : World) : Prop where
  inv : ∀ oc ic, Inv oc ic w.ctx → Inv oc ic w'.ctx
  index : w'.ctx.index = w.ctx.index
  netBuf : w'.ctx.netBuf = w.ctx.netBuf
  writev : w'.ctx.hasWritev = w.ctx.hasWritev
  retransmits : w'.ctx.retransmits = w.ctx.retransmits
  trace : w.trace <+: w'.trace

/-- Others may change anything but the configuration. -/
structure Ra (w w' : World) : Prop where
  inv : ∀ oc ic, Inv oc ic w.ctx → Inv oc ic w'.ctx
  bufSize : w'.ctx.bufSize = w.ctx.bufSize
  writev : w'.ctx.hasWritev = w.ctx.hasWritev
  retransmits : w'.ctx.retransmits = w.ctx.retransmits

theorem Rm.refl (w : World) : Rm w w := ⟨fun _ _ h => h, rfl, rfl, rfl, rfl, List.prefix_refl _⟩
theorem Rm.trans {a b c : World} (h : Rm a b) (h' : Rm b c) : Rm a c :=
  ⟨fun oc ic hi => h'.inv oc ic (h.inv oc ic hi), h'.index.trans h.index, h'.netBuf.trans h.netBuf, h'.writev.trans h.writev,
    h'.retransmits.trans h.retransmits, h.trace.trans h'.trace⟩
theorem Ra.refl (w : World) : Ra w w := ⟨fun _ _ h => h, rfl, rfl, rfl⟩
theorem Ra.trans {a b c : World} (h : Ra a b) (h' : Ra b c) : Ra a c :=
  ⟨fun oc ic hi => h'.inv oc ic (h.inv oc ic hi), h'.bufSize.trans h.bufSize, h'.writev.trans h.writev, h'.retransmits.trans h.retransmits⟩

/-- Whatever others do (`R`) before each step, the steps of the program have no undefined behaviour and satisfy `G` (`GX` if they do not
return), and the result satisfies `Q`. -/
def Safe {α : Type} (R G GX : World → World → Prop) : Prog α → (α → World → Prop) → World → Prop
  | .ret a, Q, w => ∀ w', R w w' → Q a w'
  | .step m k, Q, w0 => ∀ w, R w0 w → wp m (fun b w' => G w w' ∧ Safe R G GX (k b) Q w') (GX w) (fun _ => False) w

section
variable {α β : Type} {R G GX : World → World → Prop}

theorem Safe.stable (ht : ∀ a b c, R a b → R b c → R a c) {p : Prog α} {Q : α → World → Prop} {c c' : World} (h : Safe R G GX p Q c) (hr : R c c') :
    Safe R G GX p Q c' := by
  cases p with
  | ret a => exact fun c2 h2 => h c2 (ht _ _ _ hr h2)
  | step m k => exact fun w hw => h w (ht _ _ _ hr hw)

theorem Safe.mono {p : Prog α} {Q Q' : α → World → Prop} {c : World} (h : Safe R G GX p Q c) (hq : ∀ a c, Q a c → Q' a c) : Safe R G GX p Q' c := by
  induction p generalizing c with
  | ret a => exact fun c' hc => hq _ _ (h c' hc)
  | step m k ih =>
    intro w hw
    exact wp_mono (h w hw) (fun b w' hb => ⟨hb.1, ih b hb.2⟩) (fun _ h => h) (fun _ h => h)

theorem Safe.bind (hrefl : ∀ c, R c c) {p : Prog α} {f : α → Prog β} {Q : β → World → Prop} {c : World}
    (h : Safe R G GX p (fun a c => Safe R G GX (f a) Q c) c) : Safe R G GX (p >>= f) Q c := by
  show Safe R G GX (p.bind f) Q c
  induction p generalizing c with
  | ret a => exact h c (hrefl c)
  | step m k ih =>
    intro w hw
    exact wp_mono (h w hw) (fun b w' hb => ⟨hb.1, ih b hb.2⟩) (fun _ h => h) (fun _ h => h)

end

/-- The steps of the thread that receives. -/
abbrev Gm (sess : Bool) (w w' : World) : Prop := ∃ es, StepFx sess w es w'

/-- The steps of the other threads. -/
abbrev Ga (w w' : World) : Prop := (∃ es, StepFx false w es w') ∧ w'.ctx.index = w.ctx.index ∧ w'.ctx.netBuf = w.ctx.netBuf

/-- What the thread that receives knows between its steps. -/
structure At (oc ic i : Nat) (buf : List UInt8) (c : Ctx) : Prop where
  inv : Inv oc ic c
  index : c.index = i
  netBuf : c.netBuf = buf

theorem At.stable {oc ic i : Nat} {buf : List UInt8} {c c' : World} (h : At oc ic i buf c.ctx) (hr : Rm c c') : At oc ic i buf c'.ctx :=
  ⟨hr.inv oc ic h.inv, hr.index.trans h.index, hr.netBuf.trans h.netBuf⟩

/-- A program of the thread that receives, started with index `i` and buffer `buf`: `Q` holds of the result and the final index and buffer. -/
def Ok {α : Type} (sess : Bool) (oc ic i : Nat) (buf : List UInt8) (p : Prog α) (Q : α → Nat → List UInt8 → Prop) : Prop :=
  ∀ w, At oc ic i buf w.ctx → Safe Rm (Gm sess) StepX p (fun a w' => ∃ i' buf', At oc ic i' buf' w'.ctx ∧ Q a i' buf') w

section
variable {α β : Type} {sess : Bool} {oc ic i : Nat} {buf : List UInt8}

theorem Ok.pure {a : α} {Q : α → Nat → List UInt8 → Prop} (h : Q a i buf) : Ok sess oc ic i buf (pure a) Q :=
  fun _ hc _ hr => ⟨i, buf, hc.stable hr, h⟩

theorem Ok.bind {p : Prog α} {f : α → Prog β} {P : α → Nat → List UInt8 → Prop} {Q : β → Nat → List UInt8 → Prop} (h : Ok sess oc ic i buf p P)
    (hf : ∀ a i' buf', P a i' buf' → Ok sess oc ic i' buf' (f a) Q) : Ok sess oc ic i buf (p >>= f) Q := by
  intro c hc
  refine Safe.bind Rm.refl (Safe.mono (h c hc) ?_)
  rintro a c' ⟨i', buf', h1, h2⟩
  exact hf a i' buf' h2 c' h1

theorem Ok.mono {p : Prog α} {P Q : α → Nat → List UInt8 → Prop} (h : Ok sess oc ic i buf p P) (hq : ∀ a i' buf', P a i' buf' → Q a i' buf') :
    Ok sess oc ic i buf p Q := by
  intro c hc
  refine Safe.mono (h c hc) ?_
  rintro a c' ⟨i', buf', h1, h2⟩
  exact ⟨i', buf', h1, hq _ _ _ h2⟩

theorem Ok.ite {c : Prop} [Decidable c] {p q : Prog α} {Q : α → Nat → List UInt8 → Prop} (hp : c → Ok sess oc ic i buf p Q)
    (hq : ¬ c → Ok sess oc ic i buf q Q) : Ok sess oc ic i buf (if c then p else q) Q := by
  split
  · exact hp ‹_›
  · exact hq ‹_›

/-- One step, run from any world that satisfies what the thread knows. -/
theorem Ok.step {m : M α} {Q : α → Nat → List UInt8 → Prop}
    (h : ∀ w : World, At oc ic i buf w.ctx → wp m (fun a w' => Gm sess w w' ∧ ∃ i' buf', At oc ic i' buf' w'.ctx ∧ Q a i' buf') (StepX w) (fun _ => False) w) :
    Ok sess oc ic i buf (.step m .ret) Q := by
  intro c hc w hw
  refine wp_mono (h w (hc.stable hw)) ?_ (fun _ h => h) (fun _ h => h)
  rintro a w' ⟨h1, i', buf', h2, h3⟩
  exact ⟨h1, fun c' hr => ⟨i', buf', h2.stable hr, h3⟩⟩

theorem StepX.refl (w : World) : StepX w w := ⟨[], by simp, .plain (by simp)⟩

/-- A step that adds events that are neither transmissions nor hooks and changes nothing the others rely on. -/
theorem StepFx.plain {w w' : World} {es : List Event} (ht : w'.trace = w.trace ++ es) (he : ∀ e ∈ es, isSent e = false ∧ isHook e = false)
    (hw : w'.ctx.hasWritev = w.ctx.hasWritev) (hr : w'.ctx.retransmits = w.ctx.retransmits) (hb : w'.ctx.bufSize = w.ctx.bufSize)
    (hi : w.ctx.index ≤ w.ctx.bufSize → w'.ctx.index ≤ w'.ctx.bufSize) (hs : w'.ctx.connectStatus = w.ctx.connectStatus)
    (htab : w'.ctx.tables = w.ctx.tables) : StepFx sess w es w' := by
  have hns : noSent es := fun e h => (he e h).1
  refine ⟨ht, hw, hr, hb, ?_, .plain he, fun _ => ⟨?_, fun _ => ⟨hns, hs⟩, ?_⟩⟩
  · rintro oc ic ⟨h1, h2⟩
    exact ⟨hi h1, by rw [htab]; exact h2⟩
  · clear ht he
    induction es with
    | nil => trivial
    | cons e es ih =>
      have h1 := hns e List.mem_cons_self
      have h2 := ih (fun x hx => hns x (List.mem_cons_of_mem _ hx))
      cases e <;> simp_all [quietAfterSendFail, isSendFail, isSent]
  · intro h
    obtain ⟨e, h1, h2⟩ := List.any_eq_true.mp h
    have := hns e h1
    cases e <;> simp_all [isSendFail, isSent]

theorem StepFx.same {w w' : World} {es : List Event} (ht : w'.trace = w.trace ++ es) (he : ∀ e ∈ es, isSent e = false ∧ isHook e = false)
    (hc : w'.ctx = w.ctx) : StepFx sess w es w' :=
  StepFx.plain ht he (by rw [hc]) (by rw [hc]) (by rw [hc]) (by rw [hc]; exact fun h => h) (by rw [hc]) (by rw [hc])

/-- A step that does not change the context. -/
theorem Ok.same {m : M α} {Q : α → Nat → List UInt8 → Prop}
    (h : ∀ w : World, At oc ic i buf w.ctx → wp m (fun a w' => ∃ es, w'.trace = w.trace ++ es ∧ (∀ e ∈ es, isSent e = false ∧ isHook e = false) ∧
      w'.ctx = w.ctx ∧ Q a i buf) (fun w' => w' = w) (fun _ => False) w) :
    Ok sess oc ic i buf (act m) Q := by
  refine Ok.step fun w hw => wp_mono (h w hw) ?_ ?_ (fun _ h => h)
  · rintro a w' ⟨es, h1, h2, h3, h4⟩
    exact ⟨⟨es, StepFx.same h1 h2 h3⟩, i, buf, by rw [h3]; exact hw, h4⟩
  · rintro w' rfl
    exact StepX.refl _

theorem Ok.getCtx {f : Ctx → Prog β} {Q : β → Nat → List UInt8 → Prop} (h : ∀ c, At oc ic i buf c → Ok sess oc ic i buf (f c) Q) :
    Ok sess oc ic i buf (act getCtx >>= f) Q := by
  refine Ok.bind (P := fun c i' buf' => At oc ic i buf c ∧ i' = i ∧ buf' = buf) ?_ ?_
  · refine Ok.same fun w hw => ?_
    rw [wp_getCtx]
    exact ⟨[], by simp, by simp, rfl, hw, rfl, rfl⟩
  · rintro c _ _ ⟨hc, rfl, rfl⟩
    exact h c hc

theorem Ok.getTime {f : UInt32 → Prog β} {Q : β → Nat → List UInt8 → Prop} (h : ∀ t, Ok sess oc ic i buf (f t) Q) :
    Ok sess oc ic i buf (act getTime >>= f) Q := by
  refine Ok.bind (P := fun c i' buf' => i' = i ∧ buf' = buf) ?_ ?_
  · refine Ok.same fun _ _ => ?_
    exact wp_getTime rfl fun t _ _ => ⟨[.time t], rfl, by simp [isSent, isHook], rfl, rfl, rfl⟩
  · rintro t _ _ ⟨rfl, rfl⟩
    exact h t

theorem Ok.fuel {m : M Nat} (hm : ∀ w, ∃ n, m w = .done n w) {f : Nat → Prog β} {Q : β → Nat → List UInt8 → Prop}
    (h : ∀ n, Ok sess oc ic i buf (f n) Q) : Ok sess oc ic i buf (act m >>= f) Q := by
  refine Ok.bind (P := fun c i' buf' => i' = i ∧ buf' = buf) ?_ ?_
  · refine Ok.same fun w hw => ?_
    obtain ⟨n, hn⟩ := hm w
    unfold wp
    rw [hn]
    exact ⟨[], by simp, by simp, rfl, rfl, rfl⟩
  · rintro t _ _ ⟨rfl, rfl⟩
    exact h t

theorem Ok.lift {r : Res α} {a : α} (hr : r = .ok a) {f : α → Prog β} {Q : β → Nat → List UInt8 → Prop} (h : Ok sess oc ic i buf (f a) Q) :
    Ok sess oc ic i buf (act (liftRes r) >>= f) Q := by
  refine Ok.bind (P := fun c i' buf' => c = a ∧ i' = i ∧ buf' = buf) ?_ ?_
  · refine Ok.same fun w hw => ?_
    rw [wp_liftRes_ok hr]
    exact ⟨[], by simp, by simp, rfl, rfl, rfl, rfl⟩
  · rintro t _ _ ⟨rfl, rfl, rfl⟩
    exact h

theorem Ok.stuck {Q : α → Nat → List UInt8 → Prop} : Ok sess oc ic i buf (act stuckM) Q :=
  Ok.same fun _ _ => rfl

theorem Ok.emit {e : Event} (he : isSent e = false ∧ isHook e = false) {Q : Unit → Nat → List UInt8 → Prop} (h : Q () i buf) :
    Ok sess oc ic i buf (act (emit e)) Q :=
  Ok.same fun w _ => ⟨[e], rfl, by simp [he], rfl, h⟩

/-- A write that leaves alone what the invariant and the others need. -/
theorem Ok.modify {f : Ctx → Ctx} {Q : Unit → Nat → List UInt8 → Prop} (hi : ∀ c, (f c).index = c.index) (hb : ∀ c, (f c).netBuf = c.netBuf)
    (ht : ∀ c, (f c).tables = c.tables) (hs : ∀ c, (f c).connectStatus = c.connectStatus) (hw : ∀ c, (f c).hasWritev = c.hasWritev)
    (hr : ∀ c, (f c).retransmits = c.retransmits) (h : Q () i buf) : Ok sess oc ic i buf (act (modifyCtx f)) Q := by
  refine Ok.step fun w hw' => ?_
  rw [wp_modifyCtx]
  have hbs : (f w.ctx).bufSize = w.ctx.bufSize := by unfold Ctx.bufSize; rw [hb]
  have g1 : StepFx sess w [] { w with ctx := f w.ctx } :=
    StepFx.plain (by simp) (by simp) (hw _) (hr _) hbs (by rw [hbs]; show _ → (f w.ctx).index ≤ _; rw [hi]; exact fun h => h) (hs _) (ht _)
  exact ⟨⟨[], g1⟩, i, buf, ⟨g1.inv _ _ hw'.inv, (hi _).trans hw'.index, (hb _).trans hw'.netBuf⟩, h⟩

theorem wp_locked {m : M α} {Q : α → World → Prop} {E U : World → Prop} {w : World} :
    wp (locked m) Q E U w ↔ wp m (fun a w' => Q a (w'.add .post)) E U (w.add .pre) := by
  unfold locked
  rw [wp_bind, wp_preHook, wp_bind]
  exact Iff.rfl

theorem quietAfterSendFail_of_noSent {es : List Event} (h : noSent es) : quietAfterSendFail es := by
  induction es with
  | nil => trivial
  | cons e es ih =>
    have h1 := h e List.mem_cons_self
    have h2 := ih (fun x hx => h x (List.mem_cons_of_mem _ hx))
    cases e <;> simp_all [quietAfterSendFail, isSendFail, isSent]

theorem quietAfterSendFail_of {es : List Event} (h : quietAfterFail es) : quietAfterSendFail es := by
  induction es with
  | nil => trivial
  | cons e es ih =>
    unfold quietAfterFail at h
    unfold quietAfterSendFail
    by_cases hf : isFail e = true
    · rw [if_pos hf] at h
      split
      · exact h
      · exact quietAfterSendFail_of_noSent h
    · rw [if_neg hf] at h
      have : ¬ isSendFail e = true := by
        cases e with
        | sent a r => cases r <;> simp_all [isSendFail, isFail]
        | _ => simp_all [isSendFail]
      rw [if_neg this]
      exact ih h

theorem hasFail_of_sendFail {es : List Event} (h : es.any isSendFail = true) : hasFail es = true := by
  obtain ⟨e, h1, h2⟩ := List.any_eq_true.mp h
  refine List.any_eq_true.mpr ⟨e, h1, ?_⟩
  cases e with
  | sent a r => cases r <;> simp_all [isSendFail, isFail]
  | _ => simp_all [isSendFail]

/-- A critical section that behaves as described by `Fx`. -/
theorem StepFx.section {w w1 : World} {body : List Event} {pkt : List UInt8} (f : Fx true (w.add .pre) body true w1) (hp : Sendable w.trace pkt)
    (hw : wire body <+: pkt) (hh : ∀ e ∈ body, isHook e = false) : StepFx sess w (.pre :: (body ++ [.post])) (w1.add .post) := by
  have f1 : Fx false w [.pre] true (w.add .pre) := Fx.pre rfl rfl rfl
  have f2 : Fx true w1 [.post] false (w1.add .post) := Fx.post rfl rfl rfl
  have f' : Fx false w (.pre :: (body ++ [.post])) false (w1.add .post) := f1.trans (f.trans f2)
  refine ⟨f'.trace, f'.writev, f'.retransmits, f'.bufSize, f'.inv, .section hp hw ?_, fun _ => ⟨quietAfterSendFail_of f'.quiet, ?_, ?_⟩⟩
  · rintro ⟨e, h1, h2⟩
    rw [hh e h1] at h2
    cases h2
  · intro hc
    refine ⟨f'.idle hc, ?_⟩
    rw [f'.status]
    unfold afterFail
    simp [hc]
  · intro hs
    rw [f'.status, hasFail_of_sendFail hs]
    unfold afterFail
    cases w.ctx.connectStatus <;> simp

theorem StepX.section {w w1 : World} {body : List Event} {pkt : List UInt8} (f : w1.trace = (w.add .pre).trace ++ body) (hp : Sendable w.trace pkt)
    (hw : wire body <+: pkt) (hh : ∀ e ∈ body, isHook e = false) : StepX w w1 := by
  refine ⟨.pre :: body, ?_, .section hp hw ?_⟩
  · rw [f]; simp [World.add]
  · rintro ⟨e, h1, h2⟩
    rw [hh e h1] at h2
    cases h2

/-- A section known by a `Tr` lemma that leaves index and buffer alone. -/
theorem Ok.tr {m : M α} {V : Prop} {pkt : List UInt8} {R : World → α → List Event → Bool → World → Prop} {X : World → List Event → Prop}
    {Q : α → Nat → List UInt8 → Prop} (hp : OnePacket pkt)
    (h : ∀ w : World, At oc ic i buf w.ctx → Tr V true m (R w) (X w) w) (hv : V)
    (hR : ∀ w a es h' w', At oc ic i buf w.ctx → R w a es h' w' → h' = true ∧ wire es <+: pkt ∧ (∀ e ∈ es, isHook e = false) ∧
      w'.ctx.index = w.ctx.index ∧ w'.ctx.netBuf = w.ctx.netBuf ∧ Q a i buf)
    (hX : ∀ w es, X w es → wire es <+: pkt ∧ (∀ e ∈ es, isHook e = false)) : Ok sess oc ic i buf (sect m) Q := by
  refine Ok.step fun w hw => ?_
  rw [wp_locked]
  refine wp_mono (h (w.add .pre) hw) ?_ ?_ ?_
  · rintro a w' ⟨es, h', f, r⟩
    obtain ⟨rfl, h2, h3, h4, h5, h6⟩ := hR (w.add .pre) _ _ _ _ hw r
    have f' := StepFx.section (sess := sess) f (.inl hp) h2 h3
    exact ⟨⟨_, f'⟩, i, buf, ⟨f'.inv _ _ hw.inv, h4.trans hw.index, h5.trans hw.netBuf⟩, h6⟩
  · rintro w' ⟨es, h', f, x⟩
    obtain ⟨h2, h3⟩ := hX _ _ x
    exact StepX.section f.trace (.inl hp) h2 h3
  · rintro w' ⟨_, hn⟩
    exact hn ⟨hv, oc, ic, hw.inv⟩

/-- A packet, for sections that send nothing. -/
theorem onePacket_ping : OnePacket pingreqPacket := ⟨0xC0, [], by decide +kernel, by simp⟩

/-- A section that sends nothing. -/
theorem Ok.silent {m : M α} {Q : α → Nat → List UInt8 → Prop}
    (h : ∀ w : World, At oc ic i buf w.ctx → ∃ a w', m w = .done a w' ∧ Fx true w [] true w' ∧ w'.ctx.index = w.ctx.index ∧
      w'.ctx.netBuf = w.ctx.netBuf ∧ Q a i buf) : Ok sess oc ic i buf (sect m) Q := by
  refine Ok.tr (V := True) (R := fun w a es h' w' => h' = true ∧ es = [] ∧ w'.ctx.index = w.ctx.index ∧ w'.ctx.netBuf = w.ctx.netBuf ∧ Q a i buf)
    (X := fun _ _ => False) onePacket_ping ?_ trivial ?_ (fun _ _ h => h.elim)
  · intro w hw
    obtain ⟨a, w', h1, h2, h3⟩ := h w hw
    unfold Tr wp
    rw [h1]
    exact ⟨[], true, h2, rfl, rfl, h3⟩
  · rintro w a es h' w' _ ⟨h1, h2, h3⟩
    subst h2
    exact ⟨h1, List.nil_prefix, by simp, h3⟩

end

end Mqtt
