/-
Threads that share one context: what every interleaving of their steps keeps.
-/
import Verif.Proof.ThreadShared

namespace Mqtt
open Spec
set_option linter.unusedSimpArgs false

section
variable {α β : Type} {sess : Bool} {oc ic i : Nat} {buf : List UInt8}

theorem StepFx.weaken {w w' : World} {es : List Event} (h : StepFx false w es w') : StepFx sess w es w' :=
  ⟨h.trace, h.writev, h.retransmits, h.bufSize, h.inv, h.chunk, fun _ => h.flow rfl⟩

theorem Ga.rm {w w' : World} (h : Ga w w') : Rm w w' := by
  obtain ⟨⟨es, f⟩, h1, h2⟩ := h
  exact ⟨f.inv, h1, h2, f.writev, f.retransmits, by rw [f.trace]; exact List.prefix_append _ _⟩

theorem Gm.ra {w w' : World} (h : Gm sess w w') : Ra w w' := by
  obtain ⟨es, f⟩ := h
  exact ⟨f.inv, f.bufSize, f.writev, f.retransmits⟩

theorem Ga.refl (w : World) : Ga w w := ⟨⟨[], StepFx.same (by simp) (by simp) rfl⟩, rfl, rfl⟩

/-- A function any thread may call, in a thread that does not receive. -/
theorem Lin.safe {q : Prog α} (h : Lin oc ic q) : ∀ w : World, Inv oc ic w.ctx → Safe Ra Ga StepX q (fun _ w' => Inv oc ic w'.ctx) w := by
  induction h with
  | ret a => exact fun w hw w' hr => hr.inv _ _ hw
  | @last β m k f hk hs =>
    intro w0 hw0 w hr
    have hw := hr.inv _ _ hw0
    refine wp_mono (hs w hw) ?_ (fun _ h => h) (fun _ h => h)
    intro b w' hg
    refine ⟨hg, ?_⟩
    rw [hk b]
    obtain ⟨⟨es, fx⟩, _⟩ := hg
    exact fun w2 hr2 => hr2.inv _ _ (fx.inv _ _ hw)
  | @silent β m k p hm _ ih =>
    intro w0 hw0 w hr
    have hw := hr.inv _ _ hw0
    obtain ⟨b, h1, h2⟩ := hm w hw
    unfold wp
    rw [h1]
    refine ⟨Ga.refl w, ?_⟩
    rw [h2]
    exact ih w hw

/-- The same in the thread that receives. -/
theorem Lin.ok {q : Prog α} (h : Lin oc ic q) : Ok sess oc ic i buf q (Same i buf) := by
  intro w hw
  induction h generalizing w with
  | ret a => exact fun w' hr => ⟨i, buf, hw.stable hr, rfl, rfl⟩
  | @last β m k f hk hs =>
    intro w1 hr
    have hw1 := hw.stable hr
    refine wp_mono (hs w1 hw1.inv) ?_ (fun _ h => h) (fun _ h => h)
    rintro b w' ⟨⟨es, fx⟩, h1, h2⟩
    refine ⟨⟨es, fx.weaken⟩, ?_⟩
    rw [hk b]
    exact fun w2 hr2 => ⟨i, buf, At.stable (c := w') ⟨fx.inv _ _ hw1.inv, h1.trans hw1.index, h2.trans hw1.netBuf⟩ hr2, rfl, rfl⟩
  | @silent β m k p hm _ ih =>
    intro w1 hr
    have hw1 := hw.stable hr
    obtain ⟨b, h1, h2⟩ := hm w1 hw1.inv
    unfold wp
    rw [h1]
    refine ⟨⟨[], StepFx.same (by simp) (by simp) rfl⟩, ?_⟩
    rw [h2]
    exact ih w1 hw1

/-- Every public function in the thread that receives. -/
theorem callP_ok (g : Cfg) (hg : CfgOk g) (c : ApiCall) (hv : ValidCall g c) (hs : sess = true ∨ plainCall c = true) :
    Ok sess oc ic i buf (callP g c) (fun _ _ _ => True) := by
  intro w hw
  have hW : maxRemaining < g.W := Nat.lt_of_lt_of_le (by decide) hg.size
  have hi : i ≤ buf.length := by
    have := hw.inv.1
    rw [hw.index] at this
    unfold Ctx.bufSize at this
    rwa [hw.netBuf] at this
  refine (?_ : Ok sess oc ic i buf (callP g c) (fun _ _ _ => True)) w hw
  by_cases hc : sharedCall c = true
  · exact (callP_lin g hg c hc hv hw.inv).ok.mono fun _ _ _ _ => trivial
  cases c with
  | connect ci will t sp =>
    rcases hs with rfl | h
    · exact Ok.bind (connect_ok g ci will t sp hv hi) fun _ _ _ _ => Ok.pure trivial
    · cases h
  | disconnect =>
    rcases hs with rfl | h
    · exact Ok.bind (disconnect_ok g hi) fun _ _ _ _ => Ok.pure trivial
    · cases h
  | processLoop => exact Ok.bind (processLoop_ok g hW hi) fun _ _ _ _ => Ok.pure trivial
  | receiveLoop => exact Ok.bind (receiveSingleIteration_ok g false hW hi) fun _ _ _ _ => Ok.pure trivial
  | _ => exact absurd rfl hc

/-- A thread that receives. -/
theorem Client.ok (g : Cfg) (hg : CfgOk g) {cl : Client} (h : cl.Uses fun c => ValidCall g c ∧ (sess = true ∨ plainCall c = true)) (i : Nat)
    (buf : List UInt8) : Ok sess oc ic i buf (cl.prog g) (fun _ _ _ => True) := by
  induction h generalizing i buf with
  | stop => exact Ok.pure trivial
  | call hc _ ih => exact Ok.bind (callP_ok g hg _ hc.1 hc.2) fun r i' buf' _ => ih r i' buf'

/-- A thread that does not receive. -/
theorem Client.safe (g : Cfg) (hg : CfgOk g) {cl : Client} (h : cl.Uses fun c => ValidCall g c ∧ sharedCall c = true) (w : World)
    (hw : Inv oc ic w.ctx) : Safe Ra Ga StepX (cl.prog g) (fun _ _ => True) w := by
  induction h generalizing w with
  | stop => exact fun _ _ => trivial
  | call hc _ ih =>
    refine Safe.bind Ra.refl (Safe.mono ((callP_lin g hg _ hc.2 hc.1 hw).safe w hw) ?_)
    exact fun r w' hw' => ih r w' hw'

/-- What holds of every reachable state of the threads; the first one receives. -/
structure PoolOk (sess : Bool) (oc ic : Nat) (p : Pool) : Prop where
  inv : Inv oc ic p.world.ctx
  first : ∀ q, p.threads[0]? = some q → Safe Rm (Gm sess) StepX q (fun _ _ => True) p.world
  others : ∀ j q, p.threads[j + 1]? = some q → Safe Ra Ga StepX q (fun _ _ => True) p.world

/-- A step of any thread. -/
theorem PoolOk.step {p p' : Pool} {j : Nat} (h : PoolOk sess oc ic p) (hs : Pool.Step j p p') :
    PoolOk sess oc ic p' ∧ ∃ es, StepFx sess p.world es p'.world := by
  obtain ⟨hth, hm⟩ := hs
  rename_i β m k b w'
  have hlt : j < p.threads.length := (List.getElem?_eq_some_iff.mp hth).1
  cases j with
  | zero =>
    have hs := wp_done (h.first _ hth p.world (Rm.refl _)) hm
    obtain ⟨es, fx⟩ := hs.1
    refine ⟨⟨fx.inv _ _ h.inv, ?_, ?_⟩, es, fx⟩
    · intro q hq
      rw [List.getElem?_set_self hlt] at hq
      cases hq
      exact hs.2
    · intro j q hq
      rw [List.getElem?_set_ne (by omega)] at hq
      exact Safe.stable (R := Ra) (c := p.world) (c' := w') (fun _ _ _ h h' => Ra.trans h h') (h.others j q hq) (Gm.ra hs.1)
  | succ j =>
    have hs := wp_done (h.others j _ hth p.world (Ra.refl _)) hm
    obtain ⟨es, fx⟩ := hs.1.1
    refine ⟨⟨fx.inv _ _ h.inv, ?_, ?_⟩, es, fx.weaken⟩
    · intro q hq
      rw [List.getElem?_set_ne (by omega)] at hq
      exact Safe.stable (R := Rm) (c := p.world) (c' := w') (fun _ _ _ h h' => Rm.trans h h') (h.first q hq) hs.1.rm
    · intro l q hq
      by_cases hl : l = j
      · subst hl
        rw [List.getElem?_set_self hlt] at hq
        cases hq
        exact hs.2
      · rw [List.getElem?_set_ne (by omega)] at hq
        exact Safe.stable (R := Ra) (c := p.world) (c' := w') (fun _ _ _ h h' => Ra.trans h h') (h.others l q hq) (Gm.ra (sess := false) ⟨es, fx⟩)

/-- The next step of any thread has no undefined behaviour. -/
theorem PoolOk.next {p : Pool} (h : PoolOk sess oc ic p) {j : Nat} {m : M β} {k : β → Prog Unit} (hth : p.threads[j]? = some (.step m k)) :
    wp m (fun _ w' => ∃ es, StepFx sess p.world es w') (StepX p.world) (fun _ => False) p.world := by
  cases j with
  | zero => exact wp_mono (h.first _ hth p.world (Rm.refl _)) (fun _ _ h => h.1) (fun _ h => h) (fun _ h => h)
  | succ j =>
    refine wp_mono (h.others j _ hth p.world (Ra.refl _)) ?_ (fun _ h => h) (fun _ h => h)
    rintro b w' ⟨⟨⟨es, fx⟩, _⟩, _⟩
    exact ⟨es, fx.weaken⟩

theorem startPool_ok {g : Cfg} (hg : CfgOk g) {first : Client} {others : List Client} {w : World} (hw : Inv oc ic w.ctx)
    (hf : first.Uses fun c => ValidCall g c ∧ (sess = true ∨ plainCall c = true))
    (ho : ∀ cl ∈ others, cl.Uses fun c => ValidCall g c ∧ sharedCall c = true) : PoolOk sess oc ic (startPool g first others w) := by
  refine ⟨hw, ?_, ?_⟩
  · intro q hq
    cases hq
    exact Safe.mono (Client.ok g hg hf w.ctx.index w.ctx.netBuf w ⟨hw, rfl, rfl⟩) fun _ _ _ => trivial
  · intro j q hq
    show Safe Ra Ga StepX q (fun _ _ => True) w
    obtain ⟨cl, h1, rfl⟩ : ∃ cl, others[j]? = some cl ∧ cl.prog g = q := by
      have : (others.map (Client.prog g))[j]? = some q := hq
      rw [List.getElem?_map] at this
      cases h : others[j]? with
      | none => rw [h] at this; cases this
      | some cl => rw [h] at this; cases this; exact ⟨cl, rfl, rfl⟩
    exact Client.safe g hg (ho cl (List.mem_of_getElem? h1)) w hw

theorem PoolOk.steps {p p' : Pool} (h : PoolOk sess oc ic p) (hs : Pool.Steps p p') : PoolOk sess oc ic p' := by
  induction hs with
  | refl => exact h
  | step _ hs ih => exact (ih.step hs).1

/-- The events of an execution, cut into steps. -/
theorem PoolOk.chunked {p p' : Pool} (h : PoolOk sess oc ic p) (hs : Pool.Steps p p') :
    ∃ es, p'.world.trace = p.world.trace ++ es ∧ Chunked p.world.trace es := by
  induction hs with
  | refl => exact ⟨[], by simp, .nil⟩
  | step hs1 hs2 ih =>
    obtain ⟨es, h1, h2⟩ := ih
    obtain ⟨_, new, fx⟩ := (h.steps hs1).step hs2
    refine ⟨es ++ new, by rw [fx.trace, h1, List.append_assoc], .snoc h2 ?_⟩
    rw [← h1]
    exact fx.chunk

theorem quietAfterSendFail_append {a b : List Event} (ha : quietAfterSendFail a) (hb : quietAfterSendFail b)
    (h : a.any isSendFail = true → noSent b) : quietAfterSendFail (a ++ b) := by
  induction a with
  | nil => exact hb
  | cons e a ih =>
    unfold quietAfterSendFail at ha
    show quietAfterSendFail (e :: (a ++ b))
    unfold quietAfterSendFail
    by_cases he : isSendFail e = true
    · rw [if_pos he] at ha ⊢
      intro x hx
      rcases List.mem_append.mp hx with hx | hx
      · exact ha x hx
      · exact h (by simp [he]) x hx
    · rw [if_neg he] at ha ⊢
      exact ih ha fun h' => h (by simp [h'])

/-- Without `MQTT_Connect` and `MQTT_Disconnect`, nothing is sent after a failure to send, by whatever thread. -/
theorem PoolOk.quiet {p p' : Pool} (h : PoolOk false oc ic p) (hs : Pool.Steps p p') :
    ∃ es, p'.world.trace = p.world.trace ++ es ∧ quietAfterSendFail es ∧ (es.any isSendFail = true → p'.world.ctx.connectStatus ≠ .connected) ∧
      (p.world.ctx.connectStatus ≠ .connected → noSent es ∧ p'.world.ctx.connectStatus = p.world.ctx.connectStatus) := by
  induction hs with
  | refl => exact ⟨[], by simp, trivial, by simp, fun _ => ⟨noSent_nil, rfl⟩⟩
  | step hs1 hs2 ih =>
    obtain ⟨es, h1, h2, h3, h4⟩ := ih
    obtain ⟨_, new, fx⟩ := (h.steps hs1).step hs2
    obtain ⟨f1, f2, f3⟩ := fx.flow rfl
    refine ⟨es ++ new, by rw [fx.trace, h1, List.append_assoc], quietAfterSendFail_append h2 f1 fun hf => (f2 (h3 hf)).1, ?_, ?_⟩
    · intro hf
      rw [List.any_append, Bool.or_eq_true] at hf
      rcases hf with hf | hf
      · have hn := h3 hf
        rw [(f2 hn).2]
        exact hn
      · exact f3 hf
    · intro hn
      obtain ⟨k1, k2⟩ := h4 hn
      obtain ⟨k3, k4⟩ := f2 (by rw [k2]; exact hn)
      refine ⟨fun x hx => ?_, k4.trans k2⟩
      rcases List.mem_append.mp hx with hx | hx
      · exact k1 x hx
      · exact k3 x hx

/-! ### Calls at once -/

/-- What thread `q` has still to do, compared to the calls of `cl`: it may have begun the next call but not done anything in it. -/
inductive Ahead (g : Cfg) (oc ic : Nat) : Prog Unit → Client → Prop
  | stop : Ahead g oc ic (.ret ()) .stop
  | call {q : Prog ApiRet} {c : ApiCall} {next : ApiRet → Client} : Lin oc ic q → (∀ a, q ≠ .ret a) →
      (∀ w : World, Inv oc ic w.ctx → q.run w = apiCall g c w) → (∀ r, (next r).Uses fun c => ValidCall g c ∧ sharedCall c = true) →
      Ahead g oc ic (q.bind fun r => (next r).prog g) (.call c next)

theorem callP_step (g : Cfg) (c : ApiCall) (hc : sharedCall c = true) : ∀ a, callP g c ≠ .ret a := by
  intro a h
  cases c <;> first | (cases hc; done) | (cases h; done)

theorem Client.ahead {g : Cfg} (hg : CfgOk g) {cl : Client} (h : cl.Uses fun c => ValidCall g c ∧ sharedCall c = true) {c0 : Ctx} (h0 : Inv oc ic c0) :
    Ahead g oc ic (cl.prog g) cl := by
  cases h with
  | stop => exact .stop
  | call hc hn => exact .call (callP_lin g hg _ hc.2 hc.1 h0) (callP_step g _ hc.2) (fun w _ => by rw [callP_run]) hn

/-- A step of a thread that does not receive is a whole call, or nothing. -/
theorem Ahead.step {g : Cfg} (hg : CfgOk g) {m : M β} {k : β → Prog Unit} {cl : Client} {w w' : World} {b : β} (h : Ahead g oc ic (.step m k) cl)
    (hw : Inv oc ic w.ctx) (hm : m w = .done b w') :
    (w' = w ∧ Ahead g oc ic (k b) cl) ∨
    ∃ c next r, cl = .call c next ∧ apiCall g c w = .done r w' ∧ Ahead g oc ic (k b) (next r) := by
  generalize hp : Prog.step m k = p at h
  cases h with
  | stop => cases hp
  | @call q c next hl hne hrun hn =>
    cases hl with
    | ret a => exact absurd rfl (hne a)
    | @last β' m' k' f hk hs =>
      have hp : Prog.step m k = .step m' fun b => (k' b).bind fun r => (next r).prog g := hp
      cases hp
      right
      have := hrun w hw
      refine ⟨c, next, f b, rfl, ?_, ?_⟩
      · rw [← this]
        show M.bind m _ w = _
        simp only [M.bind, hm, hk b]
        rfl
      · show Ahead g oc ic ((k' b).bind _) _
        rw [hk b]
        exact Client.ahead hg (hn _) hw
    | @silent β' m' k' p' hsil hl' =>
      have hp : Prog.step m k = .step m' fun b => (k' b).bind fun r => (next r).prog g := hp
      cases hp
      obtain ⟨b', h1, h2⟩ := hsil w hw
      rw [hm] at h1
      cases h1
      have hr : ∀ w : World, Inv oc ic w.ctx → p'.run w = apiCall g c w := by
        intro w2 hw2
        obtain ⟨b2, h3, h4⟩ := hsil w2 hw2
        rw [← hrun w2 hw2]
        show _ = M.bind m _ w2
        simp only [M.bind, h3, h4]
      cases p' with
      | ret a =>
        right
        refine ⟨c, next, a, rfl, (hr w hw).symm, ?_⟩
        show Ahead g oc ic ((k' b).bind _) _
        rw [h2]
        exact Client.ahead hg (hn _) hw
      | step m2 k2 =>
        left
        refine ⟨rfl, ?_⟩
        show Ahead g oc ic ((k' b).bind _) _
        rw [h2]
        exact .call hl' (fun a h => by cases h) hr hn

/-- Every interleaving of steps is an interleaving of the steps of the first thread with whole calls of the others. -/
theorem PoolOk.coarse {g : Cfg} (hg : CfgOk g) {first : Client} {others : List Client} {w : World} {p : Pool}
    (h : PoolOk sess oc ic (startPool g first others w)) (ho : ∀ cl ∈ others, cl.Uses fun c => ValidCall g c ∧ sharedCall c = true)
    (hs : Pool.Steps (startPool g first others w) p) :
    ∃ q cs, Coarse.Steps g ⟨first.prog g, others, w⟩ ⟨q, cs, p.world⟩ ∧ ∃ ts, p.threads = q :: ts ∧ ts.length = cs.length ∧
      ∀ (j : Nat) t cl, ts[j]? = some t → cs[j]? = some cl → Ahead g oc ic t cl := by
  induction hs with
  | refl =>
    refine ⟨first.prog g, others, .refl, others.map (Client.prog g), rfl, by simp, ?_⟩
    intro j t cl ht hcl
    rw [List.getElem?_map, hcl] at ht
    cases ht
    exact Client.ahead hg (ho cl (List.mem_of_getElem? hcl)) h.inv
  | @step _ _ j hs1 hs2 ih =>
    obtain ⟨q, cs, h1, ts, h2, h3, h4⟩ := ih
    have hok := h.steps hs1
    obtain ⟨hth, hm⟩ := hs2
    rw [h2] at hth ⊢
    cases j with
    | zero =>
      cases hth
      exact ⟨_, cs, .step h1 (.first hm), ts, rfl, h3, h4⟩
    | succ j =>
      have hth : ts[j]? = some _ := hth
      have hlt : j < ts.length := (List.getElem?_eq_some_iff.mp hth).1
      have hcl : cs[j]? = some cs[j] := List.getElem?_eq_getElem (by omega)
      rcases (h4 j _ _ hth hcl).step hg hok.inv hm with ⟨e, ha⟩ | ⟨c, next, r, e1, e2, e3⟩
      · subst e
        refine ⟨q, cs, h1, ts.set j _, rfl, by simpa using h3, ?_⟩
        intro l t cl ht hcl'
        by_cases hl : l = j
        · subst hl
          rw [List.getElem?_set_self hlt] at ht
          rw [hcl] at hcl'
          cases ht
          cases hcl'
          exact ha
        · rw [List.getElem?_set_ne (by omega)] at ht
          exact h4 l t cl ht hcl'
      · rw [e1] at hcl
        refine ⟨q, cs.set j (next r), .step h1 (.call hcl e2), ts.set j _, rfl, by simpa using h3, ?_⟩
        intro l t cl ht hcl'
        by_cases hl : l = j
        · subst hl
          rw [List.getElem?_set_self hlt] at ht
          rw [List.getElem?_set_self (by omega)] at hcl'
          cases ht
          cases hcl'
          exact e3
        · rw [List.getElem?_set_ne (by omega)] at ht hcl'
          exact h4 l t cl ht hcl'

end

end Mqtt
