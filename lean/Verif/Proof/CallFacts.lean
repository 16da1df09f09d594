/-
Consequences of `Did` and `Halted` that hold for all public functions alike, and the invariant of histories.
-/
import Verif.Proof.Calls

namespace Mqtt
open Spec
set_option linter.unusedSimpArgs false

/-! ### Outcomes of a call -/

theorem wp_done {α : Type} {m : M α} {Q : α → World → Prop} {E U : World → Prop} {w w' : World} {a : α} (h : wp m Q E U w)
    (he : m w = .done a w') : Q a w' := by
  unfold wp at h; rw [he] at h; exact h

theorem wp_stuck {α : Type} {m : M α} {Q : α → World → Prop} {E U : World → Prop} {w w' : World} (h : wp m Q E U w)
    (he : m w = .stuck w') : E w' := by
  unfold wp at h; rw [he] at h; exact h

theorem wp_ub {α : Type} {m : M α} {Q : α → World → Prop} {E U : World → Prop} {w w' : World} {e : UB} (h : wp m Q E U w)
    (he : m w = .ub e w') : U w' := by
  unfold wp at h; rw [he] at h; exact h

theorem newEvents_done {α : Type} {m : M α} {w w' : World} {a : α} {es : List Event} (he : m w = .done a w') (ht : w'.trace = w.trace ++ es) :
    newEvents w (m w) = es := by
  unfold newEvents; rw [he]; simp [Out.world, ht]

theorem newEvents_stuck {α : Type} {m : M α} {w w' : World} {es : List Event} (he : m w = .stuck w') (ht : w'.trace = w.trace ++ es) :
    newEvents w (m w) = es := by
  unfold newEvents; rw [he]; simp [Out.world, ht]

/-! ### The parts of the context no call changes, and the invariant -/

structure Keeps (w w' : World) : Prop where
  writev : w'.ctx.hasWritev = w.ctx.hasWritev
  retransmits : w'.ctx.retransmits = w.ctx.retransmits
  bufSize : w'.ctx.bufSize = w.ctx.bufSize
  inv : ∀ oc ic, Inv oc ic w.ctx → Inv oc ic w'.ctx

theorem Fx.keeps {h h' : Bool} {w w' : World} {es : List Event} (f : Fx h w es h' w') : Keeps w w' := ⟨f.writev, f.retransmits, f.bufSize, f.inv⟩

/-- Only parts of the context changed that the invariant does not mention. -/
theorem Keeps.of {w w' : World} (h1 : w'.ctx.hasWritev = w.ctx.hasWritev) (h2 : w'.ctx.retransmits = w.ctx.retransmits)
    (h3 : w'.ctx.bufSize = w.ctx.bufSize) (h4 : w.ctx.index ≤ w.ctx.bufSize → w'.ctx.index ≤ w'.ctx.bufSize) (h5 : w'.ctx.tables = w.ctx.tables) : Keeps w w' :=
  ⟨h1, h2, h3, fun oc ic ⟨i1, i2⟩ => ⟨h4 i1, by rw [h5]; exact i2⟩⟩

theorem Keeps.refl (w : World) : Keeps w w := Keeps.of rfl rfl rfl (fun h => h) rfl

theorem Keeps.trans {w w1 w2 : World} (h : Keeps w w1) (h' : Keeps w1 w2) : Keeps w w2 :=
  ⟨h'.writev.trans h.writev, h'.retransmits.trans h.retransmits, h'.bufSize.trans h.bufSize, fun oc ic i => h'.inv oc ic (h.inv oc ic i)⟩

theorem Keeps.ctx {w w' : World} (h : w'.ctx = w.ctx) : Keeps w w' :=
  Keeps.of (by rw [h]) (by rw [h]) (by rw [h]) (by rw [h]; exact fun h => h) (by rw [h])

theorem ConnackDone.keeps {g : Cfg} {t : UInt32} {cl sp0 sp : Bool} {w w' : World} {st : Status} {es : List Event}
    (h : ConnackDone g t cl sp0 w st sp es w') : Keeps w w' := by
  obtain ⟨b, hb, hc⟩ := h.ctx
  refine Keeps.of (by rw [hc]) (by rw [hc]) (by rw [hc]; exact hb) ?_ (by rw [hc])
  intro hi
  rw [hc]
  show w.ctx.index ≤ b.length
  rw [hb]; exact hi

theorem represents_empty {t : Tables} {s : InFlight} (h : Represents t s) :
    Represents (freshTables t.outgoing.length t.incoming.length) ⟨s.outCap, s.inCap, [], []⟩ := by
  have := represents_fresh t.outgoing.length t.incoming.length
  rw [h.1.size, h.2.size] at this
  rw [h.1.size, h.2.size]
  exact this

theorem ConnectDone.keeps {g : Cfg} {ci : ConnectInfo} {will : Option PublishInfo} {t : UInt32} {sp0 sp : Bool} {s : InFlight} {w w' : World}
    {st : Status} {es : List Event} (h : ConnectDone g ci will t sp0 s w st sp es w') : Keeps w w' := by
  have tx : ∀ {w1 : World} {u : UInt32}, w1.ctx = { w.ctx with lastPacketTxTime := u } → Keeps w w1 := by
    intro w1 u h
    exact Keeps.of (by rw [h]) (by rw [h]) (by rw [h]; rfl) (by rw [h]; exact fun h => h) (by rw [h])
  cases h with
  | badSize h1 h2 h3 => exact Keeps.of (by rw [h3]) (by rw [h3]) (by rw [h3]; rfl) (by rw [h3]; exact fun h => h) (by rw [h3])
  | already h1 h2 h3 h4 => exact Keeps.ctx h3
  | noTopic h1 h2 h3 h4 => exact Keeps.ctx h4
  | notSent h1 h2 h3 h4 h5 h6 h7 => exact tx h7
  | notAccepted h1 h2 h3 h4 h5 h6 h7 h8 h9 h10 => exact ((tx h7).trans h8.keeps).trans (Keeps.ctx h10)
  | fresh h1 h2 h3 h4 h5 h6 h7 h8 h9 =>
    refine ((tx h7).trans h8.keeps).trans ⟨by rw [h9]; rfl, by rw [h9]; rfl, ?_, ?_⟩
    · rw [h9]; simp [connectedCtx, cleanedCtx, Ctx.bufSize]
    · rintro oc ic ⟨i1, s', i2, i3, i4⟩
      rw [h9]
      exact ⟨Nat.zero_le _, _, represents_empty i2, i3, i4⟩
  | resumed h1 h2 h3 h4 h5 h6 h7 h8 h9 h10 h11 h12 =>
    refine ((((tx h7).trans h8.keeps).trans ?_).trans h10.keeps).trans ?_
    · exact Keeps.of (by rw [h9]; rfl) (by rw [h9]; rfl) (by rw [h9]; rfl) (by rw [h9]; exact fun h => h) (by rw [h9]; rfl)
    · exact Keeps.of (by rw [h12]) (by rw [h12]) (by rw [h12]; rfl) (by rw [h12]; exact fun h => h) (by rw [h12])

theorem DisconnectDone.keeps {w w' : World} {st : Status} {es : List Event} (h : DisconnectDone w st es w') : Keeps w w' := by
  rcases h.cases with ⟨_, _, _, h⟩ | ⟨_, _, _, _, _, _, t, h⟩
  · exact Keeps.ctx h
  · refine Keeps.of (by rw [h]; rfl) (by rw [h]; rfl) ?_ (by rw [h]; exact fun _ => Nat.zero_le _) (by rw [h]; rfl)
    rw [h]; simp [disconnectedCtx, Ctx.bufSize]

theorem step_cancel_caps (s : InFlight) (id : UInt16) :
    (step s (.cancel id)).2.outCap = s.outCap ∧ (step s (.cancel id)).2.inCap = s.inCap ∧ (step s (.cancel id)).2.inc = s.inc := by
  simp only [step]
  cases s.out.phase id <;> exact ⟨rfl, rfl, rfl⟩

theorem Did.keeps {g : Cfg} {s : InFlight} {w w' : World} {c : ApiCall} {r : ApiRet} {es : List Event} (hrep : Represents w.ctx.tables s)
    (h : Did g s w c r es w') : Keeps w w' := by
  cases h with
  | publish f _ => exact f.keeps
  | publishNull => exact Keeps.refl w
  | subscribe f _ => exact f.keeps
  | subscribeNull => exact Keeps.refl w
  | unsubscribe f _ => exact f.keeps
  | unsubscribeNull => exact Keeps.refl w
  | ping f _ => exact f.keeps
  | disconnect h => exact h.keeps
  | processLoop f _ => exact f.keeps
  | receiveLoop f _ => exact f.keeps
  | cancel h0 h =>
    cases h with
    | none => exact Keeps.refl w
    | some h1 h2 h3 =>
      refine ⟨by rw [h2], by rw [h2], by rw [h2]; rfl, ?_⟩
      rintro oc ic ⟨i1, s', i2, i3, i4⟩
      rw [represents_unique i2 hrep] at i3 i4
      rw [h2]
      exact ⟨i1, _, h3, (step_cancel_caps s _).1.trans i3, (step_cancel_caps s _).2.1.trans i4⟩
  | check h => exact Keeps.ctx h
  | getId h => exact Keeps.of (by rw [h]) (by rw [h]) (by rw [h]; rfl) (by rw [h]; exact fun h => h) (by rw [h])
  | connect h => exact h.keeps
  | connectNull _ h => exact Keeps.of (by rw [h]) (by rw [h]) (by rw [h]; rfl) (by rw [h]; exact fun h => h) (by rw [h])

/-! ### Histories -/

/-- A call of a public function in a good world: the outcome. -/
theorem callIn_wp {g : Cfg} (hg : CfgOk g) {s : InFlight} {w : World} {c : ApiCall} (e : Env) (hv : ValidCall g c)
    (hidx : w.ctx.index ≤ w.ctx.bufSize) (hrep : Represents w.ctx.tables s) : CallWp g s { w with env := e } c :=
  apiCall_wp g hg s { w with env := e } c hv hidx hrep

theorem callIn_done {g : Cfg} (hg : CfgOk g) {s : InFlight} {w w' : World} {c : ApiCall} {e : Env} {r : ApiRet} (hv : ValidCall g c)
    (hidx : w.ctx.index ≤ w.ctx.bufSize) (hrep : Represents w.ctx.tables s) (h : callIn g w e c = .done r w') :
    ∃ es, Linked { w with env := e } es w' ∧ Did g s { w with env := e } c r es w' :=
  wp_done (callIn_wp hg e hv hidx hrep) h

theorem Inv.call {g : Cfg} (hg : CfgOk g) {w w' : World} {c : ApiCall} {e : Env} {r : ApiRet} {oc ic : Nat} (hi : Inv oc ic w.ctx)
    (hv : ValidCall g c) (h : callIn g w e c = .done r w') : Inv oc ic w'.ctx := by
  obtain ⟨i1, s, i2, i3, i4⟩ := hi
  obtain ⟨es, hl, hd⟩ := callIn_done hg hv i1 i2 h
  exact (Did.keeps (w := { w with env := e }) i2 hd).inv oc ic ⟨i1, s, i2, i3, i4⟩

theorem Hist.inv {g : Cfg} (hg : CfgOk g) {w w' : World} {h : List (ApiCall × ApiRet)} {oc ic : Nat} (hi : Inv oc ic w.ctx) (hh : Hist g w h w') :
    Inv oc ic w'.ctx := by
  induction hh with
  | start => exact hi
  | call _ hv hc ih => exact Inv.call hg ih hv hc

theorem all_empty {recs : Records} {n : Nat} (h1 : n ≤ recs.length) (h2 : ∀ r ∈ recs, r = Rec.empty) :
    recs.take n = List.replicate n Rec.empty := by
  rw [List.eq_replicate_iff]
  exact ⟨by simp; omega, fun r hr => h2 r (List.mem_of_mem_take hr)⟩

theorem Initialised.inv {c : Ctx} (h : Initialised c) :
    ∃ oc ic, c.index = 0 ∧ c.connectStatus = .notConnected ∧ c.tables = freshTables oc ic := by
  induction h with
  | init h =>
    unfold mqttInit at h
    repeat' split at h
    all_goals first
      | (cases h; done)
      | (cases h; exact ⟨0, 0, rfl, rfl, rfl⟩)
  | @stateful c c' out inc outCount incCount _ h1 h2 h3 ih =>
    obtain ⟨oc, ic, i1, i2, _⟩ := ih
    unfold mqttInitStatefulQoS at h3
    split at h3
    · cases h3
    split at h3
    · cases h3
    cases h3
    refine ⟨outCount, incCount, i1, i2, ?_⟩
    show (⟨_, _⟩ : Tables) = ⟨_, _⟩
    rename_i n1 n2
    have e : ∀ {x : Option Records} {n : Nat}, ¬ (decide (n = 0) ≠ x.isNone) → (∀ recs, x = some recs → n ≤ recs.length ∧ ∀ r ∈ recs, r = Rec.empty) →
        (x.getD []).take n = List.replicate n Rec.empty := by
      intro x n hn hx
      cases x with
      | none =>
        have : n = 0 := by simpa using hn
        simp [this]
      | some recs => exact all_empty (hx recs rfl).1 (hx recs rfl).2
    rw [e n1 h1, e n2 h2]
  | @retransmits c c' s r k _ h1 ih =>
    obtain ⟨oc, ic, i1, i2, i3⟩ := ih
    unfold mqttInitRetransmits at h1
    split at h1
    · cases h1
    cases h1
    exact ⟨oc, ic, i1, i2, i3⟩

/-- The invariant in every history from an initialised context. -/
theorem FromInit.inv {g : Cfg} {h : List (ApiCall × ApiRet)} {w : World} (hh : FromInit g h w) : ∃ oc ic, Inv oc ic w.ctx := by
  obtain ⟨w0, h0, _, hr⟩ := hh.run
  obtain ⟨oc, ic, i1, _, i3⟩ := h0.inv
  refine ⟨oc, ic, hr.inv hh.cfg ⟨by rw [i1]; exact Nat.zero_le _, ⟨oc, ic, [], []⟩, ?_, rfl, rfl⟩⟩
  rw [i3]; exact represents_fresh oc ic

end Mqtt
