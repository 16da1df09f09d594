/-
Every call, and every run of client, network, server and application, keeps what holds between the calls.
-/
import Verif.Proof.BrokerSession

namespace Mqtt
open Spec
set_option linter.unusedSimpArgs false

variable {strict : Bool}

section
variable {i : UInt16} {b : Bool} {n0 : Nat} {t0 P : List Publish} {k c : Nat} {w w' : World} {n n' : Net} {shelf : Shelf} {es : List Event}
  {g : Cfg} {s : InFlight} {a : ApiCall} {r : ApiRet} {st : Status}

theorem sent_done {bs : List UInt8} (h : SentResult bs st es) : wire es <+: bs ∧ (wire es ≠ bs → st = .sendFailed) := by
  rcases h with ⟨_, _, h⟩ | ⟨h, h', _⟩
  · rw [h]; exact ⟨List.prefix_refl _, fun h => absurd rfl h⟩
  · exact ⟨h', fun _ => h⟩

theorem callbacks_ack {es : List Event} (h : ∀ e ∈ es, isAckEvent e = true) : callbacks es = [] := by
  unfold callbacks
  rw [List.filter_eq_nil_iff]
  intro e he
  have := h e he
  cases e <;> simp_all [isAckEvent, isCallback]

theorem Ready.sub {ty : SubType} {l : List SubscribeInfo} {id : UInt16} (h : Ready i b n0 t0 P k c w.ctx n shelf) (hi : i ≠ 0)
    (hd : SubDone ty l id w st es w') (hn : NetRun strict w.ctx.bufSize n es n') :
    Ready i b n0 t0 P k c w'.ctx { n' with isOpen := n'.isOpen && !(decide (st = .sendFailed)) } (es.foldl Shelf.note shelf) ∧ acksOf i es = [] := by
  refine ⟨?_, acksOf_quiet i (quiet_ack hd.kinds)⟩
  have hal : Alike w.ctx w'.ctx ∧ w'.ctx.tables = w.ctx.tables := by
    obtain ⟨t, h⟩ := hd.ctx
    rw [h]
    exact ⟨⟨rfl, rfl, rfl, afterFail_not _ _⟩, rfl⟩
  have ht : ∀ fl, Represents w.ctx.tables fl → ∃ fl', Represents w'.ctx.tables fl' ∧ fl'.out.phase i = fl.out.phase i :=
    fun fl hfl => ⟨fl, by rw [hal.2]; exact hfl, rfl⟩
  have hrc := received_of_noRecv (noRecv_of_ack hd.kinds)
  have hcb := callbacks_ack hd.kinds
  rcases hd.cases with ⟨_, rfl, _⟩ | ⟨_, _, rfl, _⟩ | ⟨h1, _, h2, _, h3⟩
  · exact h.nothing hi hal.1 ht hn hcb hrc rfl
  · exact h.nothing hi hal.1 ht hn hcb hrc rfl
  · obtain ⟨u, u1, u2, u3⟩ := sub_raw h2
    obtain ⟨h4, h5⟩ := sent_done h3
    rw [← u1] at h4 h5
    exact h.plain hi hal.1 ht hn hcb hrc u2 (u3 i) h4 (fun h => by rw [h1] at h; cases h) (fun _ hx => by simpa using h5 hx)

theorem Ready.ping (h : Ready i b n0 t0 P k c w.ctx n shelf) (hi : i ≠ 0) (hd : PingDone w st es w') (hn : NetRun strict w.ctx.bufSize n es n') :
    Ready i b n0 t0 P k c w'.ctx { n' with isOpen := n'.isOpen && !(decide (st = .sendFailed)) } (es.foldl Shelf.note shelf) ∧ acksOf i es = [] := by
  refine ⟨?_, acksOf_quiet i (quiet_ack hd.kinds)⟩
  have hal : Alike w.ctx w'.ctx ∧ w'.ctx.tables = w.ctx.tables := by
    obtain ⟨t, p, q, h⟩ := hd.ctx
    rw [h]
    exact ⟨⟨rfl, rfl, rfl, afterFail_not _ _⟩, rfl⟩
  have ht : ∀ fl, Represents w.ctx.tables fl → ∃ fl', Represents w'.ctx.tables fl' ∧ fl'.out.phase i = fl.out.phase i :=
    fun fl hfl => ⟨fl, by rw [hal.2]; exact hfl, rfl⟩
  have hrc := received_of_noRecv (noRecv_of_ack hd.kinds)
  have hcb := callbacks_ack hd.kinds
  have hu : Small ⟨0xC0, []⟩ := by simp [Small]
  have hno : upNote i ⟨0xC0, []⟩ = none := upNote_other (by decide) (by decide)
  rcases hd.cases with ⟨_, h1, _⟩ | ⟨h1, h2, h3, h4, _⟩ | ⟨h1, h2, _⟩
  · exact h.nothing hi hal.1 ht hn hcb hrc h1
  · exact h.plain hi hal.1 ht hn hcb hrc hu hno (by rw [pingreq_raw]; exact h2) (fun h => by rw [h1] at h; cases h) (fun _ _ => by simpa using h4)
  · exact h.plain hi hal.1 ht hn hcb hrc hu hno (by rw [pingreq_raw, h2]; exact List.prefix_refl _) (fun h => by rw [h1] at h; cases h)
      (fun _ h => absurd h2 (by rw [pingreq_raw] at h; exact h))

/-- A call that returned. -/
theorem Ready.call (h : Ready i b n0 t0 P k c w.ctx n shelf) (hi : i ≠ 0) (hrep : Represents w.ctx.tables s) (hv : ValidCall g a)
    (hd : Did g s w a r es w') (hn : NetRun strict w.ctx.bufSize n es n') (hf : Faithful shelf es)
    (hdis : (∀ p, a = .publish (some p) i → p.qos = .qos0 ∨ p.dup = false) ∧ a ≠ .cancelCallback i) :
    Ready i b n0 t0 (P ++ published i [(a, r)]) (k + acknowledged i es) (c + completed i es) w'.ctx { n' with isOpen := n'.isOpen && !closes a r }
      (es.foldl Shelf.note shelf) := by
  have quiet : acksOf i es = [] → acknowledged i es = 0 ∧ completed i es = 0 := by
    intro h
    unfold acknowledged completed
    rw [h]
    exact ⟨rfl, rfl⟩
  have noPub : (∀ p id, a ≠ .publish (some p) id) → published i [(a, r)] = [] := by
    intro h
    unfold published
    rw [List.filterMap_cons]
    split
    · rfl
    · rename_i x hx
      split at hx
      · rename_i p id st heq
        injection heq with h1 h2
        exact absurd h1 (h p id)
      · cases hx
  have calm : ∀ {closing : Bool}, (∀ p id, a ≠ .publish (some p) id) → closing = closes a r →
      Ready i b n0 t0 P k c w'.ctx { n' with isOpen := n'.isOpen && !closing } (es.foldl Shelf.note shelf) ∧ acksOf i es = [] →
      Ready i b n0 t0 (P ++ published i [(a, r)]) (k + acknowledged i es) (c + completed i es) w'.ctx { n' with isOpen := n'.isOpen && !closes a r }
        (es.foldl Shelf.note shelf) := by
    intro closing h1 h2 h3
    rw [noPub h1, (quiet h3.2).1, (quiet h3.2).2, ← h2, List.append_nil]
    exact h3.1
  have keep : w'.ctx.tables = w.ctx.tables → ∀ fl, Represents w.ctx.tables fl → ∃ fl', Represents w'.ctx.tables fl' ∧ fl'.out.phase i = fl.out.phase i :=
    fun e fl hfl => ⟨fl, by rw [e]; exact hfl, rfl⟩
  cases hd with
  | @publish p id st _ _ f hd =>
    obtain ⟨h1, h2⟩ := h.publish hi hrep (hv p rfl).1 hd hn (fun e => hdis.1 p (by rw [e]))
    rw [(quiet h2).1, (quiet h2).2]
    exact h1
  | publishNull => 
    have := h.nothing (closing := false) hi ⟨rfl, rfl, rfl, Iff.rfl⟩ (keep rfl) hn rfl rfl rfl
    exact calm (by intro p id h; cases h) rfl ⟨this, rfl⟩
  | subscribe f hd => exact calm (by intro p id h; cases h) rfl (h.sub hi hd hn)
  | subscribeNull =>
    have := h.nothing (closing := false) hi ⟨rfl, rfl, rfl, Iff.rfl⟩ (keep rfl) hn rfl rfl rfl
    exact calm (by intro p id h; cases h) rfl ⟨this, rfl⟩
  | unsubscribe f hd => exact calm (by intro p id h; cases h) rfl (h.sub hi hd hn)
  | unsubscribeNull =>
    have := h.nothing (closing := false) hi ⟨rfl, rfl, rfl, Iff.rfl⟩ (keep rfl) hn rfl rfl rfl
    exact calm (by intro p id h; cases h) rfl ⟨this, rfl⟩
  | ping f hd => exact calm (by intro p id h; cases h) rfl (h.ping hi hd hn)
  | disconnect hd => exact calm (by intro p id h; cases h) rfl (h.disconnect hi hd hn)
  | processLoop f hd =>
    rw [noPub (by intro p id h; cases h), List.append_nil]
    refine Ready.loop (w := w.fresh) h hi hrep hd ?_ f.bufSize f.retransmits ?_ (fun hc => f.idle (by rw [show w.ctx.connectStatus = _ from hc]; decide)) hn
    · rw [f.status, afterFail_not]; rfl
    · exact (f.inv _ _ ⟨h.choose_spec.2.1, s, hrep, rfl, rfl⟩).1
  | receiveLoop f hd =>
    rw [noPub (by intro p id h; cases h), List.append_nil]
    refine Ready.loop h hi hrep hd ?_ f.bufSize f.retransmits ?_ (fun hc => f.idle (by rw [hc]; decide)) hn
    · rw [f.status, afterFail_not]
    · exact (f.inv _ _ ⟨h.choose_spec.2.1, s, hrep, rfl, rfl⟩).1
  | @cancel id st _ _ h0 hd =>
    have hne : id ≠ i := fun e => hdis.2 (by rw [e])
    cases hd with
    | none h1 =>
      have := h.nothing (closing := false) hi ⟨rfl, rfl, rfl, Iff.rfl⟩ (keep rfl) hn rfl rfl rfl
      exact calm (by intro p id h; cases h) rfl ⟨this, rfl⟩
    | some h1 h2 h3 =>
      refine calm (by intro p id h; cases h) rfl ⟨h.nothing hi (by rw [h2]; exact ⟨rfl, rfl, rfl, Iff.rfl⟩) ?_ hn rfl rfl rfl, rfl⟩
      intro fl hfl
      cases represents_unique hfl hrep
      refine ⟨_, by rw [h2]; exact h3, ?_⟩
      simp only [step]
      cases hp : s.out.phase id with
      | none => rfl
      | some p =>
        simp only
        rw [phase_remove, if_neg (fun h => hne h.symm)]
  | check hd =>
    have := h.nothing (closing := closes .checkConnectStatus (.status (connectStatusCode w.ctx.connectStatus))) hi (by rw [hd]; exact ⟨rfl, rfl, rfl, Iff.rfl⟩) (keep (by rw [hd])) hn rfl rfl rfl
    exact calm (by intro p id h; cases h) rfl ⟨this, rfl⟩
  | getId hd =>
    have := h.nothing (closing := false) hi (by rw [hd]; exact ⟨rfl, rfl, rfl, Iff.rfl⟩) (keep (by rw [hd])) hn rfl rfl rfl
    exact calm (by intro p id h; cases h) rfl ⟨this, rfl⟩
  | @connect ci will t sp0 sp st _ _ hd => exact calm (by intro p id h; cases h) rfl (h.connect hi hrep (hv ci rfl) hd hn hf)
  | @connectNull ci will t sp0 _ _ hd =>
    have := h.nothing (closing := true) hi (by rw [hd]; exact ⟨rfl, rfl, rfl, afterFail_not _ _⟩) (keep (by rw [hd])) hn rfl rfl rfl
    exact calm (by intro p id h; cases h) rfl ⟨this, rfl⟩

end

theorem published_append (i : UInt16) (a b : List (ApiCall × ApiRet)) : published i (a ++ b) = published i a ++ published i b := List.filterMap_append ..

/-- Everything that can happen keeps what holds between the calls. -/
theorem Sys.ready {g : Cfg} (hg : CfgOk g) {i : UInt16} (hi : i ≠ 0) {b : Bool} {n0 : Nat} {t0 P : List Publish} {k c : Nat} {s0 s : Sys}
    {h : List (ApiCall × ApiRet)} (hr : Sys.Run g strict s0 h s) (h0 : Ready i b n0 t0 P k c s0.world.ctx s0.net s0.shelf) (hd : Disciplined i h) :
    ∃ es, s.world.trace = s0.world.trace ++ es ∧
      Ready i b n0 t0 (P ++ published i h) (k + acknowledged i es) (c + completed i es) s.world.ctx s.net s.shelf := by
  induction hr with
  | start => exact ⟨[], by simp, by simpa [published, acknowledged, completed, acksOf] using h0⟩
  | serve _ hs ih =>
    obtain ⟨es, h1, fl, h2, h3, h4, h5⟩ := ih hd
    exact ⟨es, h1, fl, h2, h3, h4, h5.serve hs h4 hi⟩
  | hangUp _ ih =>
    obtain ⟨es, h1, fl, h2, h3, h4, h5⟩ := ih hd
    have := h5.close true
    rw [Bool.not_true, Bool.and_false] at this
    exact ⟨es, h1, fl, h2, h3, h4, this⟩
  | dial _ hc ih =>
    obtain ⟨es, h1, fl, h2, h3, h4, h5⟩ := ih hd
    refine ⟨es, h1, fl, h2, h3, h4, ?_⟩
    simp only [ne_eq, hc, not_true_eq_false, decide_false] at h5 ⊢
    exact h5.dial
  | @call s1 h e a r w n hr hv hc hn hf ih =>
    obtain ⟨es, h1, h2⟩ := ih (fun x hx => hd x (List.mem_append_left _ hx))
    obtain ⟨fl, h3, h4, _⟩ := id h2
    obtain ⟨es', hl, hdid⟩ := callIn_done hg hv h4 h3 hc
    have hes : callEvents g s1.world e a = es' := by
      unfold callEvents
      exact newEvents_done (w := { s1.world with env := e }) hc hl.trace
    rw [hes] at hn hf ⊢
    have := Ready.call (w := { s1.world with env := e }) h2 hi h3 hv hdid hn hf (hd (a, r) (List.mem_append_right _ (List.mem_singleton.mpr rfl)))
    refine ⟨es ++ es', by rw [show w.trace = s1.world.trace ++ es' from hl.trace, h1, List.append_assoc], ?_⟩
    rw [published_append, acknowledged_append, completed_append, ← List.append_assoc, ← Nat.add_assoc, ← Nat.add_assoc]
    exact this

/-- Before the first call. -/
theorem Sys.first {g : Cfg} {s : Sys} (h : Sys.Initial g s) (i : UInt16) :
    Ready i false 0 s.net.server.taken [] 0 0 s.world.ctx s.net s.shelf := by
  obtain ⟨oc, ic, h1, h2, h3⟩ := h.ctx.inv
  refine ⟨⟨oc, ic, [], []⟩, by rw [h3]; exact represents_fresh oc ic, by rw [h1]; exact Nat.zero_le _, h.buffer, ?_⟩
  rw [buffered_zero h1, h2]
  refine ⟨⟨[], [], [], [], ⟨h.quiet.1, rfl, by simp, by simp, h.quiet.2, fun _ => ⟨rfl, rfl⟩, Nat.zero_le _, [], by simp, ?_⟩, fun h => (by simp at h),
    fun ho => (by rw [h.closed] at ho; cases ho)⟩, fun _ => rfl, fun j x hx => (by rw [h.shelf] at hx; cases hx), fun _ => h.shelf⟩
  rw [h.held.1]
  exact .idle (h.shelf i) (fun hq => (by cases hq.1))

/-- From a moment at which no publish with packet id `i` is in flight. -/
theorem Ready.again {i : UInt16} {n0 : Nat} {t0 P : List Publish} {b : Bool} {k c : Nat} {ctx : Ctx} {n : Net} {shelf : Shelf} (h : Ready i b n0 t0 P k c ctx n shelf)
    (hf : ∀ fl, Represents ctx.tables fl → fl.out.phase i = none) : Ready i true n.server.sessions n.server.taken [] 0 0 ctx n shelf := by
  obtain ⟨fl, h1, h2, h3, h4⟩ := h
  refine ⟨fl, h1, h2, h3, ?_⟩
  have hp := hf fl h1
  rw [hp] at h4 ⊢
  obtain ⟨us, part, ds, buf, q1, q2, q3⟩ := h4.ties
  refine ⟨⟨us, part, ds, buf, ⟨q1.up, q1.stuck, q1.small, q1.valid, q1.down, q1.fresh, Nat.le_refl _, [], by simp, ?_⟩, q2, q3⟩, h4.idle, h4.shelves, h4.unused⟩
  obtain ⟨_, _, ht⟩ := q1.tie
  generalize us.filterMap (upNote i) = U at ht ⊢
  generalize ds.filterMap (downNote i) = D at ht ⊢
  generalize decide (i.toNat ∈ n.server.held) = hl at ht ⊢
  cases ht with
  | idle h _ => exact .idle h (fun _ => ⟨.nil, Nat.le_refl _, Nat.le_refl _⟩)

end Mqtt
