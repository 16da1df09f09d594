/-
Delivery guarantees while threads are interleaved, continued: MQTT_Connect, calls that any thread may make, and whole executions.
-/
import Verif.Proof.ThreadQos
import Verif.Proof.ThreadPool
import Verif.Proof.CallMon

namespace Mqtt
open Spec
set_option linter.unusedSimpArgs false

theorem noApp_send {es : List Event} (h : ∀ e ∈ es, isSendOrTime e = true) : ∀ e ∈ es, isApp e = false := by
  intro e he
  have := h e he
  cases e <;> simp_all [isSendOrTime, isApp]

theorem noApp_quiet {es : List Event} (h : ∀ e ∈ es, isQuietEvent e = true) : ∀ e ∈ es, isApp e = false := by
  intro e he
  have := h e he
  cases e <;> simp_all [isQuietEvent, isApp]

theorem noApp_ack {es : List Event} (h : ∀ e ∈ es, isAckEvent e = true) : ∀ e ∈ es, isApp e = false := by
  intro e he
  have := h e he
  cases e <;> simp_all [isAckEvent, isApp]

theorem noApp_clears (r : Bool) (s : InFlight) : ∀ e ∈ cleanClears r s, isApp e = false := by
  intro e he
  unfold cleanClears at he
  split at he
  · obtain ⟨x, _, rfl⟩ := List.mem_map.mp he
    rfl
  · cases he

/-- The section of `MQTT_Connect`: the application is not called, and the records stay unless a new session starts. -/
theorem connectLocked_wp {oc ic : Nat} (g : Cfg) {ci : ConnectInfo} {will : Option PublishInfo} {r sz : Nat} (timeoutMs : UInt32) (sp0 : Bool)
    (hs : getConnectPacketSize (some ci) will = ⟨.success, r, sz⟩) (hv : ci.Valid will) {w : World} (hw : Inv oc ic w.ctx) :
    wp (connectLocked g ci will r timeoutMs sp0) (fun a w' => ∃ es, w'.trace = w.trace ++ es ∧ (∀ e ∈ es, isApp e = false) ∧
      (w'.ctx.tables = w.ctx.tables ∨ a = (.success, false) ∧ wire es = connectPacket (ci.toSpec will) ∧ received es = [0x20, 2, 0, 0])) (fun _ => True) (fun _ => True) w := by
  unfold connectLocked
  rw [wp_bind, wp_getCtx, wp_ite]
  refine ⟨fun _ => ?_, fun hn => ?_⟩
  · rw [wp_pure]
    exact ⟨[], by simp, by simp, .inl rfl⟩
  have hn : w.ctx.connectStatus = .notConnected := Classical.not_not.mp hn
  rw [wp_bind]
  refine wp_mono (sendConnectWithoutCopy_spec g ci will r sz _ hs hv) ?_ (fun _ _ => trivial) (fun _ _ => trivial)
  rintro st w1 (⟨hx, rfl, rfl⟩ | ⟨hx, snd, hd, h⟩)
  · rw [if_pos (by decide), wp_pure]
    exact ⟨[], by simp, by simp, .inl rfl⟩
  obtain ⟨t, ht⟩ := hd.ctx
  have hsn := noApp_send hd.kinds
  rw [wp_ite]
  refine ⟨fun _ => ?_, fun hs1 => ?_⟩
  · rw [wp_pure]
    exact ⟨snd, hd.trace, hsn, .inl (by rw [ht])⟩
  have hn1 : w1.ctx.connectStatus = .notConnected := by
    rw [ht]
    simp [afterFail, hn]
  have hw1 : Inv oc ic w1.ctx := by rw [ht]; exact hw
  rw [wp_bind]
  refine wp_mono ((receiveConnack_tr g timeoutMs ci.cleanSession sp0 w1 hn1).toWp trivial hw1) ?_ (fun _ _ => trivial) (fun _ _ => trivial)
  rintro ⟨st, sp⟩ w2 ⟨ca, h', f, hca⟩
  obtain ⟨b, hb, hc2⟩ := hca.ctx
  have ht2 : w2.trace = w.trace ++ (snd ++ ca) := by rw [f.trace, hd.trace, List.append_assoc]
  have ha2 := noApp_append hsn (noApp_quiet (quiet_recv hca.recv))
  have htab : w2.ctx.tables = w.ctx.tables := by rw [hc2, ht]
  dsimp only
  rw [wp_ite]
  refine ⟨fun _ => ?_, fun _ => ?_⟩
  · rw [wp_pure]
    exact ⟨_, ht2, ha2, .inl htab⟩
  obtain ⟨_, s, hrep, _, _⟩ := hw
  cases sp with
  | false =>
    rw [wp_bind, if_pos rfl]
    have hcs : wp handleCleanSession (fun st w' => st = .success ∧ w' = { w2 with ctx := cleanedCtx w2.ctx, trace := w2.trace ++ cleanClears w2.ctx.retransmits s })
        (fun _ => False) (fun _ => False) w2 := by
      unfold wp
      rw [handleCleanSession_eq w2 s (by rw [htab]; exact hrep)]
      exact ⟨rfl, rfl⟩
    refine wp_mono hcs ?_ (fun _ h => h.elim) (fun _ h => h.elim)
    rintro st' w3 ⟨rfl, rfl⟩
    rw [if_pos rfl, wp_bind, wp_modifyCtx, wp_pure]
    have hst : st = .success := Classical.byContradiction fun h => ‹¬ st ≠ .success› h
    subst hst
    have hwire : wire snd = connectPacket (ci.toSpec will) := by
      have hs1 := Classical.byContradiction fun x => hs1 x
      subst hs1
      rcases h with ⟨_, _, h⟩ | ⟨h, _⟩
      · exact h
      · cases h
    have hrecv : received ca = [0x20, 2, 0, 0] := by
      rcases (hca.accept.mp rfl).2.2 with k | ⟨k, _⟩
      · exact k
      · have := hca.session rfl
        rw [k] at this
        exact absurd this (by simp)
    refine ⟨(snd ++ ca) ++ cleanClears w2.ctx.retransmits s, ?_, noApp_append ha2 (noApp_clears _ _), .inr ⟨rfl, ?_, ?_⟩⟩
    rotate_left
    · rw [wire_append, wire_append, hwire, wire_of_recv hca.recv, wire_clears]; simp
    · rw [received_append, received_append, hrecv, received_of_noRecv (noRecv_clears _ _), received_of_noRecv (noRecv_of_send hd.kinds)]; simp
    show w2.trace ++ _ = _
    rw [ht2]
    simp
  | true =>
    rw [if_neg (by decide), wp_bind, wp_pure, if_pos rfl, wp_bind, wp_modifyCtx, wp_pure]
    exact ⟨_, ht2, ha2, .inl htab⟩

theorem locked_done {α : Type} {m : M α} {w w' : World} {a : α} (h : locked m w = .done a w') :
    ∃ w1, m (w.add .pre) = .done a w1 ∧ w' = w1.add .post := by
  obtain ⟨_, w1, h1, h2⟩ := M.bind_done h
  cases h1
  obtain ⟨b, w2, h3, h4⟩ := M.bind_done h2
  obtain ⟨_, w3, h5, h6⟩ := M.bind_done h4
  cases h5
  cases h6
  exact ⟨w2, h3, rfl⟩

section
variable {α β : Type} {oc ic : Nat} {tr : List Event} {K : UInt16 → Prop}

/-- The invariant that holds before every step. -/
abbrev Iv (oc ic : Nat) (w : World) : Prop := Inv oc ic w.ctx

/-- A new session was begun after `tr`. -/
def Newly (tr : List Event) (w : World) : Prop := ∃ es, w.trace = tr ++ es ∧ newSession es

theorem Newly.stable {w w' : World} (h : Newly tr w) (hr : Rk K w w') : Newly tr w' := by
  obtain ⟨es, h1, a, b, c, ci, will, h2, h3, h4⟩ := h
  obtain ⟨fs, f1, _⟩ := hr.trace
  exact ⟨es ++ fs, by rw [f1, h1, List.append_assoc], a, b, c ++ fs, ci, will, by rw [h2]; simp, h3, h4⟩

/-- After a call of the thread that receives: the session goes on, or `MQTT_Connect` reported a new one. -/
def SessionOr (tr : List Event) (ic : Nat) (K : UInt16 → Prop) (new : Prop) (w : World) : Prop :=
  Mid tr ic K none none w ∨ (new ∧ Once tr w ∧ Newly tr w)

theorem SessionOr.firm {new : Prop} : Firm K (Once tr) (SessionOr tr ic K new) := by
  refine ⟨?_, ?_⟩
  · rintro w w' (h | ⟨h1, h2, h3⟩) hr
    · exact .inl (Mid.firm.stable _ _ h hr)
    · exact .inr ⟨h1, (Once.firm (K := K)).stable _ _ h2 hr, h3.stable hr⟩
  · rintro w (h | h)
    · exact (Mid.firm (K := K)).good _ h
    · exact h.2.1

theorem connect_tri (g : Cfg) (ci : Option ConnectInfo) (will : Option PublishInfo) (timeoutMs : UInt32) (sp : Option Bool)
    (hv : ∀ c, ci = some c → c.Valid will) :
    Tri (Iv oc ic) K (Once tr) (Mid tr ic K none none) (connectP g ci will timeoutMs sp) (fun r => SessionOr tr ic K (r = (.success, some false))) := by
  have F : Firm K (Once tr) (Mid tr ic K none none) := Mid.firm
  have bad : Tri (Iv oc ic) K (Once tr) (Mid tr ic K none none) (do connectFailedP .badParameter; pure (Status.badParameter, sp))
      (fun r => SessionOr tr ic K (r = (.success, some false))) :=
    Tri.seq F (connectFailed_calm _) fun _ => Tri.pure F fun _ h => .inl h
  unfold connectP
  cases ci with
  | none => exact bad
  | some ci =>
    cases sp with
    | none => exact bad
    | some sp0 =>
      dsimp only
      refine Tri.bind (B := fun r => SessionOr tr ic K (r = (.success, false))) ?_ ?_
      · refine Tri.ite (fun hsz => ?_) (fun _ => Tri.pure F fun _ h => .inl h)
        obtain ⟨r, sz, hsize⟩ : ∃ r sz, getConnectPacketSize (some ci) will = ⟨.success, r, sz⟩ := by
          cases hg : getConnectPacketSize (some ci) will with
          | mk st r sz => rw [hg] at hsz; dsimp only at hsz; subst hsz; exact ⟨r, sz, rfl⟩
        rw [hsize]
        unfold connectCoreP
        refine Tri.bind (B := fun r => SessionOr tr ic K (r = (.success, false))) (Tri.step F (fun _ => SessionOr.firm) ?_) ?_
        · intro w a w' hw hi hd
          obtain ⟨w1, h1, rfl⟩ := locked_done hd
          obtain ⟨es, e1, e2, e3⟩ := wp_done (connectLocked_wp (oc := oc) (ic := ic) (w := w.add .pre) g timeoutMs sp0 hsize (hv ci rfl) hi) h1
          have ht : (w1.add .post).trace = w.trace ++ (.pre :: (es ++ [.post])) := by
            show w1.trace ++ [.post] = _
            rw [e1]
            show (w.trace ++ [.pre]) ++ es ++ [.post] = _
            simp
          have ha : ∀ e ∈ Event.pre :: (es ++ [.post]), isApp e = false :=
            noApp_append (a := [.pre]) (by simp [isApp]) (noApp_append e2 (by simp [isApp]))
          rcases e3 with e3 | e3
          · refine .inl (F.stable _ _ hw ⟨⟨_, ht, ha⟩, fun s hs => ⟨s, ?_, rfl, rfl, fun _ _ h => h⟩⟩)
            show Represents w1.ctx.tables s
            rw [e3]
            exact hs
          · obtain ⟨e3, e4, e5⟩ := e3
            refine .inr ⟨e3, ?_, ?_⟩
            · obtain ⟨fs, m, h2, h3⟩ := F.good _ hw
              refine ⟨fs ++ (.pre :: (es ++ [.post])), m, by rw [ht, h2, List.append_assoc], ?_⟩
              rw [monRun_append, h3]
              exact mon_noApp ha m
            · obtain ⟨fs, m, h2, h3⟩ := F.good _ hw
              exact ⟨fs ++ (.pre :: (es ++ [.post])), by rw [ht, h2, List.append_assoc], fs ++ [.pre], es, [.post], ci, will, by simp, e4, e5⟩
        · rintro ⟨st, sp⟩
          dsimp only
          refine Tri.ite (fun hc => ?_) (fun _ => Tri.pure SessionOr.firm fun _ h => h)
          intro w hw
          refine (Tri.bind (resumption_tri g) fun _ => Tri.pure F fun _ h => .inl h) w ?_
          rcases hw with h | ⟨h, _⟩
          · exact h
          · injection h with _ h
            rw [h] at hc
            exact absurd hc.2 (by simp)
      · rintro ⟨st, sp1⟩
        refine Tri.seq SessionOr.firm (connectFailed_calm _) fun _ => Tri.pure SessionOr.firm fun w h => ?_
        rcases h with h | ⟨h, h'⟩
        · exact .inl h
        · injection h with h1 h2
          subst h1
          subst h2
          exact .inr ⟨rfl, h'⟩

/-! ### Calls any thread may make -/

/-- The call cancels none of the publishes `K`. -/
def NoCancel (K : UInt16 → Prop) (c : ApiCall) : Prop := ∀ id, c = .cancelCallback id → ¬ K id

theorem step_reserve_inc (s : InFlight) (id : UInt16) (q : QoS) :
    (step s (.reserve id q)).2.inc = s.inc ∧ (step s (.reserve id q)).2.inCap = s.inCap ∧ (step s (.reserve id q)).2.outCap = s.outCap := by
  cases q with
  | qos0 => exact ⟨rfl, rfl, rfl⟩
  | _ =>
    simp only [step]
    split
    · exact ⟨rfl, rfl, rfl⟩
    · exact ⟨rfl, rfl, rfl⟩

theorem step_send_inc (s : InFlight) (id : UInt16) (q : QoS) :
    (step s (.publish .send id q)).2.inc = s.inc ∧ (step s (.publish .send id q)).2.inCap = s.inCap := by
  cases q with
  | qos0 => exact ⟨rfl, rfl⟩
  | _ =>
    simp only [step]
    repeat' split
    all_goals exact ⟨rfl, rfl⟩

theorem Rk.same {w w' : World} {es : List Event} (ht : w'.trace = w.trace ++ es) (ha : ∀ e ∈ es, isApp e = false)
    (hc : w'.ctx.tables = w.ctx.tables) : Rk K w w' :=
  ⟨⟨es, ht, ha⟩, fun s hs => ⟨s, by rw [hc]; exact hs, rfl, rfl, fun _ _ h => h⟩⟩

theorem Rk.quiet {w w' : World} {es : List Event} {s s' : InFlight} (ht : w'.trace = w.trace ++ es) (ha : ∀ e ∈ es, isApp e = false)
    (hs : Represents w.ctx.tables s) (hs' : Represents w'.ctx.tables s') (hi : s'.inCap = s.inCap) (hc : s'.inc = s.inc)
    (hp : ∀ id, K id → s.out.phase id ≠ none → s'.out.phase id ≠ none) : Rk K w w' := by
  refine ⟨⟨es, ht, ha⟩, fun s1 h1 => ?_⟩
  cases represents_unique h1 hs
  exact ⟨s', hs', hi, hc, hp⟩

/-- A whole call of a thread that does not receive. -/
theorem call_rk {g : Cfg} (hg : CfgOk g) {c : ApiCall} (hv : ValidCall g c) (hc : sharedCall c = true) (hk : NoCancel K c) {w w' : World} {r : ApiRet}
    (hw : Inv oc ic w.ctx) (h : apiCall g c w = .done r w') : Rk K w w' := by
  obtain ⟨hidx, s, hrep, _, _⟩ := hw
  obtain ⟨es, hl, hd⟩ := wp_done (apiCall_wp g hg s w c hv hidx hrep) h
  have htr := hl.trace
  cases hd with
  | publishNull => exact Rk.refl w
  | subscribeNull => exact Rk.refl w
  | unsubscribeNull => exact Rk.refl w
  | disconnect => cases hc
  | processLoop => cases hc
  | receiveLoop => cases hc
  | connect => cases hc
  | connectNull => cases hc
  | subscribe _ h => obtain ⟨t, h1⟩ := h.ctx; exact Rk.same htr (noApp_ack h.kinds) (by rw [h1])
  | unsubscribe _ h => obtain ⟨t, h1⟩ := h.ctx; exact Rk.same htr (noApp_ack h.kinds) (by rw [h1])
  | ping _ h => obtain ⟨t, p, q, h1⟩ := h.ctx; exact Rk.same htr (noApp_ack h.kinds) (by rw [h1])
  | check h => exact Rk.same htr (by simp [isApp]) (by rw [h])
  | getId h => exact Rk.same htr (by simp [isApp]) (by rw [h])
  | cancel _ h =>
    cases h with
    | none => exact Rk.refl w
    | @some T _ h0 h1 h2 =>
      refine Rk.quiet htr (by simp [isApp]) hrep (by rw [h1]; exact h2) ?_ ?_ ?_
      · simp only [step]; split <;> rfl
      · simp only [step]; split <;> rfl
      · intro i hi hp
        exact cancel_phase (.inl fun he => hk _ rfl (he ▸ hi)) hp
  | @publish p id _ _ _ _ h =>
    rcases h.cases with ⟨_, rfl, rfl, _⟩ | ⟨_, _, rfl, h1⟩ | ⟨_, _, _, _, rfl, h1, _⟩ | ⟨_, zs, s1, st0, es0, w0, w1, hres, _, hps, rfl, hfin⟩
    · exact Rk.refl _
    · exact Rk.same htr (by simp [isApp]) (by rw [h1])
    · exact Rk.quiet htr (by simp [isApp]) hrep h1 rfl rfl fun _ _ h => h
    · have ha : ∀ e ∈ Event.pre :: (es0 ++ [.post]), isApp e = false := by
        refine noApp_append (a := [.pre]) (by simp [isApp]) (noApp_append ?_ (by simp [isApp]))
        rcases hps.2.2 with ⟨_, h, _⟩ | ⟨_, _, rfl, _⟩ | ⟨_, _, snd, rfl, h, _⟩
        · exact noApp_send h
        · simp [isApp]
        · exact noApp_append (a := [_]) (by simp [isApp]) (noApp_send h)
      have r1 : s1.inCap = s.inCap ∧ s1.inc = s.inc ∧ ∀ x, s.out.phase x ≠ none → s1.out.phase x ≠ none := by
        rcases hres with ⟨_, rfl⟩ | ⟨_, _, rfl⟩
        · exact ⟨rfl, rfl, fun _ h => h⟩
        · obtain ⟨a, b, _⟩ := step_reserve_inc s id p.qos
          exact ⟨b, a, (step_quiet (s := s) (c := .reserve id p.qos) trivial).2⟩
      have r2 : (noteSent s1 p id).2.inCap = s1.inCap ∧ (noteSent s1 p id).2.inc = s1.inc ∧
          ∀ x, s1.out.phase x ≠ none → (noteSent s1 p id).2.out.phase x ≠ none := by
        unfold noteSent
        split
        · exact ⟨rfl, rfl, fun _ h => h⟩
        · obtain ⟨a, b⟩ := step_send_inc s1 id p.qos
          exact ⟨b, a, (step_quiet (s := s1) (c := .publish .send id p.qos) trivial).2⟩
      rcases hfin with ⟨_, _, h1⟩ | ⟨_, _, h1⟩
      · exact Rk.quiet htr ha hrep h1 r1.1 r1.2.1 fun x _ h => r1.2.2 x h
      · exact Rk.quiet htr ha hrep h1 (r2.1.trans r1.1) (r2.2.1.trans r1.2.1) fun x _ h => r2.2.2 x (r1.2.2 x h)

/-- Such a call in the thread that receives, its steps interleaved with those of others. -/
theorem Lin.tri {J A : World → Prop} (hA : Firm K J A) {q : Prog α} (h : Lin oc ic q) {f : World → Out α}
    (hrun : ∀ w : World, Inv oc ic w.ctx → q.run w = f w) (hrk : ∀ w a w', Inv oc ic w.ctx → f w = .done a w' → Rk K w w') :
    Tri (Iv oc ic) K J A q (fun _ => A) := by
  induction h with
  | ret a => exact Tri.pure hA fun _ h => h
  | @last β m k f' hk hs =>
    intro w0 hw0 w hr hi b w' hd
    have h1 : f w = .done (f' b) w' := by
      rw [← hrun w hi]
      show M.bind m _ w = _
      simp only [M.bind, hd, hk b]
      rfl
    have h2 := hA.stable _ _ (hA.stable _ _ hw0 hr) (hrk _ _ _ hi h1)
    refine ⟨hA.good _ h2, ?_⟩
    rw [hk b]
    exact fun w2 hr2 => hA.stable _ _ h2 hr2
  | @silent β m k p hm _ ih =>
    intro w0 hw0 w hr hi b w' hd
    obtain ⟨b', h1, h2⟩ := hm w hi
    rw [hd] at h1
    cases h1
    have h3 := hA.stable _ _ hw0 hr
    refine ⟨hA.good _ h3, ?_⟩
    rw [h2]
    refine ih (fun w2 hw2 => ?_) w h3
    obtain ⟨b2, h4, h5⟩ := hm w2 hw2
    rw [← hrun w2 hw2]
    show _ = M.bind m _ w2
    simp only [M.bind, h4, h5]

/-- Every public function except `MQTT_Connect` in the thread that receives. -/
theorem callP_plain {g : Cfg} (hg : CfgOk g) {c : ApiCall} (hv : ValidCall g c) (hk : NoCancel K c) (hn : noConnect c = true) {c0 : Ctx}
    (h0 : Inv oc ic c0) : Tri (Iv oc ic) K (Once tr) (Mid tr ic K none none) (callP g c) (fun _ => Mid tr ic K none none) := by
  have F : Firm K (Once tr) (Mid tr ic K none none) := Mid.firm
  have fin : ∀ {p : Prog Status}, Tri (Iv oc ic) K (Once tr) (Mid tr ic K none none) p (fun _ => Mid tr ic K none none) →
      Tri (Iv oc ic) K (Once tr) (Mid tr ic K none none) (do pure (ApiRet.status (← p))) (fun _ => Mid tr ic K none none) :=
    fun h => Tri.bind h fun _ => Tri.pure F fun _ h => h
  by_cases hc : sharedCall c = true
  · refine (callP_lin g hg c hc hv h0).tri F (f := apiCall g c) (fun w _ => by rw [callP_run]) ?_
    exact fun w a w' hw h => call_rk hg hv hc hk hw h
  cases c with
  | connect => cases hn
  | disconnect => exact fin (Tri.calm F (disconnect_calm g))
  | processLoop => exact fin (processLoop_tri g)
  | receiveLoop => exact fin (receiveSingleIteration_tri g false)
  | _ => exact absurd rfl hc

/-- Every public function in the thread that receives. -/
theorem callP_tri {g : Cfg} (hg : CfgOk g) {c : ApiCall} (hv : ValidCall g c) (hk : NoCancel K c) {c0 : Ctx} (h0 : Inv oc ic c0) :
    Tri (Iv oc ic) K (Once tr) (Mid tr ic K none none) (callP g c) (fun r => SessionOr tr ic K (r = .connect .success (some false))) := by
  by_cases hn : noConnect c = true
  · intro w hw
    exact Par.mono (callP_plain hg hv hk hn h0 w hw) fun _ _ h => .inl h
  cases c with
  | connect ci will t sp =>
    refine Tri.bind (connect_tri g ci will t sp hv) fun r => ?_
    refine Tri.pure SessionOr.firm fun w h => ?_
    rcases h with h | ⟨h, h'⟩
    · exact .inl h
    · exact .inr ⟨by rw [h], h'⟩
  | _ => exact absurd rfl hn

/-! ### Whole executions -/

theorem prog_once {g : Cfg} (hg : CfgOk g) {c0 : Ctx} (h0 : Inv oc ic c0) {cl : Client} (h : cl.Uses fun c => ValidCall g c ∧ NoCancel K c)
    (ho : OneSession cl) : Tri (Iv oc ic) K (Once tr) (Mid tr ic K none none) (cl.prog g) (fun _ => Once tr) := by
  have F : Firm K (Once tr) (Mid tr ic K none none) := Mid.firm
  induction h with
  | stop => exact Tri.pure F fun _ h => F.good _ h
  | @call c _ hc _ ih =>
    cases ho with
    | call hs hn =>
      by_cases hnc : noConnect c = true
      · exact Tri.bind (callP_plain hg hc.1 hc.2 hnc h0) fun r => ih r (hn r)
      refine Tri.bind (callP_tri hg hc.1 hc.2 h0) fun r => ?_
      rintro w (hw | ⟨rfl, hw, _⟩)
      · exact ih r (hn r) w hw
      · rw [hs (Bool.eq_false_iff.mpr hnc)]
        exact fun w' hr => (Once.firm (K := K)).stable _ _ hw hr

theorem prog_stays {g : Cfg} (hg : CfgOk g) {c0 : Ctx} (h0 : Inv oc ic c0) {cl : Client} (h : cl.Uses fun c => ValidCall g c ∧ NoCancel K c)
    (ho : OneSession cl) : Tri (Iv oc ic) K (Once tr) (Mid tr ic K none none) (cl.prog g) (fun _ => SessionOr tr ic K True) := by
  have F : Firm K (Once tr) (Mid tr ic K none none) := Mid.firm
  induction h with
  | stop => exact Tri.pure F fun _ h => .inl h
  | @call c _ hc _ ih =>
    cases ho with
    | call hs hn =>
      by_cases hnc : noConnect c = true
      · exact Tri.bind (callP_plain hg hc.1 hc.2 hnc h0) fun r => ih r (hn r)
      refine Tri.bind (callP_tri hg hc.1 hc.2 h0) fun r => ?_
      rintro w (hw | ⟨rfl, hw, hx⟩)
      · exact ih r (hn r) w hw
      · rw [hs (Bool.eq_false_iff.mpr hnc)]
        exact fun w' hr => .inr ⟨trivial, (Once.firm (K := K)).stable _ _ hw hr, hx.stable hr⟩

/-- Every interleaving keeps what each step of the first thread keeps. -/
theorem PoolOk.par {sess : Bool} {g : Cfg} (hg : CfgOk g) {first : Client} {others : List Client} {w : World} {p : Pool} {Q : Unit → World → Prop}
    (h : PoolOk sess oc ic (startPool g first others w)) (ho : ∀ cl ∈ others, cl.Uses fun c => (ValidCall g c ∧ sharedCall c = true) ∧ NoCancel K c)
    (hp : Par (Iv oc ic) (Rk K) (Once tr) (first.prog g) Q w) (h1 : Once tr w)
    (hs : Pool.Steps (startPool g first others w) p) :
    Once tr p.world ∧ ∀ q, p.threads[0]? = some q → Par (Iv oc ic) (Rk K) (Once tr) q Q p.world := by
  have hm : ∀ {cl : Client} {P P' : ApiCall → Prop}, cl.Uses P → (∀ c, P c → P' c) → cl.Uses P' := by
    intro cl P P' h hpp
    induction h with
    | stop => exact .stop
    | call h _ ih => exact .call (hpp _ h) ih
  have key : Once tr p.world ∧ ∃ (q : Prog Unit) (cs : List Client) (ts : List (Prog Unit)), p.threads = q :: ts ∧ ts.length = cs.length ∧
      (∀ (j : Nat) t cl, ts[j]? = some t → cs[j]? = some cl → Ahead g oc ic t cl ∧
        cl.Uses fun c => (ValidCall g c ∧ sharedCall c = true) ∧ NoCancel K c) ∧ Par (Iv oc ic) (Rk K) (Once tr) q Q p.world := by
    induction hs with
    | refl =>
      refine ⟨h1, first.prog g, others, others.map (Client.prog g), rfl, by simp, ?_, hp⟩
      intro j t cl ht hcl
      rw [List.getElem?_map, hcl] at ht
      cases ht
      have := ho cl (List.mem_of_getElem? hcl)
      exact ⟨Client.ahead hg (hm this fun _ h => h.1) h.inv, this⟩
    | @step _ _ j hs1 hs2 ih =>
      obtain ⟨h1, q, cs, ts, h2, h3, h4, h5⟩ := ih
      have hok := h.steps hs1
      obtain ⟨hth, hd⟩ := hs2
      rw [h2] at hth
      cases j with
      | zero =>
        cases hth
        obtain ⟨k1, k2⟩ := h5 _ (Rk.refl _) hok.inv _ _ hd
        exact ⟨k1, _, cs, ts, by rw [h2]; rfl, h3, h4, k2⟩
      | succ j =>
        have hth : ts[j]? = some _ := hth
        have hlt : j < ts.length := (List.getElem?_eq_some_iff.mp hth).1
        have hcl : cs[j]? = some cs[j] := List.getElem?_eq_getElem (by omega)
        obtain ⟨ha, hu⟩ := h4 j _ _ hth hcl
        rcases ha.step hg hok.inv hd with ⟨e, ha⟩ | ⟨c, next, r, e1, e2, e3⟩
        · subst e
          refine ⟨h1, q, cs, ts.set j _, by rw [h2]; rfl, by simpa using h3, ?_, h5⟩
          intro l t cl ht hcl'
          by_cases hl : l = j
          · subst hl
            rw [List.getElem?_set_self hlt] at ht
            rw [hcl] at hcl'
            cases ht
            cases hcl'
            exact ⟨ha, hu⟩
          · rw [List.getElem?_set_ne (by omega)] at ht
            exact h4 l t cl ht hcl'
        · rw [e1] at hu
          cases hu with
          | call hc hn =>
            have hrk := call_rk hg hc.1.1 hc.1.2 hc.2 hok.inv e2
            refine ⟨(Once.firm (K := K)).stable _ _ h1 hrk, q, cs.set j (next r), ts.set j _, by rw [h2]; rfl, by simpa using h3, ?_,
              h5.stable hrk⟩
            intro l t cl ht hcl'
            by_cases hl : l = j
            · subst hl
              rw [List.getElem?_set_self hlt] at ht
              rw [List.getElem?_set_self (by omega)] at hcl'
              cases ht
              cases hcl'
              exact ⟨e3, hn r⟩
            · rw [List.getElem?_set_ne (by omega)] at ht hcl'
              exact h4 l t cl ht hcl'
  obtain ⟨k1, q, cs, ts, k2, _, _, k5⟩ := key
  refine ⟨k1, fun q' hq => ?_⟩
  rw [k2] at hq
  cases hq
  exact k5

theorem Mid.start {w : World} (hw : Inv oc ic w.ctx) (hk : ∀ s, Represents w.ctx.tables s → ∀ id, K id → s.out.phase id ≠ none) :
    Mid w.trace ic K none none w := by
  obtain ⟨_, s, hrep, _, hi⟩ := hw
  exact ⟨[], ⟨[], []⟩, s, by simp, rfl, hrep, hi, by simp, fun id h _ => .inl (hk s hrep id h)⟩

end

end Mqtt
