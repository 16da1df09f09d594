/-
The functions any thread may call: each takes effect in one step.
-/
import Verif.Proof.ThreadSession

namespace Mqtt
open Spec
set_option linter.unusedSimpArgs false

/-- A step that leaves the receive buffer alone. -/
def StepOk {β : Type} (oc ic : Nat) (m : M β) : Prop :=
  ∀ w : World, Inv oc ic w.ctx → wp m (fun _ w' => Ga w w') (StepX w) (fun _ => False) w

/-- A program of which only the last step does anything: the steps before it return without effect, and what they lead to does not depend
on when they are executed. -/
inductive Lin {α : Type} (oc ic : Nat) : Prog α → Prop
  | ret (a : α) : Lin oc ic (.ret a)
  | last {β : Type} {m : M β} {k : β → Prog α} (f : β → α) : (∀ b, k b = .ret (f b)) → StepOk oc ic m → Lin oc ic (.step m k)
  | silent {β : Type} {m : M β} {k : β → Prog α} {p : Prog α} : (∀ w, Inv oc ic w.ctx → ∃ b, m w = .done b w ∧ k b = p) → Lin oc ic p →
      Lin oc ic (.step m k)

section
variable {α β : Type} {oc ic : Nat}

theorem StepOk.of {m : M α} (h : ∀ i buf, Ok false oc ic i buf (sect m) (Same i buf)) : StepOk oc ic (locked m) := by
  intro w hw
  refine wp_mono (h w.ctx.index w.ctx.netBuf w ⟨hw, rfl, rfl⟩ w (Rm.refl w)) ?_ (fun _ h => h) (fun _ h => h)
  rintro b w' ⟨h1, h2⟩
  obtain ⟨i', buf', h3, h4, h5⟩ := h2 w' (Rm.refl w')
  exact ⟨h1, h3.index.trans h4, h3.netBuf.trans h5⟩

theorem Lin.map {p : Prog α} (f : α → β) (h : Lin oc ic p) : Lin oc ic (p >>= fun a => pure (f a)) := by
  show Lin oc ic (p.bind fun a => .ret (f a))
  induction h with
  | ret a => exact .ret (f a)
  | last g hk hs => exact .last (fun b => f (g b)) (fun b => by rw [hk b]; rfl) hs
  | silent hw _ ih =>
    refine .silent (fun w hi => ?_) ih
    obtain ⟨b, h1, h2⟩ := hw w hi
    exact ⟨b, h1, by rw [h2]⟩

theorem Lin.sect {m : M α} (h : ∀ i buf, Ok false oc ic i buf (sect m) (Same i buf)) : Lin oc ic (sect m) :=
  .last id (fun _ => rfl) (StepOk.of h)

theorem Lin.lift {r : Res α} {a : α} (hr : r = .ok a) {f : α → Prog β} (h : Lin oc ic (f a)) : Lin oc ic (act (liftRes r) >>= f) := by
  subst hr
  exact .silent (fun w _ => ⟨a, rfl, rfl⟩) h

theorem Lin.getCtx {f : Ctx → Prog β} {p : Prog β} (hf : ∀ c, Inv oc ic c → f c = p) (h : Lin oc ic p) : Lin oc ic (act getCtx >>= f) :=
  .silent (fun w hw => ⟨w.ctx, rfl, hf _ hw⟩) h

theorem Lin.ite {c : Prop} [Decidable c] {p q : Prog α} (hp : c → Lin oc ic p) (hq : ¬ c → Lin oc ic q) : Lin oc ic (if c then p else q) := by
  split
  · exact hp ‹_›
  · exact hq ‹_›

theorem outgoing_nil {c : Ctx} (h : Inv oc ic c) : (c.tables.outgoing = []) ↔ oc = 0 := by
  rw [← outgoing_length h]
  exact List.length_eq_zero_iff.symm

theorem incoming_nil {c : Ctx} (h : Inv oc ic c) : (c.tables.incoming = []) ↔ ic = 0 := by
  obtain ⟨_, s, hrep, _, hi⟩ := h
  rw [← hi, ← hrep.2.size]
  exact List.length_eq_zero_iff.symm

theorem validatePublish_const {c c' : Ctx} (h : Inv oc ic c) (h' : Inv oc ic c') (p : Option PublishInfo) (id : UInt16) :
    validatePublishParams c p id = validatePublishParams c' p id := by
  unfold validatePublishParams
  simp only [outgoing_nil h, outgoing_nil h']

theorem validateSubs_const {c c' : Ctx} (h : Inv oc ic c) (h' : Inv oc ic c') (l : Option (List SubscribeInfo)) (id : UInt16) :
    validateSubscribeUnsubscribeParams c l id = validateSubscribeUnsubscribeParams c' l id := by
  unfold validateSubscribeUnsubscribeParams
  simp only [incoming_nil h, incoming_nil h']

end

section
variable {sess : Bool} {oc ic i : Nat} {buf : List UInt8}

theorem isHook_false {e : Event} (h1 : e ≠ .pre) (h2 : e ≠ .post) : isHook e = false := by
  cases e with
  | pre => exact absurd rfl h1
  | post => exact absurd rfl h2
  | _ => rfl

theorem noHook_pub {p : PublishInfo} {id : UInt16} {zs : List UInt8} {w w' : World} {st : Status} {es : List Event} (h : PubSent p id zs w st es w') :
    ∀ e ∈ es, isHook e = false := by
  rcases h.2.2 with ⟨_, h, _⟩ | ⟨_, _, rfl, _⟩ | ⟨_, _, snd, rfl, h, _⟩
  · exact noHook_of_kinds h
  · simp [isHook]
  · intro e he
    rcases List.mem_cons.mp he with rfl | he
    · rfl
    · exact noHook_of_kinds h e he

theorem onePacket_publish {p : PublishInfo} {id : UInt16} {W : Nat} (hW : 4294967296 ≤ W) (hv : p.Valid) (hp : p.payloadLength < W)
    (hsz : (getPublishPacketSize W (some p)).status = .success) (hpl : p.pPayload ≠ none ∨ p.payloadLength = 0) :
    OnePacket (publishPacket (p.toSpec id)) := by
  obtain ⟨ht, _, hr, _, hmax⟩ := getPublishPacketSize_ok hW hp (r := (getPublishPacketSize W (some p)).remainingLength)
    (s := (getPublishPacketSize W (some p)).packetSize) (by rw [← hsz])
  refine ⟨_, _, rfl, ?_⟩
  rw [publishBody_length hv ht hpl]
  omega

theorem publishLocked_ok (g : Cfg) (p : PublishInfo) (id : UInt16) (zs : List UInt8) (hpk : OnePacket (publishPacket (p.toSpec id))) (hv : p.Valid)
    (ht : p.pTopicName ≠ none) (hpl : p.pPayload ≠ none ∨ p.payloadLength = 0) (hcap : p.qos ≠ .qos0 → 1 ≤ oc) :
    Ok sess oc ic i buf (sect (publishLocked g p (pubHeader p zs p.dup) (1 + (varInt (pubLen p)).length + 2) id)) (Same i buf) := by
  refine Ok.tr (V := True) (R := fun w _ es h' w' => h' = true ∧ wire es <+: publishPacket (p.toSpec id) ∧ (∀ e ∈ es, isHook e = false) ∧
      w'.ctx.index = w.ctx.index ∧ w'.ctx.netBuf = w.ctx.netBuf)
    (X := fun _ es => wire es <+: publishPacket (p.toSpec id) ∧ (∀ e ∈ es, isHook e = false)) hpk ?_ trivial ?_ (fun _ _ h => h)
  · intro w hw
    obtain ⟨_, s, hrep, ho, _⟩ := hw.inv
    unfold publishLocked
    refine Tr.getCtx ?_
    refine Tr.ite (fun _ => Tr.pure ⟨rfl, List.nil_prefix, by simp, rfl, rfl⟩) ?_
    intro hc
    have hc : w.ctx.connectStatus = .connected := Classical.not_not.mp hc
    refine Tr.bind (reservePublish_tr p id w s hrep (by rw [ho]; exact hcap)) ?_
    rintro st es h' w1 f1 ⟨rfl, rfl, hctx1, htr1, hcase⟩
    refine Tr.ite (fun _ => Tr.pure ⟨rfl, List.nil_prefix, by simp, by rw [hctx1], by rw [hctx1]⟩) ?_
    intro hst
    have hst : st = .success := Classical.not_not.mp hst
    obtain ⟨s1, hrep1⟩ : ∃ s1, Represents w1.ctx.tables s1 := by
      rcases hcase with ⟨_, s1, _, h⟩ | ⟨h1, _⟩
      · exact ⟨s1, h⟩
      · exact absurd hst h1
    have hc1 : w1.ctx.connectStatus = .connected := by rw [hctx1]; exact hc
    refine Tr.bind (R' := fun st es h' w' => h' = true ∧ PubSent p id zs w1 st es w')
      (Tr.mono (sendPublish_tr g p id zs w1 hv ht hpl hc1) (fun _ _ _ _ _ h => h) ?_) ?_
    · intro es hes
      refine ⟨by simpa using hes.1.2.1, ?_⟩
      intro e he
      obtain ⟨h1, h2⟩ := hes.2 e (by simpa using he)
      exact isHook_false h1 h2
    rintro st0 es0 h' w2 f2 ⟨rfl, hps⟩
    obtain ⟨t2, hctx2⟩ := hps.1
    have hrep2 : Represents w2.ctx.tables s1 := by rw [hctx2]; exact hrep1
    have hi2 : w2.ctx.index = w.ctx.index := by rw [hctx2, hctx1]
    have hb2 : w2.ctx.netBuf = w.ctx.netBuf := by rw [hctx2, hctx1]
    refine Tr.ite (fun _ => Tr.pure ⟨rfl, by simpa using hps.sent.1, by simpa using noHook_pub hps, hi2, hb2⟩) ?_
    intro hst0
    refine Tr.mono (notePublishSent_tr p id w2 s1 hrep2 (X := fun _ => False)) ?_ (fun _ h => h.elim)
    rintro st3 es3 h3 w3 f3 ⟨e1, e2, e3, e4, e5⟩
    subst e2
    exact ⟨e1, by simpa using hps.sent.1, by simpa using noHook_pub hps, by rw [e3]; exact hi2, by rw [e3]; exact hb2⟩
  · rintro w a es h' w' _ ⟨h1, h2, h3, h4, h5⟩
    exact ⟨h1, h2, h3, h4, h5, rfl, rfl⟩

theorem publish_lin (g : Cfg) (hg : CfgOk g) (p : Option PublishInfo) (id : UInt16) (hv : ValidCall g (.publish p id)) {c0 : Ctx} (h0 : Inv oc ic c0) :
    Lin oc ic (publishP g p id) := by
  unfold publishP
  refine Lin.getCtx (p := _) (fun c hc => by rw [validatePublish_const hc h0]) ?_
  dsimp only
  refine Lin.ite (fun _ => .ret _) (fun hval => ?_)
  have hval : validatePublishParams c0 p id = .success := Classical.not_not.mp hval
  cases p with
  | none => simp [validatePublishParams] at hval
  | some p =>
    obtain ⟨hv, hp⟩ := hv p rfl
    dsimp only
    refine Lin.ite (fun _ => .ret _) (fun hsz => ?_)
    have hsz : (getPublishPacketSize g.W (some p)).status = .success := Classical.not_not.mp hsz
    obtain ⟨ht, _, hr, _, hmax⟩ := getPublishPacketSize_ok hg.size hp (r := (getPublishPacketSize g.W (some p)).remainingLength)
      (s := (getPublishPacketSize g.W (some p)).packetSize) (by rw [← hsz])
    have hnopay : ¬ (p.payloadLength > 0 ∧ p.pPayload = none) := by
      intro h
      unfold validatePublishParams at hval
      simp only [h] at hval
      split at hval <;> simp at hval
    have hpl : p.pPayload ≠ none ∨ p.payloadLength = 0 := by
      by_cases h : p.pPayload = none
      · right
        rcases Nat.eq_zero_or_pos p.payloadLength with h0 | h0
        · exact h0
        · exact absurd ⟨h0, h⟩ hnopay
      · exact Or.inl h
    have hcap : p.qos ≠ .qos0 → 1 ≤ oc := by
      intro hq
      unfold validatePublishParams at hval
      simp only [hnopay, if_false, outgoing_nil h0] at hval
      split at hval
      · simp at hval
      · split at hval
        · simp at hval
        · rename_i h
          rcases Nat.eq_zero_or_pos oc with h0 | h0
          · exact absurd ⟨h0, hq⟩ h
          · exact h0
    rw [hr]
    obtain ⟨zs, hh⟩ := publishHeader_eq (p := p) (n := pubLen p) (by unfold maxRemaining at hmax; omega)
    refine Lin.lift hh (Lin.sect fun i buf => ?_)
    exact publishLocked_ok g p id zs (onePacket_publish hg.size hv hp hsz hpl) hv ht hpl hcap

theorem subLocked_ok (g : Cfg) (ty : SubType) (subs : List SubscribeInfo) (id : UInt16) (hall : ∀ s ∈ subs, HasBytes s.pTopicFilter s.topicFilterLength.toNat)
    (hmax : 3 ≤ g.subUnsubMaxVectors) (hne : subs ≠ []) (hlen : (subBody ty id subs).length ≤ maxRemaining) :
    Ok sess oc ic i buf (sect (subUnsubLocked g ty subs id (subBody ty id subs).length)) (Same i buf) := by
  refine Ok.tr (V := True) (pkt := subPacket ty id subs) (R := fun w _ es h' w' => h' = true ∧ wire es <+: subPacket ty id subs ∧ (∀ e ∈ es, isHook e = false) ∧
      w'.ctx.index = w.ctx.index ∧ w'.ctx.netBuf = w.ctx.netBuf)
    (X := fun _ es => SendX (subPacket ty id subs) es) ?_ ?_ trivial ?_ (fun _ _ h => ⟨h.2, noHook_of_kinds h.1⟩)
  · cases ty <;> exact ⟨_, _, rfl, hlen⟩
  · intro w hw
    unfold subUnsubLocked
    refine Tr.getCtx (Tr.ite (fun _ => Tr.pure ⟨rfl, List.nil_prefix, by simp, rfl, rfl⟩) ?_)
    intro hc
    have hc : w.ctx.connectStatus = .connected := Classical.not_not.mp hc
    refine Tr.mono (Tr.sends (sendFiltersWithoutCopy_spec g ty subs id w hall ?_ hne hlen) hc) ?_ (fun _ h => h)
    · cases ty <;> simp only [perTopicVectors] <;> omega
    · rintro st es h' w' f ⟨h1, hd, hs⟩
      obtain ⟨t, hctx⟩ := hd.ctx
      exact ⟨h1, hs.prefix, noHook_of_kinds hd.kinds, by rw [hctx], by rw [hctx]⟩
  · rintro w a es h' w' _ ⟨h1, h2, h3, h4, h5⟩
    exact ⟨h1, h2, h3, h4, h5, rfl, rfl⟩

theorem sub_lin (g : Cfg) (hg : CfgOk g) (ty : SubType) (subs : Option (List SubscribeInfo)) (id : UInt16)
    (hv : ∀ l, subs = some l → ValidSubs l ∧ 2 + filtersLen ty l < g.W) {c0 : Ctx} (h0 : Inv oc ic c0) : Lin oc ic (subUnsubP g ty subs id) := by
  unfold subUnsubP
  refine Lin.getCtx (p := _) (fun c hc => by rw [validateSubs_const hc h0]) ?_
  dsimp only
  refine Lin.ite (fun _ => .ret _) (fun hval => ?_)
  have hval : validateSubscribeUnsubscribeParams c0 subs id = .success := Classical.not_not.mp hval
  cases subs with
  | none => simp [validateSubscribeUnsubscribeParams] at hval
  | some subs =>
    obtain ⟨hv, hnw⟩ := hv subs rfl
    rw [getSubscriptionPacketSize_eq hg.size, Nat.mod_eq_of_lt hnw]
    by_cases hb : subs = [] ∨ (∃ s ∈ subs, s.bad) ∨ 2 + filtersLen ty subs > maxRemaining
    · rw [if_pos hb]
      exact Lin.ite (fun _ => .ret _) (fun h => absurd (by decide) h)
    rw [if_neg hb]
    refine Lin.ite (fun h => absurd rfl h) (fun _ => ?_)
    have hne : subs ≠ [] := fun h => hb (Or.inl h)
    have hall' : ∀ s ∈ subs, HasBytes s.pTopicFilter s.topicFilterLength.toNat := by
      intro s hs
      have : ¬ s.bad := fun h => hb (Or.inr (Or.inl ⟨s, hs, h⟩))
      unfold SubscribeInfo.bad at this
      exact hv s hs (fun h => this (Or.inr h))
    have hbl : (subBody ty id subs).length = 2 + filtersLen ty subs := by
      rw [subBody_eq, List.length_append, be16_length, filters_length hall']
    have hlen : (subBody ty id subs).length ≤ maxRemaining := by
      rw [hbl]
      exact Nat.le_of_not_lt fun h => hb (Or.inr (Or.inr h))
    dsimp only
    rw [← hbl]
    exact Lin.sect fun i buf => subLocked_ok g ty subs id hall' hg.vectors hne hlen

/-- A section without transmission. -/
theorem Ok.hooks {α : Type} {m : M α} {Q : α → Nat → List UInt8 → Prop}
    (h : ∀ w : World, At oc ic i buf w.ctx → ∃ a c', m w = .done a { w with ctx := c' } ∧ SessCtx w.ctx c' ∧
      c'.connectStatus = w.ctx.connectStatus ∧ c'.index = w.ctx.index ∧ c'.netBuf = w.ctx.netBuf ∧ Q a i buf) :
    Ok sess oc ic i buf (sect m) Q := by
  refine Ok.step fun w hw => ?_
  rw [wp_locked]
  obtain ⟨a, c', h1, h2, h3, h4, h5, h6⟩ := h (w.add .pre) hw
  unfold wp
  rw [h1]
  have hi := h2.inv _ _ hw.inv
  refine ⟨⟨[.pre, .post], ?_, h2.writev, h2.retransmits, h2.bufSize, h2.inv, ?_, ?_⟩, i, buf, ⟨hi, h4.trans hw.index, h5.trans hw.netBuf⟩, h6⟩
  · simp [World.add]
  · exact .section (body := []) (.inl onePacket_ping) List.nil_prefix (by simp)
  · intro _
    exact ⟨by simp [quietAfterSendFail, isSendFail], fun _ => ⟨by simp [noSent, isSent], h3⟩, by simp [isSendFail]⟩

theorem cancel_lin (id : UInt16) (hid : id ≠ 0) : Lin oc ic (cancelP id) := by
  unfold cancelP
  refine Lin.getCtx (p := if oc = 0 then pure .badParameter else sect (onTables fun t => removeStateRecord t id)) (fun c hc => ?_) ?_
  · by_cases h : oc = 0
    · rw [if_pos h, if_pos ((outgoing_nil hc).mpr h)]
    · rw [if_neg h, if_neg (fun h' => h ((outgoing_nil hc).mp h'))]
  refine Lin.ite (fun _ => .ret _) (fun _ => Lin.sect fun i buf => ?_)
  refine Ok.hooks fun w hw => ?_
  obtain ⟨hidx, s, hrep, ho, hi⟩ := hw.inv
  obtain ⟨T, h1, h2, h3, h4⟩ := stateCall_refines' hrep (.cancel id) trivial (by simpa using hid)
  simp only [stateCall] at h1
  obtain ⟨⟨st, T'⟩, h5, h6⟩ := Res.bind_eq_ok.mp h1
  simp only [Res.pure_eq, Res.ok.injEq, Prod.mk.injEq] at h6
  obtain ⟨h6, rfl⟩ := h6
  refine ⟨st, { w.ctx with tables := T' }, ?_, ⟨rfl, rfl, rfl, ?_⟩, rfl, rfl, rfl, rfl, rfl⟩
  · simp only [onTables, h5]
  · rintro oc ic ⟨k1, s', k2, k3, k4⟩
    obtain rfl := represents_unique hrep k2
    exact ⟨k1, _, h2, h3.trans k3, h4.trans k4⟩

theorem ping_lin (g : Cfg) : Lin oc ic (pingP g) := by
  unfold pingP
  dsimp only
  refine Lin.ite (fun h => absurd rfl h) (fun _ => ?_)
  refine Lin.lift (a := ()) rfl (Lin.lift serializePingreq_eq ?_)
  refine Lin.ite (fun h => absurd rfl h) (fun _ => ?_)
  exact Lin.sect fun i buf => pingLocked_ok g

theorem check_lin : Lin oc ic checkP := Lin.map (fun c : Ctx => connectStatusCode c.connectStatus) (Lin.sect fun _ _ => sectGetCtx_ok)

theorem getPacketId_lin : Lin oc ic getPacketIdP := by
  refine Lin.sect fun i buf => Ok.hooks fun w _ => ?_
  exact ⟨_, { w.ctx with nextPacketId := (getPacketId w.ctx.nextPacketId).2 }, rfl, SessCtx.of rfl rfl rfl rfl rfl, rfl, rfl, rfl, rfl, rfl⟩

/-- Every function any thread may call. -/
theorem callP_lin (g : Cfg) (hg : CfgOk g) (c : ApiCall) (hc : sharedCall c = true) (hv : ValidCall g c) {c0 : Ctx} (h0 : Inv oc ic c0) :
    Lin oc ic (callP g c) := by
  cases c with
  | publish p id => exact Lin.map ApiRet.status (publish_lin g hg p id hv h0)
  | subscribe l id => exact Lin.map ApiRet.status (sub_lin g hg .subscribe l id hv h0)
  | unsubscribe l id => exact Lin.map ApiRet.status (sub_lin g hg .unsubscribe l id hv h0)
  | ping => exact Lin.map ApiRet.status (ping_lin g)
  | cancelCallback id => exact Lin.map ApiRet.status (cancel_lin id hv)
  | checkConnectStatus => exact Lin.map ApiRet.status check_lin
  | getPacketId => exact Lin.map ApiRet.packetId getPacketId_lin
  | _ => cases hc

end

end Mqtt
