/-
`MQTT_Connect` and `MQTT_Disconnect` in the thread that receives.
-/
import Verif.Proof.ThreadRecv

namespace Mqtt
open Spec
set_option linter.unusedSimpArgs false

section
variable {oc ic i : Nat} {buf : List UInt8}

/-- A section of `MQTT_Connect` or `MQTT_Disconnect`. -/
theorem StepFx.session {w w1 : World} {body : List Event} {pkt : List UInt8} (ht : w1.trace = (w.add .pre).trace ++ body)
    (hw : w1.ctx.hasWritev = w.ctx.hasWritev) (hr : w1.ctx.retransmits = w.ctx.retransmits) (hb : w1.ctx.bufSize = w.ctx.bufSize)
    (hi : ∀ oc ic, Inv oc ic w.ctx → Inv oc ic w1.ctx) (hp : Sendable w.trace pkt) (hwire : wire body <+: pkt)
    (hh : (∃ e ∈ body, isHook e = true) → ∃ n, Event.recvd n none ∈ body) : StepFx true w (.pre :: (body ++ [.post])) (w1.add .post) := by
  refine ⟨?_, hw, hr, hb, hi, .section hp hwire hh, fun h => by cases h⟩
  show w1.trace ++ [.post] = _
  rw [ht]
  simp [World.add]

theorem StepX.session {w w1 : World} {body : List Event} {pkt : List UInt8} (ht : w1.trace = (w.add .pre).trace ++ body)
    (hp : Sendable w.trace pkt) (hwire : wire body <+: pkt)
    (hh : (∃ e ∈ body, isHook e = true) → ∃ n, Event.recvd n none ∈ body) : StepX w w1 :=
  ⟨.pre :: body, by rw [ht]; simp [World.add], .section hp hwire hh⟩

theorem RecvX.hooks {es : List Event} (h : RecvX es) : (∃ e ∈ es, isHook e = true) → ∃ n, Event.recvd n none ∈ es := by
  induction h with
  | nil => rintro ⟨e, he, _⟩; cases he
  | @cons e es hk _ ih =>
    rintro ⟨x, hx, hh⟩
    rcases List.mem_cons.mp hx with rfl | hx
    · cases x <;> simp_all [isRecvOrTime, isHook]
    · obtain ⟨n, hn⟩ := ih ⟨x, hx, hh⟩
      exact ⟨n, List.mem_cons_of_mem _ hn⟩
  | failed n _ _ => exact fun _ => ⟨n, List.mem_cons_self⟩

theorem stateSelectLoop_le {m : Nat} {recs : Records} {cursor : Nat} (h : cursor ≤ recs.length) :
    ∃ id cursor', stateSelectLoop recs m cursor = .ok (id, cursor') ∧ cursor' ≤ recs.length ∧ (id ≠ 0 → cursor < cursor') := by
  have e : recs.take cursor ++ recs.drop cursor = recs := List.take_append_drop _ _
  have hl : (recs.take cursor).length = cursor := by simp; omega
  rcases stateSelectLoop_cases m (recs.take cursor) (recs.drop cursor) with ⟨_, h2⟩ | ⟨b1, r, b2, h1, _, _, h4⟩
  · rw [e, hl] at h2
    exact ⟨0, _, h2, Nat.le_refl _, fun h => absurd rfl h⟩
  · rw [e, hl] at h4
    refine ⟨_, _, h4, ?_, fun _ => ?_⟩
    · have := congrArg List.length e
      rw [h1] at this
      simp at this ⊢
      omega
    · simp; omega

theorem outgoing_length {c : Ctx} (h : Inv oc ic c) : c.tables.outgoing.length = oc := by
  obtain ⟨_, s, hrep, ho, _⟩ := h
  rw [hrep.1.size, ho]

theorem resendPubrels_ok (g : Cfg) (n cursor : Nat) (h1 : cursor ≤ oc) (h2 : oc < cursor + n) :
    Ok true oc ic i buf (resendPubrelsP g n cursor) (Same i buf) := by
  induction n generalizing cursor with
  | zero => omega
  | succ n ih =>
    unfold resendPubrelsP
    refine Ok.getCtx fun c hc => ?_
    have hlen := outgoing_length hc.inv
    obtain ⟨id, cursor', e1, e2, e3⟩ := stateSelectLoop_le (m := pubrelBits) (recs := c.tables.outgoing) (cursor := cursor) (by omega)
    refine Ok.lift (a := (id, cursor', if id ≠ 0 then some .pubRelSend else none)) ?_ ?_
    · show (do
        let r ← stateSelectLoop c.tables.outgoing pubrelBits cursor
        pure (r.1, r.2, if r.1 ≠ 0 then some PubState.pubRelSend else none)) = _
      rw [e1]
      rfl
    dsimp only
    refine Ok.ite (fun _ => Ok.pure ⟨rfl, rfl⟩) (fun hid => ?_)
    have := e3 hid
    refine Ok.seq (sendPublishAcks_ok g id _) ?_
    intro st
    refine Ok.ite (fun _ => Ok.pure ⟨rfl, rfl⟩) (fun _ => ?_)
    exact ih cursor' (by omega) (by omega)

theorem resendOne_ok (g : Cfg) (id : UInt16) {x : Status} {k : List UInt8 → Option Nat → Prog Status}
    {Q : Status → Nat → List UInt8 → Prop} (hx : Q x i buf) (hk : ∀ bytes r, Ok true oc ic i buf (k bytes r) Q) :
    Ok true oc ic i buf (act (retrieveCallback id) >>= fun r => match r with
      | none => pure x
      | some bytes => sect (sendBuffer g bytes) >>= k bytes) Q := by
  intro w hw w1 hr1
  have hw1 := hw.stable hr1
  refine wp_retrieveCallback (StepX.refl w1) ?_
  intro p rest _
  refine ⟨⟨[.retrieve id p], StepFx.same rfl (by simp [isSent, isHook]) rfl⟩, ?_⟩
  cases p with
  | none => exact Ok.pure (a := x) hx _ hw1
  | some bytes =>
    intro w3 hr3
    have hw3 : At oc ic i buf w3.ctx := At.stable (c := { w1 with env := { w1.env with retrieves := rest }, trace := w1.trace ++ [.retrieve id (some bytes)] }) hw1 hr3
    have hmem : Event.retrieve id (some bytes) ∈ w3.trace := hr3.trace.subset (by simp)
    rw [wp_locked]
    refine wp_mono (sendBuffer_spec g bytes (w3.add .pre)) ?_ ?_ (fun _ h => h)
    · rintro r w4 ⟨es, n, hd, hn, hwire, _⟩
      obtain ⟨t, hctx⟩ := hd.ctx
      have hsf : StepFx true w3 (.pre :: (es ++ [.post])) (w4.add .post) := by
        refine StepFx.session (pkt := bytes) hd.trace ?_ ?_ ?_ ?_ (.inr ⟨id, hmem⟩) (by rw [hwire]; exact List.take_prefix _ _) ?_
        · rw [hctx]; rfl
        · rw [hctx]; rfl
        · rw [hctx]; rfl
        · intro oc ic h; rw [hctx]; exact h
        · rintro ⟨e, he, hh⟩
          rw [noHook_of_kinds hd.kinds e he] at hh
          cases hh
      refine ⟨⟨_, hsf⟩, ?_⟩
      refine hk bytes r _ ⟨hsf.inv _ _ hw3.inv, ?_, ?_⟩
      · show w4.ctx.index = _
        rw [hctx]; exact hw3.index
      · show w4.ctx.netBuf = _
        rw [hctx]; exact hw3.netBuf
    · rintro w4 ⟨es, hd, hs⟩
      refine StepX.session hd.trace (.inr ⟨id, hmem⟩) hs ?_
      rintro ⟨e, he, hh⟩
      rw [noHook_of_kinds hd.kinds e he] at hh
      cases hh

theorem resendPublishes_ok (g : Cfg) (n cursor : Nat) (h1 : cursor ≤ oc) (h2 : oc < cursor + n) :
    Ok true oc ic i buf (resendPublishesP g n cursor) (Same i buf) := by
  induction n generalizing cursor with
  | zero => omega
  | succ n ih =>
    unfold resendPublishesP
    refine Ok.getCtx fun c hc => ?_
    have hlen := outgoing_length hc.inv
    obtain ⟨id, cursor', e1, e2, e3⟩ := stateSelectLoop_le (m := publishBits) (recs := c.tables.outgoing) (cursor := cursor) (by omega)
    refine Ok.lift (a := (id, cursor')) e1 ?_
    dsimp only
    refine Ok.ite (fun _ => Ok.pure ⟨rfl, rfl⟩) (fun hid => ?_)
    have := e3 hid
    refine resendOne_ok g id ⟨rfl, rfl⟩ ?_
    intro bytes r
    refine Ok.ite (fun _ => Ok.pure ⟨rfl, rfl⟩) (fun _ => ?_)
    exact ih cursor' (by omega) (by omega)

theorem handleUncleanSessionResumption_ok (g : Cfg) : Ok true oc ic i buf (handleUncleanSessionResumptionP g) (Same i buf) := by
  unfold handleUncleanSessionResumptionP
  refine Ok.getCtx fun c hc => ?_
  have hlen := outgoing_length hc.inv
  dsimp only
  refine Ok.seq (resendPubrels_ok g _ 0 (Nat.zero_le _) (by omega)) ?_
  intro st
  exact Ok.ite (fun _ => resendPublishes_ok g _ 0 (Nat.zero_le _) (by omega)) (fun _ => Ok.pure ⟨rfl, rfl⟩)

theorem connectFailed_ok (st : Status) : Ok true oc ic i buf (connectFailedP st) (Same i buf) := by
  unfold connectFailedP
  exact Ok.ite (fun _ => Ok.pure ⟨rfl, rfl⟩) (fun _ => markPending_ok)

/-- Context properties the session changes respect. -/
structure SessCtx (c c' : Ctx) : Prop where
  writev : c'.hasWritev = c.hasWritev
  retransmits : c'.retransmits = c.retransmits
  bufSize : c'.bufSize = c.bufSize
  inv : ∀ oc ic, Inv oc ic c → Inv oc ic c'

theorem SessCtx.trans {a b c : Ctx} (h : SessCtx a b) (h' : SessCtx b c) : SessCtx a c :=
  ⟨h'.writev.trans h.writev, h'.retransmits.trans h.retransmits, h'.bufSize.trans h.bufSize, fun oc ic hi => h'.inv oc ic (h.inv oc ic hi)⟩

theorem sect_session {α : Type} {m : M α} {pkt : List UInt8} {Q : α → Nat → List UInt8 → Prop} (hp : OnePacket pkt)
    (h : ∀ w, At oc ic i buf w.ctx → wp m
      (fun a w' => ∃ es, w'.trace = w.trace ++ es ∧ SessCtx w.ctx w'.ctx ∧ wire es <+: pkt ∧
        ((∃ e ∈ es, isHook e = true) → ∃ n, Event.recvd n none ∈ es) ∧ Q a w'.ctx.index w'.ctx.netBuf)
      (fun w' => ∃ es, w'.trace = w.trace ++ es ∧ wire es <+: pkt ∧ ((∃ e ∈ es, isHook e = true) → ∃ n, Event.recvd n none ∈ es))
      (fun _ => False) w) : Ok true oc ic i buf (sect m) Q := by
  refine Ok.step fun w hw => ?_
  rw [wp_locked]
  refine wp_mono (h (w.add .pre) hw) ?_ ?_ (fun _ h => h)
  · rintro a w' ⟨es, h1, h2, h3, h4, h5⟩
    have f := StepFx.session (w := w) h1 h2.writev h2.retransmits h2.bufSize h2.inv (.inl hp) h3 h4
    exact ⟨⟨_, f⟩, _, _, ⟨f.inv _ _ hw.inv, rfl, rfl⟩, h5⟩
  · rintro w' ⟨es, h1, h2, h3⟩
    exact StepX.session h1 (.inl hp) h2 h3

theorem noHooks {es : List Event} (h : ∀ e ∈ es, isSendOrTime e = true) : (∃ e ∈ es, isHook e = true) → ∃ n, Event.recvd n none ∈ es := by
  rintro ⟨e, he, hh⟩
  rw [noHook_of_kinds h e he] at hh
  cases hh

theorem hooks_append {a b : List Event} (ha : ∀ e ∈ a, isHook e = false) (hb : (∃ e ∈ b, isHook e = true) → ∃ n, Event.recvd n none ∈ b) :
    (∃ e ∈ a ++ b, isHook e = true) → ∃ n, Event.recvd n none ∈ a ++ b := by
  rintro ⟨e, he, hh⟩
  rcases List.mem_append.mp he with he | he
  · rw [ha e he] at hh; cases hh
  · obtain ⟨n, hn⟩ := hb ⟨e, he, hh⟩
    exact ⟨n, List.mem_append_right _ hn⟩

theorem hooks_append_right {a b : List Event} (ha : (∃ e ∈ a, isHook e = true) → ∃ n, Event.recvd n none ∈ a) (hb : ∀ e ∈ b, isHook e = false) :
    (∃ e ∈ a ++ b, isHook e = true) → ∃ n, Event.recvd n none ∈ a ++ b := by
  rintro ⟨e, he, hh⟩
  rcases List.mem_append.mp he with he | he
  · obtain ⟨n, hn⟩ := ha ⟨e, he, hh⟩
    exact ⟨n, List.mem_append_left _ hn⟩
  · rw [hb e he] at hh; cases hh

theorem noHook_clears (r : Bool) (s : InFlight) : ∀ e ∈ cleanClears r s, isHook e = false := by
  intro e he
  unfold cleanClears at he
  split at he
  · obtain ⟨id, _, rfl⟩ := List.mem_map.mp he
    rfl
  · cases he

theorem SessCtx.refl (c : Ctx) : SessCtx c c := ⟨rfl, rfl, rfl, fun _ _ h => h⟩

theorem SessCtx.of {c c' : Ctx} (hw : c'.hasWritev = c.hasWritev) (hr : c'.retransmits = c.retransmits) (hb : c'.bufSize = c.bufSize)
    (hi : c'.index = c.index) (ht : c'.tables = c.tables) : SessCtx c c' :=
  ⟨hw, hr, hb, fun _ _ h => ⟨by rw [hi, hb]; exact h.1, by rw [ht]; exact h.2⟩⟩

/-- The packet a section of `MQTT_Connect` sends; any packet when there is a will message without a topic, which is not sent. -/
theorem onePacket_connect {ci : ConnectInfo} {will : Option PublishInfo} {r sz : Nat}
    (hs : getConnectPacketSize (some ci) will = ⟨.success, r, sz⟩) (hv : ci.Valid will) (hw : ∀ x, will = some x → x.pTopicName ≠ none) :
    OnePacket (connectPacket (ci.toSpec will)) := by
  obtain ⟨_, _, _, h1, _, h2, _⟩ := getConnectPacketSize_ok hs hv hw
  exact ⟨_, _, rfl, by rw [← h1]; unfold maxRemaining; omega⟩

theorem sess_cleaned (c : Ctx) : SessCtx c (cleanedCtx c) := by
  refine ⟨rfl, rfl, by simp [cleanedCtx, Ctx.bufSize], ?_⟩
  rintro oc ic ⟨_, s, h1, h2, h3⟩
  exact ⟨Nat.zero_le _, _, represents_empty h1, h2, h3⟩

theorem connectLocked_ok (g : Cfg) {ci : ConnectInfo} {will : Option PublishInfo} {r sz : Nat} (timeoutMs : UInt32) (sp0 : Bool)
    (hs : getConnectPacketSize (some ci) will = ⟨.success, r, sz⟩) (hv : ci.Valid will) :
    Ok true oc ic i buf (sect (connectLocked g ci will r timeoutMs sp0)) (fun _ i' buf' => i' ≤ buf'.length) := by
  obtain ⟨pkt, hp, hpkt⟩ : ∃ pkt, OnePacket pkt ∧ ((∀ x, will = some x → x.pTopicName ≠ none) → pkt = connectPacket (ci.toSpec will)) := by
    by_cases hw : ∀ x, will = some x → x.pTopicName ≠ none
    · exact ⟨_, onePacket_connect hs hv hw, fun _ => rfl⟩
    · exact ⟨_, onePacket_ping, fun h => absurd h hw⟩
  refine sect_session hp ?_
  intro w hw
  have hle : ∀ {c : Ctx}, SessCtx w.ctx c → c.index ≤ c.netBuf.length := fun h => (h.inv _ _ hw.inv).1
  unfold connectLocked
  rw [wp_bind, wp_getCtx, wp_ite]
  refine ⟨fun _ => ?_, fun hn => ?_⟩
  · rw [wp_pure]
    exact ⟨[], by simp, .refl _, List.nil_prefix, by simp, hle (.refl _)⟩
  have hn : w.ctx.connectStatus = .notConnected := Classical.not_not.mp hn
  rw [wp_bind]
  refine wp_mono (sendConnectWithoutCopy_spec g ci will r sz _ hs hv) ?_ ?_ (fun _ h => h)
  rotate_left
  · rintro w1 ⟨hx, es, hd, h⟩
    rw [hpkt hx]
    exact ⟨es, hd.trace, h, noHooks hd.kinds⟩
  rintro st w1 (⟨hx, rfl, rfl⟩ | ⟨hx, snd, hd, h⟩)
  · rw [if_pos (by decide), wp_pure]
    exact ⟨[], by simp, .refl _, List.nil_prefix, by simp, hle (.refl _)⟩
  obtain ⟨t, ht⟩ := hd.ctx
  have hwire : wire snd <+: pkt := by rw [hpkt hx]; exact h.prefix
  have s1 : SessCtx w.ctx w1.ctx := SessCtx.of (by rw [ht]) (by rw [ht]) (by rw [ht]; rfl) (by rw [ht]) (by rw [ht])
  rw [wp_ite]
  refine ⟨fun _ => ?_, fun _ => ?_⟩
  · rw [wp_pure]
    exact ⟨snd, hd.trace, s1, hwire, noHooks hd.kinds, hle s1⟩
  have hn1 : w1.ctx.connectStatus = .notConnected := by
    rw [ht]
    simp [afterFail, hn]
  rw [wp_bind]
  refine wp_mono ((receiveConnack_tr g timeoutMs ci.cleanSession sp0 w1 hn1).toWp trivial (s1.inv _ _ hw.inv)) ?_ ?_ (fun _ h => h)
  rotate_left
  · rintro w2 ⟨ca, h', f, hca⟩
    refine ⟨snd ++ ca, by rw [f.trace, hd.trace, List.append_assoc], ?_, hooks_append (noHook_of_kinds hd.kinds) hca.1.hooks⟩
    rw [wire_append, wire_of_recv hca.1, List.append_nil]
    exact hwire
  rintro ⟨st, sp⟩ w2 ⟨ca, h', f, hca⟩
  obtain ⟨b, hb, hc2⟩ := hca.ctx
  have s2 : SessCtx w.ctx w2.ctx := s1.trans (SessCtx.of (by rw [hc2]) (by rw [hc2]) (by rw [hc2]; exact hb) (by rw [hc2]) (by rw [hc2]))
  have ht2 : w2.trace = w.trace ++ (snd ++ ca) := by rw [f.trace, hd.trace, List.append_assoc]
  have hw2 : wire (snd ++ ca) <+: pkt := by
    rw [wire_append, wire_of_recv hca.recv, List.append_nil]
    exact hwire
  have hh2 : (∃ e ∈ snd ++ ca, isHook e = true) → ∃ n, Event.recvd n none ∈ snd ++ ca := hooks_append (noHook_of_kinds hd.kinds) hca.recv.hooks
  dsimp only
  rw [wp_ite]
  refine ⟨fun _ => ?_, fun _ => ?_⟩
  · rw [wp_pure]
    exact ⟨_, ht2, s2, hw2, hh2, hle s2⟩
  obtain ⟨_, s, hrep, _, _⟩ := s2.inv _ _ hw.inv
  have fin : ∀ c : Ctx, SessCtx c (connectedCtx c ci.keepAliveSeconds) := fun c => SessCtx.of rfl rfl rfl rfl rfl
  cases sp with
  | false =>
    rw [wp_bind, if_pos rfl]
    have hcs : wp handleCleanSession (fun st w' => st = .success ∧ w' = { w2 with ctx := cleanedCtx w2.ctx, trace := w2.trace ++ cleanClears w2.ctx.retransmits s })
        (fun _ => False) (fun _ => False) w2 := by
      unfold wp
      rw [handleCleanSession_eq w2 s hrep]
      exact ⟨rfl, rfl⟩
    refine wp_mono hcs ?_ (fun _ h => h.elim) (fun _ h => h.elim)
    rintro st' w3 ⟨rfl, rfl⟩
    rw [if_pos rfl, wp_bind, wp_modifyCtx, wp_pure]
    have s3 := (s2.trans (sess_cleaned w2.ctx)).trans (fin _)
    refine ⟨(snd ++ ca) ++ cleanClears w2.ctx.retransmits s, ?_, s3, ?_, hooks_append_right hh2 (noHook_clears _ _), hle s3⟩
    · show w2.trace ++ _ = _
      rw [ht2]
      simp
    · rw [wire_append, wire_clears, List.append_nil]
      exact hw2
  | true =>
    rw [if_neg (by decide), wp_bind, wp_pure, if_pos rfl, wp_bind, wp_modifyCtx, wp_pure]
    have s3 := s2.trans (fin _)
    exact ⟨_, ht2, s3, hw2, hh2, hle s3⟩

theorem connect_ok (g : Cfg) (ci : Option ConnectInfo) (will : Option PublishInfo) (timeoutMs : UInt32) (sp : Option Bool)
    (hv : ∀ c, ci = some c → c.Valid will) (hi : i ≤ buf.length) :
    Ok true oc ic i buf (connectP g ci will timeoutMs sp) (fun _ i' buf' => i' ≤ buf'.length) := by
  have bad : Ok true oc ic i buf (do connectFailedP .badParameter; pure (Status.badParameter, sp)) (fun _ i' buf' => i' ≤ buf'.length) :=
    Ok.seq (connectFailed_ok _) fun _ => Ok.pure hi
  unfold connectP
  cases ci with
  | none => exact bad
  | some ci =>
    cases sp with
    | none => exact bad
    | some sp0 =>
      dsimp only
      refine Ok.bind (P := fun _ i' buf' => i' ≤ buf'.length) ?_ ?_
      · refine Ok.ite (fun hsz => ?_) (fun _ => Ok.pure hi)
        obtain ⟨r, sz, hsize⟩ : ∃ r sz, getConnectPacketSize (some ci) will = ⟨.success, r, sz⟩ := by
          cases hg : getConnectPacketSize (some ci) will with
          | mk st r sz => rw [hg] at hsz; dsimp only at hsz; subst hsz; exact ⟨r, sz, rfl⟩
        rw [hsize]
        unfold connectCoreP
        refine Ok.bind (connectLocked_ok g timeoutMs sp0 hsize (hv ci rfl)) ?_
        rintro ⟨st, sp⟩ i' buf' hi'
        dsimp only
        refine Ok.ite (fun _ => ?_) (fun _ => Ok.pure hi')
        exact Ok.seq (handleUncleanSessionResumption_ok g) fun _ => Ok.pure hi'
      · rintro ⟨st, sp1⟩ i' buf' hi'
        exact Ok.seq (connectFailed_ok _) fun _ => Ok.pure hi'

theorem disconnect_ok (g : Cfg) (hi : i ≤ buf.length) : Ok true oc ic i buf (disconnectP g) (fun _ i' buf' => i' ≤ buf'.length) := by
  unfold disconnectP
  refine Ok.lift serializeDisconnect_eq ?_
  dsimp only
  refine Ok.ite (fun h => absurd rfl h) (fun _ => ?_)
  refine sect_session (pkt := disconnectPacket) ⟨0xE0, [], by decide +kernel, by simp⟩ ?_
  intro w hw
  unfold disconnectLocked
  rw [wp_bind, wp_getCtx, wp_ite]
  refine ⟨fun _ => ?_, fun hn => ?_⟩
  · rw [wp_pure]
    exact ⟨[], by simp, .refl _, List.nil_prefix, by simp, by rw [hw.index, hw.netBuf]; exact hi⟩
  · unfold resetBuffer
    rw [wp_bind, wp_modifyCtx, wp_bind, wp_modifyCtx]
    simp only [Option.getD_some]
    refine wp_mono (sendBuffer_sends g disconnectPacket _) ?_ ?_ (fun _ h => h)
    · rintro st w1 ⟨es, hd, hs⟩
      obtain ⟨t, ht⟩ := hd.ctx
      have hb : w1.ctx.bufSize = w.ctx.bufSize := by rw [ht]; simp [Ctx.bufSize]
      refine ⟨es, hd.trace, ⟨by rw [ht], by rw [ht], hb, ?_⟩, hs.prefix, noHooks hd.kinds, ?_⟩
      · rintro oc ic ⟨_, h⟩
        rw [ht]
        exact ⟨Nat.zero_le _, h⟩
      · rw [ht]
        exact Nat.zero_le _
    · rintro w1 ⟨es, hd, hs⟩
      exact ⟨es, hd.trace, hs, noHooks hd.kinds⟩

end

end Mqtt
