/-
What `MQTT_Connect` and `MQTT_Disconnect` do.
-/
import Verif.Proof.EffectsResume

namespace Mqtt
open Spec
set_option linter.unusedSimpArgs false

theorem serializeDisconnect_eq : serializeDisconnect (some ⟨some [0, 0], 2⟩) = .ok (.success, some disconnectPacket) := by decide +kernel

/-- The context after `MQTT_Disconnect` on a connection. -/
def disconnectedCtx (c : Ctx) (t : UInt32) : Ctx :=
  { c with connectStatus := .notConnected, netBuf := List.replicate c.bufSize 0, index := 0, lastPacketTxTime := t }

/-- What `MQTT_Disconnect` did. -/
structure DisconnectDone (w : World) (st : Status) (es : List Event) (w' : World) : Prop where
  trace : w'.trace = w.trace ++ es
  input : w'.env.input = w.env.input
  cases : (w.ctx.connectStatus = .notConnected ∧ st = .statusNotConnected ∧ es = [.pre, .post] ∧ w'.ctx = w.ctx) ∨
    (w.ctx.connectStatus ≠ .notConnected ∧ ∃ snd, es = .pre :: (snd ++ [.post]) ∧ (∀ e ∈ snd, isSendOrTime e = true) ∧ quietAfterFail snd ∧
      SentResult disconnectPacket st snd ∧ ∃ t, w'.ctx = disconnectedCtx w.ctx t)

/-- `MQTT_Disconnect` did not return. -/
def DisconnectX (w : World) (w' : World) : Prop :=
  ∃ snd, w'.trace = w.trace ++ .pre :: snd ∧ (∀ e ∈ snd, isSendOrTime e = true) ∧ quietAfterFail snd ∧ wire snd <+: disconnectPacket ∧
    w'.env.input = w.env.input ∧ ∃ t, w'.ctx = disconnectedCtx w.ctx t

theorem mqttDisconnect_spec (g : Cfg) (w : World) :
    wp (mqttDisconnect g) (fun st w' => ∃ es, DisconnectDone w st es w') (DisconnectX w) (fun _ => False) w := by
  unfold mqttDisconnect
  rw [wp_bind, wp_liftRes_ok serializeDisconnect_eq]
  dsimp only
  rw [if_neg (by simp), wp_bind, wp_preHook, wp_bind, wp_getCtx, wp_bind, wp_ite]
  refine ⟨fun hn => ?_, fun hn => ?_⟩
  · rw [wp_pure, wp_bind, wp_postHook, wp_pure]
    exact ⟨[.pre, .post], by simp, rfl, Or.inl ⟨hn, rfl, rfl, rfl⟩⟩
  · unfold resetBuffer
    rw [wp_bind, wp_modifyCtx, wp_bind, wp_modifyCtx]
    simp only [Option.getD_some]
    refine wp_mono (sendBuffer_sends g disconnectPacket _) ?_ ?_ (fun _ h => h)
    · rintro st w1 ⟨es, hd, hs⟩
      obtain ⟨t, ht⟩ := hd.ctx
      obtain ⟨ss, cc, he⟩ := hd.env
      rw [wp_bind, wp_postHook, wp_pure]
      refine ⟨.pre :: (es ++ [.post]), by simp [hd.trace], by simp [he], Or.inr ⟨hn, es, rfl, hd.kinds, hd.quiet, hs, t, ?_⟩⟩
      show w1.ctx = _
      rw [ht]
      simp [afterFail, disconnectedCtx, Ctx.bufSize]
    · rintro w1 ⟨es, hd, hs⟩
      obtain ⟨t, ht⟩ := hd.ctx
      obtain ⟨ss, cc, he⟩ := hd.env
      refine ⟨es, by simp [hd.trace], hd.kinds, hd.quiet, hs, by simp [he], t, ?_⟩
      rw [ht]
      simp [afterFail, disconnectedCtx, Ctx.bufSize]

/-! ### Connect -/

/-- The context right after an accepted CONNACK. -/
def connectedCtx (c : Ctx) (keepAlive : UInt16) : Ctx :=
  { c with connectStatus := .connected, keepAliveIntervalSec := keepAlive, waitingForPingResp := false, pingReqSendTimeMs := 0 }

/-- What `MQTT_Connect` did.  `s` are the in-flight publishes before the call. -/
inductive ConnectDone (g : Cfg) (ci : ConnectInfo) (will : Option PublishInfo) (timeoutMs : UInt32) (sp0 : Bool) (s : InFlight) (w : World) :
    Status → Bool → List Event → World → Prop
  /-- the parameters do not describe a CONNECT packet -/
  | badSize {st : Status} {w' : World} : st ≠ .success → st = (getConnectPacketSize (some ci) will).status →
      w'.ctx = { w.ctx with connectStatus := afterFail true w.ctx.connectStatus } → ConnectDone g ci will timeoutMs sp0 s w st sp0 [.pre, .post] w'
  /-- there is a connection -/
  | already {st : Status} {w' : World} : (getConnectPacketSize (some ci) will).status = .success → w.ctx.connectStatus ≠ .notConnected → w'.ctx = w.ctx →
      st = (if w.ctx.connectStatus = .connected then .statusConnected else .statusDisconnectPending) →
      ConnectDone g ci will timeoutMs sp0 s w st sp0 [.pre, .post] w'
  /-- a will without a topic -/
  | noTopic {w' : World} : (getConnectPacketSize (some ci) will).status = .success → w.ctx.connectStatus = .notConnected →
      (∃ x, will = some x ∧ x.pTopicName = none) → w'.ctx = w.ctx →
      ConnectDone g ci will timeoutMs sp0 s w .badParameter sp0 [.pre, .post, .pre, .post] w'
  /-- the CONNECT could not be sent -/
  | notSent {snd : List Event} {w' : World} {t : UInt32} : (getConnectPacketSize (some ci) will).status = .success → w.ctx.connectStatus = .notConnected →
      (∀ x, will = some x → x.pTopicName ≠ none) →
      (∀ e ∈ snd, isSendOrTime e = true) → quietAfterFail snd → SentResult (connectPacket (ci.toSpec will)) .sendFailed snd →
      w'.ctx = { w.ctx with lastPacketTxTime := t } →
      ConnectDone g ci will timeoutMs sp0 s w .sendFailed sp0 (.pre :: (snd ++ [.post, .pre, .post])) w'
  /-- no acceptable CONNACK arrived -/
  | notAccepted {st : Status} {sp : Bool} {snd ca : List Event} {w1 w2 w' : World} {t : UInt32} :
      (getConnectPacketSize (some ci) will).status = .success → w.ctx.connectStatus = .notConnected → (∀ x, will = some x → x.pTopicName ≠ none) →
      (∀ e ∈ snd, isSendOrTime e = true) → quietAfterFail snd → SentResult (connectPacket (ci.toSpec will)) .success snd →
      w1.ctx = { w.ctx with lastPacketTxTime := t } → ConnackDone g timeoutMs ci.cleanSession sp0 w1 st sp ca w2 → st ≠ .success → w'.ctx = w2.ctx →
      ConnectDone g ci will timeoutMs sp0 s w st sp (.pre :: (snd ++ (ca ++ [.post, .pre, .post]))) w'
  /-- a new session -/
  | fresh {snd ca : List Event} {w1 w2 w' : World} {t : UInt32} :
      (getConnectPacketSize (some ci) will).status = .success → w.ctx.connectStatus = .notConnected → (∀ x, will = some x → x.pTopicName ≠ none) →
      (∀ e ∈ snd, isSendOrTime e = true) → quietAfterFail snd → SentResult (connectPacket (ci.toSpec will)) .success snd →
      w1.ctx = { w.ctx with lastPacketTxTime := t } → ConnackDone g timeoutMs ci.cleanSession sp0 w1 .success false ca w2 →
      w'.ctx = connectedCtx (cleanedCtx w2.ctx) ci.keepAliveSeconds →
      ConnectDone g ci will timeoutMs sp0 s w .success false (.pre :: (snd ++ (ca ++ (cleanClears w.ctx.retransmits s ++ [.post])))) w'
  /-- the server still has the session -/
  | resumed {st : Status} {snd ca res : List Event} {w1 w2 w3 w4 w' : World} {t : UInt32} :
      (getConnectPacketSize (some ci) will).status = .success → w.ctx.connectStatus = .notConnected → (∀ x, will = some x → x.pTopicName ≠ none) →
      (∀ e ∈ snd, isSendOrTime e = true) → quietAfterFail snd → SentResult (connectPacket (ci.toSpec will)) .success snd →
      w1.ctx = { w.ctx with lastPacketTxTime := t } → ConnackDone g timeoutMs ci.cleanSession sp0 w1 .success true ca w2 →
      w3.ctx = connectedCtx w2.ctx ci.keepAliveSeconds → Fx false w3 res false w4 → Resumed s w3 st res w4 →
      w'.ctx = { w4.ctx with connectStatus := afterFail (decide (st ≠ .success)) w4.ctx.connectStatus } →
      ConnectDone g ci will timeoutMs sp0 s w st true
        (.pre :: (snd ++ (ca ++ (.post :: (res ++ if st = .success then [] else [.pre, .post]))))) w'

/-- What happened when `MQTT_Connect` did not return. -/
inductive ConnectX (g : Cfg) (ci : ConnectInfo) (will : Option PublishInfo) (timeoutMs : UInt32) (sp0 : Bool) (s : InFlight) (w : World) :
    List Event → Prop
  | sending {snd : List Event} : (getConnectPacketSize (some ci) will).status = .success → w.ctx.connectStatus = .notConnected →
      (∀ e ∈ snd, isSendOrTime e = true) → quietAfterFail snd → wire snd <+: connectPacket (ci.toSpec will) →
      (∀ x, will = some x → x.pTopicName ≠ none) → ConnectX g ci will timeoutMs sp0 s w (.pre :: snd)
  | waiting {snd ca : List Event} : (getConnectPacketSize (some ci) will).status = .success → w.ctx.connectStatus = .notConnected →
      (∀ e ∈ snd, isSendOrTime e = true) → quietAfterFail snd → SentResult (connectPacket (ci.toSpec will)) .success snd → RecvX ca →
      (∀ x, will = some x → x.pTopicName ≠ none) → ConnackX g timeoutMs ca → ConnectX g ci will timeoutMs sp0 s w (.pre :: (snd ++ ca))
  | resuming {snd ca res : List Event} {w1 w2 w3 w4 : World} {h4 : Bool} {t : UInt32} :
      (getConnectPacketSize (some ci) will).status = .success → w.ctx.connectStatus = .notConnected →
      (∀ e ∈ snd, isSendOrTime e = true) → quietAfterFail snd → SentResult (connectPacket (ci.toSpec will)) .success snd →
      w1.ctx = { w.ctx with lastPacketTxTime := t } → ConnackDone g timeoutMs ci.cleanSession sp0 w1 .success true ca w2 →
      w3.ctx = connectedCtx w2.ctx ci.keepAliveSeconds → Fx false w3 res h4 w4 → ResumeX s res →
      (∀ x, will = some x → x.pTopicName ≠ none) → ConnectX g ci will timeoutMs sp0 s w (.pre :: (snd ++ (ca ++ (.post :: res))))

/-- With the invariant there is no undefined behaviour. -/
theorem Tr.toWp {α : Type} {V : Prop} {h : Bool} {m : M α} {R : α → List Event → Bool → World → Prop} {X : List Event → Prop} {w : World}
    (ht : Tr V h m R X w) (hv : V) {oc ic : Nat} (hi : Inv oc ic w.ctx) :
    wp m (fun a w' => ∃ es h', Fx h w es h' w' ∧ R a es h' w') (Fxs X h w) (fun _ => False) w :=
  wp_mono ht (fun _ _ h => h) (fun _ h => h) (fun _ h => h.2 ⟨hv, oc, ic, hi⟩)

/-- Everything a history needs to know about `MQTT_Connect` besides `ConnectDone`. -/
structure Linked (w : World) (es : List Event) (w' : World) : Prop where
  trace : w'.trace = w.trace ++ es
  stream : w.env.input = received es ++ w'.env.input

theorem Linked.trans {w w1 w2 : World} {a b : List Event} (h : Linked w a w1) (h' : Linked w1 b w2) : Linked w (a ++ b) w2 :=
  ⟨by rw [h'.trace, h.trace, List.append_assoc], by rw [h.stream, h'.stream, received_append, List.append_assoc]⟩

theorem Linked.quiet {w w' : World} {e : Event} (ht : w'.trace = w.trace ++ [e]) (hi : w'.env.input = w.env.input) (he : isRecvd e = false) :
    Linked w [e] w' := ⟨ht, by rw [hi]; cases e <;> simp_all [isRecvd, received]⟩

theorem SendDelta.linked {w w' : World} {es : List Event} (h : SendDelta w es w') : Linked w es w' := by
  obtain ⟨s, c, he⟩ := h.env
  exact ⟨h.trace, by rw [received_of_kinds h.kinds, he]; rfl⟩

theorem Fx.linked {h h' : Bool} {w w' : World} {es : List Event} (f : Fx h w es h' w') : Linked w es w' := ⟨f.trace, f.stream⟩

theorem Linked.silent {w w' : World} (ht : w'.trace = w.trace) (hi : w'.env.input = w.env.input) : Linked w [] w' :=
  ⟨by simp [ht], by simp [hi, received]⟩

/-- The results of `MQTT_Connect` that make it mark an existing connection as failed. -/
def marksPending (st : Status) : Bool := decide (¬ (st = .success ∨ st = .statusConnected ∨ st = .statusDisconnectPending))

theorem connectFailed_spec {Q : Unit → World → Prop} {E U : World → Prop} {w : World} (st : Status)
    (h : ∀ w', Linked w (if marksPending st then [.pre, .post] else []) w' →
      w'.ctx = { w.ctx with connectStatus := afterFail (marksPending st) w.ctx.connectStatus } → Q () w') : wp (connectFailed st) Q E U w := by
  unfold connectFailed
  rw [wp_ite]
  constructor
  · intro hs
    have e : marksPending st = false := by simp only [marksPending, hs, not_true_eq_false, decide_false]
    refine h w ?_ ?_
    · rw [e]; exact Linked.silent rfl rfl
    · simp [e, afterFail]
  · intro hs
    have e : marksPending st = true := by simp only [marksPending, hs, not_false_eq_true, decide_true]
    unfold markPendingHooked markPending
    rw [wp_bind, wp_preHook, wp_bind, wp_modifyCtx, wp_postHook]
    refine h _ ?_ ?_
    · rw [e]; exact ⟨by simp, by simp [received]⟩
    · simp only [e, afterFail, true_and]
      split <;> simp_all

theorem mqttConnect_spec (g : Cfg) (ci : ConnectInfo) (will : Option PublishInfo) (timeoutMs : UInt32) (sp0 : Bool) (s : InFlight) (w : World)
    (hv : ci.Valid will) (hidx : w.ctx.index ≤ w.ctx.bufSize) (hrep : Represents w.ctx.tables s) :
    wp (mqttConnect g (some ci) will timeoutMs (some sp0))
      (fun r w' => ∃ es sp, r.2 = some sp ∧ Linked w es w' ∧ ConnectDone g ci will timeoutMs sp0 s w r.1 sp es w')
      (fun w' => ∃ es, Linked w es w' ∧ ConnectX g ci will timeoutMs sp0 s w es) (fun _ => False) w := by
  unfold mqttConnect
  dsimp only
  rw [wp_bind, wp_ite]
  refine ⟨fun hsz => ?_, fun hsz => ?_⟩
  rotate_left
  · -- the size of the packet cannot be computed
    rw [wp_pure, wp_bind]
    have hm : marksPending (getConnectPacketSize (some ci) will).status = true := by
      have : ∀ st, st = (getConnectPacketSize (some ci) will).status → st = .success ∨ st = .badParameter := by
        intro st hst
        rw [hst]
        unfold getConnectPacketSize
        repeat' split
        all_goals simp
      rcases this _ rfl with h | h
      · exact absurd h hsz
      · rw [h]; rfl
    refine connectFailed_spec _ ?_
    intro w' hl hc
    rw [hm] at hl hc
    rw [wp_pure]
    exact ⟨_, sp0, rfl, hl, .badSize hsz rfl hc⟩
  · unfold connectCore
    -- the end of the call, for each result of the part between the hooks
    have hpre : Linked w [.pre] { w with trace := w.trace ++ [.pre] } := ⟨rfl, rfl⟩
    rw [wp_bind, wp_preHook, wp_bind]
    unfold connectLocked
    rw [wp_bind, wp_getCtx, wp_ite]
    refine ⟨fun hn => ?_, fun hn => ?_⟩
    · rw [wp_pure]
      dsimp only
      have hst : ∀ x : ConnStatus, (if x = .connected then Status.statusConnected else .statusDisconnectPending) ≠ .success := by
        intro x; split <;> simp
      rw [wp_bind, wp_postHook, wp_ite]
      refine ⟨fun h => absurd h.1 (hst _), fun _ => ?_⟩
      rw [wp_pure]
      dsimp only
      rw [wp_bind]
      refine connectFailed_spec _ ?_
      intro w' hl hc
      rw [wp_pure]
      have hm : ∀ x : ConnStatus, marksPending (if x = .connected then Status.statusConnected else .statusDisconnectPending) = false := by
        intro x; cases x <;> rfl
      rw [hm] at hl hc
      refine ⟨[.pre, .post], sp0, rfl, ?_, .already hsz hn ?_ rfl⟩
      · have := (hpre.trans (Linked.quiet (e := .post) (w' := { w with trace := w.trace ++ [.pre] ++ [.post] }) rfl rfl rfl)).trans hl
        simpa using this
      · rw [hc, afterFail_false]
    · have hn : w.ctx.connectStatus = .notConnected := Classical.not_not.mp hn
      obtain ⟨r, sz, hsize⟩ : ∃ r sz, getConnectPacketSize (some ci) will = ⟨.success, r, sz⟩ := by
        cases hg : getConnectPacketSize (some ci) will with
        | mk st r sz => rw [hg] at hsz; dsimp only at hsz; subst hsz; exact ⟨r, sz, rfl⟩
      rw [hsize]
      dsimp only
      -- the part after the critical section, when there is nothing to resume
      have finish : ∀ (st : Status) (sp : Bool) (es : List Event) (w1 : World), Linked w (.pre :: es) w1 → st ≠ .success → marksPending st = true →
          w1.ctx.connectStatus = .notConnected →
          (∀ w', w'.ctx = w1.ctx → ConnectDone g ci will timeoutMs sp0 s w st sp (.pre :: (es ++ [.post, .pre, .post])) w') →
          wp (postHook >>= fun _ => if st = .success ∧ sp = true then (do let st ← handleUncleanSessionResumption g; pure (st, sp)) else pure (st, sp))
            (fun a w' => wp (do connectFailed a.1; pure (a.1, some a.2))
              (fun r w' => ∃ es sp, r.2 = some sp ∧ Linked w es w' ∧ ConnectDone g ci will timeoutMs sp0 s w r.1 sp es w')
              (fun w' => ∃ es, Linked w es w' ∧ ConnectX g ci will timeoutMs sp0 s w es) (fun _ => False) w')
            (fun w' => ∃ es, Linked w es w' ∧ ConnectX g ci will timeoutMs sp0 s w es) (fun _ => False) w1 := by
        intro st sp es w1 hl hst hm hc hk
        rw [wp_bind, wp_postHook, wp_ite]
        refine ⟨fun h => absurd h.1 hst, fun _ => ?_⟩
        rw [wp_pure]
        dsimp only
        rw [wp_bind]
        refine connectFailed_spec _ ?_
        intro w' hl' hc'
        rw [wp_pure]
        rw [hm] at hl' hc'
        refine ⟨.pre :: (es ++ [.post, .pre, .post]), sp, rfl, ?_, hk w' ?_⟩
        · have := (hl.trans (Linked.quiet (e := .post) (w' := { w1 with trace := w1.trace ++ [.post] }) rfl rfl rfl)).trans hl'
          simpa using this
        · rw [hc']
          show { w1.ctx with connectStatus := afterFail true w1.ctx.connectStatus } = w1.ctx
          rw [hc]
          have : afterFail true .notConnected = .notConnected := rfl
          rw [this, ← hc]
      rw [wp_bind]
      refine wp_mono (sendConnectWithoutCopy_spec g ci will r sz _ hsize hv) ?_ ?_ (fun _ h => h)
      rotate_left
      · rintro w1 ⟨hx, es, hd, hs⟩
        exact ⟨_, hpre.trans hd.linked, .sending hsz hn hd.kinds hd.quiet hs hx⟩
      rintro st w1 (⟨hx, rfl, rfl⟩ | ⟨hx, snd, hd, hs⟩)
      · rw [wp_ite]
        refine ⟨fun _ => ?_, fun h => absurd (by decide) h⟩
        rw [wp_pure]
        exact finish .badParameter sp0 [] _ hpre (by decide) rfl hn (fun w' hw' => .noTopic hsz hn hx hw')
      · obtain ⟨t, ht⟩ := hd.ctx
        have ht : w1.ctx = { w.ctx with lastPacketTxTime := t } := by
          rw [ht]
          show { w.ctx with lastPacketTxTime := t, connectStatus := afterFail (hasFail snd) w.ctx.connectStatus } = _
          rw [hn]
          have : afterFail (hasFail snd) .notConnected = .notConnected := by simp [afterFail]
          rw [this, ← hn]
        have hl1 := hpre.trans hd.linked
        rw [wp_ite]
        refine ⟨fun hst => ?_, fun hst => ?_⟩
        · rw [wp_pure]
          have hst : st = .sendFailed := by
            rcases hs with ⟨h, _⟩ | ⟨h, _⟩
            · exact absurd h hst
            · exact h
          subst hst
          exact finish .sendFailed sp0 snd _ hl1 (by decide) rfl (by rw [ht]; exact hn)
            (fun w' hw' => .notSent (t := t) hsz hn hx hd.kinds hd.quiet hs (hw'.trans ht))
        · have hst : st = .success := Classical.not_not.mp hst
          subst hst
          have hn1 : w1.ctx.connectStatus = .notConnected := by rw [ht]; exact hn
          have hinv1 : Inv s.outCap s.inCap w1.ctx := by rw [ht]; exact ⟨hidx, s, hrep, rfl, rfl⟩
          rw [wp_bind]
          refine wp_mono ((receiveConnack_tr g timeoutMs ci.cleanSession sp0 w1 hn1).toWp trivial hinv1) ?_ ?_ (fun _ h => h)
          rotate_left
          · rintro w2 ⟨ca, h', f, hca⟩
            exact ⟨_, hl1.trans f.linked, .waiting hsz hn hd.kinds hd.quiet hs hca.1 hx hca⟩
          rintro ⟨st, sp⟩ w2 ⟨ca, h', f, hca⟩
          have hl2 := hl1.trans f.linked
          obtain ⟨b, hb, hc2⟩ := hca.ctx
          have hn2 : w2.ctx.connectStatus = .notConnected := by rw [hc2]; exact hn1
          dsimp only at hca ⊢
          rw [wp_ite]
          refine ⟨fun hst => ?_, fun hst => ?_⟩
          · rw [wp_pure]
            refine finish st sp (snd ++ ca) _ (by simpa using hl2) hst ?_ hn2 ?_
            · have := hca.statuses
              simp only [List.mem_cons, List.not_mem_nil, or_false] at this
              rcases this with h | h | h | h | h <;> first | exact absurd h hst | (rw [h]; rfl)
            · intro w' hw'
              rw [List.append_assoc]
              exact .notAccepted (t := t) hsz hn hx hd.kinds hd.quiet hs ht hca hst hw'
          · have hst : st = .success := Classical.not_not.mp hst
            subst hst
            have hrep2 : Represents w2.ctx.tables s := by rw [hc2, ht]; exact hrep
            cases sp with
            | false =>
              rw [wp_bind]
              have hcs : wp handleCleanSession (fun st w' => st = .success ∧ w' = { w2 with ctx := cleanedCtx w2.ctx, trace := w2.trace ++ cleanClears w2.ctx.retransmits s })
                  (fun _ => False) (fun _ => False) w2 := by
                unfold wp
                rw [handleCleanSession_eq w2 s hrep2]
                exact ⟨rfl, rfl⟩
              rw [if_pos rfl]
              refine wp_mono hcs ?_ (fun _ h => h.elim) (fun _ h => h.elim)
              rintro st' w3 ⟨rfl, rfl⟩
              rw [if_pos rfl, wp_bind, wp_modifyCtx, wp_pure]
              dsimp only
              rw [wp_bind, wp_postHook, wp_ite]
              refine ⟨fun h => absurd h.2 (by decide), fun _ => ?_⟩
              rw [wp_pure]
              dsimp only
              rw [wp_bind]
              refine connectFailed_spec _ ?_
              intro w' hl' hc'
              rw [wp_pure]
              refine ⟨_, false, rfl, ?_, .fresh (t := t) hsz hn hx hd.kinds hd.quiet hs ht hca ?_⟩
              · have hretr : w2.ctx.retransmits = w.ctx.retransmits := by rw [hc2, ht]
                have h3 : Linked w2 (cleanClears w2.ctx.retransmits s) { w2 with ctx := cleanedCtx w2.ctx, trace := w2.trace ++ cleanClears w2.ctx.retransmits s } := by
                  refine ⟨rfl, ?_⟩
                  have : received (cleanClears w2.ctx.retransmits s) = [] := by
                    unfold cleanClears
                    split
                    · induction idsOf isUnacked s.out with
                      | nil => rfl
                      | cons x l ih => simpa [received] using ih
                    · rfl
                  rw [this]; rfl
                have h4 : Linked { w2 with ctx := cleanedCtx w2.ctx, trace := w2.trace ++ cleanClears w2.ctx.retransmits s } [.post] w' := by
                  have : marksPending Status.success = false := rfl
                  rw [this] at hl'
                  have := (Linked.quiet (w := { w2 with ctx := cleanedCtx w2.ctx, trace := w2.trace ++ cleanClears w2.ctx.retransmits s }) (e := .post)
                    (w' := { w2 with ctx := connectedCtx (cleanedCtx w2.ctx) ci.keepAliveSeconds, trace := w2.trace ++ cleanClears w2.ctx.retransmits s ++ [.post] }) rfl rfl rfl).trans hl'
                  simpa using this
                have := (hl2.trans h3).trans h4
                rw [hretr] at this
                simpa using this
              · rw [hc']
                have : marksPending Status.success = false := rfl
                rw [this, afterFail_false]
                rfl
            | true =>
              rw [if_neg (by decide), wp_bind, wp_pure, if_pos rfl, wp_bind, wp_modifyCtx, wp_pure]
              dsimp only
              rw [wp_bind, wp_postHook, if_pos ⟨rfl, rfl⟩, wp_bind]
              have hl3 := hl2.trans (Linked.quiet (w := w2) (e := .post)
                (w' := { w2 with ctx := connectedCtx w2.ctx ci.keepAliveSeconds, trace := w2.trace ++ [.post] }) rfl rfl rfl)
              have hinv3 : Inv s.outCap s.inCap (connectedCtx w2.ctx ci.keepAliveSeconds) := by
                refine ⟨?_, s, hrep2, rfl, rfl⟩
                show w2.ctx.index ≤ w2.ctx.bufSize
                rw [f.bufSize, ht]
                have : w2.ctx.index = w.ctx.index := by rw [hc2, ht]
                rw [this]
                exact hidx
              refine wp_mono ((handleUncleanSessionResumption_tr (V := True) g s
                { w2 with ctx := connectedCtx w2.ctx ci.keepAliveSeconds, trace := w2.trace ++ [.post] } hrep2 rfl).toWp trivial hinv3) ?_ ?_ (fun _ h => h)
              rotate_left
              · rintro w4 ⟨res, h4, f4, hres⟩
                refine ⟨_, hl3.trans f4.linked, ?_⟩
                have := ConnectX.resuming (g := g) (timeoutMs := timeoutMs) (sp0 := sp0) (w := w) (t := t) hsz hn hd.kinds hd.quiet hs ht hca rfl f4 hres hx
                simpa using this
              rintro st w4 ⟨res, h4, f4, rfl, hres⟩
              rw [wp_pure]
              dsimp only
              rw [wp_bind]
              refine connectFailed_spec _ ?_
              intro w' hl' hc'
              rw [wp_pure]
              have hm : marksPending st = decide (st ≠ .success) := by
                have : st = .success ∨ st = .sendFailed ∨ st = .publishRetrieveFailed := by
                  obtain ⟨a, st1, w5, b, _, hp, h | h⟩ := hres
                  · obtain ⟨_, _, _, rfl⟩ := h
                    obtain ⟨_, _, _, _, h | h⟩ := hp.cases
                    · exact Or.inl h.1
                    · exact Or.inr (Or.inl h.1)
                  · obtain ⟨_, _, _, h | h | h⟩ := h.2.2.cases
                    · exact Or.inl h.1
                    · exact Or.inr (Or.inr h.1)
                    · exact Or.inr (Or.inl h.1)
                rcases this with rfl | rfl | rfl <;> rfl
              rw [hm] at hl' hc'
              refine ⟨_, true, rfl, ?_, .resumed (t := t) hsz hn hx hd.kinds hd.quiet hs ht hca rfl f4 hres hc'⟩
              have := (hl3.trans f4.linked).trans hl'
              by_cases he : st = .success <;> simpa [he] using this

end Mqtt
