/-
The programs of the thread that receives: none of their steps has undefined behaviour, whatever the other threads do in between.
-/
import Verif.Proof.ThreadRules

namespace Mqtt
open Spec
set_option linter.unusedSimpArgs false

section
variable {sess : Bool} {oc ic i : Nat} {buf : List UInt8}

/-- Index and buffer are where they were, except for the contents of the buffer. -/
abbrev Kept {α : Type} (i : Nat) (buf : List UInt8) : α → Nat → List UInt8 → Prop := fun _ i' buf' => i' = i ∧ buf'.length = buf.length

/-- Index and buffer are as they were. -/
abbrev Same {α : Type} (i : Nat) (buf : List UInt8) : α → Nat → List UInt8 → Prop := fun _ i' buf' => i' = i ∧ buf' = buf

theorem Ok.seq {α β : Type} {p : Prog α} {f : α → Prog β} {Q : β → Nat → List UInt8 → Prop} (h : Ok sess oc ic i buf p (Same i buf))
    (hf : ∀ a, Ok sess oc ic i buf (f a) Q) : Ok sess oc ic i buf (p >>= f) Q := by
  refine Ok.bind h ?_
  rintro a i' buf' ⟨h1, h2⟩
  rw [h1, h2]
  exact hf a

theorem markPending_ok : Ok sess oc ic i buf (sect markPending) (Same i buf) := by
  refine Ok.step fun w hw => ?_
  rw [wp_locked]
  unfold markPending
  rw [wp_modifyCtx]
  have hc := markPending_ctx w.ctx
  have hctx : ({ (w.add .pre) with ctx := if (w.add .pre).ctx.connectStatus = .connected then { (w.add .pre).ctx with connectStatus := .disconnectPending }
      else (w.add .pre).ctx } : World).ctx = { w.ctx with connectStatus := afterFail true w.ctx.connectStatus } := hc
  generalize hw1 : ({ (w.add .pre) with ctx := if (w.add .pre).ctx.connectStatus = .connected then { (w.add .pre).ctx with connectStatus := .disconnectPending }
      else (w.add .pre).ctx } : World) = w1 at hctx ⊢
  have htr : w1.trace = w.trace ++ [.pre] := by rw [← hw1]; rfl
  refine ⟨⟨[.pre, .post], ?_, ?_, ?_, ?_, ?_, ?_, ?_⟩, i, buf, ?_, rfl, rfl⟩
  · show w1.trace ++ [.post] = _
    rw [htr]; simp
  · show w1.ctx.hasWritev = _; rw [hctx]
  · show w1.ctx.retransmits = _; rw [hctx]
  · show w1.ctx.bufSize = _; rw [hctx]; rfl
  · intro oc ic h; show Inv oc ic w1.ctx; rw [hctx]; exact h
  · exact .section (body := []) (.inl onePacket_ping) List.nil_prefix (by simp)
  · intro _
    refine ⟨by simp [quietAfterSendFail, isSendFail], fun hn => ⟨by simp [noSent, isSent], ?_⟩, by simp [isSendFail]⟩
    show w1.ctx.connectStatus = _
    rw [hctx]
    simp [afterFail, hn]
  · show At oc ic i buf w1.ctx
    rw [hctx]
    exact ⟨hw.inv, hw.index, hw.netBuf⟩

theorem bufSize_of {c : Ctx} (h : At oc ic i buf c) : c.bufSize = buf.length := by
  unfold Ctx.bufSize; rw [h.netBuf]

/-- One receive call. -/
theorem recvInto_ok {pos n : Nat} (hn : pos + n ≤ buf.length) :
    Ok sess oc ic i buf (act (recvInto pos n)) (fun r i' buf' => i' = i ∧ buf'.length = buf.length ∧ (r = none → buf' = buf) ∧
      ∀ k, r = some k → k ≤ n ∧ ∃ bs : List UInt8, bs.length = k ∧ buf' = writeAt buf pos bs) := by
  refine Ok.step fun w hw => ?_
  have hb := bufSize_of hw
  refine wp_recvInto (StepX.refl w) (fun h => h (by omega)) ?_ ?_
  · intro rest _ _
    refine ⟨⟨[.recvd n none], StepFx.same rfl (by simp [isSent, isHook]) rfl⟩, i, buf, hw, rfl, rfl, fun _ => rfl, fun _ h => by cases h⟩
  · intro k rest h1 _
    have f := Fx.recvInto (h := false) (w := w) (k := k) (rest := rest) h1
    refine ⟨⟨_, StepFx.plain f.trace (by simp [isSent, isHook]) f.writev f.retransmits f.bufSize ?_ rfl rfl⟩, i,
      writeAt buf pos (w.env.input.take (min k n)), ⟨f.inv _ _ hw.inv, hw.index, ?_⟩, rfl, ?_, fun h => by simp at h, ?_⟩
    · rw [f.bufSize]; exact fun h => h
    · show writeAt w.ctx.netBuf _ _ = _
      rw [hw.netBuf]
    · refine writeAt_length ?_
      simp; omega
    · rintro m rfl'
      have : m = (w.env.input.take (min k n)).length := by injection rfl' with h; exact h.symm
      subst this
      exact ⟨by simp; omega, _, rfl, rfl⟩

theorem recvExactLoop_ok (g : Cfg) (fuel : Nat) {pos n : Nat} (t0 : UInt32) (hn : pos + n ≤ buf.length) :
    Ok sess oc ic i buf (recvExactLoopP g fuel pos n t0) (Kept i buf) := by
  induction fuel generalizing pos n t0 buf with
  | zero => exact Ok.stuck
  | succ fuel ih =>
    unfold recvExactLoopP
    refine Ok.ite (fun _ => ?_) (fun _ => Ok.pure ⟨rfl, rfl⟩)
    refine Ok.bind (recvInto_ok hn) ?_
    rintro r i' buf' ⟨rfl, hl, hnone, hk⟩
    cases r with
    | none =>
      refine Ok.seq markPending_ok ?_
      rintro _
      exact Ok.pure ⟨rfl, hl⟩
    | some k =>
      obtain ⟨hkn, _⟩ := hk k rfl
      refine Ok.ite (fun _ => ?_) (fun _ => ?_)
      · refine Ok.getTime fun t => ?_
        refine Ok.lift (a := ()) ?_ ?_
        · simp [cassert, hkn]
        refine Ok.mono (ih t (by omega)) ?_
        rintro a i' b' ⟨rfl, h2⟩
        exact ⟨rfl, h2.trans hl⟩
      · refine Ok.getTime fun t => ?_
        refine Ok.ite (fun _ => Ok.pure ⟨rfl, hl⟩) (fun _ => ?_)
        refine Ok.mono (ih t0 (by omega)) ?_
        rintro a i' b' ⟨rfl, h2⟩
        exact ⟨rfl, h2.trans hl⟩

theorem recvFuel_total (w : World) : ∃ n, recvFuel w = .done n w := ⟨_, rfl⟩
theorem clockFuel_total (w : World) : ∃ n, clockFuel w = .done n w := ⟨_, rfl⟩

theorem recvExact_ok (g : Cfg) {n : Nat} (hn : n ≤ buf.length) : Ok sess oc ic i buf (recvExactP g n) (Kept i buf) := by
  unfold recvExactP
  refine Ok.getCtx fun c hc => ?_
  refine Ok.lift (a := ()) ?_ ?_
  · simp [cassert, bufSize_of hc, hn]
  refine Ok.getTime fun t => ?_
  refine Ok.fuel recvFuel_total fun f => ?_
  exact recvExactLoop_ok g f t (by omega)

theorem discardStoredLoop_ok (g : Cfg) (fuel : Nat) {left n : Nat} (hn : n ≤ buf.length) :
    Ok sess oc ic i buf (discardStoredLoopP g fuel left n) (Kept i buf) := by
  induction fuel generalizing left n buf with
  | zero => exact Ok.stuck
  | succ fuel ih =>
    unfold discardStoredLoopP
    refine Ok.ite (fun _ => ?_) (fun _ => Ok.pure ⟨rfl, rfl⟩)
    dsimp only
    have hm : (if left < n then left else n) ≤ buf.length := by split <;> omega
    refine Ok.bind (recvExact_ok g hm) ?_
    rintro r i' buf' ⟨rfl, hl⟩
    refine Ok.ite (fun _ => Ok.pure ⟨rfl, hl⟩) (fun _ => ?_)
    refine Ok.mono (ih (by omega)) ?_
    rintro a i' b' ⟨rfl, h2⟩
    exact ⟨rfl, h2.trans hl⟩

theorem resetBuffer_ok : Ok sess oc ic i buf (act resetBuffer) (fun _ i' buf' => i' = 0 ∧ buf'.length = buf.length) := by
  refine Ok.step fun w hw => ?_
  unfold resetBuffer
  rw [wp_modifyCtx]
  have g1 : StepFx sess w [] { w with ctx := { w.ctx with netBuf := List.replicate w.ctx.bufSize 0, index := 0 } } :=
    StepFx.plain (by simp) (by simp) rfl rfl (by simp [Ctx.bufSize]) (fun _ => Nat.zero_le _) rfl rfl
  exact ⟨⟨[], g1⟩, 0, List.replicate w.ctx.bufSize 0, ⟨g1.inv _ _ hw.inv, rfl, rfl⟩, rfl, by simp [bufSize_of hw]⟩

theorem discardStored_ok (g : Cfg) {n : Nat} (hn : n > buf.length) :
    Ok sess oc ic i buf (discardStoredPacketP g n) (fun st _ _ => st ≠ .success) := by
  unfold discardStoredPacketP
  refine Ok.getCtx fun c hc => ?_
  refine Ok.lift (a := ()) ?_ ?_
  · simp [cassert, bufSize_of hc, hn]
  refine Ok.fuel clockFuel_total fun f => ?_
  refine Ok.bind (discardStoredLoop_ok g f (by rw [bufSize_of hc]; exact Nat.le_refl _)) ?_
  rintro left i' buf' ⟨rfl, hl⟩
  refine Ok.bind resetBuffer_ok ?_
  rintro _ i' buf'' _
  exact Ok.ite (fun _ => Ok.pure (by simp)) (fun _ => Ok.pure (by simp))

theorem onePacket_ack (ty : AckType) (id : UInt16) : OnePacket (ackPacket ty id) := ⟨_, _, rfl, by simp [be16, maxRemaining]⟩

theorem noHook_of_kinds {es : List Event} (h : ∀ e ∈ es, isSendOrTime e = true) : ∀ e ∈ es, isHook e = false := by
  intro e he
  have := h e he
  cases e <;> simp_all [isSendOrTime, isHook]

theorem SentIf.facts {w w' : World} {bs : List UInt8} {st : Status} {es : List Event} (h : SentIf w bs st es w') :
    wire es <+: bs ∧ (∀ e ∈ es, isHook e = false) ∧ w'.ctx.index = w.ctx.index ∧ w'.ctx.netBuf = w.ctx.netBuf := by
  rcases h with ⟨_, rfl, rfl, _⟩ | ⟨_, hd, hs⟩
  · exact ⟨List.nil_prefix, by simp, rfl, rfl⟩
  · obtain ⟨t, hctx⟩ := hd.ctx
    exact ⟨hs.prefix, noHook_of_kinds hd.kinds, by rw [hctx], by rw [hctx]⟩

theorem sendIfConnected_ok (g : Cfg) {bs : List UInt8} (hp : OnePacket bs) : Ok sess oc ic i buf (sect (sendIfConnected g bs)) (Same i buf) := by
  refine Ok.tr (V := True) hp (fun w _ => sendIfConnected_tr g bs w) trivial ?_ ?_
  · rintro w a es h' w' _ ⟨h1, h2, _⟩
    obtain ⟨a1, a2, a3, a4⟩ := h2.facts
    exact ⟨h1, a1, a2, a3, a4, rfl, rfl⟩
  · rintro w es ⟨_, h⟩
    exact ⟨h.2, noHook_of_kinds h.1⟩

/-- A call of the state engine in a section. -/
theorem state_ok (c : Call) (hroom : ∀ s : InFlight, s.outCap = oc → s.inCap = ic → Room s c) (hc : c ≠ .cancel 0) :
    Ok sess oc ic i buf (sect (onTables fun t => stateCall t c)) (Same i buf) := by
  refine Ok.step fun w hw => ?_
  rw [wp_locked, wp_onTables]
  obtain ⟨hidx, s, hrep, ho, hi⟩ := hw.inv
  obtain ⟨T, e1, e2, e3⟩ := stateCall_refines' hrep c (hroom s ho hi) hc
  have e1' : stateCall (w.add .pre).ctx.tables c = .ok ((step s c).1, T) := e1
  simp only [e1']
  refine ⟨⟨[.pre, .post], ?_, rfl, rfl, rfl, ?_, ?_, ?_⟩, i, buf, ⟨⟨hidx, _, e2, e3.1.trans ho, e3.2.trans hi⟩, hw.index, hw.netBuf⟩, rfl, rfl⟩
  · simp [World.add]
  · rintro oc ic ⟨h1, s', h2, h3⟩
    obtain rfl := represents_unique hrep h2
    exact ⟨h1, _, e2, e3.1.trans h3.1, e3.2.trans h3.2⟩
  · exact .section (body := []) (.inl onePacket_ping) List.nil_prefix (by simp)
  · intro _
    exact ⟨by simp [quietAfterSendFail, isSendFail], fun _ => ⟨by simp [noSent, isSent], rfl⟩, by simp [isSendFail]⟩

theorem setSent_ok : Ok sess oc ic i buf (act (modifyCtx fun c => { c with controlPacketSent := true })) (Same i buf) :=
  Ok.modify (fun _ => rfl) (fun _ => rfl) (fun _ => rfl) (fun _ => rfl) (fun _ => rfl) (fun _ => rfl) ⟨rfl, rfl⟩

theorem sendPublishAcks_ok (g : Cfg) (id : UInt16) (s : PubState) : Ok sess oc ic i buf (sendPublishAcksP g id s) (Same i buf) := by
  unfold sendPublishAcksP
  rcases ackOf_eq s with ⟨h0, _⟩ | ⟨ty, _, h2, h3, h4⟩
  · dsimp only
    rw [if_pos h0]
    exact Ok.pure ⟨rfl, rfl⟩
  · dsimp only
    rw [h2, if_neg h3]
    refine Ok.lift h4 ?_
    refine Ok.lift (serializeAck_eq ty id) ?_
    by_cases hid : id = 0
    · rw [if_pos hid]
      exact Ok.ite (fun _ => Ok.pure ⟨rfl, rfl⟩) (fun h => absurd (by simp) h)
    · rw [if_neg hid]
      refine Ok.ite (fun h => absurd rfl h) (fun _ => ?_)
      refine Ok.seq (sendIfConnected_ok g (onePacket_ack ty id)) ?_
      rintro st
      refine Ok.ite (fun _ => Ok.pure ⟨rfl, rfl⟩) (fun _ => ?_)
      refine Ok.seq setSent_ok ?_
      rintro _
      refine Ok.seq (state_ok (.ack .send ty id) (fun _ _ _ => trivial) (by simp)) ?_
      rintro ⟨st, _⟩
      exact Ok.pure ⟨rfl, rfl⟩

theorem pingLocked_ok (g : Cfg) : Ok sess oc ic i buf (sect (pingLocked g pingreqPacket)) (Same i buf) := by
  refine Ok.tr (V := True) (R := fun w _ es h' w' => h' = true ∧ wire es <+: pingreqPacket ∧ (∀ e ∈ es, isHook e = false) ∧
      w'.ctx.index = w.ctx.index ∧ w'.ctx.netBuf = w.ctx.netBuf) (X := fun _ es => SendX pingreqPacket es) onePacket_ping ?_ trivial ?_ ?_
  · intro w hw
    unfold pingLocked
    refine Tr.bind (Tr.mono (sendIfConnected_tr g pingreqPacket w) (fun _ _ _ _ _ h => h) (fun _ h => h.2)) ?_
    rintro st es h' w' f ⟨rfl, h2, _⟩
    obtain ⟨a1, a2, a3, a4⟩ := h2.facts
    by_cases hs : st = .success
    · rw [if_pos hs]
      refine Tr.modifyCtx rfl rfl rfl rfl rfl rfl (fun h => h) rfl ?_
      exact Tr.pure ⟨rfl, by simpa using a1, by simpa using a2, a3, a4⟩
    · rw [if_neg hs]
      exact Tr.pure ⟨rfl, by simpa using a1, by simpa using a2, a3, a4⟩
  · rintro w a es h' w' _ ⟨h1, h2, h3, h4, h5⟩
    exact ⟨h1, h2, h3, h4, h5, rfl, rfl⟩
  · rintro w es h
    exact ⟨h.2, noHook_of_kinds h.1⟩

theorem ping_ok (g : Cfg) : Ok sess oc ic i buf (pingP g) (Same i buf) := by
  unfold pingP
  dsimp only
  refine Ok.ite (fun h => absurd rfl h) (fun _ => ?_)
  refine Ok.lift (a := ()) rfl (Ok.lift serializePingreq_eq ?_)
  refine Ok.ite (fun h => absurd rfl h) (fun _ => ?_)
  exact pingLocked_ok g

theorem sectGetCtx_ok : Ok sess oc ic i buf (sect getCtx) (Same i buf) :=
  Ok.silent fun w _ => ⟨w.ctx, w, rfl, Fx.refl _ _, rfl, rfl, rfl, rfl⟩

theorem handleKeepAlive_ok (g : Cfg) : Ok sess oc ic i buf (handleKeepAliveP g) (Same i buf) := by
  unfold handleKeepAliveP
  refine Ok.getTime fun now => Ok.getCtx fun c _ => ?_
  dsimp only
  refine Ok.ite (fun _ => ?_) (fun _ => ?_)
  · exact Ok.ite (fun _ => Ok.pure ⟨rfl, rfl⟩) (fun _ => Ok.pure ⟨rfl, rfl⟩)
  · refine Ok.seq sectGetCtx_ok ?_
    rintro c2
    refine Ok.ite (fun _ => ping_ok g) (fun _ => ?_)
    exact Ok.ite (fun _ => ping_ok g) (fun _ => Ok.pure ⟨rfl, rfl⟩)

theorem appCallback_ok (pk : PacketInfo) (id : UInt16) (st : Status) (p : Option PublishInfo) :
    Ok sess oc ic i buf (act (appCallback pk id st p)) (Same i buf) := by
  unfold appCallback
  exact Ok.emit ⟨rfl, rfl⟩ ⟨rfl, rfl⟩

theorem handleIncomingPublish_ok (g : Cfg) (t : UInt8) (body extra : List UInt8) (h : Nat) (ht : t.toNat / 16 = 3) (hW : body.length < g.W) :
    Ok sess oc ic i buf (handleIncomingPublishP g (packetOf t body extra h)) (Same i buf) := by
  unfold handleIncomingPublishP
  rcases deser_publish t body extra h ht hW with ⟨_, h2⟩ | ⟨id, p, _, h2, h3⟩
  · refine Ok.lift h2 ?_
    exact Ok.pure ⟨rfl, rfl⟩
  · refine Ok.lift h2 ?_
    dsimp only
    refine Ok.getCtx fun c hc => ?_
    refine Ok.ite (fun h => absurd rfl h) (fun _ => ?_)
    refine Ok.ite (fun _ => Ok.pure ⟨rfl, rfl⟩) (fun hcap => ?_)
    refine Ok.bind (P := Same i buf) ?_ ?_
    · unfold recordIncomingPublishP
      refine Ok.bind (P := Same i buf) (state_ok (.publish .receive id p.qos) ?_ (by simp)) ?_
      · intro s ho hi
        obtain ⟨_, s', hrep, ho', hi'⟩ := hc.inv
        show p.qos = .qos0 ∨ 1 ≤ s.inCap
        by_cases hq0 : p.qos = .qos0
        · exact Or.inl hq0
        · refine Or.inr (Nat.one_le_iff_ne_zero.mpr fun h => hcap ⟨?_, hq0⟩)
          have := hrep.2.size
          rw [hi', ← hi, h] at this
          exact List.length_eq_zero_iff.mp this
      · rintro ⟨st, s⟩ _ _ ⟨rfl, rfl⟩
        dsimp only
        refine Ok.ite (fun _ => Ok.pure ⟨rfl, rfl⟩) (fun _ => ?_)
        exact Ok.ite (fun _ => Ok.pure ⟨rfl, rfl⟩) (fun _ => Ok.pure ⟨rfl, rfl⟩)
    · rintro ⟨st, s, dup⟩ _ _ ⟨rfl, rfl⟩
      dsimp only
      refine Ok.ite (fun _ => Ok.pure ⟨rfl, rfl⟩) (fun _ => ?_)
      refine Ok.ite (fun _ => ?_) (fun _ => ?_)
      · refine Ok.seq (appCallback_ok _ _ _ _) ?_
        rintro _
        exact sendPublishAcks_ok g id s
      · exact sendPublishAcks_ok g id s

theorem clearCallback_ok (id : UInt16) : Ok sess oc ic i buf (act (clearCallback id)) (Same i buf) :=
  Ok.emit ⟨rfl, rfl⟩ ⟨rfl, rfl⟩

theorem handlePublishAcks_ok (g : Cfg) (t : UInt8) (type : AckType) (body extra : List UInt8) (h : Nat) (ht : ackByteType t type) :
    Ok sess oc ic i buf (handlePublishAcksP g (packetOf t body extra h)) (Same i buf) := by
  unfold handlePublishAcksP
  have hty : getAckFromPacketType (packetOf t body extra h).type = .ok type := by
    rcases ht with ⟨rfl, rfl⟩ | ⟨rfl, rfl⟩ | ⟨rfl, rfl⟩ | ⟨rfl, rfl⟩ <;> rfl
  refine Ok.lift hty ?_
  have ht5 : t = 0x40 ∨ t = 0x50 ∨ t = 0x62 ∨ t = 0x70 ∨ t = 0xB0 := by
    rcases ht with ⟨rfl, _⟩ | ⟨rfl, _⟩ | ⟨rfl, _⟩ | ⟨rfl, _⟩ <;> simp
  have key : ∃ st j l, mqttDeserializeAck (some (packetOf t body extra h)) (some 0) none = .ok (st, j, l) := by
    rcases deser_id t body extra h ht5 with ⟨_, j, h2⟩ | ⟨id, _, _, h2⟩
    · exact ⟨_, _, _, h2⟩
    · exact ⟨_, _, _, h2⟩
  obtain ⟨st, j, l, hd⟩ := key
  refine Ok.lift hd ?_
  dsimp only
  refine Ok.ite (fun _ => Ok.pure ⟨rfl, rfl⟩) (fun _ => ?_)
  refine Ok.seq (state_ok (.ack .receive type (j.getD 0)) (fun _ _ _ => trivial) (by simp)) ?_
  rintro ⟨st, s⟩
  dsimp only
  refine Ok.ite (fun _ => Ok.pure ⟨rfl, rfl⟩) (fun _ => ?_)
  refine Ok.getCtx fun c _ => ?_
  have rest : Ok sess oc ic i buf (do
      act (appCallback (packetOf t body extra h) (j.getD 0) .success none)
      sendPublishAcksP g (j.getD 0) (s.getD .null)) (Same i buf) := by
    refine Ok.seq (appCallback_ok _ _ _ _) ?_
    rintro _
    exact sendPublishAcks_ok g _ _
  refine Ok.ite (fun _ => ?_) (fun _ => rest)
  refine Ok.seq (clearCallback_ok _) ?_
  rintro _
  exact rest

theorem handleIncomingAck_ok (g : Cfg) (manage : Bool) (t : UInt8) (body extra : List UInt8) (h : Nat) :
    Ok sess oc ic i buf (handleIncomingAckP g (packetOf t body extra h) manage) (Same i buf) := by
  unfold handleIncomingAckP
  have hpt : (packetOf t body extra h).type = t := rfl
  rw [hpt]
  refine Ok.ite ?_ ?_
  · intro hty
    have : ∃ type, ackByteType t type := by
      rcases hty with rfl | rfl | rfl | rfl
      · exact ⟨.puback, Or.inl ⟨rfl, rfl⟩⟩
      · exact ⟨.pubrec, Or.inr (Or.inl ⟨rfl, rfl⟩)⟩
      · exact ⟨.pubrel, Or.inr (Or.inr (Or.inl ⟨rfl, rfl⟩))⟩
      · exact ⟨.pubcomp, Or.inr (Or.inr (Or.inr ⟨rfl, rfl⟩))⟩
    obtain ⟨type, hbt⟩ := this
    exact handlePublishAcks_ok g t type body extra h hbt
  · intro _
    refine Ok.ite ?_ ?_
    · intro hp
      have hp : t = 0xD0 := hp
      subst hp
      refine Ok.lift (deser_pingresp body extra h) ?_
      dsimp only
      refine Ok.ite (fun _ => Ok.pure ⟨rfl, rfl⟩) (fun _ => ?_)
      refine Ok.ite (fun _ => ?_) (fun _ => ?_)
      · refine Ok.seq
          (Ok.modify (fun _ => rfl) (fun _ => rfl) (fun _ => rfl) (fun _ => rfl) (fun _ => rfl) (fun _ => rfl) ⟨rfl, rfl⟩) ?_
        rintro _
        exact Ok.pure ⟨rfl, rfl⟩
      · refine Ok.seq (appCallback_ok _ _ _ _) ?_
        rintro _
        exact Ok.pure ⟨rfl, rfl⟩
    · intro _
      refine Ok.ite ?_ (fun _ => Ok.pure ⟨rfl, rfl⟩)
      intro hty
      have key : ∃ st j l, mqttDeserializeAck (some (packetOf t body extra h)) (some 0) none = .ok (st, j, l) := by
        rcases hty with hty | hty
        · have hty : t = 0x90 := hty
          subst hty
          rcases deser_suback body extra h with ⟨_, j, h2⟩ | ⟨id, r, _, h2⟩
          · exact ⟨_, _, _, h2⟩
          · exact ⟨_, _, _, h2⟩
        · have hty : t = 0xB0 := hty
          subst hty
          rcases deser_id 0xB0 body extra h (by simp) with ⟨_, j, h2⟩ | ⟨id, _, _, h2⟩
          · exact ⟨_, _, _, h2⟩
          · exact ⟨_, _, _, h2⟩
      obtain ⟨st, j, l, hd⟩ := key
      refine Ok.lift hd ?_
      dsimp only
      refine Ok.ite (fun _ => ?_) (fun _ => Ok.pure ⟨rfl, rfl⟩)
      refine Ok.seq (appCallback_ok _ _ _ _) ?_
      rintro _
      exact Ok.pure ⟨rfl, rfl⟩

/-- What the header says about the bytes in the buffer. -/
def HeaderAt (i : Nat) (buf : List UInt8) (h : HeaderRes) : Prop :=
  h.status = .success → ∃ t hl n, readHeader (buf.take i) = .known t hl n ∧ h = ⟨.success, t, n, hl⟩

theorem addIndex_ok {k : Nat} (hk : i + k ≤ buf.length) :
    Ok sess oc ic i buf (act (modifyCtx fun c => { c with index := c.index + k })) (Same (i + k) buf) := by
  refine Ok.step fun w hw => ?_
  rw [wp_modifyCtx]
  have hb := bufSize_of hw
  have g1 : StepFx sess w [] { w with ctx := { w.ctx with index := w.ctx.index + k } } :=
    StepFx.plain (by simp) (by simp) rfl rfl rfl (fun _ => by show w.ctx.index + k ≤ w.ctx.bufSize; rw [hb, hw.index]; exact hk) rfl rfl
  exact ⟨⟨[], g1⟩, i + k, buf, ⟨g1.inv _ _ hw.inv, by show w.ctx.index + k = _; rw [hw.index], hw.netBuf⟩, rfl, rfl⟩

theorem receiveHeader_ok (hi : i ≤ buf.length) :
    Ok sess oc ic i buf receiveHeaderP (fun r i' buf' => i' ≤ buf'.length ∧ HeaderAt i' buf' r.2) := by
  unfold receiveHeaderP
  refine Ok.getCtx fun c hc => ?_
  rw [bufSize_of hc, hc.index]
  refine Ok.bind (recvInto_ok (by omega)) ?_
  rintro r i' buf' ⟨rfl, hl, hnone, hk⟩
  cases r with
  | none =>
    refine Ok.seq markPending_ok ?_
    rintro _
    exact Ok.pure ⟨by omega, fun h => by cases h⟩
  | some k =>
    obtain ⟨hkn, _⟩ := hk k rfl
    refine Ok.ite (fun _ => Ok.pure ⟨by omega, fun h => by cases h⟩) (fun hne => ?_)
    have hik : i' + k ≤ buf'.length := by omega
    refine Ok.bind (addIndex_ok hik) ?_
    rintro _ i2 buf2 ⟨rfl, rfl⟩
    refine Ok.getCtx fun c2 hc2 => ?_
    rw [hc2.netBuf, hc2.index]
    have hpos : 1 ≤ i' + k := by
      rcases Nat.eq_zero_or_pos (i' + k) with h0 | h0
      · exact absurd ⟨by omega, by omega⟩ hne
      · exact h0
    obtain ⟨hr, e1, e2⟩ := parseHeader_eq hpos (buf := buf2) (by omega)
    refine Ok.lift e1 (Ok.pure ⟨by omega, ?_⟩)
    intro hs
    dsimp only at hs ⊢
    rcases e2 with ⟨_, e⟩ | ⟨_, e⟩ | ⟨t, hl', n, e, e'⟩
    · rw [e] at hs; cases hs
    · rw [e] at hs; cases hs
    · exact ⟨t, hl', n, e, e'⟩

theorem keepAliveCheck_ok (g : Cfg) (r : Option Nat) (manage : Bool) (st : Status) :
    Ok sess oc ic i buf (keepAliveCheckP g r manage st) (fun st' i' buf' => i' = i ∧ buf' = buf ∧ (st' = .success → st = .success)) := by
  unfold keepAliveCheckP
  refine Ok.ite (fun _ => ?_) (fun _ => Ok.pure ⟨rfl, rfl, id⟩)
  refine Ok.seq (handleKeepAlive_ok g) ?_
  rintro st'
  exact Ok.ite (fun _ => Ok.pure ⟨rfl, rfl, id⟩) (fun h => Ok.pure ⟨rfl, rfl, fun h' => absurd h' h⟩)

theorem checkComplete_ok (g : Cfg) (st : Status) (total : Nat) :
    Ok sess oc ic i buf (checkCompleteP g st total)
      (fun st' i' buf' => st' = .success → st = .success ∧ i' = i ∧ buf' = buf ∧ total ≤ i) := by
  unfold checkCompleteP
  refine Ok.getCtx fun c hc => ?_
  rw [bufSize_of hc, hc.index]
  refine Ok.ite (fun h => Ok.pure fun h' => absurd h' h) (fun hs => ?_)
  have hs : st = .success := Classical.not_not.mp hs
  refine Ok.ite (fun h => Ok.mono (discardStored_ok g h) fun _ _ _ h1 h2 => absurd h2 h1) (fun _ => ?_)
  exact Ok.ite (fun _ => Ok.pure fun h => by cases h) (fun h => Ok.pure fun _ => ⟨hs, rfl, rfl, by omega⟩)

theorem dropPacket_ok {total : Nat} (ht : total ≤ i) : Ok sess oc ic i buf (act (dropPacket total)) (fun _ _ _ => True) := by
  refine Ok.step fun w hw => ?_
  unfold dropPacket
  rw [wp_bind, wp_getCtx, wp_ite]
  have hi := hw.inv.1
  constructor
  · rintro ⟨h1, _⟩
    rw [wp_modifyCtx]
    have hmove : (writeAt w.ctx.netBuf 0 ((w.ctx.netBuf.drop total).take (w.ctx.index - total))).length = w.ctx.netBuf.length := by
      rw [writeAt_length]
      simp
      unfold Ctx.bufSize at hi
      omega
    have g1 : StepFx sess w [] { w with ctx := { w.ctx with index := w.ctx.index - total, netBuf := writeAt w.ctx.netBuf 0 ((w.ctx.netBuf.drop total).take (w.ctx.index - total)) } } :=
      StepFx.plain (by simp) (by simp) rfl rfl hmove
        (fun _ => by show _ ≤ List.length _; rw [hmove]; unfold Ctx.bufSize at hi; show w.ctx.index - total ≤ _; omega) rfl rfl
    exact ⟨⟨[], g1⟩, _, _, ⟨g1.inv _ _ hw.inv, rfl, rfl⟩, trivial⟩
  · intro hn
    exact absurd ⟨by rw [hw.index]; exact ht, hi⟩ hn

theorem handlePacket_ok (g : Cfg) (manage : Bool) (t : UInt8) (hl n : Nat) (hW : maxRemaining < g.W) (hi : i ≤ buf.length)
    (hh : readHeader (buf.take i) = .known t hl n) (hlen : n + hl ≤ i) :
    Ok sess oc ic i buf (handlePacketP g manage ⟨.success, t, n, hl⟩) (fun _ _ _ => True) := by
  have hbl : (buf.take i).length = i := by simp; omega
  obtain ⟨hv, hn, _, _⟩ := known_packet hh (by rw [hbl]; omega)
  generalize hbody : ((buf.take i).drop hl).take n = body at *
  have hpk : (⟨t, some (buf.drop hl), n, hl⟩ : PacketInfo) = packetOf t body (buf.drop (hl + n)) hl := by
    unfold packetOf
    have h1 : body = (buf.drop hl).take n := by
      rw [← hbody, List.drop_take, List.take_take]
      congr 1; omega
    have h2 : buf.drop hl = body ++ buf.drop (hl + n) := by
      rw [h1, ← List.drop_drop, List.take_append_drop]
    have hn' : body.length = n := hn
    rw [hn', ← h2]
  unfold handlePacketP
  refine Ok.getCtx fun c hc => ?_
  dsimp only
  rw [hc.netBuf, hpk]
  have hW' : body.length < g.W := Nat.lt_of_le_of_lt hv.2 hW
  refine Ok.seq (Ok.ite (fun hp => handleIncomingPublish_ok g t body _ hl ((isPublish_iff t).mp hp) hW')
    (fun _ => handleIncomingAck_ok g manage t body _ hl)) ?_
  rintro st
  refine Ok.bind (dropPacket_ok hlen) ?_
  rintro _ i' buf' _
  refine Ok.ite (fun _ => ?_) (fun _ => Ok.pure trivial)
  refine Ok.getTime fun tm => ?_
  refine Ok.bind (P := fun _ _ _ => True)
    (Ok.modify (fun _ => rfl) (fun _ => rfl) (fun _ => rfl) (fun _ => rfl) (fun _ => rfl) (fun _ => rfl) trivial) fun _ _ _ _ => ?_
  exact Ok.pure trivial

theorem receiveSingleIteration_ok (g : Cfg) (manage : Bool) (hW : maxRemaining < g.W) (hi : i ≤ buf.length) :
    Ok sess oc ic i buf (receiveSingleIterationP g manage) (fun _ _ _ => True) := by
  unfold receiveSingleIterationP
  refine Ok.bind (receiveHeader_ok hi) ?_
  rintro ⟨r, h⟩ i1 buf1 ⟨h1, h2⟩
  dsimp only
  refine Ok.bind (keepAliveCheck_ok g r manage h.status) ?_
  rintro st _ _ ⟨rfl, rfl, h3⟩
  refine Ok.bind (checkComplete_ok g st _) ?_
  rintro st2 i2 buf2 h4
  refine Ok.bind (P := fun _ _ _ => True) (Ok.ite ?_ (fun _ => Ok.pure trivial)) ?_
  · intro hs
    obtain ⟨h5, rfl, rfl, h6⟩ := h4 hs
    obtain ⟨t, hl, n, h7, rfl⟩ := h2 (h3 h5)
    exact handlePacket_ok g manage t hl n hW h1 h7 h6
  · intro st3 _ _ _
    exact Ok.ite (fun _ => Ok.pure trivial) (fun _ => Ok.pure trivial)

theorem processLoop_ok (g : Cfg) (hW : maxRemaining < g.W) (hi : i ≤ buf.length) :
    Ok sess oc ic i buf (processLoopP g) (fun _ _ _ => True) := by
  unfold processLoopP
  refine Ok.seq
    (Ok.modify (fun _ => rfl) (fun _ => rfl) (fun _ => rfl) (fun _ => rfl) (fun _ => rfl) (fun _ => rfl) ⟨rfl, rfl⟩) ?_
  rintro _
  exact receiveSingleIteration_ok g true hW hi

end

end Mqtt
