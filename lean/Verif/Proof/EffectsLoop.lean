/-
One iteration of the receive loop (core_mqtt.c `receiveSingleIteration`) in terms of the stream of packets.
-/
import Verif.Proof.EffectsHandle
import Verif.Proof.EffectsRecv
import Verif.Proof.Stream

namespace Mqtt
open Spec
set_option linter.unusedSimpArgs false

/-- The context with the received bytes `r` appended to the buffered ones. -/
def appended (c : Ctx) (r : List UInt8) : Ctx := { c with netBuf := writeAt c.netBuf c.index r, index := c.index + r.length }

theorem appended_buffered {c : Ctx} {r : List UInt8} (h : c.index + r.length ≤ c.bufSize) :
    (appended c r).buffered = c.buffered ++ r := by
  unfold Ctx.bufSize at h
  show (writeAt c.netBuf c.index r).take (c.index + r.length) = _
  unfold writeAt Ctx.buffered
  have : (c.netBuf.take c.index ++ r).length = c.index + r.length := by simp; omega
  rw [← this, List.take_left]

/-- The events and the context after the keep-alive check that follows the receive call. -/
def KeepStep (g : Cfg) (manage : Bool) (r : List UInt8) (w : World) (kst : Status) (ka : List Event) (w' : World) : Prop :=
  (manage = true ∧ r = [] ∧ ∃ now, KeepAliveDone g now w kst ka w') ∨ (¬ (manage = true ∧ r = []) ∧ kst = .success ∧ ka = [] ∧ w' = w)

/-- What is reported to the caller. -/
def callerStatus (st : Status) : Status := if st = .noDataAvailable then .success else st

/-- The rest of the iteration, for the bytes that are buffered then. -/
def Advance (g : Cfg) (manage : Bool) (s : InFlight) (w : World) (st : Status) (es : List Event) (w' : World) : Prop :=
  match readHeader w.ctx.buffered with
  | .incomplete => es = [] ∧ w'.ctx = w.ctx ∧ st = if w.ctx.buffered = [] then .success else .needMoreBytes
  | .malformed => es = [] ∧ w'.ctx = w.ctx ∧ st = .badResponse
  | .known t hl n =>
    if hl + n > w.ctx.bufSize then
      RecvX es ∧ (received es).length ≤ hl + n - w.ctx.index ∧
      w'.ctx = { w.ctx with netBuf := List.replicate w.ctx.bufSize 0, index := 0,
                            connectStatus := afterFail (hasFail es) w.ctx.connectStatus } ∧
      (st = .success ∧ (received es).length = hl + n - w.ctx.index ∧ hasFail es = false ∨
        st = .recvFailed ∧ (hasFail es = true ∨ Starved g.recvPollingTimeoutMs es))
    else if hl + n > w.ctx.index then es = [] ∧ w'.ctx = w.ctx ∧ st = .needMoreBytes
    else
      ∃ rst re w3 rx, Reacted (react w.ctx.retransmits manage s t ((w.ctx.buffered.drop hl).take n)) w rst re w3 ∧
        (rst ≠ .success ∧ es = re ∧ rx = w.ctx.lastPacketRxTime ∨ rst = .success ∧ es = re ++ [.time rx]) ∧ st = callerStatus rst ∧
        w'.ctx = { w3.ctx with netBuf := w'.ctx.netBuf, index := w.ctx.index - (hl + n), lastPacketRxTime := rx } ∧
        w'.ctx.buffered = w.ctx.buffered.drop (hl + n)

/-- What one iteration did. -/
def Iterated (g : Cfg) (manage : Bool) (s : InFlight) (w : World) (st : Status) (es : List Event) (w' : World) : Prop :=
  w.ctx.index ≤ w.ctx.bufSize ∧
  ((es = [.recvd (w.ctx.bufSize - w.ctx.index) none, .pre, .post] ∧ st = .recvFailed ∧
      w'.ctx = { w.ctx with connectStatus := afterFail true w.ctx.connectStatus }) ∨
   ∃ r kst ka w1 w2, r.length ≤ w.ctx.bufSize - w.ctx.index ∧ w1.ctx = appended w.ctx r ∧ KeepStep g manage r w1 kst ka w2 ∧
    ((kst ≠ .success ∧ es = .recvd (w.ctx.bufSize - w.ctx.index) (some r) :: ka ∧ w'.ctx = w2.ctx ∧ st = kst) ∨
     (kst = .success ∧ ∃ es2, es = .recvd (w.ctx.bufSize - w.ctx.index) (some r) :: (ka ++ es2) ∧ Advance g manage s w2 st es2 w')))

/-- The events when an iteration does not return. -/
def IterX (manage : Bool) (s : InFlight) (c : Ctx) (es : List Event) : Prop :=
  es = [] ∨ ∃ r ka es2, es = .recvd (c.bufSize - c.index) (some r) :: (ka ++ es2) ∧ AckX pingreqPacket ka ∧ (¬ (manage = true ∧ r = []) → ka = []) ∧
    (es2 = [] ∨
     (∃ t hl n, readHeader (c.buffered ++ r) = .known t hl n ∧ hl + n > c.bufSize ∧ RecvX es2) ∨
     (∃ t hl n, readHeader (c.buffered ++ r) = .known t hl n ∧ hl + n ≤ (c.buffered ++ r).length ∧
        ReactX (react c.retransmits manage s t (((c.buffered ++ r).drop hl).take n)) es2))

theorem Reacted.x {r : Reaction} {w w' : World} {st : Status} {es : List Event} (h : Reacted r w st es w') : ReactX r es := by
  refine ⟨by rw [h.calls]; exact List.prefix_refl _, h.noRecv, ?_⟩
  rcases h.cases with h | h | h | ⟨_, _, h⟩
  · rw [h.2.1]; exact List.nil_prefix
  · rw [h.2.2.1]; exact List.nil_prefix
  · exact h.2.2.1
  · rw [h.2.2.1]; exact List.prefix_refl _

theorem buffered_length {c : Ctx} (h : c.index ≤ c.bufSize) : c.buffered.length = c.index := by
  unfold Ctx.buffered Ctx.bufSize at *
  simp; omega

theorem handlePacket_tr (g : Cfg) (manage : Bool) (t : UInt8) (hl n : Nat) (w : World) (s : InFlight) (hW : maxRemaining < g.W)
    (hrep : Represents w.ctx.tables s) (hi : w.ctx.index ≤ w.ctx.bufSize)
    (hh : readHeader w.ctx.buffered = .known t hl n) (hlen : hl + n ≤ w.ctx.index) :
    Tr True false (handlePacket g manage ⟨.success, t, n, hl⟩)
      (fun st es h' w' => h' = false ∧
        ∃ re w3 rx, Reacted (react w.ctx.retransmits manage s t ((w.ctx.buffered.drop hl).take n)) w st re w3 ∧
        (st ≠ .success ∧ es = re ∧ rx = w.ctx.lastPacketRxTime ∨ st = .success ∧ es = re ++ [.time rx]) ∧
        w'.ctx = { w3.ctx with netBuf := w'.ctx.netBuf, index := w.ctx.index - (hl + n), lastPacketRxTime := rx } ∧
        w'.ctx.buffered = w.ctx.buffered.drop (hl + n))
      (ReactX (react w.ctx.retransmits manage s t ((w.ctx.buffered.drop hl).take n))) w := by
  have hbl := buffered_length hi
  obtain ⟨hv, hn, _, _⟩ := known_packet hh (by rw [hbl]; exact hlen)
  generalize hbody : (w.ctx.buffered.drop hl).take n = body at *
  have hpk : (⟨t, some (w.ctx.netBuf.drop hl), n, hl⟩ : PacketInfo) = packetOf t body (w.ctx.netBuf.drop (hl + n)) hl := by
    unfold packetOf
    have h1 : body = (w.ctx.netBuf.drop hl).take n := by
      rw [← hbody]
      unfold Ctx.buffered
      rw [List.drop_take, List.take_take]
      congr 1; omega
    have h2 : w.ctx.netBuf.drop hl = body ++ w.ctx.netBuf.drop (hl + n) := by
      rw [h1, ← List.drop_drop, List.take_append_drop]
    have hn' : body.length = n := hn
    rw [hn', ← h2]
  unfold handlePacket
  refine Tr.getCtx ?_
  dsimp only
  rw [hpk]
  have hW' : body.length < g.W := by
    have := hv.2
    exact Nat.lt_of_le_of_lt this hW
  refine Tr.bind (dispatch_tr g manage t body _ hl w s hW' hrep) ?_
  rintro st re h' w3 f3 ⟨rfl, hre⟩
  refine Tr.getCtx ?_
  obtain ⟨t3, b3, T3, hc3⟩ := hre.ctx
  have hidx : w3.ctx.index = w.ctx.index := by rw [hc3]
  have hbuf : w3.ctx.netBuf = w.ctx.netBuf := by rw [hc3]
  have hrx : w3.ctx.lastPacketRxTime = w.ctx.lastPacketRxTime := by rw [hc3]
  have hbs : w3.ctx.bufSize = w.ctx.bufSize := f3.bufSize
  rw [hidx, hbs, show n + hl = hl + n from Nat.add_comm _ _]
  refine Tr.ite (fun _ => ?_) (fun hno => absurd ⟨hlen, hi⟩ hno)
  have hmove : (writeAt w3.ctx.netBuf 0 ((w3.ctx.netBuf.drop (hl + n)).take (w3.ctx.index - (hl + n)))).length = w3.ctx.netBuf.length := by
    rw [writeAt_length]
    simp
    unfold Ctx.bufSize at hi
    rw [hbuf]; omega
  have hfront : (writeAt w3.ctx.netBuf 0 ((w3.ctx.netBuf.drop (hl + n)).take (w3.ctx.index - (hl + n)))).take (w3.ctx.index - (hl + n))
      = w.ctx.buffered.drop (hl + n) := by
    unfold writeAt Ctx.buffered
    unfold Ctx.bufSize at hi
    rw [hidx, hbuf, List.drop_take, List.take_zero, List.nil_append]
    have hlen2 : ((w.ctx.netBuf.drop (hl + n)).take (w.ctx.index - (hl + n))).length = w.ctx.index - (hl + n) := by
      simp; omega
    rw [List.take_append_of_le_length (by omega), List.take_take, Nat.min_self]
  refine Tr.modifyCtx rfl rfl rfl hmove rfl rfl ?_ rfl ?_
  · intro h0
    show w3.ctx.index - (hl + n) ≤ List.length _
    rw [hmove]
    have : w3.ctx.index ≤ w3.ctx.netBuf.length := h0
    omega
  refine Tr.ite ?_ ?_
  · intro hst
    refine Tr.getTime (by simpa using hre.x) ?_
    intro tm rest _
    refine Tr.modifyCtx rfl rfl rfl rfl rfl rfl (fun h => h) rfl ?_
    refine Tr.pure ⟨rfl, re, w3, tm, hre, Or.inr ⟨hst, rfl⟩, ?_, hfront⟩
    simp only [timeWorld, ← hidx]
  · intro hst
    refine Tr.pure ⟨rfl, re, w3, w.ctx.lastPacketRxTime, hre, Or.inl ⟨hst, by simp, rfl⟩, ?_, hfront⟩
    simp only [← hidx, ← hrx]

theorem KeepAliveDone.ctx {g : Cfg} {now : UInt32} {w w' : World} {st : Status} {es : List Event} (h : KeepAliveDone g now w st es w') :
    ∃ t p q, w'.ctx = { w.ctx with lastPacketTxTime := t, connectStatus := afterFail (hasFail es) w.ctx.connectStatus,
                                   pingReqSendTimeMs := p, waitingForPingResp := q } := by
  rcases h with ⟨_, h2, h3, _⟩ | ⟨_, _, h2, h3, _⟩ | ⟨_, _, es', h2, w1, h3, h4⟩
  · exact ⟨w.ctx.lastPacketTxTime, w.ctx.pingReqSendTimeMs, w.ctx.waitingForPingResp, by rw [h3, h2]; simp [hasFail, isFail, afterFail_false]⟩
  · exact ⟨w.ctx.lastPacketTxTime, w.ctx.pingReqSendTimeMs, w.ctx.waitingForPingResp, by rw [h3, h2]; simp [hasFail, isFail, afterFail_false]⟩
  · obtain ⟨t, p, q, hc⟩ := h4.ctx
    refine ⟨t, p, q, ?_⟩
    rw [hc, h3, h2]
    simp [hasFail, isFail]

theorem KeepAliveDone.x {g : Cfg} {now : UInt32} {w w' : World} {st : Status} {es : List Event} (h : KeepAliveDone g now w st es w') :
    AckX pingreqPacket es := by
  rcases h with ⟨_, rfl, _⟩ | ⟨_, _, rfl, _⟩ | ⟨_, _, es', rfl, w1, _, h4⟩
  · exact AckX.cons rfl rfl (AckX.nil _)
  · exact AckX.cons rfl rfl (AckX.cons rfl rfl (AckX.cons rfl rfl (AckX.nil _)))
  · refine AckX.cons rfl rfl (AckX.cons rfl rfl (AckX.cons rfl rfl ⟨h4.kinds, ?_⟩))
    rcases h4.cases with h | h | h
    · rw [h.2.1]; exact List.nil_prefix
    · exact h.2.1
    · rw [h.2.1]; exact List.prefix_refl _

/-- The check changes neither the buffered bytes nor the in-flight publishes. -/
theorem KeepStep.keeps {g : Cfg} {manage : Bool} {r : List UInt8} {w w' : World} {kst : Status} {ka : List Event}
    (h : KeepStep g manage r w kst ka w') :
    w'.ctx.index = w.ctx.index ∧ w'.ctx.netBuf = w.ctx.netBuf ∧ w'.ctx.tables = w.ctx.tables ∧ w'.ctx.retransmits = w.ctx.retransmits ∧
    w'.ctx.connectStatus = afterFail (hasFail ka) w.ctx.connectStatus ∧
    AckX pingreqPacket ka ∧ (¬ (manage = true ∧ r = []) → ka = []) := by
  rcases h with ⟨h1, h2, now, h3⟩ | ⟨h1, h2, h3, h4⟩
  · obtain ⟨t, p, q, hc⟩ := h3.ctx
    refine ⟨by rw [hc], by rw [hc], by rw [hc], by rw [hc], by rw [hc], h3.x, fun h => absurd ⟨h1, h2⟩ h⟩
  · subst h4 h3
    exact ⟨rfl, rfl, rfl, rfl, (afterFail_false _).symm, AckX.nil _, fun _ => rfl⟩

theorem keepAliveCheck_tr {V : Prop} (g : Cfg) (manage : Bool) (r : List UInt8) (st : Status) (w : World) :
    Tr V false (keepAliveCheck g (some r.length) manage st)
      (fun st' es h' w' => h' = false ∧ ∃ kst, KeepStep g manage r w kst es w' ∧ st' = if kst = .success then st else kst)
      (fun es => AckX pingreqPacket es ∧ (¬ (manage = true ∧ r = []) → es = [])) w := by
  unfold keepAliveCheck
  have hr : some r.length = some 0 ↔ r = [] := by simp
  refine Tr.ite ?_ ?_
  · rintro ⟨h1, h2⟩
    have h2' : manage = true := by simpa using h2
    have h1' := hr.mp h1
    refine Tr.bind (R' := fun st es h' w' => h' = false ∧ ∃ now, KeepAliveDone g now w st es w')
      (Tr.mono (handleKeepAlive_tr g w) (fun _ _ _ _ _ h => h) (fun es hes => ⟨hes, fun h => absurd ⟨h2', h1'⟩ h⟩)) ?_
    rintro kst es h' w1 f ⟨rfl, now, hk⟩
    refine Tr.ite ?_ ?_
    · intro hs
      exact Tr.pure ⟨rfl, kst, Or.inl ⟨h2', h1', now, by simpa using hk⟩, by rw [if_pos hs]⟩
    · intro hs
      exact Tr.pure ⟨rfl, kst, Or.inl ⟨h2', h1', now, by simpa using hk⟩, by rw [if_neg hs]⟩
  · intro hn
    refine Tr.pure ⟨rfl, .success, Or.inr ⟨?_, rfl, rfl, rfl⟩, by simp⟩
    rintro ⟨h1, h2⟩
    exact hn ⟨hr.mpr h2, h1⟩

/-- What `receiveHeader` reports about the buffered bytes. -/
def HeaderOf (bs : List UInt8) (hr : HeaderRes) : Prop :=
  (readHeader bs = .incomplete ∧ hr.status = (if bs = [] then .noDataAvailable else .needMoreBytes)) ∨
  (readHeader bs = .malformed ∧ hr.status = .badResponse) ∨
  ∃ t hl n, readHeader bs = .known t hl n ∧ hr = ⟨.success, t, n, hl⟩

theorem receiveHeader_tr (w : World) :
    Tr True false receiveHeader
      (fun p es h' w' => h' = false ∧ w.ctx.index ≤ w.ctx.bufSize ∧
        ((p = (none, ⟨.recvFailed, 0, 0, 0⟩) ∧ es = [.recvd (w.ctx.bufSize - w.ctx.index) none, .pre, .post] ∧
          w'.ctx = { w.ctx with connectStatus := afterFail true w.ctx.connectStatus }) ∨
        ∃ r hr, r.length ≤ w.ctx.bufSize - w.ctx.index ∧ p = (some r.length, hr) ∧ es = [.recvd (w.ctx.bufSize - w.ctx.index) (some r)] ∧
          w'.ctx = appended w.ctx r ∧ HeaderOf (w.ctx.buffered ++ r) hr))
      (fun es => es = []) w := by
  unfold receiveHeader
  refine Tr.getCtx ?_
  unfold Tr
  rw [wp_bind]
  refine wp_recvInto (Fxs.refl false w rfl) (fun hb => ⟨Fxs.refl false w trivial, ?_⟩) ?_ ?_
  · rintro ⟨_, oc, ic, hi, _⟩
    exact hb (by omega)
  · intro rest hb hr
    show wp (do markPendingHooked; pure (none, _)) _ _ _ _
    rw [wp_bind, wp_markPendingHooked, wp_pure]
    exact ⟨_, false, Fx.failed, rfl, by omega, Or.inl ⟨rfl, rfl, rfl⟩⟩
  · intro k rest hb hr
    have f := Fx.recvInto (h := false) (w := w) (k := k) (rest := rest) hb
    generalize hbs : w.env.input.take (min k (w.ctx.bufSize - w.ctx.index)) = bs at f ⊢
    have hbl : bs.length ≤ w.ctx.bufSize - w.ctx.index := by rw [← hbs]; simp; omega
    have hidx : w.ctx.index ≤ w.ctx.bufSize := by omega
    refine Tr.after f ?_
    have hctx : (recvIntoWorld w w.ctx.index (w.ctx.bufSize - w.ctx.index) k rest).ctx = { w.ctx with netBuf := writeAt w.ctx.netBuf w.ctx.index bs } := by
      simp [recvIntoWorld, recvWorld, hbs]
    generalize recvIntoWorld w w.ctx.index (w.ctx.bufSize - w.ctx.index) k rest = w1 at *
    dsimp only
    have hlen : (writeAt w.ctx.netBuf w.ctx.index bs).length = w.ctx.bufSize := writeAt_length (by unfold Ctx.bufSize at *; omega)
    refine Tr.ite ?_ ?_
    · rintro ⟨h1, h2⟩
      have hb0 : bs = [] := List.eq_nil_of_length_eq_zero h1
      subst hb0
      refine Tr.pure ⟨rfl, hidx, Or.inr ⟨[], _, Nat.zero_le _, rfl, rfl, ?_, Or.inl ?_⟩⟩
      · rw [hctx]; rfl
      · have : w.ctx.buffered = [] := by unfold Ctx.buffered; rw [h2]; rfl
        rw [this]
        exact ⟨rfl, rfl⟩
    · intro hn
      refine Tr.modifyCtx rfl rfl rfl rfl rfl rfl ?_ rfl ?_
      · intro _
        show w1.ctx.index + bs.length ≤ w1.ctx.netBuf.length
        rw [hctx]
        show w.ctx.index + bs.length ≤ List.length _
        rw [hlen]; omega
      refine Tr.getCtx ?_
      show Tr _ _ (Mqtt.liftRes (processIncomingPacketTypeAndLength (some w1.ctx.netBuf) (w1.ctx.index + bs.length)) >>= _) _ _ _
      have hi1 : w1.ctx.index = w.ctx.index := by rw [hctx]
      have hnb : w1.ctx.netBuf = writeAt w.ctx.netBuf w.ctx.index bs := by rw [hctx]
      rw [hi1, hnb]
      have hpos : 1 ≤ w.ctx.index + bs.length := by
        rcases Nat.eq_zero_or_pos (w.ctx.index + bs.length) with h0 | h0
        · exact absurd ⟨by omega, by omega⟩ hn
        · exact h0
      obtain ⟨hr, e1, e2⟩ := parseHeader_eq hpos (buf := writeAt w.ctx.netBuf w.ctx.index bs) (by rw [hlen]; omega)
      have hbuf : (writeAt w.ctx.netBuf w.ctx.index bs).take (w.ctx.index + bs.length) = w.ctx.buffered ++ bs :=
        appended_buffered (c := w.ctx) (by omega)
      rw [hbuf] at e2
      refine Tr.liftOk e1 (Tr.pure ⟨rfl, hidx, Or.inr ⟨bs, hr, hbl, rfl, rfl, by simp only [hctx]; rfl, ?_⟩⟩)
      rcases e2 with ⟨e, e'⟩ | e | e
      · refine Or.inl ⟨e, ?_⟩
        rw [e', if_neg]
        intro h
        have := congrArg List.length h
        rw [List.length_append, buffered_length hidx] at this
        simp only [List.length_nil] at this
        omega
      · exact Or.inr (Or.inl e)
      · exact Or.inr (Or.inr e)

theorem receiveSingleIteration_tr (g : Cfg) (manage : Bool) (w : World) (s : InFlight) (hW : maxRemaining < g.W)
    (hrep : Represents w.ctx.tables s) :
    Tr True false (receiveSingleIteration g manage) (fun st es h' w' => h' = false ∧ Iterated g manage s w st es w')
      (IterX manage s w.ctx) w := by
  unfold receiveSingleIteration
  refine Tr.bind (Tr.mono (receiveHeader_tr w) (fun _ _ _ _ _ h => h) (fun es hes => Or.inl hes)) ?_
  rintro p es1 h1 w1 f1 ⟨rfl, hidx, hcase⟩
  rcases hcase with ⟨rfl, rfl, hc⟩ | ⟨r, hr, hrl, rfl, rfl, hc, hh⟩
  · dsimp only
    have hk : keepAliveCheck g none manage .recvFailed = (pure .recvFailed : M Status) := by
      unfold keepAliveCheck; simp
    rw [hk, pure_bind]
    unfold checkComplete
    rw [bind_assoc]
    refine Tr.getCtx ?_
    rw [if_pos (by simp), pure_bind, if_neg (by simp), pure_bind, if_neg (by simp)]
    exact Tr.pure ⟨rfl, hidx, Or.inl ⟨rfl, rfl, hc⟩⟩
  · dsimp only
    have hbuf1 : w1.ctx.buffered = w.ctx.buffered ++ r := by rw [hc]; exact appended_buffered (by omega)
    refine Tr.bind (R' := fun st' es h' w' => h' = false ∧ ∃ kst, KeepStep g manage r w1 kst es w' ∧ st' = if kst = .success then hr.status else kst)
      (Tr.mono (keepAliveCheck_tr g manage r hr.status w1) (fun _ _ _ _ _ h => h) ?_) ?_
    · rintro es ⟨h1, h2⟩
      exact Or.inr ⟨r, es, [], by simp, h1, h2, Or.inl rfl⟩
    rintro st1 ka h2 w2 f2 ⟨rfl, kst, hks, hst1⟩
    obtain ⟨k1, k2, k3, k4, k5, k6, k7⟩ := hks.keeps
    have hbuf2 : w2.ctx.buffered = w.ctx.buffered ++ r := by rw [← hbuf1]; unfold Ctx.buffered; rw [k1, k2]
    have hsz2 : w2.ctx.bufSize = w.ctx.bufSize := f2.bufSize.trans f1.bufSize
    have hidx2 : w2.ctx.index ≤ w2.ctx.bufSize := by
      rw [hsz2, k1, hc]
      show w.ctx.index + r.length ≤ _
      omega
    have hrep2 : Represents w2.ctx.tables s := by rw [k3, hc]; exact hrep
    have hretx : w2.ctx.retransmits = w.ctx.retransmits := by rw [k4, hc]; rfl
    -- a status that ends the iteration
    have stop : ∀ st, st ≠ .success → st1 = st → (∀ w', w'.ctx = w2.ctx → Iterated g manage s w (callerStatus st)
        ([.recvd (w.ctx.bufSize - w.ctx.index) (some r)] ++ (ka ++ [])) w') →
        Tr True false (do
          let st ← checkComplete g st1 (hr.remainingLength + hr.headerLength)
          let st ← (if st = .success then handlePacket g manage hr else pure st)
          if st = .noDataAvailable then pure .success else pure st)
        (fun a es2 h2 w2 => h2 = false ∧ Iterated g manage s w a ([.recvd (w.ctx.bufSize - w.ctx.index) (some r)] ++ (ka ++ es2)) w2)
        (fun es2 => IterX manage s w.ctx ([.recvd (w.ctx.bufSize - w.ctx.index) (some r)] ++ (ka ++ es2))) w2 := by
      rintro st hne rfl hit
      unfold checkComplete
      rw [bind_assoc]
      refine Tr.getCtx ?_
      rw [if_pos hne, pure_bind, if_neg hne, pure_bind]
      have := hit w2 rfl
      unfold callerStatus at this
      refine Tr.ite ?_ ?_
      · intro h; rw [if_pos h] at this; exact Tr.pure ⟨rfl, this⟩
      · intro h; rw [if_neg h] at this; exact Tr.pure ⟨rfl, this⟩
    have hit : ∀ st es2 w', kst = .success → Advance g manage s w2 st es2 w' →
        Iterated g manage s w st ([.recvd (w.ctx.bufSize - w.ctx.index) (some r)] ++ (ka ++ es2)) w' := by
      intro st es2 w' hk ha
      exact ⟨hidx, Or.inr ⟨r, kst, ka, w1, w2, hrl, hc, hks, Or.inr ⟨hk, es2, rfl, ha⟩⟩⟩
    by_cases hk : kst = .success
    · rw [if_pos hk] at hst1
      rcases hh with ⟨e1, e2⟩ | ⟨e1, e2⟩ | ⟨t, hl, n, e1, e2⟩
      · refine stop hr.status (by rw [e2]; split <;> simp) hst1 ?_
        intro w' hw'
        refine hit _ _ _ hk ?_
        unfold Advance
        rw [hbuf2, e1]
        refine ⟨rfl, hw', ?_⟩
        rw [e2]
        by_cases hnil : w.ctx.buffered ++ r = []
        · rw [if_pos hnil, if_pos hnil]; rfl
        · rw [if_neg hnil, if_neg hnil]; rfl
      · refine stop hr.status (by rw [e2]; simp) hst1 ?_
        intro w' hw'
        refine hit _ _ _ hk ?_
        unfold Advance
        rw [hbuf2, e1]
        exact ⟨rfl, hw', by rw [e2]; rfl⟩
      · subst e2
        subst hst1
        dsimp only
        have e1' : readHeader w2.ctx.buffered = .known t hl n := by rw [hbuf2]; exact e1
        unfold checkComplete
        rw [bind_assoc]
        refine Tr.getCtx ?_
        rw [if_neg (by simp), show n + hl = hl + n from Nat.add_comm _ _]
        by_cases hbig : hl + n > w2.ctx.bufSize
        · rw [if_pos hbig]
          refine Tr.bind (Tr.mono ((discardStoredPacket_tr g (hl + n) w2).weaken (fun _ => hbig)) (fun _ _ _ _ _ h => h) ?_) ?_
          · intro es hes
            exact Or.inr ⟨r, ka, es, rfl, k6, k7, Or.inr (Or.inl ⟨t, hl, n, e1, by rw [← hsz2]; exact hbig, hes⟩)⟩
          rintro st es h' w3 f3 ⟨rfl, d1, d2, d3, d4⟩
          have hadv : Advance g manage s w2 (callerStatus st) es w3 := by
            unfold Advance
            rw [e1']
            simp only
            rw [if_pos hbig]
            refine ⟨d2, d1, d3, ?_⟩
            rcases d4 with ⟨rfl, d5, d6⟩ | ⟨rfl, d5⟩
            · exact Or.inl ⟨rfl, d5, d6⟩
            · exact Or.inr ⟨rfl, d5⟩
          rcases d4 with ⟨rfl, _⟩ | ⟨rfl, _⟩
          · rw [if_neg (by simp), pure_bind, if_pos rfl]
            exact Tr.pure ⟨rfl, by rw [List.append_nil]; exact hit _ _ _ hk hadv⟩
          · rw [if_neg (by simp), pure_bind, if_neg (by simp)]
            exact Tr.pure ⟨rfl, by rw [List.append_nil]; exact hit _ _ _ hk hadv⟩
        · rw [if_neg hbig]
          by_cases hmore : hl + n > w2.ctx.index
          · rw [if_pos hmore, pure_bind, if_neg (by simp), pure_bind, if_neg (by simp)]
            refine Tr.pure ⟨rfl, hit _ _ _ hk ?_⟩
            unfold Advance
            rw [e1']
            simp only
            rw [if_neg hbig, if_pos hmore]
            simp
          · rw [if_neg hmore, pure_bind, if_pos rfl]
            refine Tr.bind (Tr.mono (handlePacket_tr g manage t hl n w2 s hW hrep2 hidx2 e1' (by omega)) (fun _ _ _ _ _ h => h) ?_) ?_
            · intro es hes
              rw [hbuf2, hretx] at hes
              refine Or.inr ⟨r, ka, es, rfl, k6, k7, Or.inr (Or.inr ⟨t, hl, n, e1, ?_, hes⟩)⟩
              rw [← hbuf2, buffered_length hidx2]; omega
            rintro st es h' w3 f3 ⟨rfl, re, w4, rx, d1, d2, d3, d4⟩
            have hadv : Advance g manage s w2 (callerStatus st) es w3 := by
              unfold Advance
              rw [e1']
              simp only
              rw [if_neg hbig, if_neg hmore]
              exact ⟨st, re, w4, rx, d1, d2, rfl, d3, d4⟩
            unfold callerStatus at hadv
            refine Tr.ite ?_ ?_
            · intro h; rw [if_pos h] at hadv
              exact Tr.pure ⟨rfl, by rw [List.append_nil]; exact hit _ _ _ hk hadv⟩
            · intro h; rw [if_neg h] at hadv
              exact Tr.pure ⟨rfl, by rw [List.append_nil]; exact hit _ _ _ hk hadv⟩
    · rw [if_neg hk] at hst1
      refine stop kst hk hst1 ?_
      intro w' hw'
      refine ⟨hidx, Or.inr ⟨r, kst, ka, w1, w2, hrl, hc, hks, Or.inl ⟨hk, by simp, hw', ?_⟩⟩⟩
      unfold callerStatus
      rcases hks with ⟨_, _, now, h | h | ⟨_, _, _, _, _, _, h⟩⟩ | ⟨_, h, _⟩
      · have := h.2.2.2
        rw [this]
        split <;> simp
      · exact absurd h.2.2.2.2 hk
      · rcases h.cases with h | h | h
        · rw [h.2.2.2.1]; unfold notConnectedStatus; split <;> simp
        · rw [h.2.2.2.1]; simp
        · exact absurd h.2.2.2.1 hk
      · exact absurd h hk

end Mqtt
