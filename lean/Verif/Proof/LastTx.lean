/-
The time of the last transmission kept in the context is the clock reading that followed the last successful send call; the time kept
for an outstanding ping is the reading with which its transmission ended.
-/
import Verif.Proof.EffectsSend
import Verif.Spec.Calls
import Verif.Spec.KeepAlive

namespace Mqtt
open Spec
set_option linter.unusedSimpArgs false

/-- `m` keeps `I` whenever it returns. -/
def Pres (I : World → Prop) {α : Type} (m : M α) : Prop := ∀ w, I w → ∀ a w', m w = .done a w' → I w'

/-- Not a transmission. -/
def noSend : Event → Bool
  | .sent .. => false
  | _ => true

/-- `f` changes neither the time of the last transmission nor what is noted about an outstanding ping (except that it may be forgotten). -/
abbrev Quiet (f : Ctx → Ctx) : Prop := ∀ c, (f c).lastPacketTxTime = c.lastPacketTxTime ∧
  ((f c).waitingForPingResp = true → c.waitingForPingResp = true ∧ (f c).pingReqSendTimeMs = c.pingReqSendTimeMs)

/-- What an invariant must satisfy to be kept by the functions other than `MQTT_Ping`. -/
class Closed0 (I : World → Prop) : Prop where
  modify : ∀ (w : World) (f : Ctx → Ctx), Quiet f → I w → I { w with ctx := f w.ctx }
  add : ∀ (w : World) (e : Event) (env : Env), noSend e = true → I w → I { w with env := env, trace := w.trace ++ [e] }
  idle : ∀ (w : World) (bs : List UInt8) (r : Option Nat) (env : Env), (r = none ∨ r = some 0) → I w →
    I { w with env := env, trace := w.trace ++ [.sent bs r] }
  sent : ∀ (w : World) (bs : List UInt8) (k : Nat) (t : UInt32) (env : Env), 0 < k → I w →
    I { w with ctx := { w.ctx with lastPacketTxTime := t }, env := env, trace := (w.trace ++ [.sent bs (some k)]) ++ [.time t] }

class Closed (I : World → Prop) : Prop extends Closed0 I where
  ping : ∀ g, Pres I (mqttPing g)

section
variable {α β : Type} {I : World → Prop}

theorem pres_pure (a : α) : Pres I (pure a : M α) := by
  intro w h b w' he
  cases he; exact h

theorem pres_bind {m : M α} {f : α → M β} (hm : Pres I m) (hf : ∀ a, Pres I (f a)) : Pres I (m >>= f) := by
  intro w h b w' he
  change M.bind m f w = _ at he
  unfold M.bind at he
  cases hmw : m w with
  | done a w1 =>
    rw [hmw] at he
    exact hf a w1 (hm w h a w1 hmw) b w' he
  | stuck w1 => rw [hmw] at he; cases he
  | ub e w1 => rw [hmw] at he; cases he

theorem pres_stuck : Pres I (stuckM : M α) := by intro w h a w' he; cases he
theorem pres_ub (e : UB) : Pres I (ubM e : M α) := by intro w h a w' he; cases he
theorem pres_lift (r : Res α) : Pres I (liftRes r) := by
  intro w h a w' he
  unfold liftRes at he
  cases r <;> cases he
  exact h

theorem pres_getCtx : Pres I getCtx := by intro w h a w' he; cases he; exact h

theorem pres_modify [Closed0 I] {f : Ctx → Ctx} (hf : Quiet f) : Pres I (modifyCtx f) := by
  intro w h a w' he
  cases he
  exact Closed0.modify w f hf h

theorem pres_emit [Closed0 I] {e : Event} (he : noSend e = true) : Pres I (emit e) := by
  intro w h a w' heq
  cases heq
  exact Closed0.add w e w.env he h

theorem pres_pre [Closed0 I] : Pres I preHook := pres_emit rfl
theorem pres_post [Closed0 I] : Pres I postHook := pres_emit rfl
theorem pres_clear [Closed0 I] (id : UInt16) : Pres I (clearCallback id) := pres_emit rfl
theorem pres_app [Closed0 I] (pk : PacketInfo) (id : UInt16) (r : Status) (p : Option PublishInfo) : Pres I (appCallback pk id r p) := pres_emit rfl

theorem pres_getTime [Closed0 I] : Pres I getTime := by
  intro w h a w' he
  unfold getTime at he
  split at he
  · cases he
  · cases he; exact Closed0.add _ _ _ rfl h

theorem pres_recv [Closed0 I] (n : Nat) : Pres I (transportRecv n) := by
  intro w h a w' he
  unfold transportRecv at he
  split at he
  · cases he
  · cases he; exact Closed0.add _ _ _ rfl h
  · cases he; exact Closed0.add _ _ _ rfl h

theorem pres_store [Closed0 I] (id : UInt16) (v : List IoVec) : Pres I (storeCallback id v) := by
  intro w h a w' he
  unfold storeCallback at he
  split at he
  · cases he
  · cases he; exact Closed0.add _ _ _ rfl h

theorem pres_retrieve [Closed0 I] (id : UInt16) : Pres I (retrieveCallback id) := by
  intro w h a w' he
  unfold retrieveCallback at he
  split at he
  · cases he
  · cases he; exact Closed0.add _ _ _ rfl h

theorem pres_tables [Closed0 I] (f : Tables → Res (α × Tables)) : Pres I (onTables f) := by
  intro w h a w' he
  unfold onTables at he
  split at he
  · rename_i t _
    cases he
    exact Closed0.modify w (fun c => { c with tables := t }) (fun _ => ⟨rfl, fun h => ⟨h, rfl⟩⟩) h
  · cases he

theorem pres_sendFuel : Pres I sendFuel := by intro w h a w' he; cases he; exact h
theorem pres_recvFuel : Pres I recvFuel := by intro w h a w' he; cases he; exact h
theorem pres_clockFuel : Pres I clockFuel := by intro w h a w' he; cases he; exact h
theorem pres_markPending [Closed0 I] : Pres I markPending := pres_modify fun c => by split <;> exact ⟨rfl, fun h => ⟨h, rfl⟩⟩

/-- The transport's answer followed by the statements that handle it. -/
theorem pres_send [Closed0 I] (bytes : List UInt8) {f : Option Nat → M α} (q : Option Nat → Res Unit) (hf : ∀ r, Pres I (f r)) :
    Pres I (transportSend bytes >>= fun r => liftRes (q r) >>= fun _ => noteSendResult r >>= fun _ => f r) := by
  intro w h a w' he
  change M.bind _ _ w = _ at he
  unfold M.bind transportSend at he
  have lift : ∀ {q : Res Unit} {k : Unit → M α} {w1 : World}, (liftRes q >>= k) w1 = .done a w' → k () w1 = .done a w' := by
    intro q k w1 hq
    change M.bind _ _ w1 = _ at hq
    unfold M.bind liftRes at hq
    cases q <;> first | exact hq | cases hq
  cases hs : w.env.sends with
  | nil => rw [hs] at he; cases he
  | cons x rest =>
    rw [hs] at he
    cases x with
    | fail =>
      have he := lift he
      change M.bind markPending (fun _ => f none) _ = _ at he
      unfold M.bind at he
      refine hf none _ (pres_markPending _ ?_ _ _ rfl) a w' he
      exact Closed0.idle _ _ _ _ (Or.inl rfl) h
    | accept k =>
      have he := lift he
      change M.bind (noteSendResult (some (min k bytes.length))) (fun _ => f _) _ = _ at he
      unfold noteSendResult M.bind at he
      dsimp only at he
      by_cases hk : min k bytes.length > 0
      · rw [if_pos hk] at he
        simp only [bind, M.bind, getTime] at he
        cases hc : w.env.clock with
        | nil => rw [hc] at he; cases he
        | cons t ts =>
          rw [hc] at he
          exact hf _ _ (Closed0.sent w bytes _ t _ hk h) a w' he
      · rw [if_neg hk] at he
        refine hf _ _ ?_ a w' he
        have h0 : min k bytes.length = 0 := by omega
        rw [h0]
        exact Closed0.idle _ _ _ _ (Or.inr rfl) h

theorem pres_send' [Closed0 I] (bytes : List UInt8) {f : Option Nat → M α} (hf : ∀ r, Pres I (f r)) :
    Pres I (transportSend bytes >>= fun r => noteSendResult r >>= fun _ => f r) :=
  pres_send bytes (fun _ => .ok ()) hf

theorem pres_ite {c : Prop} [Decidable c] {a b : M α} (ha : Pres I a) (hb : Pres I b) : Pres I (if c then a else b) := by
  split
  · exact ha
  · exact hb

end

syntax "pres" "[" term,* "]" : tactic
macro_rules
  | `(tactic| pres [$[$ts],*]) => `(tactic|
      repeat' (with_reducible first
        | (first $[| exact $ts]*)
        | exact pres_pure _ | exact pres_stuck | exact pres_ub _ | exact pres_lift _ | exact pres_getCtx | exact pres_pre | exact pres_post
        | exact pres_clear _ | exact pres_app .. | exact pres_getTime | exact pres_recv _ | exact pres_store .. | exact pres_retrieve _
        | exact pres_tables _ | exact pres_sendFuel | exact pres_recvFuel | exact pres_clockFuel | exact pres_markPending
        | exact pres_modify (fun _ => ⟨rfl, fun h => ⟨h, rfl⟩⟩) | exact pres_modify (fun _ => ⟨rfl, fun h => nomatch h⟩)
        | (intro _) | apply pres_ite | apply pres_bind | split))

section
variable {I : World → Prop} [Closed0 I]

theorem pres_sendBufferLoop (g : Cfg) (t0 : UInt32) : ∀ n rest sent, Pres I (sendBufferLoop g t0 n rest sent)
  | 0, _, _ => pres_stuck
  | n + 1, rest, sent => by
    have ih := pres_sendBufferLoop g t0 n
    unfold sendBufferLoop
    apply pres_ite
    · apply pres_send'
      pres [ih _ _]
    · pres [ih _ _]

theorem pres_sendBuffer (g : Cfg) (bs : List UInt8) : Pres I (sendBuffer g bs) := by
  unfold sendBuffer; pres [pres_sendBufferLoop g _ _ _ _]

theorem pres_sendVecLoop (g : Cfg) (t0 : UInt32) (N : Nat) : ∀ n rest sent, Pres I (sendVecLoop g t0 N n rest sent)
  | 0, _, _ => pres_stuck
  | n + 1, rest, sent => by
    have ih := pres_sendVecLoop g t0 N n
    unfold sendVecLoop
    apply pres_ite
    · refine pres_bind pres_getCtx fun c => ?_
      refine pres_bind (pres_lift _) fun bs => ?_
      apply pres_send
      pres [ih _ _]
    · pres [ih _ _]

theorem pres_sendMessageVector (g : Cfg) (v : List IoVec) : Pres I (sendMessageVector g v) := by
  unfold sendMessageVector; pres [pres_sendVecLoop g _ _ _ _ _]

theorem pres_sendWholeVector (g : Cfg) (v : List IoVec) : Pres I (sendWholeVector g v) := by
  unfold sendWholeVector; pres [pres_sendMessageVector g _]

theorem pres_sendFiltersLoop (g : Cfg) (ty : SubType) : ∀ n v l, Pres I (sendFiltersLoop g ty n v l)
  | 0, _, _ => pres_stuck
  | n + 1, v, l => by
    have ih := pres_sendFiltersLoop g ty n
    unfold sendFiltersLoop
    pres [ih _ _, pres_sendWholeVector g _]

theorem pres_sendFilters (g : Cfg) (ty : SubType) (l : List SubscribeInfo) (id : UInt16) (n : Nat) :
    Pres I (sendFiltersWithoutCopy g ty l id n) := by
  unfold sendFiltersWithoutCopy; pres [pres_sendFiltersLoop g ty _ _ _]

theorem pres_sendPublish (g : Cfg) (p : PublishInfo) (hd : List UInt8) (n : Nat) (id : UInt16) :
    Pres I (sendPublishWithoutCopy g p hd n id) := by
  unfold sendPublishWithoutCopy storePublish; pres [pres_sendWholeVector g _]

theorem pres_sendConnect (g : Cfg) (ci : ConnectInfo) (will : Option PublishInfo) (n : Nat) : Pres I (sendConnectWithoutCopy g ci will n) := by
  unfold sendConnectWithoutCopy; pres [pres_sendWholeVector g _]

theorem pres_sendIfConnected (g : Cfg) (bs : List UInt8) : Pres I (sendIfConnected g bs) := by
  unfold sendIfConnected; pres [pres_sendBuffer g _]

theorem pres_stateAck (id : UInt16) (a : AckType) (op : Op) : Pres I (updateStateAckM id a op) := pres_tables _
theorem pres_statePublish (id : UInt16) (op : Op) (q : QoS) : Pres I (updateStatePublishM id op q) := pres_tables _

theorem pres_acks (g : Cfg) (id : UInt16) (s : PubState) : Pres I (sendPublishAcks g id s) := by
  unfold sendPublishAcks; pres [pres_sendIfConnected g _, pres_stateAck ..]

theorem pres_recvInto (p n : Nat) : Pres I (recvInto p n) := by
  unfold recvInto; pres [pres_ub _]

theorem pres_markHooked : Pres I markPendingHooked := by
  unfold markPendingHooked; pres [pres_ub _]

theorem pres_recvExactLoop (g : Cfg) : ∀ n p k t, Pres I (recvExactLoop g n p k t)
  | 0, _, _, _ => pres_stuck
  | n + 1, p, k, t => by
    have ih := pres_recvExactLoop g n
    unfold recvExactLoop
    pres [ih _ _ _, pres_recvInto _ _, pres_markHooked]

theorem pres_recvExact (g : Cfg) (n : Nat) : Pres I (recvExact g n) := by
  unfold recvExact; pres [pres_recvExactLoop g _ _ _ _]

theorem pres_discardLoop (g : Cfg) (a b : UInt32) : ∀ n l k, Pres I (discardLoop g a b n l k)
  | 0, _, _ => pres_stuck
  | n + 1, l, k => by
    have ih := pres_discardLoop g a b n
    unfold discardLoop
    pres [ih _ _, pres_recvExact g _]

theorem pres_discardStoredLoop (g : Cfg) : ∀ n l k, Pres I (discardStoredLoop g n l k)
  | 0, _, _ => pres_stuck
  | n + 1, l, k => by
    have ih := pres_discardStoredLoop g n
    unfold discardStoredLoop
    pres [ih _ _, pres_recvExact g _]

theorem pres_reset : Pres I resetBuffer := pres_modify fun _ => ⟨rfl, fun h => ⟨h, rfl⟩⟩

theorem pres_discardStored (g : Cfg) (n : Nat) : Pres I (discardStoredPacket g n) := by
  unfold discardStoredPacket; pres [pres_discardStoredLoop g _ _ _, pres_reset]

theorem pres_receivePacket (g : Cfg) (n : Nat) (t : UInt32) : Pres I (receivePacket g n t) := by
  unfold receivePacket discardPacket; pres [pres_discardLoop g _ _ _ _ _, pres_recvExact g _]

theorem pres_incomingPublish (g : Cfg) (pk : PacketInfo) : Pres I (handleIncomingPublish g pk) := by
  unfold handleIncomingPublish recordIncomingPublish; pres [pres_acks g _ _, pres_statePublish ..]

theorem pres_publishAcks (g : Cfg) (pk : PacketInfo) : Pres I (handlePublishAcks g pk) := by
  unfold handlePublishAcks; pres [pres_acks g _ _, pres_stateAck ..]

theorem pres_incomingAck (g : Cfg) (pk : PacketInfo) (m : Bool) : Pres I (handleIncomingAck g pk m) := by
  unfold handleIncomingAck; pres [pres_publishAcks g _]

theorem pres_receiveHeader : Pres I receiveHeader := by
  unfold receiveHeader; pres [pres_recvInto _ _, pres_markHooked]

theorem pres_recvOne : Pres I recvOne := by
  unfold recvOne; pres [pres_ub _]

theorem pres_lengthLoop : ∀ n a b c, Pres I (getRemainingLengthLoopM n a b c)
  | 0, _, _, _ => pres_stuck
  | n + 1, a, b, c => by
    have ih := pres_lengthLoop n
    unfold getRemainingLengthLoopM
    pres [ih _ _ _, pres_recvOne]

theorem pres_getIncoming : Pres I getIncomingPacketTypeAndLengthM := by
  unfold getIncomingPacketTypeAndLengthM getRemainingLengthM; pres [pres_lengthLoop _ _ _ _, pres_recvOne]

theorem pres_connackLoop (g : Cfg) (a b : UInt32) : ∀ n k, Pres I (connackLoop g a b n k)
  | 0, _ => pres_stuck
  | n + 1, k => by
    have ih := pres_connackLoop g a b n
    unfold connackLoop connackBreak
    pres [ih _, pres_getIncoming]

theorem pres_receiveConnack (g : Cfg) (t : UInt32) (a b : Bool) : Pres I (receiveConnack g t a b) := by
  unfold receiveConnack finishConnack; pres [pres_connackLoop g _ _ _ _, pres_receivePacket g _ _]

theorem pres_resendPubrels (g : Cfg) : ∀ n k, Pres I (resendPubrels g n k)
  | 0, _ => pres_stuck
  | n + 1, k => by
    have ih := pres_resendPubrels g n
    unfold resendPubrels
    pres [ih _, pres_acks g _ _]

theorem pres_resendPublishes (g : Cfg) : ∀ n k, Pres I (resendPublishes g n k)
  | 0, _ => pres_stuck
  | n + 1, k => by
    have ih := pres_resendPublishes g n
    unfold resendPublishes
    pres [ih _, pres_sendBuffer g _]

theorem pres_clearStored : ∀ n k, Pres I (clearStored n k)
  | 0, _ => pres_stuck
  | n + 1, k => by
    have ih := pres_clearStored n
    unfold clearStored
    pres [ih _]

theorem pres_connect (g : Cfg) (ci : Option ConnectInfo) (will : Option PublishInfo) (t : UInt32) (sp : Option Bool) :
    Pres I (mqttConnect g ci will t sp) := by
  unfold mqttConnect connectCore connectFailed connectLocked handleCleanSession handleUncleanSessionResumption
  pres [pres_sendConnect g _ _ _, pres_receiveConnack g _ _ _, pres_clearStored _ _, pres_resendPubrels g _ _, pres_resendPublishes g _ _,
    pres_reset, pres_markHooked]

theorem pres_sub (g : Cfg) (ty : SubType) (l : Option (List SubscribeInfo)) (id : UInt16) : Pres I (mqttSubUnsub g ty l id) := by
  unfold mqttSubUnsub; pres [pres_sendFilters g ty _ _ _]

theorem pres_publish (g : Cfg) (p : Option PublishInfo) (id : UInt16) : Pres I (mqttPublish g p id) := by
  unfold mqttPublish publishLocked reservePublish notePublishSent; pres [pres_sendPublish g _ _ _ _, pres_statePublish ..]

theorem pres_disconnect (g : Cfg) : Pres I (mqttDisconnect g) := by
  unfold mqttDisconnect; pres [pres_sendBuffer g _, pres_reset]

theorem pres_cancel (id : UInt16) : Pres I (mqttCancelCallback id) := by
  unfold mqttCancelCallback; pres [pres_ub _]

theorem pres_check : Pres I mqttCheckConnectStatus := by
  unfold mqttCheckConnectStatus; pres [pres_ub _]

theorem pres_getId : Pres I mqttGetPacketId := by
  unfold mqttGetPacketId; pres [pres_ub _]

end

section
variable {I : World → Prop} [Closed I]

theorem pres_handleKeepAlive (g : Cfg) : Pres I (handleKeepAlive g) := by
  unfold handleKeepAlive; pres [Closed.ping g]

theorem pres_iteration (g : Cfg) (m : Bool) : Pres I (receiveSingleIteration g m) := by
  unfold receiveSingleIteration keepAliveCheck checkComplete handlePacket
  pres [pres_receiveHeader, pres_handleKeepAlive g, pres_discardStored g _, pres_incomingPublish g _, pres_incomingAck g _ _]

theorem pres_processLoop (g : Cfg) : Pres I (mqttProcessLoop g) := by
  unfold mqttProcessLoop; pres [pres_iteration g _]

theorem pres_apiCall (g : Cfg) (c : ApiCall) : Pres I (apiCall g c) := by
  cases c <;> unfold apiCall <;>
    pres [pres_connect g _ _ _ _, pres_sub g _ _ _, pres_publish g _ _, Closed.ping g, pres_disconnect g, pres_processLoop g, pres_cancel _, pres_check, pres_getId]
  · exact pres_sub g .subscribe _ _
  · exact pres_sub g .unsubscribe _ _
  · exact pres_iteration g false

theorem Hist.pres {g : Cfg} {w w' : World} {h : List (ApiCall × ApiRet)} (hh : Hist g w h w') (h0 : I w) (henv : ∀ w e, I w → I { w with env := e }) :
    I w' := by
  induction hh with
  | start => exact h0
  | @call w1 w2 h e c r hr hv hc ih => exact pres_apiCall g c { w1 with env := e } (henv _ _ ih) r w2 hc

end

theorem Initialised.times {c : Ctx} (h : Initialised c) : c.lastPacketTxTime = 0 ∧ c.waitingForPingResp = false := by
  induction h with
  | init h => unfold mqttInit at h; repeat' split at h
              all_goals first | cases h; done | (cases h; exact ⟨rfl, rfl⟩)
  | stateful _ _ _ h ih =>
    unfold mqttInitStatefulQoS at h
    split at h
    · cases h
    · split at h
      · cases h
      · cases h; exact ih
  | retransmits _ h ih =>
    unfold mqttInitRetransmits at h
    split at h
    · cases h
    · cases h; exact ih

/-! ### The two invariants -/

def TxOk (w : World) : Prop := lastTx (0, false) w.trace = (w.ctx.lastPacketTxTime, false)

/-- If a ping is outstanding, then its transmission is in the trace, and it ended at the time noted. -/
def PingRec (w : World) : Prop := w.ctx.waitingForPingResp = true → ∃ a b c, w.trace = a ++ (b ++ c) ∧ wire b = pingreqPacket ∧
  lastTx (0, false) (a ++ b) = (w.ctx.pingReqSendTimeMs, false)

theorem lastTx_append (s : UInt32 × Bool) (es es' : List Event) : lastTx s (es ++ es') = lastTx (lastTx s es) es' := by
  induction es generalizing s with
  | nil => rfl
  | cons x es ih =>
    obtain ⟨l, p⟩ := s
    cases x with
    | sent b r => cases r <;> simp only [List.cons_append, lastTx, ih]
    | _ => simp only [List.cons_append, lastTx, ih]

theorem lastTx_plain (l : UInt32) {e : Event} (h : noSend e = true) : lastTx (l, false) [e] = (l, false) := by
  cases e <;> first | rfl | cases h

instance txOk_closed0 : Closed0 TxOk where
  modify w f hf h := by
    unfold TxOk at *
    rw [h, (hf w.ctx).1]
  add w e env he h := by
    unfold TxOk at *
    rw [lastTx_append, h, lastTx_plain _ he]
  idle w bs r env hr h := by
    unfold TxOk at *
    rw [lastTx_append, h]
    rcases hr with rfl | rfl <;> rfl
  sent w bs k t env hk h := by
    unfold TxOk at *
    rw [lastTx_append, lastTx_append, h]
    simp [lastTx, hk]

instance txOk_closed : Closed TxOk where
  ping g := by
    have hm : ∀ f : Ctx → Ctx, (∀ c, (f c).lastPacketTxTime = c.lastPacketTxTime) → Pres TxOk (modifyCtx f) := by
      intro f hf w h a w' he
      cases he
      unfold TxOk at *
      rw [h, hf]
    unfold mqttPing
    pres [pres_sendIfConnected g _, hm _ (fun _ => rfl)]

theorem PingRec.mono {w w' : World} (h : PingRec w) (es : List Event) (ht : w'.trace = w.trace ++ es)
    (hc : w'.ctx.waitingForPingResp = true → w.ctx.waitingForPingResp = true ∧ w'.ctx.pingReqSendTimeMs = w.ctx.pingReqSendTimeMs) : PingRec w' := by
  intro hw
  obtain ⟨h1, h2⟩ := hc hw
  obtain ⟨a, b, c, h3, h4, h5⟩ := h h1
  exact ⟨a, b, c ++ es, by rw [ht, h3]; simp, h4, by rw [h2]; exact h5⟩

def TxPing (w : World) : Prop := TxOk w ∧ PingRec w

instance txPing_closed0 : Closed0 TxPing where
  modify w f hf h := ⟨Closed0.modify w f hf h.1, h.2.mono [] (by simp) (hf w.ctx).2⟩
  add w e env he h := ⟨Closed0.add w e env he h.1, h.2.mono [e] rfl (fun h => ⟨h, rfl⟩)⟩
  idle w bs r env hr h := ⟨Closed0.idle w bs r env hr h.1, h.2.mono [.sent bs r] rfl (fun h => ⟨h, rfl⟩)⟩
  sent w bs k t env hk h := ⟨Closed0.sent w bs k t env hk h.1, h.2.mono ([.sent bs (some k)] ++ [.time t]) (by simp) (fun h => ⟨h, rfl⟩)⟩

theorem ping_pres (g : Cfg) : Pres TxPing (mqttPing g) := by
  intro w h st w' he
  have h1 := Closed.ping (I := TxOk) g w h.1 st w' he
  refine ⟨h1, ?_⟩
  have ht := mqttPing_tr (V := False) g w
  unfold Tr wp at ht
  rw [he] at ht
  obtain ⟨es, h', f, _, hd⟩ := ht
  have same : w'.ctx.waitingForPingResp = w.ctx.waitingForPingResp → w'.ctx.pingReqSendTimeMs = w.ctx.pingReqSendTimeMs → PingRec w' := by
    intro k1 k2
    exact h.2.mono es f.trace (fun h => ⟨by rw [← k1]; exact h, k2⟩)
  rcases hd.cases with ⟨_, _, _, _, hc⟩ | ⟨_, _, _, _, k1, k2, _⟩ | ⟨_, hw, _, _, _, k2⟩
  · exact same (by rw [hc]) (by rw [hc])
  · exact same k1 k2
  · intro _
    refine ⟨w.trace, es, [], by rw [f.trace, List.append_nil], hw, ?_⟩
    rw [← f.trace, k2]; exact h1

instance txPing_closed : Closed TxPing where
  ping g := ping_pres g

theorem FromInit.times {g : Cfg} {h : List (ApiCall × ApiRet)} {w : World} (hh : FromInit g h w) : TxOk w ∧ PingRec w := by
  obtain ⟨_, w0, h1, h2, h3⟩ := hh
  refine h3.pres (I := TxPing) ⟨?_, ?_⟩ (fun w e h => h)
  · unfold TxOk
    rw [h2, h1.times.1]
    rfl
  · intro h
    rw [h1.times.2] at h; cases h

end Mqtt
