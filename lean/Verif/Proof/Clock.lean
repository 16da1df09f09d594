/-
Shifting the clock shifts the run: a simulation through every function of core_mqtt.c.
-/
import Verif.Spec.Clock

namespace Mqtt
open Spec

/-- Runs of `m` and `m'` from worlds that differ by the clock end alike, with results related by `R`. -/
def RelOut (δ : UInt32) (k : Bool) {α β : Type} (R : α → β → Prop) : Out α → Out β → Prop
  | .done a w, .done a' w' => R a a' ∧ Later δ k w w'
  | .stuck w, .stuck w' => Later δ k w w'
  | .ub e w, .ub e' w' => e' = e ∧ Later δ k w w'
  | _, _ => False

def Sim (δ : UInt32) (k : Bool) {α β : Type} (R : α → β → Prop) (m : M α) (m' : M β) : Prop :=
  ∀ w w', Later δ k w w' → RelOut δ k R (m w) (m' w')

/-- Equal results. -/
def SameRes {α : Type} (a a' : α) : Prop := a' = a

/-- The same with equal results. -/
abbrev SimE (δ : UInt32) (k : Bool) {α : Type} (m m' : M α) : Prop := Sim δ k SameRes m m'

section
variable {δ : UInt32} {k : Bool} {α β γ ε : Type}

theorem sim_bind {R : α → β → Prop} {S : γ → ε → Prop} {m : M α} {m' : M β} {f : α → M γ} {f' : β → M ε}
    (hm : Sim δ k R m m') (hf : ∀ a a', R a a' → Sim δ k S (f a) (f' a')) : Sim δ k S (m >>= f) (m' >>= f') := by
  intro w w' h
  have h1 := hm w w' h
  show RelOut δ k S (M.bind m f w) (M.bind m' f' w')
  unfold M.bind
  cases he : m w <;> cases he' : m' w' <;> rw [he, he'] at h1 <;> simp only [RelOut] at h1
  · exact hf _ _ h1.1 _ _ h1.2
  · exact h1
  · exact h1

theorem simE_bind {S : γ → ε → Prop} {m m' : M α} {f : α → M γ} {f' : α → M ε}
    (hm : SimE δ k m m') (hf : ∀ a, Sim δ k S (f a) (f' a)) : Sim δ k S (m >>= f) (m' >>= f') :=
  sim_bind hm fun a a' h => by subst h; exact hf _

theorem simE_pure (a : α) : SimE δ k (pure a) (pure a) := fun _ _ h => ⟨rfl, h⟩
theorem simE_stuck : SimE δ k (stuckM : M α) stuckM := fun _ _ h => h
theorem simE_ub (e : UB) : SimE δ k (ubM e : M α) (ubM e) := fun _ _ h => ⟨rfl, h⟩
theorem simE_lift (r : Res α) : SimE δ k (liftRes r) (liftRes r) := fun w w' h => by
  unfold liftRes; cases r
  · exact ⟨rfl, h⟩
  · exact ⟨rfl, h⟩

theorem sim_getCtx : Sim δ k (LaterCtx δ k) getCtx getCtx := fun _ _ h => ⟨h.ctx, h⟩

/-- Reading the context: what follows sees it with other times. -/
theorem sim_ctx {S : γ → ε → Prop} {f : Ctx → M γ} {f' : Ctx → M ε}
    (hf : ∀ c tx rx ping, (k = true → tx = c.lastPacketTxTime + δ ∧ rx = c.lastPacketRxTime + δ ∧
        (c.waitingForPingResp = true → ping = c.pingReqSendTimeMs + δ)) → Sim δ k S (f c) (f' (withTimes c tx rx ping))) :
    Sim δ k S (getCtx >>= f) (getCtx >>= f') :=
  sim_bind sim_getCtx fun c c' h => by
    obtain ⟨tx, rx, ping, rfl, h⟩ := h
    exact hf c tx rx ping h

theorem sim_modify {f f' : Ctx → Ctx} (hf : ∀ c c', LaterCtx δ k c c' → LaterCtx δ k (f c) (f' c')) :
    SimE δ k (modifyCtx f) (modifyCtx f') := fun _ _ h => ⟨rfl, hf _ _ h.ctx, h.env, h.trace⟩

/-- A change of the context that concerns neither the times nor the awaited PINGRESP. -/
theorem sim_modify_plain {f : Ctx → Ctx} (hf : ∀ c tx rx ping, f (withTimes c tx rx ping) = withTimes (f c) tx rx ping)
    (h1 : ∀ c, (f c).lastPacketTxTime = c.lastPacketTxTime) (h2 : ∀ c, (f c).lastPacketRxTime = c.lastPacketRxTime)
    (h3 : ∀ c, (f c).waitingForPingResp = true → c.waitingForPingResp = true)
    (h4 : ∀ c, (f c).pingReqSendTimeMs = c.pingReqSendTimeMs) : SimE δ k (modifyCtx f) (modifyCtx f) :=
  sim_modify fun c c' h => by
    obtain ⟨tx, rx, ping, rfl, h⟩ := h
    exact ⟨tx, rx, ping, hf .., fun hk => by
      rw [h1, h2, h4]; exact ⟨(h hk).1, (h hk).2.1, fun hw => (h hk).2.2 (h3 _ hw)⟩⟩

theorem sim_emit (e : Event) (he : laterEvent δ e = e) : SimE δ k (emit e) (emit e) := fun _ _ h =>
  ⟨rfl, h.ctx, h.env, by simp [h.trace, he]⟩

theorem sim_pre : SimE δ k preHook preHook := sim_emit _ rfl
theorem sim_post : SimE δ k postHook postHook := sim_emit _ rfl
theorem sim_clear (id : UInt16) : SimE δ k (clearCallback id) (clearCallback id) := sim_emit _ rfl
theorem sim_app (pk : PacketInfo) (id : UInt16) (r : Status) (p : Option PublishInfo) :
    SimE δ k (appCallback pk id r p) (appCallback pk id r p) := sim_emit _ rfl

theorem sim_getTime : Sim δ k (fun t t' => t' = t + δ) getTime getTime := fun w w' h => by
  unfold getTime
  rw [h.env]
  cases hc : w.env.clock with
  | nil => simp only [laterEnv, hc, List.map_nil]; exact h
  | cons t r =>
    simp only [laterEnv, hc, List.map_cons]
    exact ⟨rfl, h.ctx, by simp [laterEnv], by simp [h.trace, laterEvent]⟩

theorem sim_time {S : γ → ε → Prop} {f : UInt32 → M γ} {f' : UInt32 → M ε} (hf : ∀ t, Sim δ k S (f t) (f' (t + δ))) :
    Sim δ k S (getTime >>= f) (getTime >>= f') :=
  sim_bind sim_getTime fun t t' h => by subst h; exact hf t

theorem sim_send (bs : List UInt8) : SimE δ k (transportSend bs) (transportSend bs) := fun w w' h => by
  unfold transportSend
  rw [h.env]
  simp only [laterEnv]
  cases w.env.sends with
  | nil => exact h
  | cons a r => cases a with
    | fail => exact ⟨rfl, h.ctx, by simp [laterEnv], by simp [h.trace, laterEvent]⟩
    | accept n => exact ⟨rfl, h.ctx, by simp [laterEnv], by simp [h.trace, laterEvent]⟩

theorem sim_recv (n : Nat) : SimE δ k (transportRecv n) (transportRecv n) := fun w w' h => by
  unfold transportRecv
  rw [h.env]
  simp only [laterEnv]
  cases w.env.recvs with
  | nil => exact h
  | cons a r => cases a with
    | fail => exact ⟨rfl, h.ctx, by simp [laterEnv], by simp [h.trace, laterEvent]⟩
    | deliver m => exact ⟨rfl, h.ctx, by simp [laterEnv], by simp [h.trace, laterEvent]⟩

theorem sim_store (id : UInt16) (v : List IoVec) : SimE δ k (storeCallback id v) (storeCallback id v) := fun w w' h => by
  unfold storeCallback
  rw [h.env]
  simp only [laterEnv]
  cases w.env.stores with
  | nil => exact h
  | cons a r => exact ⟨rfl, h.ctx, by simp [laterEnv], by simp [h.trace, laterEvent]⟩

theorem sim_retrieve (id : UInt16) : SimE δ k (retrieveCallback id) (retrieveCallback id) := fun w w' h => by
  unfold retrieveCallback
  rw [h.env]
  simp only [laterEnv]
  cases w.env.retrieves with
  | nil => exact h
  | cons a r => exact ⟨rfl, h.ctx, by simp [laterEnv], by simp [h.trace, laterEvent]⟩

theorem sim_sendFuel : SimE δ k sendFuel sendFuel := fun w w' h => ⟨by rw [h.env]; rfl, h⟩
theorem sim_recvFuel : SimE δ k recvFuel recvFuel := fun w w' h => ⟨by rw [h.env]; rfl, h⟩
theorem sim_clockFuel : SimE δ k clockFuel clockFuel := fun w w' h => ⟨by rw [h.env]; simp [laterEnv, SameRes], h⟩

theorem sim_tables (f : Tables → Res (α × Tables)) : SimE δ k (onTables f) (onTables f) := fun w w' h => by
  obtain ⟨tx, rx, ping, hc, hk⟩ := h.ctx
  unfold onTables
  have ht : w'.ctx.tables = w.ctx.tables := by rw [hc]
  rw [ht]
  cases f w.ctx.tables with
  | ok a => exact ⟨rfl, ⟨tx, rx, ping, by rw [hc], hk⟩, h.env, h.trace⟩
  | ub e => exact ⟨rfl, h⟩

theorem sim_ite {R : α → β → Prop} {c c' : Prop} {d : Decidable c} {d' : Decidable c'} {a b : M α} {a' b' : M β} (hc : c = c')
    (ha : c → Sim δ k R a a') (hb : ¬ c → Sim δ k R b b') :
    Sim δ k R (@ite _ c d a b) (@ite _ c' d' a' b') := by
  subst hc
  by_cases h : c
  · rw [if_pos h, if_pos h]; exact ha h
  · rw [if_neg h, if_neg h]; exact hb h

theorem elapsed_later (t t0 δ : UInt32) : calculateElapsedTime (t + δ) (t0 + δ) = calculateElapsedTime t t0 := by
  unfold calculateElapsedTime; rw [UInt32.sub_eq_add_neg, UInt32.neg_add, UInt32.sub_eq_add_neg, UInt32.sub_eq_add_neg]
  rw [UInt32.add_comm (-t0), ← UInt32.add_assoc, UInt32.add_assoc t, UInt32.add_right_neg, UInt32.add_zero]

theorem sim_markPending : SimE δ k markPending markPending := by
  refine sim_modify_plain ?_ ?_ ?_ ?_ ?_ <;> intro c
  · intro tx rx ping
    show (if c.connectStatus = _ then _ else _) = _
    split <;> simp_all [withTimes]
  all_goals (by_cases h : c.connectStatus = .connected <;> simp [h])

syntax "sims" "[" term,* "]" : tactic
macro_rules
  | `(tactic| sims [$[$ts],*]) => `(tactic|
      repeat' (first
        | (with_reducible first
          | (first $[| exact $ts]*)
          | exact simE_pure _ | exact simE_stuck | exact simE_ub _ | exact simE_lift _ | exact sim_pre | exact sim_post
          | exact sim_clear _ | exact sim_app .. | exact sim_store .. | exact sim_retrieve _ | exact sim_send _ | exact sim_recv _
          | exact sim_tables _ | exact sim_sendFuel | exact sim_recvFuel | exact sim_clockFuel | exact sim_markPending
          | (intro _) | rw [elapsed_later] | refine sim_ite (by with_reducible rfl) ?_ ?_ | apply sim_ctx | apply sim_time
          | apply simE_bind)
        | refine sim_ite rfl ?_ ?_ | exact simE_lift _ | exact simE_pure _ | (first $[| exact $ts]*)
        | (with_reducible split)))

theorem sim_noteSend (r : Option Nat) : SimE δ k (noteSendResult r) (noteSendResult r) := by
  unfold noteSendResult
  cases r with
  | none => exact sim_markPending
  | some n =>
    dsimp only
    sims [simE_pure _]
    refine sim_modify fun c c' h => ?_
    obtain ⟨tx, rx, ping, rfl, h⟩ := h
    exact ⟨_, rx, ping, rfl, fun hk => ⟨rfl, (h hk).2⟩⟩

theorem sim_sendBufferLoop (g : Cfg) (t0 : UInt32) : ∀ n rest sent,
    SimE δ k (sendBufferLoop g t0 n rest sent) (sendBufferLoop g (t0 + δ) n rest sent)
  | 0, _, _ => simE_stuck
  | n + 1, rest, sent => by
    unfold sendBufferLoop
    sims [sim_noteSend _, sim_sendBufferLoop g t0 n _ _]

theorem sim_sendBuffer (g : Cfg) (bs : List UInt8) : SimE δ k (sendBuffer g bs) (sendBuffer g bs) := by
  unfold sendBuffer
  sims [sim_sendBufferLoop g _ _ _ _]

theorem sim_sendVecLoop (g : Cfg) (t0 : UInt32) (b : Nat) : ∀ n vecs sent,
    SimE δ k (sendVecLoop g t0 b n vecs sent) (sendVecLoop g (t0 + δ) b n vecs sent)
  | 0, _, _ => simE_stuck
  | n + 1, vecs, sent => by
    unfold sendVecLoop
    sims [sim_noteSend _, sim_sendVecLoop g t0 b n _ _]

theorem sim_sendMessageVector (g : Cfg) (v : List IoVec) : SimE δ k (sendMessageVector g v) (sendMessageVector g v) := by
  unfold sendMessageVector
  sims [sim_sendVecLoop g _ _ _ _ _]

theorem sim_sendWholeVector (g : Cfg) (v : List IoVec) : SimE δ k (sendWholeVector g v) (sendWholeVector g v) := by
  unfold sendWholeVector
  sims [sim_sendMessageVector g v]

theorem sim_sendFiltersLoop (g : Cfg) (ty : SubType) : ∀ n vec subs,
    SimE δ k (sendFiltersLoop g ty n vec subs) (sendFiltersLoop g ty n vec subs)
  | 0, _, _ => simE_stuck
  | n + 1, vec, subs => by
    unfold sendFiltersLoop
    sims [sim_sendWholeVector g _, sim_sendFiltersLoop g ty n _ _]

theorem sim_sendFilters (g : Cfg) (ty : SubType) (subs : List SubscribeInfo) (id : UInt16) (n : Nat) :
    SimE δ k (sendFiltersWithoutCopy g ty subs id n) (sendFiltersWithoutCopy g ty subs id n) := by
  unfold sendFiltersWithoutCopy
  sims [sim_sendFiltersLoop g ty _ _ _]

theorem sim_storePublish (p : PublishInfo) (hd : List UInt8) (n : Nat) (id : UInt16) :
    SimE δ k (storePublish p hd n id) (storePublish p hd n id) := by
  unfold storePublish
  sims [simE_pure _]

theorem sim_sendPublish (g : Cfg) (p : PublishInfo) (hd : List UInt8) (n : Nat) (id : UInt16) :
    SimE δ k (sendPublishWithoutCopy g p hd n id) (sendPublishWithoutCopy g p hd n id) := by
  unfold sendPublishWithoutCopy
  sims [sim_storePublish p hd n id, sim_sendWholeVector g _]

theorem sim_sendConnect (g : Cfg) (ci : ConnectInfo) (will : Option PublishInfo) (n : Nat) :
    SimE δ k (sendConnectWithoutCopy g ci will n) (sendConnectWithoutCopy g ci will n) := by
  unfold sendConnectWithoutCopy
  sims [sim_sendWholeVector g _]

theorem sim_sendIfConnected (g : Cfg) (bs : List UInt8) : SimE δ k (sendIfConnected g bs) (sendIfConnected g bs) := by
  unfold sendIfConnected
  sims [sim_sendBuffer g bs]

theorem sim_ackM (id : UInt16) (a : AckType) (op : Op) : SimE δ k (updateStateAckM id a op) (updateStateAckM id a op) := sim_tables _
theorem sim_pubM (id : UInt16) (op : Op) (q : QoS) : SimE δ k (updateStatePublishM id op q) (updateStatePublishM id op q) := sim_tables _

theorem sim_sendPublishAcks (g : Cfg) (id : UInt16) (s : PubState) : SimE δ k (sendPublishAcks g id s) (sendPublishAcks g id s) := by
  unfold sendPublishAcks
  sims [sim_sendIfConnected g _, sim_ackM ..]
  refine sim_modify_plain ?_ ?_ ?_ ?_ ?_ <;> intros <;> first | rfl | assumption

theorem sim_ping (g : Cfg) : SimE δ k (mqttPing g) (mqttPing g) := by
  unfold mqttPing
  sims [sim_sendIfConnected g _]
  refine sim_modify fun c c' h => ?_
  obtain ⟨tx, rx, ping, rfl, h⟩ := h
  exact ⟨tx, rx, tx, rfl, fun hk => ⟨(h hk).1, (h hk).2.1, fun _ => (h hk).1⟩⟩

theorem sim_recvInto (pos n : Nat) : SimE δ k (recvInto pos n) (recvInto pos n) := by
  unfold recvInto
  sims [simE_pure _]
  refine sim_modify_plain ?_ ?_ ?_ ?_ ?_ <;> intros <;> first | rfl | assumption

theorem sim_markHooked : SimE δ k markPendingHooked markPendingHooked := by
  unfold markPendingHooked
  sims [sim_pre]

theorem sim_recvExactLoop (g : Cfg) : ∀ n pos m (t : UInt32),
    SimE δ k (recvExactLoop g n pos m t) (recvExactLoop g n pos m (t + δ))
  | 0, _, _, _ => simE_stuck
  | n + 1, pos, m, t => by
    unfold recvExactLoop
    sims [sim_recvInto _ _, sim_markHooked, sim_recvExactLoop g n _ _ _]

theorem sim_recvExact (g : Cfg) (n : Nat) : SimE δ k (recvExact g n) (recvExact g n) := by
  unfold recvExact
  sims [sim_recvExactLoop g _ _ _ _]

theorem sim_discardLoop (g : Cfg) (T t0 : UInt32) : ∀ n left b,
    SimE δ k (discardLoop g T t0 n left b) (discardLoop g T (t0 + δ) n left b)
  | 0, _, _ => simE_stuck
  | n + 1, left, b => by
    unfold discardLoop
    sims [sim_recvExact g _, sim_discardLoop g T t0 n _ _]

theorem sim_discardPacket (g : Cfg) (n : Nat) (T : UInt32) : SimE δ k (discardPacket g n T) (discardPacket g n T) := by
  unfold discardPacket
  sims [sim_discardLoop g _ _ _ _ _]

theorem sim_discardStoredLoop (g : Cfg) : ∀ n left b, SimE δ k (discardStoredLoop g n left b) (discardStoredLoop g n left b)
  | 0, _, _ => simE_stuck
  | n + 1, left, b => by
    unfold discardStoredLoop
    sims [sim_recvExact g _, sim_discardStoredLoop g n _ _]

theorem sim_resetBuffer : SimE δ k resetBuffer resetBuffer := by
  refine sim_modify_plain ?_ ?_ ?_ ?_ ?_ <;> intros <;> first | rfl | assumption

theorem sim_discardStored (g : Cfg) (n : Nat) : SimE δ k (discardStoredPacket g n) (discardStoredPacket g n) := by
  unfold discardStoredPacket
  sims [sim_discardStoredLoop g _ _ _, sim_resetBuffer]

theorem sim_receivePacket (g : Cfg) (n : Nat) (T : UInt32) : SimE δ k (receivePacket g n T) (receivePacket g n T) := by
  unfold receivePacket
  sims [sim_discardPacket g _ _, sim_recvExact g _]

/-- Keep-alive looks at the remembered times. -/
theorem sim_handleKeepAlive (g : Cfg) : SimE δ true (handleKeepAlive g) (handleKeepAlive g) := by
  unfold handleKeepAlive
  refine sim_time fun t => sim_ctx fun c tx rx ping h => ?_
  obtain ⟨h1, h2, h3⟩ := h rfl
  dsimp only
  refine sim_ite rfl (fun hw => ?_) fun hw => ?_
  · rw [h3 hw, elapsed_later]
    sims [simE_pure _]
  · refine simE_bind sim_pre fun _ => sim_ctx fun c tx rx ping h => simE_bind sim_post fun _ => ?_
    obtain ⟨h1, h2, h3⟩ := h rfl
    subst h1 h2
    dsimp only
    rw [elapsed_later, elapsed_later]
    sims [sim_ping g]

theorem sim_recordIncoming (id : UInt16) (q : QoS) : SimE δ k (recordIncomingPublish id q) (recordIncomingPublish id q) := by
  unfold recordIncomingPublish
  sims [sim_pubM ..]

theorem sim_handleIncomingPublish (g : Cfg) (pk : PacketInfo) : SimE δ k (handleIncomingPublish g pk) (handleIncomingPublish g pk) := by
  unfold handleIncomingPublish
  sims [sim_recordIncoming .., sim_sendPublishAcks g _ _]

theorem sim_handlePublishAcks (g : Cfg) (pk : PacketInfo) : SimE δ k (handlePublishAcks g pk) (handlePublishAcks g pk) := by
  unfold handlePublishAcks
  sims [sim_ackM .., sim_sendPublishAcks g _ _]

theorem sim_handleIncomingAck (g : Cfg) (pk : PacketInfo) (b : Bool) : SimE δ k (handleIncomingAck g pk b) (handleIncomingAck g pk b) := by
  unfold handleIncomingAck
  sims [sim_handlePublishAcks g pk]
  refine sim_modify_plain ?_ ?_ ?_ ?_ ?_ <;> intros <;> first | rfl | simp_all

theorem sim_receiveHeader : SimE δ k receiveHeader receiveHeader := by
  unfold receiveHeader
  sims [sim_recvInto _ _, sim_markHooked]
  refine sim_modify_plain ?_ ?_ ?_ ?_ ?_ <;> intros <;> first | rfl | assumption

theorem sim_keepAliveCheck (g : Cfg) (r : Option Nat) (b : Bool) (st : Status) (hb : b = true → k = true) :
    SimE δ k (keepAliveCheck g r b st) (keepAliveCheck g r b st) := by
  unfold keepAliveCheck
  refine sim_ite rfl (fun h => ?_) fun _ => simE_pure _
  have := hb h.2
  subst this
  sims [sim_handleKeepAlive g]

theorem sim_checkComplete (g : Cfg) (st : Status) (n : Nat) : SimE δ k (checkComplete g st n) (checkComplete g st n) := by
  unfold checkComplete
  sims [sim_discardStored g _]

theorem sim_handlePacket (g : Cfg) (b : Bool) (h : HeaderRes) : SimE δ k (handlePacket g b h) (handlePacket g b h) := by
  unfold handlePacket
  sims [sim_handleIncomingPublish g _, sim_handleIncomingAck g _ _]
  · refine sim_modify_plain ?_ ?_ ?_ ?_ ?_ <;> intros <;> first | rfl | assumption
  · refine sim_modify fun c c' h => ?_
    obtain ⟨tx, rx, ping, rfl, h⟩ := h
    exact ⟨tx, _, ping, rfl, fun hk => ⟨(h hk).1, rfl, (h hk).2.2⟩⟩

theorem sim_iteration (g : Cfg) (b : Bool) (hb : b = true → k = true) :
    SimE δ k (receiveSingleIteration g b) (receiveSingleIteration g b) := by
  unfold receiveSingleIteration
  sims [sim_receiveHeader, sim_keepAliveCheck g _ _ _ hb, sim_checkComplete g _ _, sim_handlePacket g _ _]

theorem sim_processLoop (g : Cfg) : SimE δ true (mqttProcessLoop g) (mqttProcessLoop g) := by
  unfold mqttProcessLoop
  sims [sim_iteration g _ (fun _ => rfl)]
  refine sim_modify_plain ?_ ?_ ?_ ?_ ?_ <;> intros <;> first | rfl | assumption

theorem sim_recvOne : SimE δ k recvOne recvOne := by
  unfold recvOne
  sims [simE_pure _]

theorem sim_remainingLoop : ∀ n a b c, SimE δ k (getRemainingLengthLoopM n a b c) (getRemainingLengthLoopM n a b c)
  | 0, _, _, _ => simE_stuck
  | n + 1, a, b, c => by
    unfold getRemainingLengthLoopM
    sims [sim_recvOne, sim_remainingLoop n _ _ _]

theorem sim_remaining : SimE δ k getRemainingLengthM getRemainingLengthM := by
  unfold getRemainingLengthM
  sims [sim_remainingLoop ..]

theorem sim_typeAndLength : SimE δ k getIncomingPacketTypeAndLengthM getIncomingPacketTypeAndLengthM := by
  unfold getIncomingPacketTypeAndLengthM
  sims [sim_recvOne, sim_remaining]

theorem sim_connackBreak (g : Cfg) (T t0 : UInt32) (n : Nat) : SimE δ k (connackBreak g T t0 n) (connackBreak g T (t0 + δ) n) := by
  unfold connackBreak
  sims [simE_pure _]

theorem sim_connackLoop (g : Cfg) (T t0 : UInt32) : ∀ n c, SimE δ k (connackLoop g T t0 n c) (connackLoop g T (t0 + δ) n c)
  | 0, _ => simE_stuck
  | n + 1, c => by
    unfold connackLoop
    sims [sim_typeAndLength, sim_connackBreak .., sim_connackLoop g T t0 n _]

theorem sim_finishConnack (g : Cfg) (T t0 : UInt32) (cs : Bool) (h : HeaderRes) (sp : Bool) :
    SimE δ k (finishConnack g T t0 cs h sp) (finishConnack g T (t0 + δ) cs h sp) := by
  unfold finishConnack
  sims [sim_receivePacket g _ _]

theorem sim_receiveConnack (g : Cfg) (T : UInt32) (cs sp : Bool) : SimE δ k (receiveConnack g T cs sp) (receiveConnack g T cs sp) := by
  unfold receiveConnack
  sims [sim_connackLoop .., sim_finishConnack ..]

theorem sim_resendPubrels (g : Cfg) : ∀ n c, SimE δ k (resendPubrels g n c) (resendPubrels g n c)
  | 0, _ => simE_stuck
  | n + 1, c => by
    unfold resendPubrels
    sims [sim_sendPublishAcks g _ _, sim_resendPubrels g n _]

theorem sim_resendPublishes (g : Cfg) : ∀ n c, SimE δ k (resendPublishes g n c) (resendPublishes g n c)
  | 0, _ => simE_stuck
  | n + 1, c => by
    unfold resendPublishes
    sims [sim_sendBuffer g _, sim_resendPublishes g n _]

theorem sim_resume (g : Cfg) : SimE δ k (handleUncleanSessionResumption g) (handleUncleanSessionResumption g) := by
  unfold handleUncleanSessionResumption
  sims [sim_resendPubrels g _ _, sim_resendPublishes g _ _]

theorem sim_clearStored : ∀ n c, SimE δ k (clearStored n c) (clearStored n c)
  | 0, _ => simE_stuck
  | n + 1, c => by
    unfold clearStored
    sims [sim_clearStored n _]

theorem sim_cleanSession : SimE δ k handleCleanSession handleCleanSession := by
  unfold handleCleanSession
  sims [sim_resetBuffer, sim_clearStored _ _]
  all_goals (refine sim_modify_plain ?_ ?_ ?_ ?_ ?_ <;> intros <;> first | rfl | assumption)

theorem sim_connectLocked (g : Cfg) (ci : ConnectInfo) (will : Option PublishInfo) (n : Nat) (T : UInt32) (sp : Bool) :
    SimE δ k (connectLocked g ci will n T sp) (connectLocked g ci will n T sp) := by
  unfold connectLocked
  sims [sim_sendConnect .., sim_receiveConnack .., sim_cleanSession]
  refine sim_modify fun c c' h => ?_
  obtain ⟨tx, rx, ping, rfl, h⟩ := h
  exact ⟨tx, rx, 0, rfl, fun hk => ⟨(h hk).1, (h hk).2.1, fun hw => by cases hw⟩⟩

theorem sim_connectFailed (st : Status) : SimE δ k (connectFailed st) (connectFailed st) := by
  unfold connectFailed
  sims [sim_markHooked]

theorem sim_connectCore (g : Cfg) (ci : ConnectInfo) (will : Option PublishInfo) (n : Nat) (T : UInt32) (sp : Bool) :
    SimE δ k (connectCore g ci will n T sp) (connectCore g ci will n T sp) := by
  unfold connectCore
  sims [sim_connectLocked .., sim_resume g]

theorem sim_connect (g : Cfg) (ci : Option ConnectInfo) (will : Option PublishInfo) (T : UInt32) (sp : Option Bool) :
    SimE δ k (mqttConnect g ci will T sp) (mqttConnect g ci will T sp) := by
  unfold mqttConnect
  sims [sim_connectCore .., sim_connectFailed _]

theorem validateSub_times (c : Ctx) (tx rx ping : UInt32) (subs : Option (List SubscribeInfo)) (id : UInt16) :
    validateSubscribeUnsubscribeParams (withTimes c tx rx ping) subs id = validateSubscribeUnsubscribeParams c subs id := rfl
theorem validatePub_times (c : Ctx) (tx rx ping : UInt32) (p : Option PublishInfo) (id : UInt16) :
    validatePublishParams (withTimes c tx rx ping) p id = validatePublishParams c p id := rfl

theorem sim_subUnsub (g : Cfg) (ty : SubType) (subs : Option (List SubscribeInfo)) (id : UInt16) :
    SimE δ k (mqttSubUnsub g ty subs id) (mqttSubUnsub g ty subs id) := by
  unfold mqttSubUnsub
  refine sim_ctx fun c tx rx ping _ => ?_
  rw [validateSub_times]
  sims [sim_sendFilters ..]

theorem sim_reserve (p : PublishInfo) (id : UInt16) : SimE δ k (reservePublish p id) (reservePublish p id) := by
  unfold reservePublish
  sims [simE_pure _]

theorem sim_notePublish (p : PublishInfo) (id : UInt16) : SimE δ k (notePublishSent p id) (notePublishSent p id) := by
  unfold notePublishSent
  sims [sim_pubM ..]

theorem sim_publishLocked (g : Cfg) (p : PublishInfo) (hd : List UInt8) (n : Nat) (id : UInt16) :
    SimE δ k (publishLocked g p hd n id) (publishLocked g p hd n id) := by
  unfold publishLocked
  sims [sim_reserve .., sim_sendPublish .., sim_notePublish ..]

theorem sim_publish (g : Cfg) (p : Option PublishInfo) (id : UInt16) : SimE δ k (mqttPublish g p id) (mqttPublish g p id) := by
  unfold mqttPublish
  refine sim_ctx fun c tx rx ping _ => ?_
  rw [validatePub_times]
  sims [sim_publishLocked ..]

theorem sim_disconnect (g : Cfg) : SimE δ k (mqttDisconnect g) (mqttDisconnect g) := by
  unfold mqttDisconnect
  sims [sim_resetBuffer, sim_sendBuffer g _]
  refine sim_modify_plain ?_ ?_ ?_ ?_ ?_ <;> intros <;> first | rfl | assumption

theorem sim_cancel (id : UInt16) : SimE δ k (mqttCancelCallback id) (mqttCancelCallback id) := by
  unfold mqttCancelCallback
  sims [simE_pure _]

theorem sim_check : SimE δ k mqttCheckConnectStatus mqttCheckConnectStatus := by
  unfold mqttCheckConnectStatus
  sims [simE_pure _]

theorem sim_getPacketId : SimE δ k mqttGetPacketId mqttGetPacketId := by
  unfold mqttGetPacketId
  sims [simE_pure _]
  refine sim_modify_plain ?_ ?_ ?_ ?_ ?_ <;> intros <;> first | rfl | assumption

theorem sim_api (g : Cfg) (f : ApiCall) (hf : f = .processLoop → k = true) : SimE δ k (apiCall g f) (apiCall g f) := by
  cases f with
  | processLoop =>
    have := hf rfl
    subst this
    simp only [apiCall]
    sims [sim_processLoop g]
  | receiveLoop =>
    simp only [apiCall, mqttReceiveLoop]
    sims [sim_iteration g false (by simp)]
  | _ =>
    simp only [apiCall, mqttSubscribe, mqttUnsubscribe]
    sims [sim_connect .., sim_subUnsub .., sim_publish .., sim_ping g, sim_disconnect g, sim_cancel _, sim_check, sim_getPacketId]
end

end Mqtt
