/-
Only `MQTT_GetPacketId` touches the counter of packet ids: all other functions leave it alone, at every step.
-/
import Verif.Proof.ThreadMild

namespace Mqtt
open Spec
set_option linter.unusedSimpArgs false

/-- Whenever it returns, the counter of packet ids is as before. -/
def Still {α : Type} (m : M α) : Prop := ∀ w a w', m w = .done a w' → w'.ctx.nextPacketId = w.ctx.nextPacketId

/-- No step changes the counter of packet ids. -/
def Stills {α : Type} : Prog α → Prop
  | .ret _ => True
  | .step m k => Still m ∧ ∀ b, Stills (k b)

section
variable {α β : Type}

theorem still_pure (a : α) : Still (pure a : M α) := by intro w b w' h; cases h; rfl

theorem still_bind {m : M α} {f : α → M β} (hm : Still m) (hf : ∀ a, Still (f a)) : Still (m >>= f) := by
  intro w b w' h
  obtain ⟨a, w1, h1, h2⟩ := M.bind_done h
  exact (hf a _ _ _ h2).trans (hm _ _ _ h1)

theorem still_ite {c : Prop} [Decidable c] {a b : M α} (ha : Still a) (hb : Still b) : Still (if c then a else b) := by
  split
  · exact ha
  · exact hb

theorem still_stuck : Still (stuckM : M α) := by intro w a w' h; cases h
theorem still_ub (e : UB) : Still (ubM e : M α) := by intro w a w' h; cases h
theorem still_lift (r : Res α) : Still (liftRes r) := by
  intro w a w' h
  unfold liftRes at h
  cases r <;> cases h
  rfl
theorem still_getCtx : Still getCtx := by intro w a w' h; cases h; rfl
theorem still_modify {f : Ctx → Ctx} (hf : ∀ c, (f c).nextPacketId = c.nextPacketId) : Still (modifyCtx f) := by
  intro w a w' h
  cases h
  exact hf _
theorem still_emit (e : Event) : Still (emit e) := by intro w a w' h; cases h; rfl
theorem still_pre : Still preHook := still_emit _
theorem still_post : Still postHook := still_emit _
theorem still_clear (id : UInt16) : Still (clearCallback id) := still_emit _
theorem still_app (pk : PacketInfo) (id : UInt16) (r : Status) (p : Option PublishInfo) : Still (appCallback pk id r p) := still_emit _
theorem still_getTime : Still getTime := by
  intro w a w' h
  unfold getTime at h
  split at h <;> cases h
  rfl
theorem still_recv (n : Nat) : Still (transportRecv n) := by
  intro w a w' h
  unfold transportRecv at h
  split at h <;> cases h <;> rfl
theorem still_send (bs : List UInt8) : Still (transportSend bs) := by
  intro w a w' h
  unfold transportSend at h
  split at h <;> cases h <;> rfl
theorem still_store (id : UInt16) (v : List IoVec) : Still (storeCallback id v) := by
  intro w a w' h
  unfold storeCallback at h
  split at h <;> cases h
  rfl
theorem still_retrieve (id : UInt16) : Still (retrieveCallback id) := by
  intro w a w' h
  unfold retrieveCallback at h
  split at h <;> cases h
  rfl
theorem still_tables (f : Tables → Res (α × Tables)) : Still (onTables f) := by
  intro w a w' h
  unfold onTables at h
  split at h <;> cases h
  rfl
theorem still_sendFuel : Still sendFuel := by intro w a w' h; cases h; rfl
theorem still_recvFuel : Still recvFuel := by intro w a w' h; cases h; rfl
theorem still_clockFuel : Still clockFuel := by intro w a w' h; cases h; rfl
theorem still_markPending : Still markPending := still_modify fun c => by split <;> rfl

end

syntax "still" "[" term,* "]" : tactic
macro_rules
  | `(tactic| still [$[$ts],*]) => `(tactic|
      repeat' (with_reducible first
        | (first $[| exact $ts]*)
        | exact still_pure _ | exact still_stuck | exact still_ub _ | exact still_lift _ | exact still_getCtx | exact still_pre | exact still_post
        | exact still_clear _ | exact still_app .. | exact still_getTime | exact still_recv _ | exact still_send _ | exact still_store ..
        | exact still_retrieve _ | exact still_tables _ | exact still_sendFuel | exact still_recvFuel | exact still_clockFuel
        | exact still_markPending | exact still_modify (fun _ => rfl)
        | (intro _) | apply still_ite | apply still_bind | split))

theorem still_note (r : Option Nat) : Still (noteSendResult r) := by
  unfold noteSendResult; still [still_ub _]

theorem still_sendBufferLoop (g : Cfg) (t0 : UInt32) : ∀ n rest sent, Still (sendBufferLoop g t0 n rest sent)
  | 0, _, _ => still_stuck
  | n + 1, rest, sent => by
    have ih := still_sendBufferLoop g t0 n
    unfold sendBufferLoop
    still [ih _ _, still_note _]

theorem still_sendBuffer (g : Cfg) (bs : List UInt8) : Still (sendBuffer g bs) := by
  unfold sendBuffer; still [still_sendBufferLoop g _ _ _ _]

theorem still_sendVecLoop (g : Cfg) (t0 : UInt32) (N : Nat) : ∀ n rest sent, Still (sendVecLoop g t0 N n rest sent)
  | 0, _, _ => still_stuck
  | n + 1, rest, sent => by
    have ih := still_sendVecLoop g t0 N n
    unfold sendVecLoop
    still [ih _ _, still_note _]

theorem still_sendMessageVector (g : Cfg) (v : List IoVec) : Still (sendMessageVector g v) := by
  unfold sendMessageVector; still [still_sendVecLoop g _ _ _ _ _]

theorem still_sendWholeVector (g : Cfg) (v : List IoVec) : Still (sendWholeVector g v) := by
  unfold sendWholeVector; still [still_sendMessageVector g _]

theorem still_sendFiltersLoop (g : Cfg) (ty : SubType) : ∀ n v l, Still (sendFiltersLoop g ty n v l)
  | 0, _, _ => still_stuck
  | n + 1, v, l => by
    have ih := still_sendFiltersLoop g ty n
    unfold sendFiltersLoop
    still [ih _ _, still_sendWholeVector g _]

theorem still_sendFilters (g : Cfg) (ty : SubType) (l : List SubscribeInfo) (id : UInt16) (n : Nat) :
    Still (sendFiltersWithoutCopy g ty l id n) := by
  unfold sendFiltersWithoutCopy; still [still_sendFiltersLoop g ty _ _ _]

theorem still_sendPublish (g : Cfg) (p : PublishInfo) (hd : List UInt8) (n : Nat) (id : UInt16) :
    Still (sendPublishWithoutCopy g p hd n id) := by
  unfold sendPublishWithoutCopy storePublish; still [still_sendWholeVector g _]

theorem still_sendConnect (g : Cfg) (ci : ConnectInfo) (will : Option PublishInfo) (n : Nat) : Still (sendConnectWithoutCopy g ci will n) := by
  unfold sendConnectWithoutCopy; still [still_sendWholeVector g _]

theorem still_sendIfConnected (g : Cfg) (bs : List UInt8) : Still (sendIfConnected g bs) := by
  unfold sendIfConnected; still [still_sendBuffer g _]

theorem still_stateAck (id : UInt16) (a : AckType) (op : Op) : Still (updateStateAckM id a op) := still_tables _
theorem still_statePublish (id : UInt16) (op : Op) (q : QoS) : Still (updateStatePublishM id op q) := still_tables _

theorem still_recvInto (p n : Nat) : Still (recvInto p n) := by
  unfold recvInto; still [still_ub _]

theorem still_markHooked : Still markPendingHooked := by
  unfold markPendingHooked; still [still_ub _]

theorem still_recvExactLoop (g : Cfg) : ∀ n p k t, Still (recvExactLoop g n p k t)
  | 0, _, _, _ => still_stuck
  | n + 1, p, k, t => by
    have ih := still_recvExactLoop g n
    unfold recvExactLoop
    still [ih _ _ _, still_recvInto _ _, still_markHooked]

theorem still_recvExact (g : Cfg) (n : Nat) : Still (recvExact g n) := by
  unfold recvExact; still [still_recvExactLoop g _ _ _ _]

theorem still_discardLoop (g : Cfg) (a b : UInt32) : ∀ n l k, Still (discardLoop g a b n l k)
  | 0, _, _ => still_stuck
  | n + 1, l, k => by
    have ih := still_discardLoop g a b n
    unfold discardLoop
    still [ih _ _, still_recvExact g _]

theorem still_reset : Still resetBuffer := still_modify fun _ => rfl

theorem still_receivePacket (g : Cfg) (n : Nat) (t : UInt32) : Still (receivePacket g n t) := by
  unfold receivePacket discardPacket; still [still_discardLoop g _ _ _ _ _, still_recvExact g _]

theorem still_recvOne : Still recvOne := by
  unfold recvOne; still [still_ub _]

theorem still_lengthLoop : ∀ n a b c, Still (getRemainingLengthLoopM n a b c)
  | 0, _, _, _ => still_stuck
  | n + 1, a, b, c => by
    have ih := still_lengthLoop n
    unfold getRemainingLengthLoopM
    still [ih _ _ _, still_recvOne]

theorem still_getIncoming : Still getIncomingPacketTypeAndLengthM := by
  unfold getIncomingPacketTypeAndLengthM getRemainingLengthM; still [still_lengthLoop _ _ _ _, still_recvOne]

theorem still_connackLoop (g : Cfg) (a b : UInt32) : ∀ n k, Still (connackLoop g a b n k)
  | 0, _ => still_stuck
  | n + 1, k => by
    have ih := still_connackLoop g a b n
    unfold connackLoop connackBreak
    still [ih _, still_getIncoming]

theorem still_receiveConnack (g : Cfg) (t : UInt32) (a b : Bool) : Still (receiveConnack g t a b) := by
  unfold receiveConnack finishConnack; still [still_connackLoop g _ _ _ _, still_receivePacket g _ _]

theorem still_clearStored : ∀ n k, Still (clearStored n k)
  | 0, _ => still_stuck
  | n + 1, k => by
    have ih := still_clearStored n
    unfold clearStored
    still [ih _]

theorem still_connectLocked (g : Cfg) (ci : ConnectInfo) (will : Option PublishInfo) (n : Nat) (t : UInt32) (sp : Bool) :
    Still (connectLocked g ci will n t sp) := by
  unfold connectLocked handleCleanSession
  still [still_sendConnect g _ _ _, still_receiveConnack g _ _ _, still_clearStored _ _, still_reset]

theorem still_publishLocked (g : Cfg) (p : PublishInfo) (hd : List UInt8) (n : Nat) (id : UInt16) : Still (publishLocked g p hd n id) := by
  unfold publishLocked reservePublish notePublishSent; still [still_sendPublish g _ _ _ _, still_statePublish ..]

theorem still_subUnsubLocked (g : Cfg) (ty : SubType) (l : List SubscribeInfo) (id : UInt16) (n : Nat) : Still (subUnsubLocked g ty l id n) := by
  unfold subUnsubLocked; still [still_sendFilters g ty _ _ _]

theorem still_pingLocked (g : Cfg) (bs : List UInt8) : Still (pingLocked g bs) := by
  unfold pingLocked; still [still_sendIfConnected g _]

theorem still_disconnectLocked (g : Cfg) (bs : List UInt8) : Still (disconnectLocked g bs) := by
  unfold disconnectLocked; still [still_sendBuffer g _, still_reset]

theorem still_dropPacket (n : Nat) : Still (dropPacket n) := by
  unfold dropPacket; still [still_ub _]

section
variable {α β : Type}

theorem still_locked {m : M α} (h : Still m) : Still (locked m) := by
  unfold locked; still [h]

theorem stills_pure (a : α) : Stills (pure a : Prog α) := trivial

theorem stills_bind {p : Prog α} {f : α → Prog β} (h : Stills p) (hf : ∀ a, Stills (f a)) : Stills (p >>= f) := by
  show Stills (p.bind f)
  induction p with
  | ret a => exact hf a
  | step m k ih => exact ⟨h.1, fun b => ih b (h.2 b)⟩

theorem stills_act {m : M α} (h : Still m) : Stills (act m) := ⟨h, fun _ => trivial⟩
theorem stills_sect {m : M α} (h : Still m) : Stills (sect m) := ⟨still_locked h, fun _ => trivial⟩

theorem stills_ite {c : Prop} [Decidable c] {p q : Prog α} (hp : Stills p) (hq : Stills q) : Stills (if c then p else q) := by
  split
  · exact hp
  · exact hq

end

syntax "stills" "[" term,* "]" : tactic
macro_rules
  | `(tactic| stills [$[$ts],*]) => `(tactic|
      repeat' (with_reducible first
        | (first $[| exact $ts]*)
        | exact stills_pure _
        | (apply stills_act; still [still_recvInto _ _, still_reset, still_dropPacket _]; done)
        | (apply stills_sect; still [still_sendIfConnected _ _, still_stateAck .., still_statePublish .., still_sendBuffer _ _,
            still_connectLocked .., still_publishLocked .., still_subUnsubLocked .., still_pingLocked .., still_disconnectLocked ..]; done)
        | (intro _) | apply stills_ite | apply stills_bind | split))

theorem stills_recvExactLoop (g : Cfg) : ∀ n p k t, Stills (recvExactLoopP g n p k t)
  | 0, _, _, _ => stills_act still_stuck
  | n + 1, p, k, t => by
    have ih := stills_recvExactLoop g n
    unfold recvExactLoopP
    stills [ih _ _ _]

theorem stills_recvExact (g : Cfg) (n : Nat) : Stills (recvExactP g n) := by
  unfold recvExactP; stills [stills_recvExactLoop g _ _ _ _]

theorem stills_discardStoredLoop (g : Cfg) : ∀ n l k, Stills (discardStoredLoopP g n l k)
  | 0, _, _ => stills_act still_stuck
  | n + 1, l, k => by
    have ih := stills_discardStoredLoop g n
    unfold discardStoredLoopP
    stills [ih _ _, stills_recvExact g _]

theorem stills_discardStored (g : Cfg) (n : Nat) : Stills (discardStoredPacketP g n) := by
  unfold discardStoredPacketP; stills [stills_discardStoredLoop g _ _ _]

theorem stills_acks (g : Cfg) (id : UInt16) (s : PubState) : Stills (sendPublishAcksP g id s) := by
  unfold sendPublishAcksP; stills [stills_pure _]

theorem stills_ping (g : Cfg) : Stills (pingP g) := by
  unfold pingP; stills [stills_pure _]

theorem stills_keepAlive (g : Cfg) : Stills (handleKeepAliveP g) := by
  unfold handleKeepAliveP; stills [stills_ping g]

theorem stills_incomingPublish (g : Cfg) (pk : PacketInfo) : Stills (handleIncomingPublishP g pk) := by
  unfold handleIncomingPublishP recordIncomingPublishP; stills [stills_acks g _ _]

theorem stills_publishAcks (g : Cfg) (pk : PacketInfo) : Stills (handlePublishAcksP g pk) := by
  unfold handlePublishAcksP; stills [stills_acks g _ _]

theorem stills_incomingAck (g : Cfg) (pk : PacketInfo) (m : Bool) : Stills (handleIncomingAckP g pk m) := by
  unfold handleIncomingAckP; stills [stills_publishAcks g _]

theorem stills_iteration (g : Cfg) (m : Bool) : Stills (receiveSingleIterationP g m) := by
  unfold receiveSingleIterationP receiveHeaderP keepAliveCheckP checkCompleteP handlePacketP
  stills [stills_keepAlive g, stills_discardStored g _, stills_incomingPublish g _, stills_incomingAck g _ _]

theorem stills_resendPubrels (g : Cfg) : ∀ n k, Stills (resendPubrelsP g n k)
  | 0, _ => stills_act still_stuck
  | n + 1, k => by
    have ih := stills_resendPubrels g n
    unfold resendPubrelsP
    stills [ih _, stills_acks g _ _]

theorem stills_resendPublishes (g : Cfg) : ∀ n k, Stills (resendPublishesP g n k)
  | 0, _ => stills_act still_stuck
  | n + 1, k => by
    have ih := stills_resendPublishes g n
    unfold resendPublishesP
    stills [ih _]

theorem stills_connect (g : Cfg) (ci : Option ConnectInfo) (will : Option PublishInfo) (t : UInt32) (sp : Option Bool) :
    Stills (connectP g ci will t sp) := by
  unfold connectP connectCoreP connectFailedP handleUncleanSessionResumptionP
  stills [stills_resendPubrels g _ _, stills_resendPublishes g _ _]

theorem stills_subUnsub (g : Cfg) (ty : SubType) (l : Option (List SubscribeInfo)) (id : UInt16) : Stills (subUnsubP g ty l id) := by
  unfold subUnsubP; stills [stills_pure _]

theorem stills_publish (g : Cfg) (p : Option PublishInfo) (id : UInt16) : Stills (publishP g p id) := by
  unfold publishP; stills [stills_pure _]

theorem stills_disconnect (g : Cfg) : Stills (disconnectP g) := by
  unfold disconnectP; stills [stills_pure _]

theorem stills_cancel (id : UInt16) : Stills (cancelP id) := by
  unfold cancelP; stills [stills_pure _]

theorem stills_check : Stills checkP := by
  unfold checkP; stills [stills_pure _]

theorem stills_processLoop (g : Cfg) : Stills (processLoopP g) := by
  unfold processLoopP; stills [stills_iteration g _]

/-- No step of any function other than `MQTT_GetPacketId` changes the counter of packet ids. -/
theorem stills_call (g : Cfg) (c : ApiCall) (h : c ≠ .getPacketId) : Stills (callP g c) := by
  cases c with
  | getPacketId => exact absurd rfl h
  | subscribe l id => exact stills_bind (stills_subUnsub g .subscribe l id) fun _ => stills_pure _
  | unsubscribe l id => exact stills_bind (stills_subUnsub g .unsubscribe l id) fun _ => stills_pure _
  | _ =>
    unfold callP
    stills [stills_connect g _ _ _ _, stills_publish g _ _, stills_ping g, stills_disconnect g, stills_processLoop g,
      stills_iteration g _, stills_cancel _, stills_check]

theorem Stills.run {α : Type} {p : Prog α} (h : Stills p) : Still p.run := by
  induction p with
  | ret a => exact still_pure a
  | step m k ih => exact still_bind h.1 fun b => ih b (h.2 b)

theorem still_apiCall (g : Cfg) (c : ApiCall) (h : c ≠ .getPacketId) : Still (apiCall g c) := by
  rw [← callP_run]
  exact (stills_call g c h).run

end Mqtt
