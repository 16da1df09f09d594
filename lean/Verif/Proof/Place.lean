/-
Every interaction takes place inside or outside the critical section as `Spec.placed` says: traversal of every function of core_mqtt.c.
-/
import Verif.Spec.Place

namespace Mqtt.Place
open Spec

/-- The depth at which `MQTT_Connect` and every other call receive. -/
def base (k : Bool) : Nat := if k then 1 else 0

/-- One event: the depth afterwards. -/
def step (d : Nat) : Event → Nat
  | .pre => d + 1
  | .post => d - 1
  | _ => d

/-- Every event is where it belongs; the depth afterwards. -/
def run (k : Bool) : Nat → List Event → Option Nat
  | d, [] => some d
  | d, e :: es => if placed k d e then run k (step d e) es else none

theorem run_append (k : Bool) : ∀ (a b : List Event) (d : Nat), run k d (a ++ b) = (run k d a).bind fun d' => run k d' b
  | [], b, d => rfl
  | e :: a, b, d => by
    simp only [List.cons_append, run]
    split
    · exact run_append k a b _
    · rfl

/-- `m` started at depth `d` ends at depth `d'`; every event is where it belongs, also if it does not end. -/
def Pl (k : Bool) (d : Nat) {α : Type} (m : M α) (d' : Nat) : Prop :=
  ∀ w, ∃ es, (m w).world.trace = w.trace ++ es ∧ ∃ d1, run k d es = some d1 ∧ ∀ a w', m w = .done a w' → d1 = d'

section
variable {k : Bool} {d d' d'' : Nat} {α β : Type}

theorem pl_bind {m : M α} {f : α → M β} (hm : Pl k d m d') (hf : ∀ a, Pl k d' (f a) d'') : Pl k d (m >>= f) d'' := by
  intro w
  obtain ⟨es, h1, d1, h2, h3⟩ := hm w
  show ∃ es, (M.bind m f w).world.trace = _ ∧ ∃ d1, _ ∧ ∀ a w', M.bind m f w = _ → _
  unfold M.bind
  cases he : m w with
  | done a w' =>
    obtain ⟨es', h4, d2, h5, h6⟩ := hf a w'
    rw [he] at h1
    have := h3 a w' he
    subst this
    refine ⟨es ++ es', ?_, d2, ?_, h6⟩
    · show (f a w').world.trace = _
      rw [h4, show w'.trace = _ from h1, List.append_assoc]
    · rw [run_append, h2]
      exact h5
  | stuck w' => rw [he] at h1; exact ⟨es, h1, d1, h2, fun _ _ h => by cases h⟩
  | ub x w' => rw [he] at h1; exact ⟨es, h1, d1, h2, fun _ _ h => by cases h⟩

theorem pl_same {m : M α} (h : ∀ w, (m w).world.trace = w.trace) : Pl k d m d := fun w => ⟨[], by simp [h], d, rfl, fun _ _ _ => rfl⟩
theorem pl_pure (a : α) : Pl k d (pure a : M α) d := pl_same fun _ => rfl
theorem pl_stuck : Pl k d (stuckM : M α) d := fun w => ⟨[], (List.append_nil _).symm, d, rfl, fun _ _ h => by cases h⟩
theorem pl_ub (e : UB) : Pl k d (ubM e : M α) d := fun w => ⟨[], (List.append_nil _).symm, d, rfl, fun _ _ h => by cases h⟩
theorem pl_lift (r : Res α) : Pl k d (liftRes r) d := pl_same fun _ => by unfold liftRes; cases r <;> rfl
theorem pl_getCtx : Pl k d getCtx d := pl_same fun _ => rfl
theorem pl_modify (f : Ctx → Ctx) : Pl k d (modifyCtx f) d := pl_same fun _ => rfl
theorem pl_sendFuel : Pl k d sendFuel d := pl_same fun _ => rfl
theorem pl_recvFuel : Pl k d recvFuel d := pl_same fun _ => rfl
theorem pl_clockFuel : Pl k d clockFuel d := pl_same fun _ => rfl
theorem pl_markPending : Pl k d markPending d := pl_same fun _ => rfl
theorem pl_tables (f : Tables → Res (α × Tables)) : Pl k d (onTables f) d := pl_same fun w => by
  unfold onTables; cases f w.ctx.tables <;> rfl
theorem pl_ite {c : Prop} [Decidable c] {a b : M α} (ha : Pl k d a d') (hb : Pl k d b d') : Pl k d (if c then a else b) d' := by
  split
  · exact ha
  · exact hb

theorem pl_pre : Pl k d preHook (d + 1) := fun _ => ⟨[.pre], rfl, d + 1, rfl, fun _ _ _ => rfl⟩
theorem pl_post : Pl k (d + 1) postHook d := fun _ => ⟨[.post], rfl, d, by simp [run, placed, step], fun _ _ _ => rfl⟩
theorem pl_app (pk : PacketInfo) (id : UInt16) (r : Status) (p : Option PublishInfo) : Pl k 0 (appCallback pk id r p) 0 :=
  fun _ => ⟨[_], rfl, 0, rfl, fun _ _ _ => rfl⟩
theorem pl_clear (id : UInt16) : Pl k (base k) (clearCallback id) (base k) :=
  fun _ => ⟨[.clear id], rfl, _, by simp only [run, placed, step, base, beq_self_eq_true, if_true], fun _ _ _ => rfl⟩

theorem pl_getTime : Pl k d getTime d := by
  intro w
  cases h : w.env.clock with
  | nil => exact ⟨[], by simp [getTime, h, Out.world], d, rfl, fun _ _ _ => rfl⟩
  | cons t r => exact ⟨[.time t], by simp [getTime, h, Out.world], d, rfl, fun _ _ _ => rfl⟩

theorem pl_store (id : UInt16) (v : List IoVec) : Pl k 1 (storeCallback id v) 1 := by
  intro w
  cases h : w.env.stores with
  | nil => exact ⟨[], by simp [storeCallback, h, Out.world], 1, rfl, fun _ _ _ => rfl⟩
  | cons t r => exact ⟨[.store id v t], by simp [storeCallback, h, Out.world], 1, rfl, fun _ _ _ => rfl⟩

theorem pl_retrieve (id : UInt16) : Pl k 0 (retrieveCallback id) 0 := by
  intro w
  cases h : w.env.retrieves with
  | nil => exact ⟨[], by simp [retrieveCallback, h, Out.world], 0, rfl, fun _ _ _ => rfl⟩
  | cons t r => exact ⟨[.retrieve id t], by simp [retrieveCallback, h, Out.world], 0, rfl, fun _ _ _ => rfl⟩

theorem pl_send (bs : List UInt8) : Pl k 1 (transportSend bs) 1 := by
  intro w
  cases h : w.env.sends with
  | nil => exact ⟨[], by simp [transportSend, h, Out.world], 1, rfl, fun _ _ _ => rfl⟩
  | cons t r => cases t with
    | fail => exact ⟨[.sent bs none], by simp [transportSend, h, Out.world], 1, rfl, fun _ _ _ => rfl⟩
    | accept n => exact ⟨[.sent bs (some (min n bs.length))], by simp [transportSend, h, Out.world], 1, rfl, fun _ _ _ => rfl⟩

theorem pl_recv (n : Nat) : Pl k (base k) (transportRecv n) (base k) := by
  intro w
  cases h : w.env.recvs with
  | nil => exact ⟨[], by simp [transportRecv, h, Out.world], _, rfl, fun _ _ _ => rfl⟩
  | cons t r => cases t with
    | fail => exact ⟨[.recvd n none], by simp [transportRecv, h, Out.world], _, by simp only [run, placed, step, base, beq_self_eq_true, if_true], fun _ _ _ => rfl⟩
    | deliver m => exact ⟨[.recvd n (some (w.env.input.take (min m n)))], by simp [transportRecv, h, Out.world], _,
        by simp only [run, placed, step, base, beq_self_eq_true, if_true], fun _ _ _ => rfl⟩

syntax "pls" "[" term,* "]" : tactic
macro_rules
  | `(tactic| pls [$[$ts],*]) => `(tactic|
      repeat' (with_reducible first
        | (first $[| exact $ts]*)
        | exact pl_pure _ | exact pl_stuck | exact pl_ub _ | exact pl_lift _ | exact pl_getCtx | exact pl_pre | exact pl_post
        | exact pl_clear _ | exact pl_app .. | exact pl_getTime | exact pl_store .. | exact pl_retrieve _ | exact pl_send _ | exact pl_recv _
        | exact pl_tables _ | exact pl_sendFuel | exact pl_recvFuel | exact pl_clockFuel | exact pl_markPending | exact pl_modify _
        | (intro _) | apply pl_ite | apply pl_bind | split))

theorem pl_noteSend (r : Option Nat) : Pl k d (noteSendResult r) d := by
  unfold noteSendResult; pls [pl_ub _]

theorem pl_sendBufferLoop (g : Cfg) (t0 : UInt32) : ∀ n rest sent, Pl k 1 (sendBufferLoop g t0 n rest sent) 1
  | 0, _, _ => pl_stuck
  | n + 1, rest, sent => by
    have ih := pl_sendBufferLoop g t0 n
    unfold sendBufferLoop
    pls [ih _ _, pl_noteSend _]

theorem pl_sendBuffer (g : Cfg) (bs : List UInt8) : Pl k 1 (sendBuffer g bs) 1 := by
  unfold sendBuffer; pls [pl_sendBufferLoop g _ _ _ _]

theorem pl_sendVecLoop (g : Cfg) (t0 : UInt32) (N : Nat) : ∀ n vecs sent, Pl k 1 (sendVecLoop g t0 N n vecs sent) 1
  | 0, _, _ => pl_stuck
  | n + 1, vecs, sent => by
    have ih := pl_sendVecLoop g t0 N n
    unfold sendVecLoop
    pls [ih _ _, pl_noteSend _]

theorem pl_sendWholeVector (g : Cfg) (v : List IoVec) : Pl k 1 (sendWholeVector g v) 1 := by
  unfold sendWholeVector sendMessageVector; pls [pl_sendVecLoop g _ _ _ _ _]

theorem pl_sendFiltersLoop (g : Cfg) (ty : SubType) : ∀ n v l, Pl k 1 (sendFiltersLoop g ty n v l) 1
  | 0, _, _ => pl_stuck
  | n + 1, v, l => by
    have ih := pl_sendFiltersLoop g ty n
    unfold sendFiltersLoop
    pls [pl_sendWholeVector g _, ih _ _]

theorem pl_sendFilters (g : Cfg) (ty : SubType) (l : List SubscribeInfo) (id : UInt16) (n : Nat) : Pl k 1 (sendFiltersWithoutCopy g ty l id n) 1 := by
  unfold sendFiltersWithoutCopy; pls [pl_sendFiltersLoop g ty _ _ _]

theorem pl_sendPublish (g : Cfg) (p : PublishInfo) (hd : List UInt8) (n : Nat) (id : UInt16) : Pl k 1 (sendPublishWithoutCopy g p hd n id) 1 := by
  unfold sendPublishWithoutCopy storePublish; pls [pl_sendWholeVector g _]

theorem pl_sendConnect (g : Cfg) (ci : ConnectInfo) (will : Option PublishInfo) (n : Nat) : Pl k 1 (sendConnectWithoutCopy g ci will n) 1 := by
  unfold sendConnectWithoutCopy; pls [pl_sendWholeVector g _]

theorem pl_sendIfConnected (g : Cfg) (bs : List UInt8) : Pl k 1 (sendIfConnected g bs) 1 := by
  unfold sendIfConnected; pls [pl_sendBuffer g _]

theorem pl_stateAck (id : UInt16) (a : AckType) (op : Op) : Pl k d (updateStateAckM id a op) d := pl_tables _
theorem pl_statePublish (id : UInt16) (op : Op) (q : QoS) : Pl k d (updateStatePublishM id op q) d := pl_tables _

theorem pl_acks (g : Cfg) (id : UInt16) (s : PubState) : Pl k 0 (sendPublishAcks g id s) 0 := by
  unfold sendPublishAcks; pls [pl_sendIfConnected g _, pl_stateAck ..]

theorem pl_ping (g : Cfg) : Pl k 0 (mqttPing g) 0 := by
  unfold mqttPing; pls [pl_sendIfConnected g _]

theorem pl_recvInto (p : Nat) (n : Nat) : Pl k (base k) (recvInto p n) (base k) := by
  unfold recvInto; pls [pl_recv _]

theorem pl_markHooked : Pl k d markPendingHooked d := by
  unfold markPendingHooked; pls [pl_ub _]

theorem pl_recvExactLoop (g : Cfg) : ∀ n p m t, Pl k (base k) (recvExactLoop g n p m t) (base k)
  | 0, _, _, _ => pl_stuck
  | n + 1, p, m, t => by
    have ih := pl_recvExactLoop g n
    unfold recvExactLoop
    pls [ih _ _ _, pl_recvInto _ _, pl_markHooked]

theorem pl_recvExact (g : Cfg) (n : Nat) : Pl k (base k) (recvExact g n) (base k) := by
  unfold recvExact; pls [pl_recvExactLoop g _ _ _ _]

theorem pl_discardLoop (g : Cfg) (a b : UInt32) : ∀ n l m, Pl k (base k) (discardLoop g a b n l m) (base k)
  | 0, _, _ => pl_stuck
  | n + 1, l, m => by
    have ih := pl_discardLoop g a b n
    unfold discardLoop
    pls [ih _ _, pl_recvExact g _]

theorem pl_discardStoredLoop (g : Cfg) : ∀ n l m, Pl k (base k) (discardStoredLoop g n l m) (base k)
  | 0, _, _ => pl_stuck
  | n + 1, l, m => by
    have ih := pl_discardStoredLoop g n
    unfold discardStoredLoop
    pls [ih _ _, pl_recvExact g _]

theorem pl_reset : Pl k d resetBuffer d := pl_modify _

theorem pl_discardStored (g : Cfg) (n : Nat) : Pl k (base k) (discardStoredPacket g n) (base k) := by
  unfold discardStoredPacket; pls [pl_discardStoredLoop g _ _ _, pl_reset]

theorem pl_receivePacket (g : Cfg) (n : Nat) (t : UInt32) : Pl k (base k) (receivePacket g n t) (base k) := by
  unfold receivePacket discardPacket; pls [pl_discardLoop g _ _ _ _ _, pl_recvExact g _]

theorem pl_incomingPublish (g : Cfg) (pk : PacketInfo) : Pl k 0 (handleIncomingPublish g pk) 0 := by
  unfold handleIncomingPublish recordIncomingPublish; pls [pl_acks g _ _, pl_statePublish ..]

theorem pl_publishAcks (g : Cfg) (pk : PacketInfo) : Pl false 0 (handlePublishAcks g pk) 0 := by
  have hc : ∀ id, Pl false 0 (clearCallback id) 0 := pl_clear (k := false)
  unfold handlePublishAcks; pls [pl_acks g _ _, pl_stateAck .., hc _]

theorem pl_incomingAck (g : Cfg) (pk : PacketInfo) (m : Bool) : Pl false 0 (handleIncomingAck g pk m) 0 := by
  unfold handleIncomingAck; pls [pl_publishAcks g _]

theorem pl_recvOne : Pl k (base k) recvOne (base k) := by
  unfold recvOne; pls [pl_recv _]

theorem pl_lengthLoop : ∀ n a b c, Pl k (base k) (getRemainingLengthLoopM n a b c) (base k)
  | 0, _, _, _ => pl_stuck
  | n + 1, a, b, c => by
    have ih := pl_lengthLoop n
    unfold getRemainingLengthLoopM
    pls [ih _ _ _, pl_recvOne]

theorem pl_getIncoming : Pl k (base k) getIncomingPacketTypeAndLengthM (base k) := by
  unfold getIncomingPacketTypeAndLengthM getRemainingLengthM; pls [pl_lengthLoop _ _ _ _, pl_recvOne]

theorem pl_connackLoop (g : Cfg) (a b : UInt32) : ∀ n m, Pl k (base k) (connackLoop g a b n m) (base k)
  | 0, _ => pl_stuck
  | n + 1, m => by
    have ih := pl_connackLoop g a b n
    unfold connackLoop connackBreak
    pls [ih _, pl_getIncoming]

theorem pl_receiveConnack (g : Cfg) (t : UInt32) (a b : Bool) : Pl true 1 (receiveConnack g t a b) 1 := by
  have h1 : ∀ a b n m, Pl true 1 (connackLoop g a b n m) 1 := pl_connackLoop (k := true) g
  have h2 : ∀ n t, Pl true 1 (receivePacket g n t) 1 := pl_receivePacket (k := true) g
  unfold receiveConnack finishConnack; pls [h1 _ _ _ _, h2 _ _]

theorem pl_resendPubrels (g : Cfg) : ∀ n m, Pl k 0 (resendPubrels g n m) 0
  | 0, _ => pl_stuck
  | n + 1, m => by
    have ih := pl_resendPubrels g n
    unfold resendPubrels
    pls [ih _, pl_acks g _ _]

theorem pl_resendPublishes (g : Cfg) : ∀ n m, Pl k 0 (resendPublishes g n m) 0
  | 0, _ => pl_stuck
  | n + 1, m => by
    have ih := pl_resendPublishes g n
    unfold resendPublishes
    pls [ih _, pl_sendBuffer g _]

theorem pl_clearStored : ∀ n m, Pl true 1 (clearStored n m) 1
  | 0, _ => pl_stuck
  | n + 1, m => by
    have ih := pl_clearStored n
    have hc : ∀ id, Pl true 1 (clearCallback id) 1 := pl_clear (k := true)
    unfold clearStored
    pls [ih _, hc _]

theorem pl_connect (g : Cfg) (ci : Option ConnectInfo) (will : Option PublishInfo) (t : UInt32) (sp : Option Bool) :
    Pl true 0 (mqttConnect g ci will t sp) 0 := by
  unfold mqttConnect connectCore connectFailed connectLocked handleCleanSession handleUncleanSessionResumption
  pls [pl_sendConnect g _ _ _, pl_receiveConnack g _ _ _, pl_clearStored _ _, pl_resendPubrels g _ _, pl_resendPublishes g _ _,
    pl_reset, pl_markHooked]

theorem pl_sub (g : Cfg) (ty : SubType) (l : Option (List SubscribeInfo)) (id : UInt16) : Pl k 0 (mqttSubUnsub g ty l id) 0 := by
  unfold mqttSubUnsub; pls [pl_sendFilters g ty _ _ _]

theorem pl_publish (g : Cfg) (p : Option PublishInfo) (id : UInt16) : Pl k 0 (mqttPublish g p id) 0 := by
  unfold mqttPublish publishLocked reservePublish notePublishSent; pls [pl_sendPublish g _ _ _ _, pl_statePublish ..]

theorem pl_disconnect (g : Cfg) : Pl k 0 (mqttDisconnect g) 0 := by
  unfold mqttDisconnect; pls [pl_sendBuffer g _, pl_reset]

theorem pl_cancel (id : UInt16) : Pl k 0 (mqttCancelCallback id) 0 := by
  unfold mqttCancelCallback; pls [pl_ub _]

theorem pl_check : Pl k 0 mqttCheckConnectStatus 0 := by
  unfold mqttCheckConnectStatus; pls [pl_ub _]

theorem pl_getId : Pl k 0 mqttGetPacketId 0 := by
  unfold mqttGetPacketId; pls [pl_ub _]

theorem pl_handleKeepAlive (g : Cfg) : Pl k 0 (handleKeepAlive g) 0 := by
  unfold handleKeepAlive; pls [pl_ping g]

theorem pl_iteration (g : Cfg) (m : Bool) : Pl false 0 (receiveSingleIteration g m) 0 := by
  have h1 : ∀ n, Pl false 0 (discardStoredPacket g n) 0 := pl_discardStored (k := false) g
  have h2 : ∀ p n, Pl false 0 (recvInto p n) 0 := pl_recvInto (k := false)
  unfold receiveSingleIteration receiveHeader keepAliveCheck checkComplete handlePacket
  pls [pl_handleKeepAlive g, h1 _, pl_incomingPublish g _, pl_incomingAck g _ _, h2 _ _, pl_markHooked]

theorem pl_api (g : Cfg) (f : ApiCall) : Pl (isConnect f) 0 (apiCall g f) 0 := by
  cases f with
  | connect ci will t sp =>
    simp only [apiCall]
    show Pl true _ _ _
    pls [pl_connect ..]
  | _ =>
    simp only [apiCall, mqttSubscribe, mqttUnsubscribe, mqttProcessLoop, mqttReceiveLoop]
    show Pl false _ _ _
    pls [pl_sub .., pl_publish .., pl_ping g, pl_disconnect g, pl_cancel _, pl_check, pl_getId, pl_iteration g _]

/-- From the run to the single events. -/
theorem run_placed {b : List Event} {x : Event} {a : List Event} {d1 : Nat} (h : run k 0 (b ++ x :: a) = some d1) : placed k (depth b) x = true := by
  have key : ∀ (b : List Event) (d : Nat), run k d (b ++ x :: a) = some d1 →
      placed k (b.foldl (fun d e => match e with | .pre => d + 1 | .post => d - 1 | _ => d) d) x = true := by
    intro b
    induction b with
    | nil =>
      intro d h
      simp only [List.nil_append, run] at h
      split at h
      · assumption
      · cases h
    | cons e b ih =>
      intro d h
      simp only [List.cons_append, run] at h
      split at h
      · have := ih _ h
        cases e <;> exact this
      · cases h
  exact key b 0 h

end
end Mqtt.Place
