/-
The programs of `Verif/Model/Threads`, run without interruption, are the sequential functions.
-/
import Verif.Model.Threads

namespace Mqtt
set_option linter.unusedSimpArgs false

section
variable {α β γ : Type}

theorem run_ret (a : α) : (Prog.ret a).run = pure a := rfl
theorem run_pure (a : α) : (pure a : Prog α).run = pure a := rfl
theorem run_act (m : M α) : (act m).run = m := bind_pure m
theorem run_sect (m : M α) : (sect m).run = locked m := bind_pure (locked m)

theorem run_bind (p : Prog α) (f : α → Prog β) : (p >>= f).run = p.run >>= fun a => (f a).run := by
  show (p.bind f).run = _
  induction p with
  | ret a => simp [Prog.bind, Prog.run]
  | step m k ih =>
    simp only [Prog.bind, Prog.run, bind_assoc]
    congr 1
    funext b
    exact ih b

theorem run_ite (c : Prop) [Decidable c] (p q : Prog α) : (if c then p else q).run = if c then p.run else q.run := by
  split <;> rfl

theorem ite_bind (c : Prop) [Decidable c] (p q : M α) (f : α → M β) : ((if c then p else q) >>= f) = if c then p >>= f else q >>= f := by
  split <;> rfl

theorem locked_bind (m : M α) (f : α → M β) : (locked m >>= f) = (do preHook; let a ← m; postHook; f a) := by
  simp [locked, bind_assoc]

end

theorem markPending_locked : locked markPending = markPendingHooked := by
  unfold locked markPendingHooked
  simp [postHook]

theorem recvExactLoopP_run (g : Cfg) (fuel pos n : Nat) (t : UInt32) :
    (recvExactLoopP g fuel pos n t).run = recvExactLoop g fuel pos n t := by
  induction fuel generalizing pos n t with
  | zero => exact run_act _
  | succ fuel ih =>
    unfold recvExactLoopP recvExactLoop
    rw [run_ite]
    split
    · rw [run_bind, run_act]
      congr 1
      funext r
      cases r with
      | none => simp only [run_bind, run_sect, run_pure, markPending_locked]
      | some k =>
        dsimp only
        rw [run_ite]
        simp only [run_bind, run_act, run_pure, run_ite, ih]
    · rfl

theorem recvExactP_run (g : Cfg) (n : Nat) : (recvExactP g n).run = recvExact g n := by
  unfold recvExactP recvExact
  simp only [run_bind, run_act, recvExactLoopP_run]

theorem discardStoredLoopP_run (g : Cfg) (fuel left n : Nat) : (discardStoredLoopP g fuel left n).run = discardStoredLoop g fuel left n := by
  induction fuel generalizing left n with
  | zero => exact run_act _
  | succ fuel ih =>
    unfold discardStoredLoopP discardStoredLoop
    simp only [run_bind, run_ite, run_pure, recvExactP_run, ih]

theorem discardStoredPacketP_run (g : Cfg) (n : Nat) : (discardStoredPacketP g n).run = discardStoredPacket g n := by
  unfold discardStoredPacketP discardStoredPacket
  simp only [run_bind, run_act, run_ite, run_pure, discardStoredLoopP_run]

theorem sendPublishAcksP_run (g : Cfg) (id : UInt16) (s : PubState) : (sendPublishAcksP g id s).run = sendPublishAcks g id s := by
  unfold sendPublishAcksP sendPublishAcks
  simp only [run_bind, run_act, run_ite, run_pure, run_sect, locked_bind]

theorem pingP_run (g : Cfg) : (pingP g).run = mqttPing g := by
  unfold pingP mqttPing pingLocked
  simp only [run_bind, run_act, run_ite, run_pure, run_sect, locked, bind_assoc, pure_bind, ite_bind]

theorem handleKeepAliveP_run (g : Cfg) : (handleKeepAliveP g).run = handleKeepAlive g := by
  unfold handleKeepAliveP handleKeepAlive
  simp only [run_bind, run_act, run_ite, run_pure, run_sect, locked_bind, pingP_run]

theorem recordIncomingPublishP_run (id : UInt16) (q : QoS) : (recordIncomingPublishP id q).run = recordIncomingPublish id q := by
  unfold recordIncomingPublishP recordIncomingPublish
  simp only [run_bind, run_act, run_ite, run_pure, run_sect, locked_bind]

theorem handleIncomingPublishP_run (g : Cfg) (pk : PacketInfo) : (handleIncomingPublishP g pk).run = handleIncomingPublish g pk := by
  unfold handleIncomingPublishP handleIncomingPublish
  rw [run_bind, run_act]
  congr 1
  funext r
  obtain ⟨st, out⟩ := r
  cases out with
  | none => rfl
  | some x => simp only [run_bind, run_act, run_ite, run_pure, recordIncomingPublishP_run, sendPublishAcksP_run]

theorem handlePublishAcksP_run (g : Cfg) (pk : PacketInfo) : (handlePublishAcksP g pk).run = handlePublishAcks g pk := by
  unfold handlePublishAcksP handlePublishAcks
  simp only [run_bind, run_act, run_ite, run_pure, run_sect, locked_bind, sendPublishAcksP_run]

theorem handleIncomingAckP_run (g : Cfg) (pk : PacketInfo) (b : Bool) : (handleIncomingAckP g pk b).run = handleIncomingAck g pk b := by
  unfold handleIncomingAckP handleIncomingAck
  simp only [run_bind, run_act, run_ite, run_pure, handlePublishAcksP_run]

theorem receiveHeaderP_run : receiveHeaderP.run = receiveHeader := by
  unfold receiveHeaderP receiveHeader
  rw [run_bind, run_act]
  congr 1
  funext c
  rw [run_bind, run_act]
  congr 1
  funext r
  cases r with
  | none => simp only [run_bind, run_sect, run_pure, markPending_locked]
  | some k => simp only [run_bind, run_act, run_ite, run_pure]

theorem keepAliveCheckP_run (g : Cfg) (r : Option Nat) (b : Bool) (st : Status) : (keepAliveCheckP g r b st).run = keepAliveCheck g r b st := by
  unfold keepAliveCheckP keepAliveCheck
  simp only [run_bind, run_act, run_ite, run_pure, handleKeepAliveP_run]

theorem checkCompleteP_run (g : Cfg) (st : Status) (n : Nat) : (checkCompleteP g st n).run = checkComplete g st n := by
  unfold checkCompleteP checkComplete
  simp only [run_bind, run_act, run_ite, run_pure, discardStoredPacketP_run]

theorem handlePacketP_run (g : Cfg) (b : Bool) (h : HeaderRes) : (handlePacketP g b h).run = handlePacket g b h := by
  unfold handlePacketP handlePacket dropPacket
  simp only [run_bind, run_act, run_ite, run_pure, handleIncomingPublishP_run, handleIncomingAckP_run, bind_assoc]
  congr 1
  funext c
  congr 1
  funext st
  congr 1
  funext c
  split
  · rfl
  · rfl

theorem receiveSingleIterationP_run (g : Cfg) (b : Bool) : (receiveSingleIterationP g b).run = receiveSingleIteration g b := by
  unfold receiveSingleIterationP receiveSingleIteration
  simp only [run_bind, run_act, run_ite, run_pure, receiveHeaderP_run, keepAliveCheckP_run, checkCompleteP_run, handlePacketP_run]

theorem processLoopP_run (g : Cfg) : (processLoopP g).run = mqttProcessLoop g := by
  unfold processLoopP mqttProcessLoop
  simp only [run_bind, run_act, receiveSingleIterationP_run]

theorem resendPubrelsP_run (g : Cfg) (n cursor : Nat) : (resendPubrelsP g n cursor).run = resendPubrels g n cursor := by
  induction n generalizing cursor with
  | zero => exact run_act _
  | succ n ih =>
    unfold resendPubrelsP resendPubrels
    simp only [run_bind, run_act, run_ite, run_pure, sendPublishAcksP_run, ih]

theorem resendPublishesP_run (g : Cfg) (n cursor : Nat) : (resendPublishesP g n cursor).run = resendPublishes g n cursor := by
  induction n generalizing cursor with
  | zero => exact run_act _
  | succ n ih =>
    unfold resendPublishesP resendPublishes
    simp only [run_bind, run_act, run_ite, run_pure]
    congr 1
    funext c
    congr 1
    funext r
    obtain ⟨id, cur⟩ := r
    dsimp only
    congr 1
    congr 1
    funext r
    cases r with
    | none => rfl
    | some bytes => simp only [run_bind, run_act, run_ite, run_pure, run_sect, locked_bind, ih]

theorem handleUncleanSessionResumptionP_run (g : Cfg) : (handleUncleanSessionResumptionP g).run = handleUncleanSessionResumption g := by
  unfold handleUncleanSessionResumptionP handleUncleanSessionResumption
  simp only [run_bind, run_act, run_ite, run_pure, resendPubrelsP_run, resendPublishesP_run]

theorem connectFailedP_run (st : Status) : (connectFailedP st).run = connectFailed st := by
  unfold connectFailedP connectFailed
  simp only [run_ite, run_pure, run_sect, markPending_locked]

theorem connectCoreP_run (g : Cfg) (ci : ConnectInfo) (will : Option PublishInfo) (n : Nat) (t : UInt32) (sp : Bool) :
    (connectCoreP g ci will n t sp).run = connectCore g ci will n t sp := by
  unfold connectCoreP connectCore
  simp only [run_bind, run_act, run_ite, run_pure, run_sect, locked_bind, handleUncleanSessionResumptionP_run]

theorem connectP_run (g : Cfg) (ci : Option ConnectInfo) (will : Option PublishInfo) (t : UInt32) (sp : Option Bool) :
    (connectP g ci will t sp).run = mqttConnect g ci will t sp := by
  unfold connectP mqttConnect
  cases ci <;> cases sp <;> simp only [run_bind, run_act, run_ite, run_pure, connectFailedP_run, connectCoreP_run]

theorem subUnsubP_run (g : Cfg) (ty : SubType) (subs : Option (List SubscribeInfo)) (id : UInt16) :
    (subUnsubP g ty subs id).run = mqttSubUnsub g ty subs id := by
  unfold subUnsubP mqttSubUnsub subUnsubLocked
  simp only [run_bind, run_act, run_ite, run_pure, run_sect, locked, bind_assoc]

theorem publishP_run (g : Cfg) (p : Option PublishInfo) (id : UInt16) : (publishP g p id).run = mqttPublish g p id := by
  unfold publishP mqttPublish
  cases p with
  | none => simp only [run_bind, run_act, run_ite, run_pure]
  | some p => simp only [run_bind, run_act, run_ite, run_pure, run_sect, locked]

theorem disconnectP_run (g : Cfg) : (disconnectP g).run = mqttDisconnect g := by
  unfold disconnectP mqttDisconnect disconnectLocked
  simp only [run_bind, run_act, run_ite, run_pure, run_sect, locked, bind_assoc]

theorem cancelP_run (id : UInt16) : (cancelP id).run = mqttCancelCallback id := by
  unfold cancelP mqttCancelCallback
  simp only [run_bind, run_act, run_ite, run_pure, run_sect, locked]

theorem checkP_run : checkP.run = mqttCheckConnectStatus := by
  unfold checkP mqttCheckConnectStatus
  simp only [run_bind, run_pure, run_sect, locked_bind]

theorem getPacketIdP_run : getPacketIdP.run = mqttGetPacketId := by
  unfold getPacketIdP mqttGetPacketId
  simp only [run_sect, locked, bind_assoc, pure_bind]

/-- Every public function, cut into steps and run without interruption, is the function of the sequential model. -/
theorem callP_run (g : Cfg) (c : ApiCall) : (callP g c).run = apiCall g c := by
  cases c <;>
    simp only [callP, apiCall, run_bind, run_pure, connectP_run, subUnsubP_run, publishP_run, pingP_run, disconnectP_run, processLoopP_run,
      receiveSingleIterationP_run, cancelP_run, checkP_run, getPacketIdP_run, mqttSubscribe, mqttUnsubscribe, mqttReceiveLoop]

end Mqtt
