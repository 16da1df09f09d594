/-
The status codes of the public functions.
-/
import Verif.Spec.Codes
import Verif.Proof.CallWire
import Verif.Proof.CallAck
import Verif.Proof.CallConnect
import Verif.Proof.BrokerLoop

namespace Mqtt
open Spec

theorem notConnectedStatus_mem {s : ConnStatus} (h : s ≠ .connected) :
    notConnectedStatus s = .statusNotConnected ∨ notConnectedStatus s = .statusDisconnectPending := by
  cases s <;> simp_all [notConnectedStatus]

theorem SentResult.mem {bs : List UInt8} {st : Status} {es : List Event} (h : SentResult bs st es) : st = .success ∨ st = .sendFailed := by
  rcases h with ⟨h, _⟩ | ⟨h, _⟩
  · exact Or.inl h
  · exact Or.inr h

theorem insert_codes {φ : Type} (l : Table φ) (cap : Nat) (id : UInt16) (p : φ) :
    (Table.insert cap l id p).1 ∈ [Status.success, .noMemory, .stateCollision] := by
  unfold Table.insert
  repeat' split
  all_goals simp

theorem ackTable_codes {φ : Type} (rule : φ → Option (Effect φ × PubState)) (l : Table φ) (id : UInt16) :
    (ackTable rule l id).1.1 ∈ [Status.success, .badResponse, .illegalState] := by
  unfold ackTable
  repeat' split
  all_goals simp

theorem step_ack_codes (s : InFlight) (op : Op) (ty : AckType) {id : UInt16} (h0 : id ≠ 0) :
    (step s (.ack op ty id)).1.1 ∈ [Status.success, .badResponse, .illegalState] := by
  simp only [step, if_neg h0]
  split
  · exact ackTable_codes _ _ _
  · exact ackTable_codes _ _ _

theorem step_reserve_codes (s : InFlight) (id : UInt16) (q : QoS) :
    (step s (.reserve id q)).1.1 ∈ [Status.success, .badParameter, .noMemory, .stateCollision] := by
  have h := insert_codes s.out s.outCap id
  have sub : ∀ st, st ∈ [Status.success, .noMemory, .stateCollision] → st ∈ [Status.success, .badParameter, .noMemory, .stateCollision] := by decide
  cases q <;> simp only [step]
  · simp
  all_goals
    split
    · simp
    · exact sub _ (h _)

theorem step_sent_codes (s : InFlight) (id : UInt16) (q : QoS) :
    (step s (.publish .send id q)).1.1 ∈ [Status.success, .badParameter, .illegalState] := by
  cases q <;> simp only [step] <;> repeat' split
  all_goals simp

theorem step_received_codes (s : InFlight) {id : UInt16} (q : QoS) (h0 : q ≠ .qos0 → id ≠ 0) :
    (step s (.publish .receive id q)).1.1 ∈ [Status.success, .noMemory, .stateCollision] := by
  cases q with
  | qos0 => simp [step]
  | qos1 => simp only [step, if_neg (h0 (by simp))]; exact insert_codes _ _ _ _
  | qos2 => simp only [step, if_neg (h0 (by simp))]; exact insert_codes _ _ _ _

/-- The codes of the reaction to a packet. -/
def reactCodes : List Status := [.success, .noMemory, .recvFailed, .badResponse, .illegalState]

theorem react_codes (retx manage : Bool) (s : InFlight) (first : UInt8) (body : List UInt8) :
    (react retx manage s first body).status ∈ reactCodes ∧
    ∀ ty id, (react retx manage s first body).ack = some (ty, id) → id ≠ 0 := by
  unfold react
  cases hr : readIncoming first body with
  | none => exact ⟨by simp [reactCodes], fun _ _ h => by cases h⟩
  | some p =>
    cases p with
    | publish id v =>
      have hid := publish_id hr
      have hs := step_received_codes s (id := id) v.qos hid
      dsimp only
      unfold reactPublish
      have hack : ∀ ty id', publishAck v.qos id = some (ty, id') → id' ≠ 0 := by
        intro ty id' h
        cases hq : v.qos <;> rw [hq] at h <;> cases h
        · exact hid (by rw [hq]; simp)
        · exact hid (by rw [hq]; simp)
      split
      · exact ⟨by simp [reactCodes], fun _ _ h => by cases h⟩
      · dsimp only
        split
        · exact ⟨by simp [reactCodes], hack⟩
        · split
          · exact ⟨by simp [reactCodes], hack⟩
          · refine ⟨?_, fun _ _ h => by cases h⟩
            simp only [List.mem_cons, List.not_mem_nil, or_false, reactCodes] at hs ⊢
            rcases hs with h | h | h
            · exact Or.inl h
            · exact Or.inr (Or.inl h)
            · exact absurd h (by assumption)
    | ack ty id =>
      have hid : id ≠ 0 := (idOnly_some (readIncoming_id hr)).2
      have hs := step_ack_codes s .receive ty hid
      dsimp only
      unfold reactAck
      dsimp only
      split
      · refine ⟨by simp [reactCodes], ?_⟩
        intro ty' id' h
        cases ty <;> cases h <;> exact hid
      · refine ⟨?_, fun _ _ h => by cases h⟩
        simp only [List.mem_cons, List.not_mem_nil, or_false, reactCodes] at hs ⊢
        rcases hs with h | h | h <;> simp [h]
    | pingresp => exact ⟨by simp [reactCodes], fun _ _ h => by cases h⟩
    | suback id b => exact ⟨by simp [reactCodes], fun _ _ h => by cases h⟩
    | unsuback id => exact ⟨by simp [reactCodes], fun _ _ h => by cases h⟩

theorem PublishDone.codes {p : PublishInfo} {id : UInt16} {s : InFlight} {w w' : World} {st : Status} {es : List Event}
    (h : PublishDone p id s w st es w') : st ∈ returned .publish := by
  rcases h.cases with ⟨h, _⟩ | ⟨hc, h, _⟩ | ⟨_, _, _, h, _⟩ | ⟨_, zs, s1, st0, es0, w0, w1, _, _, hp, _, ⟨_, h, _⟩ | ⟨_, h, _⟩⟩
  · simp [h, returned]
  · rcases notConnectedStatus_mem hc with h' | h' <;> simp [h, h', returned]
  · have := step_reserve_codes s id p.qos
    rw [← h] at this
    simp only [List.mem_cons, List.not_mem_nil, or_false] at this
    rcases this with h | h | h | h <;> simp [h, returned]
  · obtain ⟨_, _, ⟨_, _, hs⟩ | ⟨_, _, _, hs⟩ | ⟨_, _, _, _, _, hs⟩⟩ := hp
    · rcases hs.mem with h' | h' <;> simp [h, h', returned]
    · simp [h, hs, returned]
    · rcases hs.mem with h' | h' <;> simp [h, h', returned]
  · unfold noteSent at h
    split at h
    · simp [h, returned]
    · have := step_sent_codes s1 id p.qos
      dsimp only at h
      rw [← h] at this
      simp only [List.mem_cons, List.not_mem_nil, or_false] at this
      rcases this with h | h | h <;> simp [h, returned]

theorem SubDone.codes {ty : SubType} {l : List SubscribeInfo} {id : UInt16} {w w' : World} {st : Status} {es : List Event}
    (h : SubDone ty l id w st es w') : st ∈ returned .subscribe := by
  rcases h.cases with ⟨h, _⟩ | ⟨hc, h, _⟩ | ⟨_, _, _, _, hs⟩
  · simp [h, returned]
  · rcases notConnectedStatus_mem hc with h' | h' <;> simp [h, h', returned]
  · rcases hs.mem with h' | h' <;> simp [h', returned]

theorem PingDone.codes {w w' : World} {st : Status} {es : List Event} (h : PingDone w st es w') : st ∈ returned .ping := by
  rcases h.cases with ⟨hc, _, _, h, _⟩ | ⟨_, _, _, h, _⟩ | ⟨_, _, _, h, _⟩
  · rcases notConnectedStatus_mem hc with h' | h' <;> simp [h, h', returned]
  · simp [h, returned]
  · simp [h, returned]

theorem Advance.codes {g : Cfg} {manage : Bool} {s : InFlight} {w w' : World} {st : Status} {es : List Event}
    (h : Advance g manage s w st es w') : st ∈ returned .receiveLoop := by
  unfold Advance at h
  split at h
  · rw [h.2.2]; split <;> simp [returned]
  · simp [h.2.2, returned]
  · split at h
    · rcases h.2.2.2 with ⟨h, _⟩ | ⟨h, _⟩ <;> simp [h, returned]
    · split at h
      · simp [h.2.2, returned]
      · rename_i t hl n _ _ _
        obtain ⟨rst, re, w3, rx, hr, _, h, _⟩ := h
        obtain ⟨r1, r2⟩ := react_codes w.ctx.retransmits manage s t ((w.ctx.buffered.drop hl).take n)
        rcases hr.cases with ⟨_, _, _, h', _⟩ | ⟨_, hc, _, _, h', _⟩ | ⟨_, _, _, _, h', _⟩ | ⟨ty, id, ha, _, _, _, h', _⟩
        · rw [← h'] at r1
          simp only [List.mem_cons, List.not_mem_nil, or_false, reactCodes] at r1
          rcases r1 with h' | h' | h' | h' | h' <;> simp [h, h', callerStatus, returned]
        · rcases notConnectedStatus_mem hc with h'' | h'' <;> simp [h, h', h'', callerStatus, returned]
        · simp [h, h', callerStatus, returned]
        · have := step_ack_codes (react w.ctx.retransmits manage s t ((w.ctx.buffered.drop hl).take n)).state .send ty (r2 ty id ha)
          rw [← h'] at this
          simp only [List.mem_cons, List.not_mem_nil, or_false] at this
          rcases this with h' | h' | h' <;> simp [h, h', callerStatus, returned]

theorem Iterated.codes {g : Cfg} {manage : Bool} {s : InFlight} {w w' : World} {st : Status} {es : List Event}
    (h : Iterated g manage s w st es w') : st ∈ returned (if manage then .processLoop else .receiveLoop) := by
  have sub : ∀ st, st ∈ returned .receiveLoop → st ∈ returned (if manage then .processLoop else .receiveLoop) := by
    cases manage <;> decide
  rcases h.2 with ⟨_, he, _⟩ | ⟨r, kst, ka, w1, w2, _, _, hk, ⟨h1, _, _, he⟩ | ⟨_, es2, _, ha⟩⟩
  · exact sub _ (by simp [he, returned])
  · rcases hk with ⟨hm, _, now, hk⟩ | ⟨_, hk, _⟩
    · subst hm
      rcases hk with ⟨_, _, _, hk⟩ | ⟨_, _, _, _, hk⟩ | ⟨_, _, es', _, w1', _, hk⟩
      · rw [he, hk]
        by_cases hd : now - w1.ctx.pingReqSendTimeMs > g.pingrespTimeoutMs
        · rw [if_pos hd]; simp [returned]
        · rw [if_neg hd]; simp [returned]
      · exact absurd hk h1
      · have := hk.codes
        rw [← he] at this
        simp only [List.mem_cons, List.not_mem_nil, or_false, returned] at this
        rcases this with h | h | h | h <;> simp [h, returned]
    · exact absurd hk h1
  · exact sub _ ha.codes

theorem Resumed.codes {s : InFlight} {w w' : World} {st : Status} {es : List Event} (h : Resumed s w st es w') :
    st ∈ [Status.success, .sendFailed, .publishRetrieveFailed] := by
  obtain ⟨a, st1, w1, b, _, hp, ⟨_, _, _, h⟩ | ⟨_, _, hq⟩⟩ := h
  · obtain ⟨_, _, _, _, ⟨h', _⟩ | ⟨h', _⟩⟩ := hp.cases <;> simp [h, h']
  · obtain ⟨_, _, _, ⟨h, _⟩ | ⟨h, _⟩ | ⟨h, _⟩⟩ := hq.cases <;> simp [h]

theorem ConnectDone.codes {g : Cfg} {ci : ConnectInfo} {will : Option PublishInfo} {t : UInt32} {sp0 sp : Bool} {s : InFlight} {w w' : World}
    {st : Status} {es : List Event} (h : ConnectDone g ci will t sp0 s w st sp es w') : st ∈ returned .connect := by
  cases h with
  | badSize h1 h2 => rw [h2, connectSize_bad (h2 ▸ h1)]; decide
  | already _ _ _ h => rw [h]; split <;> decide
  | noTopic => decide
  | notSent => decide
  | notAccepted _ _ _ _ _ _ _ h =>
    have := h.statuses
    simp only [List.mem_cons, List.not_mem_nil, or_false] at this
    rcases this with h | h | h | h | h <;> simp [h, returned]
  | fresh => decide
  | resumed _ _ _ _ _ _ _ _ _ _ h =>
    have := h.codes
    simp only [List.mem_cons, List.not_mem_nil, or_false] at this
    rcases this with h | h | h <;> simp [h, returned]

theorem Did.codes {g : Cfg} {s : InFlight} {w w' : World} {c : ApiCall} {r : ApiRet} {es : List Event} (h : Did g s w c r es w') {f : Fn}
    (hf : fnOf c = some f) : ∃ st, r.code = some st ∧ st ∈ returned f := by
  cases h <;> cases hf
  case publish h => exact ⟨_, rfl, h.codes⟩
  case publishNull => exact ⟨_, rfl, by decide⟩
  case subscribe h => exact ⟨_, rfl, h.codes⟩
  case subscribeNull => exact ⟨_, rfl, by decide⟩
  case unsubscribe h => exact ⟨_, rfl, h.codes⟩
  case unsubscribeNull => exact ⟨_, rfl, by decide⟩
  case ping h => exact ⟨_, rfl, h.codes⟩
  case disconnect h =>
    refine ⟨_, rfl, ?_⟩
    rcases h.cases with ⟨_, h, _⟩ | ⟨_, snd, _, _, _, h, _⟩
    · simp [h, returned]
    · rcases h.mem with h | h <;> simp [h, returned]
  case processLoop h => exact ⟨_, rfl, h.codes⟩
  case receiveLoop h => exact ⟨_, rfl, h.codes⟩
  case cancel h =>
    refine ⟨_, rfl, ?_⟩
    cases h with
    | none => decide
    | some => simp only [step]; split <;> simp [returned]
  case check => cases w.ctx.connectStatus <;> exact ⟨_, rfl, by decide⟩
  case connect h => exact ⟨_, rfl, h.codes⟩
  case connectNull => exact ⟨_, rfl, by decide⟩

end Mqtt
