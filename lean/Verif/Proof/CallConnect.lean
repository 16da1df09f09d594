/-
Consequences of `ConnectDone` and `DisconnectDone`: connection status, hooks, parameters.
-/
import Verif.Proof.CallStatus
import Verif.Proof.Edges

namespace Mqtt
open Spec
set_option linter.unusedSimpArgs false

/-! ### Parameters -/

theorem connectSize_iff (ci : ConnectInfo) (will : Option PublishInfo) : (getConnectPacketSize (some ci) will).status = .success ↔
    (ci.pClientIdentifier ≠ none ∧ ci.clientIdentifierLength ≠ 0) ∧ (∀ x, will = some x → x.payloadLength ≤ 65535) := by
  unfold getConnectPacketSize
  simp only [Bool.true_eq_false, if_false]
  constructor
  · intro h
    split at h
    · cases h
    · rename_i k1
      split at h
      · cases h
      · rename_i k2
        simp only [not_or] at k1
        refine ⟨⟨k1.2, k1.1⟩, ?_⟩
        rintro x rfl
        simp at k2
        omega
  · rintro ⟨⟨h1, h2⟩, h3⟩
    rw [if_neg (by simp [h1, h2]), if_neg]
    cases will with
    | none => simp
    | some x =>
      have := h3 x rfl
      simp; omega

theorem connectSize_bad {ci : ConnectInfo} {will : Option PublishInfo} (h : (getConnectPacketSize (some ci) will).status ≠ .success) :
    (getConnectPacketSize (some ci) will).status = .badParameter := by
  unfold getConnectPacketSize at h ⊢
  simp only [Bool.true_eq_false, if_false] at h ⊢
  split
  · rfl
  · rename_i k1
    split
    · rfl
    · rename_i k2
      simp [k1, k2] at h

/-! ### Resumption -/

theorem received_of_noRecv {es : List Event} (h : ∀ e ∈ es, isRecvd e = false) : received es = [] := by
  unfold received
  rw [List.flatMap_eq_nil_iff]
  intro e he
  have := h e he
  cases e <;> simp_all [isRecvd]

theorem noRecv_of_resend {es : List Event} (h : ∀ e ∈ es, isResendEvent e = true) : ∀ e ∈ es, isRecvd e = false := by
  intro e he
  have := h e he
  cases e <;> simp_all [isResendEvent, isRecvd]

theorem Resumed.facts {s : InFlight} {w w' : World} {st : Status} {es : List Event} (h : Resumed s w st es w') :
    (∀ e ∈ es, isResendEvent e = true) ∧ (hasFail es = true → st = .sendFailed) ∧
      (st = .success ∨ st = .sendFailed ∨ st = .publishRetrieveFailed) := by
  obtain ⟨a, st1, w1, b, rfl, hp, h⟩ := h
  have ha : ∀ e ∈ a, isResendEvent e = true := fun e he => isResendEvent_of_ack (hp.kinds e he)
  obtain ⟨done, rest, _, _, hc⟩ := hp.cases
  rcases h with ⟨_, rfl, _, rfl⟩ | ⟨rfl, _, hq⟩
  · rw [List.append_nil]
    rcases hc with ⟨h1, _, h2, _⟩ | ⟨h1, _⟩
    · exact ⟨ha, fun h => (by rw [h2] at h; cases h), Or.inl h1⟩
    · exact ⟨ha, fun _ => h1, Or.inr (Or.inl h1)⟩
  · have h2 : hasFail a = false := by
      rcases hc with ⟨_, _, h2, _⟩ | ⟨h1, _⟩
      · exact h2
      · cases h1
    refine ⟨?_, ?_⟩
    · intro e he
      rcases List.mem_append.mp he with h | h
      · exact ha e h
      · exact hq.kinds e h
    · rw [hasFail_append, h2, Bool.false_or]
      obtain ⟨d, r, _, ⟨h3, _, h4, _⟩ | ⟨h3, h4, _⟩ | ⟨h3, _⟩⟩ := hq.cases
      · exact ⟨fun h => (by rw [h4] at h; cases h), Or.inl h3⟩
      · exact ⟨fun h => (by rw [h4] at h; cases h), Or.inr (Or.inr h3)⟩
      · exact ⟨fun _ => h3, Or.inr (Or.inl h3)⟩

/-! ### The outcome of `MQTT_Connect` -/

theorem received_hook (l : List Event) : received (.pre :: l) = received l ∧ received (.post :: l) = received l := by
  simp [received]

theorem noRecv_clears (r : Bool) (s : InFlight) : ∀ e ∈ cleanClears r s, isRecvd e = false := by
  intro e he
  unfold cleanClears at he
  split at he
  · obtain ⟨id, _, rfl⟩ := List.mem_map.mp he
    rfl
  · cases he

theorem ConnectDone.outcome {g : Cfg} {ci : ConnectInfo} {will : Option PublishInfo} {t : UInt32} {sp0 sp : Bool} {s : InFlight} {w w' : World}
    {st : Status} {es : List Event} (h : ConnectDone g ci will t sp0 s w st sp es w') :
    (w.ctx.connectStatus ≠ .notConnected ∧ es = [.pre, .post] ∧
      (¬ ConnectArgsOk ci will ∧ st = .badParameter ∧ w'.ctx = { w.ctx with connectStatus := .disconnectPending } ∨
       st = connectStatusCode w.ctx.connectStatus ∧ w'.ctx = w.ctx)) ∨
    (w.ctx.connectStatus = .notConnected ∧ ConnectArgsOk ci will ∧ st = .success ∧ w'.ctx.connectStatus = .connected ∧ 2 ≤ w.ctx.bufSize ∧
      (sp = true → ci.cleanSession = false) ∧ received es = [0x20, 2, if sp then 1 else 0, 0]) ∨
    (w.ctx.connectStatus = .notConnected ∧ ConnectArgsOk ci will ∧ sp = true ∧ ci.cleanSession = false ∧ 2 ≤ w.ctx.bufSize ∧
      (st = .sendFailed ∨ st = .publishRetrieveFailed) ∧ w'.ctx.connectStatus = .disconnectPending ∧ received es = [0x20, 2, 1, 0]) ∨
    (w.ctx.connectStatus = .notConnected ∧ w'.ctx.connectStatus = .notConnected ∧
      (¬ ConnectArgsOk ci will ∧ st = .badParameter ∧ sp = sp0 ∧ w'.ctx = w.ctx ∧ (es = [.pre, .post] ∨ es = [.pre, .post, .pre, .post]) ∨
       ConnectArgsOk ci will ∧ st ∈ [.sendFailed, .serverRefused, .badResponse, .recvFailed, .noDataAvailable])) := by
  have args : (getConnectPacketSize (some ci) will).status = .success → (∀ x, will = some x → x.pTopicName ≠ none) → ConnectArgsOk ci will :=
    fun h h' => ⟨((connectSize_iff ci will).mp h).1, fun x hx => ⟨h' x hx, ((connectSize_iff ci will).mp h).2 x hx⟩⟩
  have bad : (getConnectPacketSize (some ci) will).status ≠ .success → ¬ ConnectArgsOk ci will :=
    fun h h' => h ((connectSize_iff ci will).mpr ⟨h'.client, fun x hx => (h'.will x hx).2⟩)
  cases h with
  | badSize h1 h2 h3 =>
    subst h2
    have hb := connectSize_bad h1
    cases hc : w.ctx.connectStatus with
    | notConnected =>
      refine Or.inr (Or.inr (Or.inr ⟨rfl, ?_, Or.inl ⟨bad h1, hb, rfl, ?_, Or.inl rfl⟩⟩))
      · rw [h3, hc]; rfl
      · rw [h3, hc]
        have : afterFail true ConnStatus.notConnected = .notConnected := rfl
        rw [this, ← hc]
    | connected => exact Or.inl ⟨by simp, rfl, Or.inl ⟨bad h1, hb, by rw [h3, hc]; rfl⟩⟩
    | disconnectPending => exact Or.inl ⟨by simp, rfl, Or.inl ⟨bad h1, hb, by rw [h3, hc]; rfl⟩⟩
  | already h1 h2 h3 h4 =>
    refine Or.inl ⟨h2, rfl, Or.inr ⟨?_, h3⟩⟩
    rw [h4]
    cases hc : w.ctx.connectStatus with
    | notConnected => exact absurd hc h2
    | connected => rfl
    | disconnectPending => rfl
  | noTopic h1 h2 h3 h4 =>
    refine Or.inr (Or.inr (Or.inr ⟨h2, by rw [h4]; exact h2, Or.inl ⟨?_, rfl, rfl, h4, Or.inr rfl⟩⟩))
    intro ha
    obtain ⟨x, hx, hx'⟩ := h3
    exact (ha.will x hx).1 hx'
  | notSent h1 h2 h3 h4 h5 h6 h7 =>
    exact Or.inr (Or.inr (Or.inr ⟨h2, by rw [h7]; exact h2, Or.inr ⟨args h1 h3, by simp⟩⟩))
  | notAccepted h1 h2 h3 h4 h5 h6 h7 h8 h9 h10 =>
    refine Or.inr (Or.inr (Or.inr ⟨h2, ?_, Or.inr ⟨args h1 h3, ?_⟩⟩))
    · obtain ⟨b, _, hb⟩ := h8.ctx
      rw [h10, hb, h7]; exact h2
    · have := h8.statuses
      simp only [List.mem_cons, List.not_mem_nil, or_false] at this ⊢
      rcases this with h | h
      · exact absurd h h9
      · exact Or.inr h
  | fresh h1 h2 h3 h4 h5 h6 h7 h8 h9 =>
    refine Or.inr (Or.inl ⟨h2, args h1 h3, rfl, by rw [h9]; rfl, ?_, by simp, ?_⟩)
    · have := (h8.accept.mp rfl).2.1
      rw [h7] at this; exact this
    · rw [(received_hook _).1, received_append, received_append, received_append, (received_hook _).2,
        received_of_noRecv (noRecv_of_send h4), received_of_noRecv (noRecv_clears _ _)]
      have e := h8.session rfl
      rcases (h8.accept.mp rfl).2.2 with h | ⟨h, _⟩
      · rw [h]; rfl
      · rw [h] at e; simp at e
  | @resumed _ snd ca res w1 w2 w3 w4 _ _ h1 h2 h3 h4 h5 h6 h7 h8 h9 h10 h11 h12 =>
    obtain ⟨k1, k2, k3⟩ := h11.facts
    have hsize : 2 ≤ w.ctx.bufSize := by
      have := (h8.accept.mp rfl).2.1
      rw [h7] at this; exact this
    have e := h8.session rfl
    have e' : received ca = [0x20, 2, 1, 0] ∧ ci.cleanSession = false := by
      rcases (h8.accept.mp rfl).2.2 with h | h
      · rw [h] at e; simp at e
      · exact h
    have hr : received (.pre :: (snd ++ (ca ++ (.post :: (res ++ if st = .success then [] else [.pre, .post]))))) = [0x20, 2, 1, 0] := by
      rw [(received_hook _).1, received_append, received_append, (received_hook _).2, received_append,
        received_of_noRecv (noRecv_of_send h4), received_of_noRecv (noRecv_of_resend k1), e'.1]
      split <;> rfl
    have hs : w4.ctx.connectStatus = afterFail (hasFail res) .connected := by rw [h10.status, h9]; rfl
    by_cases hst : st = .success
    · refine Or.inr (Or.inl ⟨h2, args h1 h3, hst, ?_, hsize, fun _ => e'.2, by rw [hr]; rfl⟩)
      have hf : hasFail res = false := by
        cases hf : hasFail res with
        | false => rfl
        | true => rw [k2 hf] at hst; cases hst
      rw [h12, hs, hf, hst]; rfl
    · refine Or.inr (Or.inr (Or.inl ⟨h2, args h1 h3, rfl, e'.2, hsize, ?_, ?_, hr⟩))
      · rcases k3 with h | h
        · exact absurd h hst
        · exact h
      · rw [h12, hs]
        simp only [hst, not_false_eq_true, decide_true, ne_eq]
        cases hasFail res <;> rfl

/-- After a send error in `MQTT_Connect`. -/
theorem ConnectDone.sendFails {g : Cfg} {ci : ConnectInfo} {will : Option PublishInfo} {t : UInt32} {sp0 sp : Bool} {s : InFlight} {w w' : World}
    {st : Status} {es : List Event} (h : ConnectDone g ci will t sp0 s w st sp es w') {b : List UInt8} (hb : Event.sent b none ∈ es) :
    st = .sendFailed ∧ w'.ctx.connectStatus = (if received es = [] then .notConnected else .disconnectPending) := by
  have nosnd : ∀ {snd : List Event}, SentResult (connectPacket (ci.toSpec will)) .success snd → Event.sent b none ∉ snd := by
    rintro snd (⟨_, h, _⟩ | ⟨h, _⟩) hm
    · rw [hasFail_of_mem hm rfl] at h; cases h
    · cases h
  have noca : ∀ {ca : List Event}, RecvX ca → Event.sent b none ∉ ca := fun h hm => by simpa [isSent] using h.noSent _ hm
  cases h with
  | badSize h1 h2 h3 => simp at hb
  | already h1 h2 h3 h4 => simp at hb
  | noTopic h1 h2 h3 h4 => simp at hb
  | @notSent snd w1 t' h1 h2 h3 h4 h5 h6 h7 =>
    refine ⟨rfl, ?_⟩
    rw [if_pos, h7]
    · exact h2
    · rw [(received_hook _).1, received_append, received_of_noRecv (noRecv_of_send h4)]; rfl
  | notAccepted h1 h2 h3 h4 h5 h6 h7 h8 h9 h10 => simp [nosnd h6, noca h8.recv] at hb
  | fresh h1 h2 h3 h4 h5 h6 h7 h8 h9 =>
    have : ∀ r s, Event.sent b none ∉ cleanClears r s := by
      intro r s hm
      unfold cleanClears at hm
      split at hm <;> simp at hm
    simp [nosnd h6, noca h8.recv, this] at hb
  | @resumed _ snd ca res w1 w2 w3 w4 _ _ h1 h2 h3 h4 h5 h6 h7 h8 h9 h10 h11 h12 =>
    have hin : Event.sent b none ∈ res := by
      simp only [List.mem_cons, List.mem_append, nosnd h6, noca h8.recv, false_or, reduceCtorEq] at hb
      rcases hb with h | h
      · exact h
      · split at h <;> simp at h
    obtain ⟨k1, k2, k3⟩ := h11.facts
    have hf := hasFail_of_mem hin rfl
    have hst := k2 hf
    refine ⟨hst, ?_⟩
    rw [h12, h10.status, h9, hf, hst, if_neg]
    · rfl
    · have e := h8.session rfl
      rw [(received_hook _).1, received_append, received_append]
      rcases (h8.accept.mp rfl).2.2 with h | ⟨h, _⟩ <;> rw [h] <;> simp

/-! ### Hooks -/

theorem lockRun_send {es : List Event} (h : ∀ e ∈ es, isSendOrTime e = true) : lockRun true es = some true := by
  induction es with
  | nil => rfl
  | cons e es ih =>
    have h1 := h e List.mem_cons_self
    have h2 := ih fun x hx => h x (List.mem_cons_of_mem _ hx)
    cases e <;> simp_all [isSendOrTime, lockRun]

theorem hookDepth_append (d : Nat) (a b : List Event) : hookDepth d (a ++ b) = (hookDepth d a).bind fun d' => hookDepth d' b := by
  induction a generalizing d with
  | nil => rfl
  | cons e es ih =>
    cases e <;> simp only [List.cons_append, hookDepth, ih]
    split <;> simp

theorem hookDepth_of_lock {es : List Event} {b b' : Bool} (d : Nat) (h : lockRun b es = some b') :
    hookDepth (d + b.toNat) es = some (d + b'.toNat) := by
  induction es generalizing b with
  | nil => cases h; rfl
  | cons e es ih =>
    cases e <;> simp only [lockRun] at h <;> simp only [hookDepth]
    case pre =>
      cases b with
      | true => simp at h
      | false => exact ih (by simpa using h)
    case post =>
      cases b with
      | true =>
        have := ih (b := false) (by simpa using h)
        simpa using this
      | false => simp at h
    case sent =>
      cases b with
      | true => exact ih (by simpa using h)
      | false => simp at h
    all_goals exact ih h

theorem RecvX.depth {es : List Event} (h : RecvX es) (d : Nat) : hookDepth d es = some d := by
  induction h with
  | nil => rfl
  | @cons e es hk _ ih => cases e <;> simp_all [isRecvOrTime, hookDepth]
  | failed n _ ih => simp [hookDepth, ih]

theorem RecvX.lockTrue {es : List Event} (h : RecvX es) (hf : ∀ n, Event.recvd n none ∉ es) (b : Bool) : lockRun b es = some b := by
  refine h.lockNoFail ?_ b
  cases hh : hasFail es with
  | false => rfl
  | true =>
    obtain ⟨e, he, hfe⟩ := List.any_eq_true.mp hh
    have hn := h.noSent e he
    cases e with
    | recvd n r =>
      cases r with
      | none => exact absurd he (hf n)
      | some bs => simp [isFail] at hfe
    | sent b r => simp [isSent] at hn
    | _ => simp [isFail] at hfe

theorem lockRun_clears (r : Bool) (s : InFlight) (b : Bool) : lockRun b (cleanClears r s) = some b := by
  unfold cleanClears
  split
  · generalize idsOf isUnacked s.out = l
    induction l with
    | nil => rfl
    | cons x l ih => simpa [lockRun] using ih
  · rfl

theorem lockRun_hooks (st : Status) : lockRun false (if st = .success then [] else [.pre, .post]) = some false := by
  split <;> rfl

/-- The hooks in `MQTT_Connect`: always balanced, and never nested unless a receive call failed. -/
theorem ConnectDone.hooks {g : Cfg} {ci : ConnectInfo} {will : Option PublishInfo} {t : UInt32} {sp0 sp : Bool} {s : InFlight} {w w' : World}
    {st : Status} {es : List Event} (h : ConnectDone g ci will t sp0 s w st sp es w') :
    hookDepth 0 es = some 0 ∧ ((∀ n, Event.recvd n none ∉ es) → lockRun false es = some false) := by
  have of : ∀ {es : List Event}, lockRun false es = some false →
      hookDepth 0 es = some 0 ∧ ((∀ n, Event.recvd n none ∉ es) → lockRun false es = some false) :=
    fun h => ⟨hookDepth_of_lock 0 h, fun _ => h⟩
  have sd : ∀ {snd : List Event} (d : Nat), (∀ e ∈ snd, isSendOrTime e = true) → hookDepth (d + 1) snd = some (d + 1) :=
    fun d h => hookDepth_of_lock d (lockRun_send h)
  cases h with
  | badSize h1 h2 h3 => exact of rfl
  | already h1 h2 h3 h4 => exact of rfl
  | noTopic h1 h2 h3 h4 => exact of rfl
  | notSent h1 h2 h3 h4 h5 h6 h7 =>
    refine of ?_
    simp only [lockRun, Bool.false_eq_true, if_false]
    rw [lockRun_append, lockRun_send h4]; rfl
  | notAccepted h1 h2 h3 h4 h5 h6 h7 h8 h9 h10 =>
    constructor
    · simp only [hookDepth]
      rw [hookDepth_append, sd 0 h4, Option.bind_some, hookDepth_append, h8.recv.depth]; rfl
    · intro hf
      simp only [lockRun, Bool.false_eq_true, if_false]
      rw [lockRun_append, lockRun_send h4, Option.bind_some, lockRun_append, h8.recv.lockTrue (fun n hn => hf n (by simp [hn]))]; rfl
  | fresh h1 h2 h3 h4 h5 h6 h7 h8 h9 =>
    constructor
    · simp only [hookDepth]
      rw [hookDepth_append, sd 0 h4, Option.bind_some, hookDepth_append, h8.recv.depth, Option.bind_some, hookDepth_append,
        show hookDepth (0 + 1) (cleanClears w.ctx.retransmits s) = some (0 + 1) from hookDepth_of_lock 0 (lockRun_clears _ _ true)]; rfl
    · intro hf
      simp only [lockRun, Bool.false_eq_true, if_false]
      rw [lockRun_append, lockRun_send h4, Option.bind_some, lockRun_append, h8.recv.lockTrue (fun n hn => hf n (by simp [hn])), Option.bind_some,
        lockRun_append, lockRun_clears]; rfl
  | resumed h1 h2 h3 h4 h5 h6 h7 h8 h9 h10 h11 h12 =>
    constructor
    · simp only [hookDepth]
      rw [hookDepth_append, sd 0 h4, Option.bind_some, hookDepth_append, h8.recv.depth, Option.bind_some]
      simp only [hookDepth]
      have := hookDepth_of_lock 0 h10.lock
      simp only [Bool.toNat_false, Nat.add_zero] at this
      simp only [Nat.zero_add, Nat.succ_ne_zero, if_false, Nat.sub_self]
      rw [hookDepth_append, this, Option.bind_some]
      exact hookDepth_of_lock 0 (lockRun_hooks _)
    · intro hf
      simp only [lockRun, Bool.false_eq_true, if_false]
      rw [lockRun_append, lockRun_send h4, Option.bind_some, lockRun_append, h8.recv.lockTrue (fun n hn => hf n (by simp [hn])), Option.bind_some]
      simp only [lockRun, if_true]
      rw [lockRun_append, h10.lock]
      exact lockRun_hooks _

theorem ConnectX.hooks {g : Cfg} {ci : ConnectInfo} {will : Option PublishInfo} {t : UInt32} {sp0 : Bool} {s : InFlight} {w : World}
    {es : List Event} (h : ConnectX g ci will t sp0 s w es) (hf : ∀ n, Event.recvd n none ∉ es) : lockRun false es ≠ none := by
  cases h with
  | sending h1 h2 h3 h4 h5 =>
    simp only [lockRun, Bool.false_eq_true, if_false]
    rw [lockRun_send h3]; simp
  | waiting h1 h2 h3 h4 h5 h6 =>
    simp only [lockRun, Bool.false_eq_true, if_false]
    rw [lockRun_append, lockRun_send h3, Option.bind_some, h6.lockTrue (fun n hn => hf n (by simp [hn]))]; simp
  | resuming h1 h2 h3 h4 h5 h6 h7 h8 h9 h10 =>
    simp only [lockRun, Bool.false_eq_true, if_false]
    rw [lockRun_append, lockRun_send h3, Option.bind_some, lockRun_append, h7.recv.lockTrue (fun n hn => hf n (by simp [hn])), Option.bind_some]
    simp only [lockRun, if_true]
    rw [h9.lock]; simp

theorem DisconnectDone.lock {w w' : World} {st : Status} {es : List Event} (h : DisconnectDone w st es w') : lockRun false es = some false := by
  rcases h.cases with ⟨_, _, rfl, _⟩ | ⟨_, snd, rfl, hk, _⟩
  · rfl
  · simp only [lockRun, Bool.false_eq_true, if_false]
    rw [lockRun_append, lockRun_send hk]; rfl

/-- When `MQTT_Publish` returns MQTTBadParameter although its arguments are acceptable. -/
theorem PublishDone.bad {p : PublishInfo} {id : UInt16} {s : InFlight} {w w' : World} {es : List Event}
    (h : PublishDone p id s w .badParameter es w') (ha : PublishArgsOk w.ctx p id) :
    p.qos ≠ .qos0 ∧ p.dup = true ∧ ∃ q, s.out.phase id = some q ∧ outQoS q ≠ p.qos := by
  rcases h.cases with ⟨_, _, _, h⟩ | ⟨_, h, _⟩ | ⟨_, h1, _, h2, _⟩ | ⟨_, zs, s1, st0, es0, w0, w1, hr, _, hs, _, ⟨h1, h2, _⟩ | ⟨h1, h2, _⟩⟩
  · exact absurd ha h
  · unfold notConnectedStatus at h
    split at h <;> cases h
  · have hid := ha.id h1
    exfalso
    cases hq : p.qos with
    | qos0 => exact h1 hq
    | _ =>
      simp only [hq, step, if_neg hid] at h2
      unfold Table.insert at h2
      split at h2
      · cases h2
      · split at h2 <;> cases h2
  · exfalso
    rcases hs.2.2 with ⟨_, _, h3⟩ | ⟨_, _, _, h3⟩ | ⟨_, _, snd, _, _, h3⟩
    · rcases h3 with ⟨h3, _⟩ | ⟨h3, _⟩ <;> rw [← h2] at h3 <;> cases h3
    · rw [← h2] at h3; cases h3
    · rcases h3 with ⟨h3, _⟩ | ⟨h3, _⟩ <;> rw [← h2] at h3 <;> cases h3
  · unfold noteSent at h2
    by_cases hq : p.qos = .qos0
    · rw [if_pos hq] at h2; cases h2
    · rw [if_neg hq] at h2
      refine ⟨hq, ?_⟩
      have hid := ha.id hq
      rcases hr with ⟨h, _⟩ | ⟨_, h3, rfl⟩
      · exact absurd h hq
      · have key : ∀ s1 : InFlight, (step s1 (.publish .send id p.qos)).1.1 = .badParameter →
            ∀ q, s1.out.phase id = some q → outQoS q ≠ p.qos := by
          intro s1 hb q hph hqq
          cases hpq : p.qos with
          | qos0 => exact hq hpq
          | qos1 =>
            simp only [hpq, step, if_neg hid, hph] at hb hqq
            rw [if_neg (by simp [hqq])] at hb
            split at hb <;> cases hb
          | qos2 =>
            simp only [hpq, step, if_neg hid, hph] at hb hqq
            rw [if_neg (by simp [hqq])] at hb
            split at hb <;> cases hb
        rcases h3 with h3 | ⟨h3, hdup⟩
        · -- a new entry has the QoS of the publish
          exfalso
          cases hpq : p.qos with
          | qos0 => exact hq hpq
          | qos1 =>
            rw [hpq] at h2 h3 key
            simp only [step, if_neg hid] at h3
            unfold Table.insert at h3
            split at h3
            · cases h3
            · rename_i hm
              split at h3
              · cases h3
              · rename_i hcap
                refine key _ h2.symm .toSend1 ?_ rfl
                simp only [step, if_neg hid, Table.insert, if_neg hm, if_neg hcap]
                exact phase_append_same (phase_none_of_not_mem hm)
          | qos2 =>
            rw [hpq] at h2 h3 key
            simp only [step, if_neg hid] at h3
            unfold Table.insert at h3
            split at h3
            · cases h3
            · rename_i hm
              split at h3
              · cases h3
              · rename_i hcap
                refine key _ h2.symm .toSend2 ?_ rfl
                simp only [step, if_neg hid, Table.insert, if_neg hm, if_neg hcap]
                exact phase_append_same (phase_none_of_not_mem hm)
        · rw [step_reserve_fail (by rw [h3]; decide)] at h2
          refine ⟨hdup, ?_⟩
          have hph : s.out.phase id ≠ none := by
            cases hpq : p.qos with
            | qos0 => exact absurd hpq hq
            | _ =>
              simp only [hpq, step, if_neg hid] at h3
              unfold Table.insert at h3
              split at h3
              · rename_i hm; exact phase_mem.mp hm
              · split at h3 <;> cases h3
          cases hph' : s.out.phase id with
          | none => exact absurd hph' hph
          | some q => exact ⟨q, rfl, key s h2.symm q hph'⟩

theorem mem_inFlight {recs : Records} {cap : Nat} {l : Table OutPhase} (h : Holds outRec recs cap l) (id : UInt16) :
    (∃ r ∈ inFlight recs, r.packetId = id) ↔ l.phase id ≠ none := by
  unfold inFlight
  rw [h.entries]
  constructor
  · rintro ⟨r, hr, he⟩ hp
    obtain ⟨e, hm, rfl⟩ := List.mem_map.mp hr
    rw [keepsId_out e] at he
    unfold Table.phase at hp
    rw [Option.map_eq_none_iff, List.find?_eq_none] at hp
    exact absurd he (by simpa using hp e hm)
  · intro hp
    cases hq : l.phase id with
    | none => exact absurd hq hp
    | some p =>
      obtain ⟨a, b, hl, _, _⟩ := phase_some_split h.distinct hq
      exact ⟨outRec (id, p), List.mem_map.mpr ⟨(id, p), by rw [hl]; simp, rfl⟩, keepsId_out _⟩

theorem inFlight_phase {recs : Records} {cap : Nat} {l : Table OutPhase} (h : Holds outRec recs cap l) {id : UInt16} {p : OutPhase}
    (hp : l.phase id = some p) : outRec (id, p) ∈ inFlight recs := by
  unfold inFlight
  rw [h.entries]
  obtain ⟨a, b, hl, _, _⟩ := phase_some_split h.distinct hp
  exact List.mem_map.mpr ⟨(id, p), by rw [hl]; simp, rfl⟩

/-- Cancelling, on the record arrays. -/
theorem cancel_facts {t t' : Tables} {s : InFlight} (h : Represents t s) {id : UInt16} (h' : Represents t' (step s (.cancel id)).2) :
    ((step s (.cancel id)).1.1 = if (∃ r ∈ inFlight t.outgoing, r.packetId = id) then .success else .badParameter) ∧
    inFlight t'.outgoing = (inFlight t.outgoing).filter (fun r => r.packetId ≠ id) ∧ inFlight t'.incoming = inFlight t.incoming := by
  obtain ⟨h₁, h₂⟩ := h
  obtain ⟨e₂, e₃⟩ := h'
  have hrem : (s.out.remove id).map outRec = (s.out.map outRec).filter (fun r => r.packetId ≠ id) := by
    unfold Table.remove
    rw [List.filter_map]
    congr 1
    apply List.filter_congr
    intro e _
    simp [keepsId_out e]
  cases hp : s.out.phase id with
  | none =>
    simp only [Spec.step, hp] at e₂ e₃ ⊢
    have hn : ¬ ∃ r ∈ inFlight t.outgoing, r.packetId = id := by rw [mem_inFlight h₁, hp]; simp
    refine ⟨by rw [if_neg hn], ?_, e₃.entries.trans h₂.entries.symm⟩
    rw [show inFlight t'.outgoing = inFlight t.outgoing from e₂.entries.trans h₁.entries.symm]
    symm
    rw [List.filter_eq_self]
    intro r hr
    simpa using fun he => hn ⟨r, hr, he⟩
  | some p =>
    simp only [Spec.step, hp] at e₂ e₃ ⊢
    have hy : ∃ r ∈ inFlight t.outgoing, r.packetId = id := by rw [mem_inFlight h₁, hp]; simp
    refine ⟨by rw [if_pos hy], ?_, e₃.entries.trans h₂.entries.symm⟩
    unfold inFlight
    rw [e₂.entries, h₁.entries, hrem]

end Mqtt
