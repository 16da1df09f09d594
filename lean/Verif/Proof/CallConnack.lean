/-
What `MQTT_Connect` did: what was sent again, how long it waited.
-/
import Verif.Proof.CallSession

namespace Mqtt
open Spec
set_option linter.unusedSimpArgs false

theorem connect_cases {g : Cfg} {h : List (ApiCall × ApiRet)} {w : World} (hh : FromInit g h w) (e : Env) (ci : ConnectInfo)
    (will : Option PublishInfo) (t : UInt32) (sp0 : Bool) (hv : ci.Valid will) : ∃ s, Represents w.ctx.tables s ∧
    ((∃ st sp es w', callIn g w e (.connect (some ci) will t (some sp0)) = .done (.connect st (some sp)) w' ∧
        callEvents g w e (.connect (some ci) will t (some sp0)) = es ∧ ConnectDone g ci will t sp0 s { w with env := e } st sp es w') ∨
     (∃ es w', callIn g w e (.connect (some ci) will t (some sp0)) = .stuck w' ∧
        callEvents g w e (.connect (some ci) will t (some sp0)) = es ∧ ConnectX g ci will t sp0 s { w with env := e } es)) := by
  obtain ⟨hg, hidx, s, hrep⟩ := hh.good
  have hv' : ValidCall g (.connect (some ci) will t (some sp0)) := fun c h => by cases h; exact hv
  refine ⟨s, hrep, ?_⟩
  rcases call_cases hg hidx hrep e hv' with ⟨r, es, w1, h1, h2, hl, hd⟩ | ⟨es, w1, h1, h2, hl, hd⟩
  · cases hd with
    | connect hd => exact Or.inl ⟨_, _, es, w1, h1, h2, hd⟩
    | connectNull hn _ => rcases hn with h | h <;> cases h
  · cases hd with
    | connect hd => exact Or.inr ⟨es, w1, h1, h2, hd⟩

/-- What was sent again. -/
def Resent (s : InFlight) (packet : List UInt8) (es : List Event) : Prop :=
  (retrieved es).map (·.1) <+: idsOf isUnacked s.out ∧
  wire es <+: packet ++ (idsOf isPubrel s.out).flatMap (ackPacket .pubrel) ++ (retrieved es).flatMap (fun x => x.2.getD [])

theorem retrieved_recv {es : List Event} (h : RecvX es) : retrieved es = [] := by
  induction h with
  | nil => rfl
  | @cons e es hk _ ih => cases e <;> simp_all [isRecvOrTime, retrieved]
  | failed n _ ih => simpa [retrieved] using ih

theorem retrieved_clears (r : Bool) (s : InFlight) : retrieved (cleanClears r s) = [] := by
  unfold cleanClears
  split
  · unfold retrieved
    rw [List.filterMap_eq_nil_iff]
    intro e he
    obtain ⟨id, _, rfl⟩ := List.mem_map.mp he
    rfl
  · rfl

theorem retrieved_hook (l : List Event) : retrieved (.pre :: l) = retrieved l ∧ retrieved (.post :: l) = retrieved l := ⟨rfl, rfl⟩

theorem Resent.none {s : InFlight} {packet : List UInt8} {es : List Event} (h1 : retrieved es = []) (h2 : wire es <+: packet) :
    Resent s packet es := by
  refine ⟨by rw [h1]; exact List.nil_prefix, ?_⟩
  rw [List.append_assoc]
  exact h2.trans (List.prefix_append _ _)

theorem SentResult.whole {b : List UInt8} {es : List Event} (h : SentResult b .success es) : wire es = b ∧ hasFail es = false := by
  rcases h with ⟨_, h1, h2⟩ | ⟨h, _⟩
  · exact ⟨h2, h1⟩
  · cases h

/-- The packets sent again, by a resumption that ended. -/
theorem Resumed.resent {s : InFlight} {w w' : World} {st : Status} {es : List Event} (h : Resumed s w st es w') :
    ((retrieved es).map (·.1) <+: idsOf isUnacked s.out ∧
      wire es <+: (idsOf isPubrel s.out).flatMap (ackPacket .pubrel) ++ (retrieved es).flatMap (fun x => x.2.getD [])) ∧
    (st = .success → ∃ stored : List (UInt16 × List UInt8), retrieved es = asRetrieved stored ∧
      stored.map (·.1) = (if w.ctx.retransmits then idsOf isUnacked s.out else []) ∧
      wire es = (idsOf isPubrel s.out).flatMap (ackPacket .pubrel) ++ stored.flatMap (·.2)) := by
  obtain ⟨a, st1, w1, b, rfl, hp, h⟩ := h
  have hra := retrieved_of_acks hp.kinds
  obtain ⟨done, rest, htodo, _, hc⟩ := hp.cases
  rcases h with ⟨hne, rfl, _, rfl⟩ | ⟨rfl, hr, hq⟩
  · rw [List.append_nil, hra]
    rcases hc with ⟨h1, h2, _, h4, _⟩ | ⟨h1, id, rest', part, h2, h3, h4, h5⟩
    · refine ⟨⟨List.nil_prefix, ?_⟩, fun _ => ⟨[], rfl, ?_, ?_⟩⟩
      · rw [h4]; exact List.prefix_append _ _
      · have : w.ctx.retransmits = false := hne.resolve_left (fun h => h h1)
        rw [this]; rfl
      · rw [h4]; simp
    · refine ⟨⟨List.nil_prefix, ?_⟩, fun h => by rw [h1] at h; cases h⟩
      refine List.IsPrefix.trans ?_ (List.prefix_append _ _)
      rw [htodo, h2, h5, List.flatMap_append, List.flatMap_cons]
      exact (List.prefix_append_right_inj _).mpr (h3.trans (List.prefix_append _ _))
  · rcases hc with ⟨_, _, _, hw, _⟩ | ⟨h1, _⟩
    rotate_left
    · cases h1
    rw [retrieved_append, hra, List.nil_append, wire_append, hw]
    obtain ⟨dn, rs, h1, ⟨h2, h3, h4, h5, h6⟩ | ⟨h2, h3, h4, id, rs', h5, h6⟩ | ⟨h2, id, rs', bytes, part, h3, h4, h5, h6, h7⟩⟩ := hq.cases
    · refine ⟨⟨?_, ?_⟩, fun _ => ⟨dn, h5, ?_, by rw [h6]⟩⟩
      · rw [h5, h1, asRetrieved, List.map_map]; exact List.prefix_append _ _
      · rw [h6, h5, asRetrieved_getD]; exact List.prefix_refl _
      · rw [hr, h1, h3, List.append_nil]; rfl
    · refine ⟨⟨?_, ?_⟩, fun h => by rw [h2] at h; cases h⟩
      · rw [h6, h1, h5, List.map_append, asRetrieved, List.map_map]
        exact (List.prefix_append_right_inj _).mpr (by simp)
      · rw [h6, h4, List.flatMap_append, asRetrieved_getD]
        exact (List.prefix_append_right_inj _).mpr (List.prefix_append _ _)
    · refine ⟨⟨?_, ?_⟩, fun h => by rw [h2] at h; cases h⟩
      · rw [h4, h1, h3, List.map_append, asRetrieved, List.map_map]
        exact (List.prefix_append_right_inj _).mpr (by simp)
      · rw [h4, h7, List.flatMap_append, asRetrieved_getD]
        exact (List.prefix_append_right_inj _).mpr ((List.prefix_append_right_inj _).mpr (by simpa using h5))

theorem ConnectDone.resent {g : Cfg} {ci : ConnectInfo} {will : Option PublishInfo} {t : UInt32} {sp0 sp : Bool} {s : InFlight} {w w' : World}
    {st : Status} {es : List Event} (h : ConnectDone g ci will t sp0 s w st sp es w') :
    Resent s (connectPacket (ci.toSpec will)) es ∧
    (st = .success → sp = true → ∃ stored : List (UInt16 × List UInt8), retrieved es = asRetrieved stored ∧
      stored.map (·.1) = (if w.ctx.retransmits then idsOf isUnacked s.out else []) ∧
      Spec.wire es = connectPacket (ci.toSpec will) ++ (idsOf isPubrel s.out).flatMap (ackPacket .pubrel) ++ stored.flatMap (·.2)) := by
  have e1 : ∀ l : List Event, Spec.wire (.pre :: l) = Spec.wire l := fun l => wire_cons_of_noSent _ _ rfl
  have e2 : ∀ l : List Event, Spec.wire (.post :: l) = Spec.wire l := fun l => wire_cons_of_noSent _ _ rfl
  have e3 : Spec.wire [] = [] := rfl
  have r3 : retrieved [] = [] := rfl
  cases h with
  | badSize h1 h2 h3 => exact ⟨Resent.none rfl List.nil_prefix, fun h => absurd h h1⟩
  | already h1 h2 h3 h4 =>
    refine ⟨Resent.none rfl List.nil_prefix, fun h => ?_⟩
    rw [h4] at h; split at h <;> cases h
  | noTopic h1 h2 h3 h4 => exact ⟨Resent.none rfl List.nil_prefix, fun h => by cases h⟩
  | notSent h1 h2 h3 h4 h5 h6 h7 =>
    refine ⟨Resent.none ?_ ?_, fun h => by cases h⟩
    · rw [(retrieved_hook _).1, retrieved_append, retrieved_of_sends h4]; rfl
    · rw [e1, wire_append, e2, e1, e2, e3, List.append_nil]; exact h6.prefix
  | notAccepted h1 h2 h3 h4 h5 h6 h7 h8 h9 h10 =>
    refine ⟨Resent.none ?_ ?_, fun h => absurd h h9⟩
    · rw [(retrieved_hook _).1, retrieved_append, retrieved_of_sends h4, retrieved_append, retrieved_recv h8.recv]; rfl
    · rw [e1, wire_append, wire_append, e2, e1, e2, e3, List.append_nil, wire_of_recv h8.recv, List.append_nil]; exact h6.prefix
  | fresh h1 h2 h3 h4 h5 h6 h7 h8 h9 =>
    refine ⟨Resent.none ?_ ?_, fun _ h => by cases h⟩
    · rw [(retrieved_hook _).1, retrieved_append, retrieved_of_sends h4, retrieved_append, retrieved_recv h8.recv, retrieved_append,
        retrieved_clears]; rfl
    · rw [e1, wire_append, wire_append, wire_append, e2, e3, List.append_nil, wire_clears, List.append_nil, wire_of_recv h8.recv,
        List.append_nil]; exact h6.prefix
  | @resumed _ snd ca res w1 w2 w3 w4 _ _ h1 h2 h3 h4 h5 h6 h7 h8 h9 h10 h11 h12 =>
    obtain ⟨⟨k1, k2⟩, k3⟩ := h11.resent
    have hr : retrieved (.pre :: (snd ++ (ca ++ (.post :: (res ++ if st = .success then [] else [.pre, .post]))))) = retrieved res := by
      rw [(retrieved_hook _).1, retrieved_append, retrieved_of_sends h4, retrieved_append, retrieved_recv h8.recv, (retrieved_hook _).2,
        retrieved_append]
      split <;> simp [retrieved]
    have hw : Spec.wire (.pre :: (snd ++ (ca ++ (.post :: (res ++ if st = .success then [] else [.pre, .post]))))) =
        connectPacket (ci.toSpec will) ++ Spec.wire res := by
      rw [e1, wire_append, h6.whole.1, wire_append, wire_of_recv h8.recv, e2, wire_append, wire_hooks, List.append_nil, List.nil_append]
    refine ⟨⟨by rw [hr]; exact k1, ?_⟩, ?_⟩
    · rw [hr, hw, List.append_assoc]; exact (List.prefix_append_right_inj _).mpr k2
    · intro hst _
      obtain ⟨stored, m1, m2, m3⟩ := k3 hst
      refine ⟨stored, by rw [hr]; exact m1, ?_, by rw [hw, m3, List.append_assoc]⟩
      obtain ⟨b, _, hb⟩ := h8.ctx
      have : w3.ctx.retransmits = w.ctx.retransmits := by rw [h9, connectedCtx, hb, h7]
      rw [← this]; exact m2

theorem AckX.wirePrefix {b : List UInt8} {es : List Event} (h : AckX b es) : wire es <+: b := h.2

theorem ConnectX.resent {g : Cfg} {ci : ConnectInfo} {will : Option PublishInfo} {t : UInt32} {sp0 : Bool} {s : InFlight} {w : World}
    {es : List Event} (h : ConnectX g ci will t sp0 s w es) : Resent s (connectPacket (ci.toSpec will)) es := by
  have e1 : ∀ l : List Event, Spec.wire (.pre :: l) = Spec.wire l := fun l => wire_cons_of_noSent _ _ rfl
  have e2 : ∀ l : List Event, Spec.wire (.post :: l) = Spec.wire l := fun l => wire_cons_of_noSent _ _ rfl
  cases h with
  | sending h1 h2 h3 h4 h5 =>
    exact Resent.none (by rw [(retrieved_hook _).1, retrieved_of_sends h3]) (by rw [e1]; exact h5)
  | waiting h1 h2 h3 h4 h5 h6 =>
    refine Resent.none ?_ ?_
    · rw [(retrieved_hook _).1, retrieved_append, retrieved_of_sends h3, retrieved_recv h6]; rfl
    · rw [e1, wire_append, wire_of_recv h6, List.append_nil]; exact h5.prefix
  | resuming h1 h2 h3 h4 h5 h6 h7 h8 h9 h10 =>
    obtain ⟨a, b, rfl, ha, hb, hab⟩ := h10
    unfold Resent
    rw [(retrieved_hook _).1, retrieved_append, retrieved_of_sends h3, retrieved_append, retrieved_recv h7.recv, (retrieved_hook _).2,
      retrieved_append, retrieved_of_acks ha.1, List.nil_append, List.nil_append, List.nil_append,
      e1, wire_append, wire_append, wire_of_recv h7.recv, e2, wire_append, h5.whole.1, List.nil_append]
    refine ⟨hb.2.1, ?_⟩
    rw [List.append_assoc]
    refine (List.prefix_append_right_inj _).mpr ?_
    by_cases hbn : b = []
    · subst hbn
      rw [show Spec.wire ([] : List Event) = [] from rfl, List.append_nil]
      exact ha.2.trans (List.prefix_append _ _)
    · rw [hab hbn]; exact (List.prefix_append_right_inj _).mpr hb.2.2

/-! ### Waiting -/

/-- The wait in a call. -/
def Waited (g : Cfg) (timeoutMs : UInt32) (es : List Event) : Prop :=
  (∀ x ∈ es, isRecvd x = false) ∨
  ∃ a t0 b, es = a ++ .time t0 :: b ∧ (∀ x ∈ a, isRecvd x = false) ∧ WaitOk g timeoutMs t0 0 b

theorem noRecv_pre {snd : List Event} (h : ∀ e ∈ snd, isSendOrTime e = true) : ∀ x ∈ Event.pre :: snd, isRecvd x = false := by
  intro x hx
  rcases List.mem_cons.mp hx with rfl | hx
  · rfl
  · exact noRecv_of_send h x hx

theorem ConnackDone.waited {g : Cfg} {t : UInt32} {clean sp0 sp : Bool} {w w' : World} {st : Status} {snd ca rest : List Event}
    (h : ConnackDone g t clean sp0 w st sp ca w') (hs : ∀ e ∈ snd, isSendOrTime e = true) (hr : ∀ x ∈ rest, isRecvd x = false) :
    Waited g t (.pre :: (snd ++ (ca ++ rest))) := by
  obtain ⟨t0, hr0, a, b, rfl, hp, hb⟩ := h.wait
  refine Or.inr ⟨.pre :: snd, t0, a ++ (b ++ rest), by simp, noRecv_pre hs, hp.waitOk _ ?_⟩
  intro hne
  rw [(hb hne).1, List.nil_append]; exact hr

theorem ConnectDone.waited {g : Cfg} {ci : ConnectInfo} {will : Option PublishInfo} {t : UInt32} {sp0 sp : Bool} {s : InFlight} {w w' : World}
    {st : Status} {es : List Event} (h : ConnectDone g ci will t sp0 s w st sp es w') : Waited g t es := by
  cases h with
  | badSize h1 h2 h3 => exact Or.inl (by simp [isRecvd])
  | already h1 h2 h3 h4 => exact Or.inl (by simp [isRecvd])
  | noTopic h1 h2 h3 h4 => exact Or.inl (by simp [isRecvd])
  | notSent h1 h2 h3 h4 h5 h6 h7 =>
    refine Or.inl ?_
    intro x hx
    rw [← List.cons_append] at hx
    rcases List.mem_append.mp hx with hx | hx
    · exact noRecv_pre h4 x hx
    · exact (show ∀ x ∈ [Event.post, .pre, .post], isRecvd x = false by simp [isRecvd]) x hx
  | notAccepted h1 h2 h3 h4 h5 h6 h7 h8 h9 h10 => exact h8.waited h4 (by simp [isRecvd])
  | fresh h1 h2 h3 h4 h5 h6 h7 h8 h9 =>
    refine h8.waited h4 ?_
    intro x hx
    rcases List.mem_append.mp hx with hx | hx
    · exact noRecv_clears _ _ x hx
    · exact (show ∀ x ∈ [Event.post], isRecvd x = false by simp [isRecvd]) x hx
  | resumed h1 h2 h3 h4 h5 h6 h7 h8 h9 h10 h11 h12 =>
    refine h8.waited h4 ?_
    intro x hx
    rcases List.mem_cons.mp hx with rfl | hx
    · rfl
    · rcases List.mem_append.mp hx with hx | hx
      · exact noRecv_of_resend h11.facts.1 x hx
      · split at hx
        · cases hx
        · exact (show ∀ x ∈ [Event.pre, .post], isRecvd x = false by simp [isRecvd]) x hx

theorem ConnectX.waited {g : Cfg} {ci : ConnectInfo} {will : Option PublishInfo} {t : UInt32} {sp0 : Bool} {s : InFlight} {w : World}
    {es : List Event} (h : ConnectX g ci will t sp0 s w es) : Waited g t es := by
  cases h with
  | sending h1 h2 h3 h4 h5 => exact Or.inl (noRecv_pre h3)
  | waiting h1 h2 h3 h4 h5 h6 _ h7 =>
    rcases h7.2 with rfl | ⟨t0, l, rfl, hw⟩
    · rw [List.append_nil]; exact Or.inl (noRecv_pre h3)
    · exact Or.inr ⟨_, t0, l, by rw [← List.cons_append], noRecv_pre h3, hw⟩
  | resuming h1 h2 h3 h4 h5 h6 h7 h8 h9 h10 =>
    refine h7.waited h3 ?_
    intro x hx
    rcases List.mem_cons.mp hx with rfl | hx
    · rfl
    · obtain ⟨a, b, rfl, ha, hb, _⟩ := h10
      rcases List.mem_append.mp hx with hx | hx
      · exact noRecv_of_resend (fun e he => isResendEvent_of_ack (ha.1 e he)) x hx
      · exact noRecv_of_resend hb.1 x hx

theorem polls_append {a b : List Event} (ha : ∀ x ∈ a, isRecvd x = false) : polls (a ++ b) = polls b := by
  induction a with
  | nil => rfl
  | cons e es ih =>
    rw [List.cons_append, polls, if_neg (by rw [ha e List.mem_cons_self]; decide)]
    exact ih (fun x hx => ha x (List.mem_cons_of_mem _ hx))

theorem polls_time (t : UInt32) (b : List Event) : polls (.time t :: b) = polls b := by
  rw [polls, if_neg (by simp [isRecvd])]

/-- With a clock that moves the wait ends. -/
theorem waitsUntil.polls {gap : Nat} {timeoutMs : UInt32} {T0 : Nat} (hgap : timeoutMs.toNat + gap ≤ 2 ^ 32) (n : Nat) :
    ∀ (es : List Event) (T low : Nat), es.length ≤ n →
    waitsUntil timeoutMs (UInt32.ofNat T0) es → recvClock gap T low es → T0 ≤ T → T < T0 + timeoutMs.toNat →
    Spec.polls es + T ≤ T0 + timeoutMs.toNat := by
  induction n with
  | zero =>
    intro es T low hl _ _ _ _
    have : es = [] := List.eq_nil_of_length_eq_zero (by omega)
    subst this
    simp only [Spec.polls]; omega
  | succ n ih =>
    intro es T low hl hw hc h0 h1
    cases es with
    | nil => simp only [Spec.polls]; omega
    | cons e es =>
      unfold waitsUntil at hw
      split at hw
      · rename_i he
        have hr : isRecvd e = true := by cases e <;> simp_all [isEmptyPoll, isRecvd]
        have hp : ∀ l, Spec.polls (e :: l) = 1 + Spec.polls l := fun l => by rw [Spec.polls, if_pos hr, if_pos he]
        have hc' : recvClock gap T (max low (T + 1)) es := by
          cases e <;> first | exact hc | (simp [isRecvd] at hr)
        rw [hp]
        split at hw
        · simp only [Spec.polls]; omega
        · rename_i t es'
          rw [polls_time]
          obtain ⟨T1, k1, k2, k3, k4⟩ := hc'
          split at hw
          · rename_i hlt
            have hlt' : (t - UInt32.ofNat T0).toNat < timeoutMs.toNat := UInt32.lt_iff_toNat_lt.mp hlt
            have he : (t - UInt32.ofNat T0).toNat = T1 - T0 := by
              rw [k3, UInt32.toNat_sub]
              simp only [UInt32.toNat_ofNat', Nat.reducePow] at *
              omega
            have := ih es' T1 T1 (by simp at hl; omega) hw k4 (by omega) (by omega)
            omega
          · rw [polls_noRecv hw]; omega
        · exact hw.elim
      · rename_i he
        unfold Spec.polls
        rcases hw with hr | hn
        · rw [if_pos hr, if_neg he]; omega
        · split
          · omega
          · rw [polls_noRecv hn]; omega

theorem recvClock.suffix {gap : Nat} : ∀ (a : List Event) {b : List Event} {now low : Nat}, recvClock gap now low (a ++ b) →
    ∃ now' low', recvClock gap now' low' b := by
  intro a
  induction a with
  | nil => intro b now low h; exact ⟨_, _, h⟩
  | cons e es ih =>
    intro b now low h
    cases e with
    | time t => obtain ⟨T, _, _, _, h⟩ := h; exact ih h
    | _ => exact ih h

theorem call_waited {g : Cfg} {h : List (ApiCall × ApiRet)} {w : World} (hh : FromInit g h w) (e : Env) (ci : Option ConnectInfo)
    (will : Option PublishInfo) (t : UInt32) (sp0 : Option Bool) (hv : ValidCall g (.connect ci will t sp0)) :
    Waited g t (callEvents g w e (.connect ci will t sp0)) := by
  obtain ⟨hg, hidx, s, hrep⟩ := hh.good
  rcases call_cases hg hidx hrep e hv with ⟨r, es, w1, h1, h2, hl, hd⟩ | ⟨es, w1, h1, h2, hl, hd⟩
  · rw [h2]
    cases hd with
    | connect hd => exact hd.waited
    | connectNull _ _ => exact Or.inl (by simp [isRecvd])
  · rw [h2]
    cases hd with
    | connect hd => exact hd.waited

/-- Only a new session changes what is pending. -/
theorem ConnectDone.kept {g : Cfg} {ci : ConnectInfo} {will : Option PublishInfo} {t : UInt32} {sp0 sp : Bool} {s : InFlight} {w w' : World}
    {st : Status} {es : List Event} (hrep : Represents w.ctx.tables s) (h : ConnectDone g ci will t sp0 s w st sp es w')
    (hne : ¬ (st = .success ∧ sp = false)) :
    unacked w'.ctx.tables = unacked w.ctx.tables ∧ unreleased w'.ctx.tables = unreleased w.ctx.tables := by
  have same : w'.ctx.tables = w.ctx.tables → unacked w'.ctx.tables = unacked w.ctx.tables ∧ unreleased w'.ctx.tables = unreleased w.ctx.tables :=
    fun h => by rw [h]; exact ⟨rfl, rfl⟩
  cases h with
  | badSize _ _ h => exact same (by rw [h])
  | already _ _ h _ => exact same (by rw [h])
  | noTopic _ _ _ h => exact same (by rw [h])
  | notSent _ _ _ _ _ _ h => exact same (by rw [h])
  | notAccepted _ _ _ _ _ _ h1 h2 _ h3 =>
    obtain ⟨b, _, h4⟩ := h2.ctx
    exact same (by rw [h3, h4, h1])
  | fresh _ _ _ _ _ _ h1 h2 h3 => exact absurd ⟨rfl, rfl⟩ hne
  | resumed _ _ _ _ _ _ h1 h2 h3 _ h4 h5 =>
    obtain ⟨b, _, h6⟩ := h2.ctx
    have : ∀ {w3 : World}, w3.ctx.tables = w.ctx.tables → Represents w3.ctx.tables s := fun h => by rw [h]; exact hrep
    obtain ⟨s', k1, k2, k3⟩ := Resumed.kept (this (by rw [h3]; show _ = _; rw [connectedCtx, h6, h1])) h4
    rw [h5]
    show unacked _ = _ ∧ unreleased _ = _
    rw [unacked_eq k1.1, unreleased_eq k1.1, unacked_eq hrep.1, unreleased_eq hrep.1]
    exact ⟨k2, k3⟩

theorem callbacks_send {es : List Event} (h : ∀ e ∈ es, isSendOrTime e = true) : callbacks es = [] := by
  unfold callbacks
  rw [List.filter_eq_nil_iff]
  intro e he
  have := h e he
  cases e <;> simp_all [isSendOrTime, isCallback]

theorem callbacks_recv {es : List Event} (h : RecvX es) : callbacks es = [] := by
  induction h with
  | nil => rfl
  | @cons e es hk _ ih => cases e <;> simp_all [isRecvOrTime, callbacks, isCallback]
  | failed n _ ih => simpa [callbacks, isCallback] using ih

theorem callbacks_clears (r : Bool) (s : InFlight) : callbacks (cleanClears r s) = (if r then idsOf isUnacked s.out else []).map .clear := by
  unfold cleanClears
  cases r
  · rfl
  · simp only [if_true]
    unfold callbacks
    rw [List.filter_eq_self]
    intro e he
    obtain ⟨id, _, rfl⟩ := List.mem_map.mp he
    rfl

/-- What a new session means. -/
theorem ConnectDone.cleaned {g : Cfg} {ci : ConnectInfo} {will : Option PublishInfo} {t : UInt32} {sp0 : Bool} {s : InFlight} {w w' : World}
    {es : List Event} (h : ConnectDone g ci will t sp0 s w .success false es w') :
    inFlight w'.ctx.tables.outgoing = [] ∧ inFlight w'.ctx.tables.incoming = [] ∧ w'.ctx.index = 0 ∧
    w'.ctx.tables.outgoing.length = w.ctx.tables.outgoing.length ∧ w'.ctx.tables.incoming.length = w.ctx.tables.incoming.length ∧
    callbacks es = (if w.ctx.retransmits then idsOf isUnacked s.out else []).map .clear := by
  cases h with
  | badSize h1 h2 h3 => exact absurd rfl h1
  | already h1 h2 h3 h4 => split at h4 <;> cases h4
  | notAccepted h1 h2 h3 h4 h5 h6 h7 h8 h9 h10 => exact absurd rfl h9
  | fresh h1 h2 h3 h4 h5 h6 h7 h8 h9 =>
    obtain ⟨b, _, hb⟩ := h8.ctx
    rw [h9]
    refine ⟨(inFlight_fresh _ _).1, (inFlight_fresh _ _).2, rfl, ?_, ?_, ?_⟩
    · show (freshTables _ _).outgoing.length = _
      rw [hb, h7]; exact List.length_replicate
    · show (freshTables _ _).incoming.length = _
      rw [hb, h7]; exact List.length_replicate
    · rw [← callbacks_clears, show ∀ l, callbacks (.pre :: l) = callbacks l from fun _ => rfl, callbacks_append, callbacks_send h4,
        callbacks_append, callbacks_recv h8.recv, callbacks_append]
      simp [callbacks, isCallback]

theorem ConnectDone.refused {g : Cfg} {ci : ConnectInfo} {will : Option PublishInfo} {t : UInt32} {sp0 sp : Bool} {s : InFlight} {w w' : World}
    {st : Status} {es : List Event} (h : ConnectDone g ci will t sp0 s w st sp es w') :
    st = .serverRefused ↔ hasFail es = false ∧ 2 ≤ w.ctx.bufSize ∧
      ∃ code : UInt8, 1 ≤ code.toNat ∧ code.toNat ≤ 5 ∧ received es = [0x20, 2, 0, code] := by
  have hk0 : ∀ l, hasFail (.pre :: l) = hasFail l := fun l => by simp [hasFail, isFail]
  have hk1 : ∀ l, hasFail (.post :: l) = hasFail l := fun l => by simp [hasFail, isFail]
  have no : received es = [] → st ≠ .serverRefused → (st = .serverRefused ↔ hasFail es = false ∧ 2 ≤ w.ctx.bufSize ∧
      ∃ code : UInt8, 1 ≤ code.toNat ∧ code.toNat ≤ 5 ∧ received es = [0x20, 2, 0, code]) := by
    intro h1 h2
    refine ⟨fun h => absurd h h2, ?_⟩
    rintro ⟨_, _, c, _, _, h⟩
    rw [h1] at h; cases h
  cases h with
  | badSize h1 h2 h3 => exact no rfl (by rw [h2, connectSize_bad (by rw [← h2]; exact h1)]; decide)
  | already h1 h2 h3 h4 => exact no rfl (by rw [h4]; split <;> decide)
  | noTopic h1 h2 h3 h4 => exact no rfl (by decide)
  | notSent h1 h2 h3 h4 h5 h6 h7 =>
    refine no ?_ (by decide)
    rw [(received_hook _).1, received_append, received_of_noRecv (noRecv_of_send h4)]; rfl
  | notAccepted h1 h2 h3 h4 h5 h6 h7 h8 h9 h10 =>
    rw [h8.refused, (received_hook _).1, received_append, received_of_noRecv (noRecv_of_send h4), List.nil_append, received_append,
      hk0, hasFail_append, hasFail_append, h6.whole.2, h7]
    have e1 : received [Event.post, .pre, .post] = [] := rfl
    have e2 : hasFail [Event.post, .pre, .post] = false := rfl
    rw [e1, e2, List.append_nil, Bool.false_or, Bool.or_false]
    exact Iff.rfl
  | fresh h1 h2 h3 h4 h5 h6 h7 h8 h9 =>
    refine ⟨fun h => (by cases h), ?_⟩
    rintro ⟨_, _, c, hc, _, h⟩
    rw [(received_hook _).1, received_append, received_append, received_append, (received_hook _).2,
        received_of_noRecv (noRecv_of_send h4), received_of_noRecv (noRecv_clears _ _)] at h
    rcases (h8.accept.mp rfl).2.2 with h' | ⟨h', _⟩ <;> rw [h'] at h <;> simp [received] at h
    subst h; simp at hc
  | @resumed _ snd ca res w1 w2 w3 w4 _ _ h1 h2 h3 h4 h5 h6 h7 h8 h9 h10 h11 h12 =>
    obtain ⟨k1, k2, k3⟩ := h11.facts
    refine ⟨fun h => (by rw [h] at k3; rcases k3 with h | h | h <;> cases h), ?_⟩
    rintro ⟨_, _, c, hc, _, h⟩
    have e := h8.session rfl
    have e' : received ca = [0x20, 2, 1, 0] := by
      rcases (h8.accept.mp rfl).2.2 with h | h
      · rw [h] at e; simp at e
      · exact h.1
    rw [(received_hook _).1, received_append, received_append, (received_hook _).2, received_append,
        received_of_noRecv (noRecv_of_send h4), received_of_noRecv (noRecv_of_resend k1), e'] at h
    simp at h

theorem ConnectDone.accepted {g : Cfg} {ci : ConnectInfo} {will : Option PublishInfo} {t : UInt32} {sp0 sp : Bool} {s : InFlight} {w w' : World}
    {st : Status} {es : List Event} (h : ConnectDone g ci will t sp0 s w st sp es w') (hb : 2 ≤ w.ctx.bufSize) (hf : hasFail es = false) :
    (received es = [0x20, 2, 0, 0] → ApiRet.connect st (some sp) = .connect .success (some false)) ∧
    (received es = [0x20, 2, 1, 0] → ci.cleanSession = false →
      ApiRet.connect st (some sp) = .connect .success (some true) ∨
      (ApiRet.connect st (some sp) = .connect .sendFailed (some true) ∨ ApiRet.connect st (some sp) = .connect .publishRetrieveFailed (some true)) ∧
        w'.ctx.connectStatus = .disconnectPending) := by
  have hk0 : ∀ l, hasFail (.pre :: l) = hasFail l := fun l => by simp [hasFail, isFail]
  have no : received es = [] → (received es = [0x20, 2, 0, 0] → ApiRet.connect st (some sp) = .connect .success (some false)) ∧
    (received es = [0x20, 2, 1, 0] → ci.cleanSession = false →
      ApiRet.connect st (some sp) = .connect .success (some true) ∨
      (ApiRet.connect st (some sp) = .connect .sendFailed (some true) ∨ ApiRet.connect st (some sp) = .connect .publishRetrieveFailed (some true)) ∧
        w'.ctx.connectStatus = .disconnectPending) := by
    intro h
    rw [h]
    exact ⟨fun h => (by cases h), fun h => (by cases h)⟩
  have ho := h.outcome
  cases h with
  | badSize h1 h2 h3 => exact no rfl
  | already h1 h2 h3 h4 => exact no rfl
  | noTopic h1 h2 h3 h4 => exact no rfl
  | notSent h1 h2 h3 h4 h5 h6 h7 =>
    refine no ?_
    rw [(received_hook _).1, received_append, received_of_noRecv (noRecv_of_send h4)]; rfl
  | @notAccepted _ _ snd ca w1 w2 _ _ h1 h2 h3 h4 h5 h6 h7 h8 h9 h10 =>
    have hb1 : 2 ≤ w1.ctx.bufSize := by rw [h7]; exact hb
    have hca : hasFail ca = false := by
      rw [hk0, hasFail_append, hasFail_append] at hf
      simp only [Bool.or_eq_false_iff] at hf
      exact hf.2.1
    have hrec : received (.pre :: (snd ++ (ca ++ [.post, .pre, .post]))) = received ca := by
      rw [(received_hook _).1, received_append, received_of_noRecv (noRecv_of_send h4), received_append]; simp [received]
    rw [hrec]
    exact ⟨fun h => absurd (h8.accept.mpr ⟨hca, hb1, Or.inl h⟩) h9, fun h h' => absurd (h8.accept.mpr ⟨hca, hb1, Or.inr ⟨h, h'⟩⟩) h9⟩
  | fresh h1 h2 h3 h4 h5 h6 h7 h8 h9 =>
    refine ⟨fun _ => rfl, fun h => ?_⟩
    rcases ho with ⟨k, _⟩ | ⟨_, _, _, _, _, _, k⟩ | ⟨_, _, k, _⟩ | ⟨_, _, ⟨_, k, _⟩ | ⟨_, k⟩⟩
    · exact absurd h2 k
    · rw [k] at h; simp at h
    · cases k
    · cases k
    · simp at k
  | resumed h1 h2 h3 h4 h5 h6 h7 h8 h9 h10 h11 h12 =>
    rcases ho with ⟨k, _⟩ | ⟨_, _, k1, _, _, _, k⟩ | ⟨_, _, _, _, _, k1, k2, k⟩ | ⟨_, k0, ⟨_, k, _⟩ | ⟨_, k⟩⟩
    · exact absurd h2 k
    · rw [k, k1]; exact ⟨fun h => by simp at h, fun _ _ => Or.inl rfl⟩
    · rw [k]
      refine ⟨fun h => by simp at h, fun _ _ => Or.inr ⟨?_, k2⟩⟩
      rcases k1 with h | h <;> rw [h] <;> simp
    · exfalso
      rcases h11.facts.2.2 with h | h | h <;> rw [k] at h <;> cases h
    · exfalso
      have hs : ∀ b b', afterFail b (afterFail b' .connected) ≠ .notConnected := by decide
      rw [h12] at k0
      dsimp only at k0
      rw [h10.status, h9] at k0
      exact hs _ _ k0

theorem ConnectDone.silent {g : Cfg} {ci : ConnectInfo} {will : Option PublishInfo} {t : UInt32} {sp0 sp : Bool} {s : InFlight} {w w' : World}
    {st : Status} {es : List Event} (h : ConnectDone g ci will t sp0 s w st sp es w') (hn : w.ctx.connectStatus = .notConnected)
    (hs : Spec.wire es = connectPacket (ci.toSpec will)) (hr : received es = []) (hf : hasFail es = false) :
    st = .noDataAvailable ∧ w'.ctx.connectStatus = .notConnected ∧ (t = 0 → polls es = g.connackRetryCount + 1) ∧
    (t ≠ 0 → ∃ a t0 b t1, es = a ++ .time t0 :: (b ++ [.time t1, .post, .pre, .post]) ∧ (∀ x ∈ a, isRecvd x = false) ∧ t ≤ t1 - t0) := by
  have hk0 : ∀ l, hasFail (.pre :: l) = hasFail l := fun l => by simp [hasFail, isFail]
  have ne : ([] : List UInt8) ≠ connectPacket (ci.toSpec will) := by
    unfold connectPacket packet
    simp
  cases h with
  | badSize h1 h2 h3 => exact absurd hs ne
  | already h1 h2 h3 h4 => exact absurd hn h2
  | noTopic h1 h2 h3 h4 => exact absurd hs ne
  | notSent h1 h2 h3 h4 h5 h6 h7 =>
    exfalso
    rw [wire_cons_of_noSent _ _ rfl, wire_append] at hs
    simp only [show Spec.wire [Event.post, .pre, .post] = [] from rfl, List.append_nil] at hs
    rcases h6 with ⟨h, _⟩ | ⟨_, _, h⟩
    · cases h
    · exact h hs
  | @notAccepted _ _ snd ca w1 w2 _ _ h1 h2 h3 h4 h5 h6 h7 h8 h9 h10 =>
    have hca : hasFail ca = false := by
      rw [hk0, hasFail_append, hasFail_append] at hf
      simp only [Bool.or_eq_false_iff] at hf
      exact hf.2.1
    have hrec : received ca = [] := by
      rw [(received_hook _).1, received_append, received_of_noRecv (noRecv_of_send h4), received_append] at hr
      simpa [received] using hr
    obtain ⟨t0, hr0, a, b, rfl, ⟨ts, hp1, ⟨hp2, tl, hp3, hp4⟩ | ⟨hp2, hd, tl, hp3, hp4⟩⟩, hb⟩ := h8.wait
    · have hb' := hb (by rw [hp2]; decide)
      obtain ⟨rfl, hst⟩ := hb'
      refine ⟨by rw [hst, hp2], ?_, ?_, ?_⟩
      · obtain ⟨bb, _, hbb⟩ := h8.ctx
        rw [h10, hbb, h7]; exact h2
      · rintro rfl
        have hnt : ¬ (0 : UInt32) > 0 := by decide
        have hlen := pollAgain.length hnt hp1
        unfold pollAgain at hp3
        rw [if_neg hnt] at hp3
        rw [← List.cons_append, polls_append (noRecv_pre h4), List.cons_append, polls_time, List.append_nil, hp4]
        have : ∀ (l : List UInt32) (r : List Event), polls (pollEvents false l ++ r) = l.length + polls r := by
          intro l r
          induction l with
          | nil => simp [pollEvents]
          | cons x l ih =>
            have e : pollEvents false (x :: l) ++ r = .recvd 1 (some []) :: (pollEvents false l ++ r) := by simp [pollEvents]
            rw [e, polls, if_pos (by rfl), if_pos (by rfl), ih]
            simp; omega
        rw [show (decide ((0 : UInt32) > 0)) = false from rfl, this, polls_noRecv (by simp [isRecvd])]
        simp; omega
      · intro ht
        have ht' : t > 0 := UInt32.pos_iff_ne_zero.mpr ht
        refine ⟨.pre :: snd, t0, pollEvents true ts ++ [.recvd 1 (some [])], tl, ?_, noRecv_pre h4, ?_⟩
        · rw [hp4]; simp [pollEvents, ht']
        · unfold pollAgain at hp3
          rw [if_pos ht'] at hp3
          exact UInt32.not_lt.mp hp3
    · exfalso
      have hin : ∀ x : UInt8, ∀ l, hd = .recvd 1 (some [x]) :: l → False := by
        rintro x l rfl
        rw [received_time, received_append, hp4, received_append, received_append] at hrec
        simp [received] at hrec
      rcases hp3 with ⟨k, _⟩ | ⟨_, k⟩ | ⟨_, ⟨x, l, k⟩, _⟩ | ⟨_, _, ⟨x, l, k⟩, _⟩
      · exact hp2 k
      · rw [hasFail_time, hasFail_append, hp4, hasFail_append, hasFail_append, k] at hca
        simp [hasFail, isFail] at hca
      · exact hin x l k
      · exact hin x l k
  | fresh h1 h2 h3 h4 h5 h6 h7 h8 h9 =>
    exfalso
    rw [(received_hook _).1, received_append, received_append] at hr
    rcases (h8.accept.mp rfl).2.2 with h' | ⟨h', _⟩ <;> rw [h'] at hr <;> simp at hr
  | resumed h1 h2 h3 h4 h5 h6 h7 h8 h9 h10 h11 h12 =>
    exfalso
    rw [(received_hook _).1, received_append, received_append] at hr
    rcases (h8.accept.mp rfl).2.2 with h' | ⟨h', _⟩ <;> rw [h'] at hr <;> simp at hr

end Mqtt
