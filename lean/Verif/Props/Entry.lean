/-
C74: no context, and a context that is still zero.
-/
import Verif.Spec.Entry
import Verif.Props.Checks
import Verif.Proof.CallWire
import Verif.Proof.Vectors
import Verif.Props.Example

namespace Mqtt
open Spec

/-- **C74** (no context).  With a null context every function refuses the call and does nothing: no hook, no callback, no transport, no clock. -/
theorem C74_null (g : Cfg) (f : ApiCall) (w : World) : mqttEntry g none f w = .done (refusal f) w := by
  cases f <;> rfl

/-- **C74** (no context, initialisation functions). -/
theorem C74_null_init (out inc : Option Records) (oc ic : Nat) (s r c : Bool) (a : InitPtrs) (wv : Bool) (buf : List UInt8)
    (ha : a.pContext = false) :
    mqttInitStatefulQoSAt none out oc inc ic = (.badParameter, none) ∧ mqttInitRetransmitsAt none s r c = (.badParameter, none) ∧
      mqttInit a wv buf = (.badParameter, none) := by
  refine ⟨rfl, rfl, ?_⟩
  simp [mqttInit, ha]

theorem pre_post {es : List Event} (h : es = [] ∨ es = [.pre, .post]) : ∀ x ∈ es, x = .pre ∨ x = .post := by
  rcases h with rfl | rfl <;> simp

theorem sizeLoop_status (W : Nat) (ty : SubType) (l : List SubscribeInfo) : ∀ n st, st = .success ∨ st = .badParameter →
    (subscriptionSizeLoop W ty l n st).2 = .success ∨ (subscriptionSizeLoop W ty l n st).2 = .badParameter := by
  induction l with
  | nil => intro n st h; exact h
  | cons x l ih =>
    intro n st h
    simp only [subscriptionSizeLoop]
    repeat' split
    all_goals first | exact ih _ _ h | exact .inr rfl | exact ih _ _ (.inr rfl) | exact h

theorem subSize_bad {W : Nat} {ty : SubType} {subs : Option (List SubscribeInfo)} (h : (getSubscriptionPacketSize W ty subs).status ≠ .success) :
    (getSubscriptionPacketSize W ty subs).status = .badParameter := by
  unfold getSubscriptionPacketSize calculateSubscriptionPacketSize at *
  cases subs with
  | none => rfl
  | some l =>
    simp only at *
    split
    · rfl
    · rename_i h1
      rw [if_neg h1] at h
      split at h
      · rename_i h2; simp [h2]
      · rename_i h2
        have h3 := sizeLoop_status W ty l (2 % W) .success (.inl rfl)
        rw [if_neg h2]
        rcases h3 with h3 | h3
        · rw [if_pos h3] at h; exact absurd rfl h
        · rw [if_neg (by rw [h3]; decide)]; exact h3

/-- `MQTT_Subscribe` and `MQTT_Unsubscribe` on a zeroed context. -/
theorem zero_subUnsub (g : Cfg) (ty : SubType) (subs : Option (List SubscribeInfo)) (pid id : UInt16) (e : Env) (tr : List Event) :
    ∃ st es, mqttSubUnsub g ty subs pid ⟨zeroWith id, e, tr⟩ = .done st ⟨zeroWith id, e, tr ++ es⟩ ∧ (es = [] ∨ es = [.pre, .post]) ∧
      (st = .badParameter ∨ st = .statusNotConnected) := by
  show ∃ st es, (if validateSubscribeUnsubscribeParams (zeroWith id) subs pid ≠ .success then
    (pure (validateSubscribeUnsubscribeParams (zeroWith id) subs pid) : M Status) else _) _ = _ ∧ _
  by_cases h1 : validateSubscribeUnsubscribeParams (zeroWith id) subs pid = .success
  · rw [if_neg (not_not_intro h1)]
    by_cases h2 : (getSubscriptionPacketSize g.W ty subs).status = .success
    · rw [if_neg (not_not_intro h2)]
      exact ⟨.statusNotConnected, [.pre, .post], by rw [show tr ++ [Event.pre, .post] = tr ++ [.pre] ++ [.post] by simp]; rfl, .inr rfl, .inr rfl⟩
    · rw [if_pos h2]
      refine ⟨_, [], by rw [List.append_nil]; rfl, .inl rfl, .inl ?_⟩
      exact subSize_bad h2
  · rw [if_pos h1]
    refine ⟨_, [], by rw [List.append_nil]; rfl, .inl rfl, .inl ?_⟩
    unfold validateSubscribeUnsubscribeParams at *
    cases subs with
    | none => rfl
    | some l =>
      simp only at h1 ⊢
      split
      · rfl
      split
      · rfl
      split
      · rfl
      · simp_all

/-- `MQTT_Publish` on a zeroed context. -/
theorem zero_publish {g : Cfg} (hg : CfgOk g) (p : Option PublishInfo) (hp : ∀ q, p = some q → q.payloadLength < g.W) (pid id : UInt16) (e : Env)
    (tr : List Event) :
    ∃ st es, mqttPublish g p pid ⟨zeroWith id, e, tr⟩ = .done st ⟨zeroWith id, e, tr ++ es⟩ ∧ (es = [] ∨ es = [.pre, .post]) ∧
      (st = .badParameter ∨ st = .statusNotConnected) := by
  show ∃ st es, (if validatePublishParams (zeroWith id) p pid ≠ .success then
    (pure (validatePublishParams (zeroWith id) p pid) : M Status) else _) _ = _ ∧ _
  by_cases h1 : validatePublishParams (zeroWith id) p pid = .success
  · rw [if_neg (not_not_intro h1)]
    cases p with
    | none => cases h1
    | some p =>
      simp only
      by_cases h2 : (getPublishPacketSize g.W (some p)).status = .success
      · rw [if_neg (not_not_intro h2)]
        have h3 := getPublishPacketSize_ok hg.size (hp p rfl) (r := (getPublishPacketSize g.W (some p)).remainingLength)
          (s := (getPublishPacketSize g.W (some p)).packetSize) (by rw [← h2])
        obtain ⟨zs, hz⟩ := publishHeader_eq (p := p) (n := (getPublishPacketSize g.W (some p)).remainingLength) (by
          have := h3.2.2.2.2; have := h3.2.2.2.1; have := h3.2.2.1; simp only [maxRemaining] at *; omega)
        rw [hz]
        exact ⟨.statusNotConnected, [.pre, .post], by rw [show tr ++ [Event.pre, .post] = tr ++ [.pre] ++ [.post] by simp]; rfl, .inr rfl, .inr rfl⟩
      · rw [if_pos h2]
        refine ⟨_, [], by rw [List.append_nil]; rfl, .inl rfl, .inl ?_⟩
        exact pubSize_bad h2
  · rw [if_pos h1]
    refine ⟨_, [], by rw [List.append_nil]; rfl, .inl rfl, .inl ?_⟩
    unfold validatePublishParams at *
    cases p with
    | none => rfl
    | some l =>
      simp only at h1 ⊢
      split
      · rfl
      split
      · rfl
      split
      · rfl
      · simp_all

/-- **C74** (zeroed context, one call).  On a context whose bytes are all zero (a static variable, before `MQTT_Init`) every function except
`MQTT_Connect` with acceptable arguments returns at once with a refusal or "not connected".  It calls nothing but the hooks, so no null function
pointer, and changes nothing but the next packet id. -/
theorem C74_zero {g : Cfg} (hg : CfgOk g) (f : ApiCall) (hv : ValidCall g f) (hf : ∀ ci will t sp, f = .connect ci will t sp → connectArgsBad f)
    (id : UInt16) (e : Env) (tr : List Event) :
    ∃ r id' es, mqttEntry g (some zeroPtrs) f ⟨zeroWith id, e, tr⟩ = .done r ⟨zeroWith id', e, tr ++ es⟩ ∧
      zeroAnswer id f r ∧ (es = [] ∨ es = [.pre, .post]) ∧ (f ≠ .getPacketId → id' = id) := by
  have two : ∀ x y : Event, tr ++ [x, y] = tr ++ [x] ++ [y] := fun x y => by simp
  cases f with
  | connect ci will t sp =>
    have h := hf _ _ _ _ rfl
    refine ⟨.connect .badParameter sp, id, [.pre, .post], ?_, rfl, .inr rfl, fun _ => rfl⟩
    rw [two]
    cases sp with
    | none => cases ci <;> rfl
    | some sp0 =>
      cases ci with
      | none => rfl
      | some c =>
        have hs : (getConnectPacketSize (some c) will).status = .badParameter := by
          refine (C69_connect_size (some c) will true).1.mpr (.inr ?_)
          rcases h with h | h | ⟨c', hc, h⟩ | h
          · cases h
          · cases h
          · exact .inl fun x hx => by cases hx; cases hc; exact h
          · exact .inr h
        show M.bind (mqttConnect g (some c) will t (some sp0)) _ _ = _
        unfold mqttConnect
        simp only [hs]
        rfl
  | subscribe subs pid =>
    obtain ⟨st, es, h1, h2, h3⟩ := zero_subUnsub g .subscribe subs pid id e tr
    refine ⟨.status st, id, es, ?_, h3.imp (congrArg _) (congrArg _), h2, fun _ => rfl⟩
    show M.bind (mqttSubUnsub g .subscribe subs pid) _ _ = _
    rw [M.bind, h1]
    rfl
  | unsubscribe subs pid =>
    obtain ⟨st, es, h1, h2, h3⟩ := zero_subUnsub g .unsubscribe subs pid id e tr
    refine ⟨.status st, id, es, ?_, h3.imp (congrArg _) (congrArg _), h2, fun _ => rfl⟩
    show M.bind (mqttSubUnsub g .unsubscribe subs pid) _ _ = _
    rw [M.bind, h1]
    rfl
  | publish p pid =>
    obtain ⟨st, es, h1, h2, h3⟩ := zero_publish hg p (fun q hq => (hv q hq).2) pid id e tr
    refine ⟨.status st, id, es, ?_, h3.imp (congrArg _) (congrArg _), h2, fun _ => rfl⟩
    show M.bind (mqttPublish g p pid) _ _ = _
    rw [M.bind, h1]
    rfl
  | ping => exact ⟨_, id, [.pre, .post], by rw [two]; rfl, rfl, .inr rfl, fun _ => rfl⟩
  | disconnect => exact ⟨_, id, [.pre, .post], by rw [two]; rfl, rfl, .inr rfl, fun _ => rfl⟩
  | processLoop => exact ⟨_, id, [], by rw [List.append_nil]; rfl, rfl, .inl rfl, fun _ => rfl⟩
  | receiveLoop => exact ⟨_, id, [], by rw [List.append_nil]; rfl, rfl, .inl rfl, fun _ => rfl⟩
  | cancelCallback x => exact ⟨_, id, [], by rw [List.append_nil]; rfl, rfl, .inl rfl, fun _ => rfl⟩
  | checkConnectStatus => exact ⟨_, id, [.pre, .post], by rw [two]; rfl, rfl, .inr rfl, fun _ => rfl⟩
  | getPacketId => exact ⟨_, (getPacketId id).2, [.pre, .post], by rw [two]; rfl, rfl, .inr rfl, fun h => absurd rfl h⟩

/-- **C74** (zeroed context, histories).  Whatever calls are made before `MQTT_Init`, in any number and order (but no acceptable `MQTT_Connect`): nothing
but the hooks is called, and the context stays zero but for the next packet id. -/
theorem C74_zero_history {g : Cfg} (hg : CfgOk g) {w w' : World} {h : List (ApiCall × ApiRet)} (hh : ZeroHist g w h w') {id : UInt16}
    (hw : w.ctx = zeroWith id) :
    ∃ id' es, w'.ctx = zeroWith id' ∧ w'.trace = w.trace ++ es ∧ (∀ x ∈ es, x = .pre ∨ x = .post) ∧
      ((∀ x ∈ h, x.1 ≠ .getPacketId) → id' = id) := by
  induction hh with
  | start => exact ⟨id, [], hw, by simp, by simp, fun _ => rfl⟩
  | @call w1 w2 h e f r _ hv hf hc ih =>
    obtain ⟨id1, es, h1, h2, h3, h4⟩ := ih
    obtain ⟨c1, e1, t1⟩ := w1
    simp only at h1 h2
    subst h1 h2
    obtain ⟨r', id', es', h5, _, h6, h7⟩ := C74_zero hg f hv hf id1 e (w.trace ++ es)
    rw [h5] at hc
    cases hc
    refine ⟨id', es ++ es', rfl, by simp [List.append_assoc], ?_, ?_⟩
    · intro x hx
      rcases List.mem_append.mp hx with hx | hx
      · exact h3 x hx
      · exact pre_post h6 x hx
    · intro hn
      rw [h7 (hn _ (List.mem_append_right _ List.mem_cons_self)), h4 fun x hx => hn x (List.mem_append_left _ hx)]

/-- **C74** (zeroed context, `MQTT_InitStatefulQoS`).  Record arrays cannot be given to a context before `MQTT_Init`. -/
theorem C74_zero_stateful (c : Ctx) (out inc : Option Records) (oc ic : Nat) :
    mqttInitStatefulQoSAt (some (zeroPtrs, c)) out oc inc ic = (.badParameter, some c) := by
  unfold mqttInitStatefulQoSAt
  simp only [zeroPtrs]
  repeat' split
  all_goals first | rfl | contradiction

/-- **C74** (initialised context).  After `MQTT_Init` the checks of the context never refuse: the function behaves as described by the other properties
(if a network buffer was given). -/
theorem C74_initialised (g : Cfg) (p : CtxPtrs) (h1 : p.getTime = true) (h2 : p.pBuffer = true) (h3 : p.appCallback = true) (f : ApiCall) (c : Ctx)
    (out inc : Option Records) (oc ic : Nat) :
    mqttEntry g (some p) f = apiCall g f ∧
      mqttInitStatefulQoSAt (some (p, c)) out oc inc ic = ((mqttInitStatefulQoS c out oc inc ic).1, some (mqttInitStatefulQoS c out oc inc ic).2) := by
  constructor
  · cases f <;> simp [mqttEntry, h1, h2]
  · unfold mqttInitStatefulQoSAt mqttInitStatefulQoS
    simp only [h3]
    repeat' split
    all_goals first | rfl | contradiction

/-- **C74** (pointers missing).  If the clock function or the network buffer is missing in a context, whatever else it contains, the receive loops refuse, do nothing and change nothing. -/
theorem C74_missing (g : Cfg) (p : CtxPtrs) (h : p.getTime = false ∨ p.pBuffer = false) (manage : Bool) (w : World) :
    mqttEntry g (some p) (loopCall manage) w = .done (.status .badParameter) w := by
  cases manage <;> simp [loopCall, mqttEntry, h] <;> rfl

/-- **C74** (pointers missing, `MQTT_InitStatefulQoS`).  Without application callback, as before `MQTT_Init`, record arrays cannot be given to a context. -/
theorem C74_missing_callback (p : CtxPtrs) (h : p.appCallback = false) (c : Ctx) (out inc : Option Records) (oc ic : Nat) :
    mqttInitStatefulQoSAt (some (p, c)) out oc inc ic = (.badParameter, some c) := by
  unfold mqttInitStatefulQoSAt
  simp only [h]
  repeat' split
  all_goals first | rfl | contradiction

/-- In a zeroed context all these pointers are missing; in one given to `MQTT_Init` with a null buffer just the buffer. -/
example : zeroPtrs = ⟨false, false, false⟩ ∧ (⟨true, true, false⟩ : CtxPtrs).pBuffer = false := ⟨rfl, rfl⟩

/-- **C74** (why the packet id 0 is returned).  The first packet id drawn from a zeroed context is the invalid id 0. -/
theorem C74_zero_id (g : Cfg) (e : Env) (tr : List Event) :
    ∃ w', mqttEntry g (some zeroPtrs) .getPacketId ⟨zeroCtx, e, tr⟩ = .done (.packetId 0) w' := ⟨_, rfl⟩

/-- **C74** (the exception).  `MQTT_Connect` with acceptable arguments does not notice that the context is zero: after the pre hook it reads the clock, which
in the code is a call through a null function pointer. -/
theorem C74_zero_connect : ValidCall Ex.g Ex.connectCall ∧
    (mqttEntry Ex.g (some zeroPtrs) Ex.connectCall ⟨zeroCtx, Ex.env [], []⟩).world.trace.take 2 = [.pre, .time 0] :=
  ⟨Ex.connectValid, by decide +kernel⟩

/-- C74_zero applies to a publish that would be accepted on an established connection. -/
example : ValidCall Ex.g (Ex.publishCall .qos1 7) := Ex.publishValid _ _

/-- C74_zero_history applies: two packet ids are drawn, then a publish, then a poll. -/
example : ∃ w, ZeroHist Ex.g ⟨zeroCtx, Ex.env [], []⟩ [(.getPacketId, .packetId 0), (.getPacketId, .packetId 1), (Ex.publishCall .qos1 7, .status .badParameter),
    (.processLoop, .status .badParameter), (.ping, .status .statusNotConnected)] w := by
  refine ⟨_, .call (h := [_, _, _, _]) (.call (h := [_, _, _]) (.call (h := [_, _]) (.call (h := [_]) (.call (h := []) (.start _) trivial ?_ (e := Ex.env []) rfl) trivial ?_
    (e := Ex.env []) rfl) (Ex.publishValid _ _) ?_ (e := Ex.env []) rfl) trivial ?_ (e := Ex.env []) rfl) trivial ?_ (e := Ex.env []) rfl⟩ <;>
    (intro _ _ _ _ h; cases h)

end Mqtt
