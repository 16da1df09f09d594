/-
Failures have causes: the functions of the interface.
-/
import Verif.Proof.Causes
import Verif.Proof.CallWire

namespace Mqtt
open Spec

section
variable {g : Cfg} {α : Type}

/-- Events before do not matter when there is no other cause. -/
theorem Ev.before {f : M Status} {w : World} (es : List Event) (h : Ev f w (Why g NoX)) : Ev f w (fun st es2 w2 => Why g NoX st (es ++ es2) w2) :=
  h.mono fun _ _ _ k => k.later es (fun x => x)

theorem Why.fin {st : Status} {es : List Event} {w w' : World} (h : Why g NoX st es w) : Why g NoX st (es ++ []) w' := h.before [] (fun x => x)

theorem sendIfConnected_why (bytes : List UInt8) (w : World) : Ev (sendIfConnected g bytes) w (Why g NoX) := by
  unfold sendIfConnected
  refine Ev.getCtx (Ev.ite (fun _ => Ev.pure (Why.calm (notConnectedStatus_calm _))) fun _ => ?_)
  refine Ev.bind _ (sendBuffer_ev g bytes w) fun r es w1 h => ?_
  refine Ev.ite (fun hr => Ev.pure ?_) (fun _ => Ev.pure (Why.calm rfl))
  rw [List.append_nil]
  refine ⟨fun _ => h.resolve_left ?_, fun h => (by cases h), fun h => (by cases h), fun h => (by cases h)⟩
  rintro rfl
  simp at hr

theorem onTables_ev {f : Tables → Res (α × Tables)} {P : α → Prop} (w : World) (h : ∀ t, RSat (f t) fun x => P x.1) :
    Ev (onTables f) w (fun a es _ => P a ∧ es = []) := by
  unfold Ev
  rw [wp_onTables]
  have := h w.ctx.tables
  cases hf : f w.ctx.tables with
  | ok x => exact ⟨[], (List.append_nil _).symm, this x hf, rfl⟩
  | ub e => exact trivial

theorem updateStateAckM_ev (id : UInt16) (t : AckType) (op : Op) (w : World) :
    Ev (updateStateAckM id t op) w (fun a es _ => calmStatus a.1 = true ∧ es = []) :=
  onTables_ev (P := fun a : Status × Option PubState => calmStatus a.1 = true) w
    fun tb => RSat.bind _ (updateStateAckApi_calm tb id t op) (fun _ h => RSat.pure h)

theorem updateStatePublishM_ev (id : UInt16) (op : Op) (q : QoS) (w : World) :
    Ev (updateStatePublishM id op q) w (fun a es _ => calmStatus a.1 = true ∧ es = []) :=
  onTables_ev (P := fun a : Status × Option PubState => calmStatus a.1 = true) w
    fun tb => RSat.bind _ (updateStatePublishApi_calm tb id op q) (fun _ h => RSat.pure h)

/-- `post hook; return st`. -/
theorem ev_leave {w : World} {st : Status} {es : List Event} (h : Why g NoX st es w) :
    Ev (do postHook; pure st : M Status) w (fun st es2 w2 => Why g NoX st (es ++ es2) w2) :=
  Ev.postHook fun _ _ => Ev.pure (h.before [.post] fun x => x)

theorem sendPublishAcks_why (id : UInt16) (s : PubState) (w : World) : Ev (sendPublishAcks g id s) w (Why g NoX) := by
  unfold sendPublishAcks
  refine Ev.ite (fun _ => Ev.pure (Why.calm rfl)) fun _ => Ev.liftRes fun t _ => Ev.liftRes fun x hx => ?_
  obtain ⟨st, buf⟩ := x
  refine Ev.ite (fun _ => Ev.pure (Why.calm (serializeAck_calm _ _ _ _ hx))) fun _ => ?_
  refine Ev.preHook fun w1 _ => ?_
  refine Ev.before [.pre] ?_
  refine Ev.bind _ (sendIfConnected_why _ w1) fun st es w2 h => ?_
  refine Ev.postHook fun w3 _ => ?_
  refine Ev.ite (fun _ => Ev.pure (h.before [.post] (fun x => x))) fun _ => ?_
  refine Ev.modifyCtx (Ev.preHook fun w4 _ => ?_)
  refine Ev.bind _ (updateStateAckM_ev _ _ _ w4) fun x es2 w5 hx => ?_
  exact Ev.postHook fun w6 _ => Ev.pure (Why.calm hx.1)

theorem mqttPing_why (w : World) : Ev (mqttPing g) w (Why g NoX) := by
  unfold mqttPing
  refine Ev.ite (fun _ => Ev.pure (Why.calm rfl)) fun _ => Ev.liftRes fun _ _ => Ev.liftRes fun x hx => ?_
  obtain ⟨st, buf⟩ := x
  refine Ev.ite (fun _ => Ev.pure (Why.calm (serializeTwoBytes_calm _ _ _ hx))) fun _ => ?_
  refine Ev.preHook fun w1 _ => ?_
  refine Ev.before [.pre] ?_
  refine Ev.bind _ (sendIfConnected_why _ w1) fun st es w2 h => ?_
  dsimp only
  split
  · exact Ev.modifyCtx (Ev.postHook fun w3 _ => Ev.pure (h.before [.post] (fun x => x)))
  · exact Ev.postHook fun w3 _ => Ev.pure (h.before [.post] (fun x => x))

theorem sendWholeVector_why (vec : List IoVec) (w : World) : Ev (sendWholeVector g vec) w (Why g NoX) :=
  (sendWholeVector_ev g vec w).mono fun st es w' h => by
    rcases h.1 with rfl | ⟨rfl, hc⟩
    · exact Why.calm rfl
    · exact ⟨fun _ => hc, fun h => (by cases h), fun h => (by cases h), fun h => (by cases h)⟩

theorem sendFiltersLoop_why (ty : SubType) (n : Nat) (vec : List IoVec) (subs : List SubscribeInfo) (w : World) :
    Ev (sendFiltersLoop g ty n vec subs) w (Why g NoX) := by
  induction n generalizing vec subs w with
  | zero => exact Ev.stuck
  | succ n ih =>
    unfold sendFiltersLoop
    refine Ev.ite (fun _ => Ev.pure (Why.calm rfl)) fun _ => Ev.liftRes fun x _ => ?_
    refine Ev.bind _ (sendWholeVector_why _ w) fun st es w1 h => ?_
    exact Ev.ite (fun _ => Ev.pure h.fin) (fun _ => Ev.before es (ih _ _ w1))

theorem mqttSubUnsub_why (ty : SubType) (subs : Option (List SubscribeInfo)) (id : UInt16) (w : World) :
    Ev (mqttSubUnsub g ty subs id) w (Why g NoX) := by
  unfold mqttSubUnsub
  refine Ev.getCtx (Ev.ite (fun _ => Ev.pure (Why.calm (validateSub_calm _ _ _))) fun _ => ?_)
  refine Ev.ite (fun _ => Ev.pure (Why.calm (getSubscriptionPacketSize_calm _ _ _))) fun _ => ?_
  refine Ev.preHook fun w1 _ => Ev.before [.pre] (Ev.getCtx ?_)
  refine Ev.bind (Why g NoX) (Ev.ite (fun _ => Ev.pure (Why.calm (notConnectedStatus_calm _))) fun _ => ?_) fun st es w2 h => ev_leave h
  unfold sendFiltersWithoutCopy
  exact Ev.liftRes fun _ _ => Ev.liftRes fun c _ => sendFiltersLoop_why _ _ _ _ _

theorem storePublish_ev (p : PublishInfo) (header : List UInt8) (n : Nat) (id : UInt16) (w : World) :
    Ev (storePublish p header n id) w (fun r es w' => Why g NoX r.1 es w') := by
  unfold storePublish
  have hs : calmStatus (if p.dup then (Status.success, header) else updateHeaderDup header true).1 = true := by
    split
    · rfl
    · exact updateHeaderDup_calm _ _
  generalize (if p.dup then (Status.success, header) else updateHeaderDup header true) = x at hs
  obtain ⟨st, hdr⟩ := x
  dsimp only
  refine Ev.ite (fun _ => Ev.pure (Why.calm hs)) fun _ => ?_
  refine Ev.bind (fun ok es _ => ok = false → storeDeclined es) ?_ fun ok es w1 h => ?_
  · exact wp_storeCallback trivial fun b rest _ => ⟨[.store id _ b], rfl, fun hb => ⟨id, _, by rw [← hb]; exact List.mem_singleton.mpr rfl⟩⟩
  · refine Ev.ite (fun hok => Ev.pure ?_) fun _ => Ev.ite (fun _ => Ev.pure (Why.calm rfl)) (fun _ => Ev.pure (Why.calm (updateHeaderDup_calm _ _)))
    rw [List.append_nil]
    exact ⟨fun h => (by cases h), fun h => (by cases h), fun _ => h hok, fun h => (by cases h)⟩

theorem mqttPublish_why (p : Option PublishInfo) (id : UInt16) (w : World) : Ev (mqttPublish g p id) w (Why g NoX) := by
  unfold mqttPublish
  refine Ev.getCtx (Ev.ite (fun _ => Ev.pure (Why.calm (validatePublish_calm _ _ _))) fun _ => ?_)
  cases p with
  | none => exact Ev.ub
  | some p =>
    refine Ev.ite (fun _ => Ev.pure (Why.calm (getPublishPacketSize_calm _ _))) fun _ => Ev.liftRes fun x _ => ?_
    obtain ⟨header, n⟩ := x
    refine Ev.preHook fun w1 _ => Ev.before [.pre] ?_
    refine Ev.bind (Why g NoX) ?_ fun st es w2 h => ev_leave h
    unfold publishLocked
    refine Ev.getCtx (Ev.ite (fun _ => Ev.pure (Why.calm (notConnectedStatus_calm _))) fun _ => ?_)
    refine Ev.bind (fun st _ _ => calmStatus st = true) ?_ fun st es w2 h => Ev.ite (fun _ => Ev.pure (Why.calm h)) fun _ => Ev.before es ?_
    · unfold reservePublish
      refine Ev.ite (fun _ => ?_) (fun _ => Ev.pure rfl)
      refine Ev.bind _ (onTables_ev (P := fun st => calmStatus st = true) w1 fun t => reserveState_calm t id p.qos) fun st es w2 h => ?_
      exact Ev.ite (fun _ => Ev.pure rfl) (fun _ => Ev.pure h.1)
    refine Ev.bind (Why g NoX) ?_ fun st es w3 h => Ev.ite (fun _ => Ev.pure h.fin) fun _ => ?_
    · unfold sendPublishWithoutCopy
      refine Ev.getCtx ?_
      refine Ev.bind (fun r es w' => Why g NoX r.1 es w') (Ev.ite (fun _ => storePublish_ev _ _ _ _ _) (fun _ => Ev.pure (Why.calm rfl))) fun r es w3 h => ?_
      exact Ev.ite (fun _ => Ev.pure h.fin) (fun _ => Ev.before es (sendWholeVector_why _ _))
    · unfold notePublishSent
      refine Ev.ite (fun _ => ?_) (fun _ => Ev.pure (Why.calm rfl))
      exact Ev.bind _ (updateStatePublishM_ev _ _ _ w3) fun x es w4 h => Ev.pure (Why.calm h.1)

theorem mqttDisconnect_why (w : World) : Ev (mqttDisconnect g) w (Why g NoX) := by
  unfold mqttDisconnect
  refine Ev.liftRes fun x hx => ?_
  obtain ⟨st, buf⟩ := x
  refine Ev.ite (fun _ => Ev.pure (Why.calm (serializeTwoBytes_calm _ _ _ hx))) fun _ => ?_
  refine Ev.preHook fun w1 _ => Ev.before [.pre] (Ev.getCtx ?_)
  refine Ev.bind (Why g NoX) (Ev.ite (fun _ => Ev.pure (Why.calm rfl)) fun _ => ?_) fun st es w2 h => ev_leave h
  refine Ev.modifyCtx (Ev.modifyCtx ?_)
  refine Ev.bind _ (sendBuffer_ev g _ _) fun r es w2 h => ?_
  refine Ev.ite (fun hr => Ev.pure ?_) (fun _ => Ev.pure (Why.calm rfl))
  rw [List.append_nil]
  refine ⟨fun _ => h.resolve_left ?_, fun h => (by cases h), fun h => (by cases h), fun h => (by cases h)⟩
  rintro rfl
  simp at hr

theorem mqttCancelCallback_why (id : UInt16) (w : World) : Ev (mqttCancelCallback id) w (Why g NoX) := by
  unfold mqttCancelCallback
  refine Ev.getCtx (Ev.ite (fun _ => Ev.pure (Why.calm rfl)) fun _ => Ev.preHook fun w1 _ => Ev.before [.pre] ?_)
  exact Ev.bind _ (onTables_ev (P := fun st => calmStatus st = true) w1 fun t => removeStateRecord_calm t id) fun st es w2 h => ev_leave (Why.calm h.1)

theorem mqttCheckConnectStatus_why (w : World) : Ev mqttCheckConnectStatus w (Why g NoX) := by
  unfold mqttCheckConnectStatus
  refine Ev.preHook fun w1 _ => Ev.getCtx (Ev.postHook fun w2 _ => Ev.pure (Why.calm ?_))
  unfold connectStatusCode
  split <;> rfl

/-! ### The loops -/

/-- The other cause of `MQTTRecvFailed`: a QoS 1 or 2 publish arrived and there are no records for it. -/
def LoopX : List Event → World → Prop := fun _ w => w.ctx.tables.incoming = []

theorem Ev.beforeL {f : M Status} {w : World} (es : List Event) (h : Ev f w (Why g LoopX)) : Ev f w (fun st es2 w2 => Why g LoopX st (es ++ es2) w2) :=
  h.mono fun _ _ _ k => k.later es (fun x => x)

theorem Ev.loop {f : M Status} {w : World} (h : Ev f w (Why g NoX)) : Ev f w (Why g LoopX) :=
  h.mono fun _ _ _ k => k.weaken (fun x => x.elim)

theorem handleIncomingPublish_why (pk : PacketInfo) (w : World) : Ev (handleIncomingPublish g pk) w (Why g LoopX) := by
  unfold handleIncomingPublish
  refine Ev.liftRes fun x hx => ?_
  have hc := deserializePublish_calm _ _ _ x hx
  obtain ⟨st, out⟩ := x
  cases out with
  | none => exact Ev.pure (Why.calm hc)
  | some x =>
    obtain ⟨id, p⟩ := x
    refine Ev.getCtx (Ev.ite (fun _ => Ev.pure (Why.calm hc)) fun _ => Ev.ite (fun hr => Ev.pure ?_) fun _ => ?_)
    · exact ⟨fun h => (by cases h), fun _ => Or.inr hr.1, fun h => (by cases h), fun h => (by cases h)⟩
    refine Ev.bind (fun r _ _ => calmStatus r.1 = true) ?_ fun x es w1 h => ?_
    · unfold recordIncomingPublish
      refine Ev.preHook fun w1 _ => Ev.bind _ (updateStatePublishM_ev _ _ _ w1) fun x es w2 h => Ev.postHook fun w3 _ => ?_
      exact Ev.ite (fun _ => Ev.pure rfl) fun _ => Ev.ite (fun _ => Ev.pure rfl) (fun _ => Ev.pure h.1)
    obtain ⟨st, s, dup⟩ := x
    refine Ev.ite (fun _ => Ev.pure (Why.calm h)) fun _ => Ev.beforeL es ?_
    dsimp only
    split
    · refine Ev.bind (fun _ _ _ => True) ⟨[_], rfl, trivial⟩ fun _ es w2 _ => Ev.beforeL es (Ev.loop (sendPublishAcks_why _ _ w2))
    · exact Ev.loop (sendPublishAcks_why _ _ _)

theorem handlePublishAcks_why (pk : PacketInfo) (w : World) : Ev (handlePublishAcks g pk) w (Why g NoX) := by
  unfold handlePublishAcks
  refine Ev.liftRes fun t _ => Ev.liftRes fun x hx => ?_
  have hc := deserializeAck_calm _ _ _ x hx
  obtain ⟨st, id, sp⟩ := x
  refine Ev.ite (fun _ => Ev.pure (Why.calm hc)) fun _ => Ev.preHook fun w1 _ => Ev.before [.pre] ?_
  refine Ev.bind _ (updateStateAckM_ev _ _ _ w1) fun x es w2 h => Ev.before es (Ev.postHook fun w3 _ => Ev.before [.post] ?_)
  obtain ⟨st, s⟩ := x
  refine Ev.ite (fun _ => Ev.pure (Why.calm h.1)) fun _ => Ev.getCtx ?_
  have k : ∀ w, Ev (do appCallback pk (id.getD 0) .success none; sendPublishAcks g (id.getD 0) (s.getD .null)) w (Why g NoX) :=
    fun w => Ev.bind (fun _ _ _ => True) ⟨[_], rfl, trivial⟩ fun _ es w2 _ => Ev.before es (sendPublishAcks_why _ _ w2)
  dsimp only
  split
  · exact Ev.bind (fun _ _ _ => True) ⟨[_], rfl, trivial⟩ fun _ es w2 _ => Ev.before es (k w2)
  · exact k _

theorem handleIncomingAck_why (pk : PacketInfo) (b : Bool) (w : World) : Ev (handleIncomingAck g pk b) w (Why g NoX) := by
  unfold handleIncomingAck
  refine Ev.ite (fun _ => handlePublishAcks_why pk w) fun _ => Ev.ite (fun _ => ?_) fun _ => Ev.ite (fun _ => ?_) (fun _ => Ev.pure (Why.calm rfl))
  · refine Ev.liftRes fun x hx => ?_
    have hc := deserializeAck_calm _ _ _ x hx
    obtain ⟨st, id, sp⟩ := x
    refine Ev.ite (fun _ => Ev.pure (Why.calm hc)) fun _ => Ev.ite (fun _ => Ev.modifyCtx (Ev.pure (Why.calm rfl))) fun _ => ?_
    exact Ev.bind (fun _ _ _ => True) ⟨[_], rfl, trivial⟩ fun _ es w2 _ => Ev.pure (Why.calm rfl)
  · refine Ev.liftRes fun x hx => ?_
    have hc := deserializeAck_calm _ _ _ x hx
    obtain ⟨st, id, sp⟩ := x
    refine Ev.ite (fun _ => ?_) (fun _ => Ev.pure (Why.calm hc))
    exact Ev.bind (fun _ _ _ => True) ⟨[_], rfl, trivial⟩ fun _ es w2 _ => Ev.pure (Why.calm rfl)

theorem handleKeepAlive_why (w : World) : Ev (handleKeepAlive g) w (Why g NoX) := by
  unfold handleKeepAlive
  refine Ev.getTime fun t w1 _ => Ev.before [.time t] (Ev.getCtx ?_)
  dsimp only
  refine Ev.ite (fun _ => Ev.ite (fun _ => Ev.pure (Why.calm rfl)) (fun _ => Ev.pure (Why.calm rfl))) fun _ => ?_
  refine Ev.preHook fun w2 _ => Ev.before [.pre] (Ev.getCtx (Ev.postHook fun w3 _ => Ev.before [.post] ?_))
  exact Ev.ite (fun _ => mqttPing_why w3) fun _ => Ev.ite (fun _ => mqttPing_why w3) (fun _ => Ev.pure (Why.calm rfl))

theorem discardStoredPacket_why (n : Nat) (w : World) : Ev (discardStoredPacket g n) w (Why g NoX) := by
  unfold discardStoredPacket
  refine Ev.getCtx (Ev.liftRes fun _ _ => Ev.clockFuel fun k => ?_)
  refine Ev.bind _ (discardStoredLoop_ev g k _ _ w) fun r es w1 h => Ev.modifyCtx ?_
  refine Ev.ite (fun _ => Ev.pure (Why.calm rfl)) fun hr => Ev.pure ?_
  rw [List.append_nil]
  exact ⟨fun h => (by cases h), fun _ => Or.inl (h.resolve_left hr), fun h => (by cases h), fun h => (by cases h)⟩

theorem receiveSingleIteration_why (b : Bool) (w : World) : Ev (receiveSingleIteration g b) w (Why g LoopX) := by
  unfold receiveSingleIteration
  refine Ev.bind (fun r es w' => Why g NoX r.2.status es w') ?_ fun x es w1 h => ?_
  · unfold receiveHeader
    refine Ev.getCtx ?_
    refine Ev.bind (fun r es _ => ∃ n x, es = [.recvd n x] ∧ r = x.map (·.length)) ?_ ?_
    · unfold recvInto
      refine Ev.getCtx (Ev.ite (fun _ => Ev.transportRecv fun r w1 _ => ?_) (fun _ => Ev.ub))
      cases r with
      | none => exact Ev.pure ⟨_, none, rfl, rfl⟩
      | some bs => exact Ev.modifyCtx (Ev.pure ⟨_, some bs, rfl, rfl⟩)
    rintro r es w1 ⟨n, x, rfl, rfl⟩
    cases x with
    | none =>
      refine Ev.bind (fun _ _ _ => True) ⟨[.pre, .post], by simp, trivial⟩ ?_
      intro _ es w2 _
      exact Ev.pure ⟨fun h => (by cases h), fun _ => Or.inl (Or.inl ⟨n, by simp⟩), fun h => (by cases h), fun h => (by cases h)⟩
    | some bs =>
      dsimp only [Option.map]
      refine Ev.ite (fun _ => Ev.pure (Why.calm rfl)) fun _ => Ev.modifyCtx (Ev.getCtx (Ev.liftRes fun hh hx => Ev.pure ?_))
      exact Why.calm (processHeader_calm _ _ hh hx)
  obtain ⟨r, hd⟩ := x
  dsimp only
  refine Ev.bind (fun st es2 w2 => Why g NoX st (es ++ es2) w2) ?_ fun st es2 w2 h2 => ?_
  · unfold keepAliveCheck
    refine Ev.ite (fun _ => ?_) (fun _ => Ev.pure (h.fin))
    refine Ev.bind _ (handleKeepAlive_why w1) fun st es2 w2 h2 => ?_
    refine Ev.ite (fun _ => Ev.pure ?_) (fun _ => Ev.pure (by rw [List.append_nil]; exact h2.later es (fun x => x)))
    rw [List.append_nil]
    exact h.before es2 (fun x => x)
  refine Ev.bind (fun st es3 w3 => Why g NoX st (es ++ (es2 ++ es3)) w3) ?_ fun st es3 w3 h3 => ?_
  · unfold checkComplete
    refine Ev.getCtx (Ev.ite (fun _ => Ev.pure ?_) fun _ => Ev.ite (fun _ => ?_) fun _ => Ev.ite (fun _ => Ev.pure (Why.calm rfl)) (fun _ => Ev.pure (Why.calm rfl)))
    · rw [List.append_nil]; exact h2
    · refine (discardStoredPacket_why _ w2).mono fun st es3 w3 k => ?_
      rw [← List.append_assoc]
      exact k.later _ (fun x => x)
  refine Ev.bind (fun st es4 w4 => Why g LoopX st (es ++ (es2 ++ (es3 ++ es4))) w4) ?_ fun st es4 w4 h4 => ?_
  · refine Ev.ite (fun _ => ?_) (fun _ => Ev.pure (by rw [List.append_nil]; exact h3.weaken (fun x => x.elim)))
    have : Ev (handlePacket g b hd) w3 (Why g LoopX) := by
      unfold handlePacket
      refine Ev.getCtx ?_
      refine Ev.bind (Why g LoopX) (Ev.ite (fun _ => handleIncomingPublish_why _ _) (fun _ => Ev.loop (handleIncomingAck_why _ _ _))) fun st es w4 h => ?_
      refine Ev.getCtx (Ev.ite (fun _ => Ev.modifyCtx ?_) (fun _ => Ev.ub))
      dsimp only
      split
      · exact Ev.getTime fun t w5 hc => Ev.modifyCtx (Ev.pure (h.before [.time t] (fun x => by
          show w5.ctx.tables.incoming = []
          rw [hc]; exact x)))
      · exact Ev.pure (h.before [] (fun x => x))
    refine this.mono fun st es4 w4 k => ?_
    rw [← List.append_assoc, ← List.append_assoc]
    exact k.later _ (fun x => x)
  · refine Ev.ite (fun _ => Ev.pure (Why.calm rfl)) (fun _ => Ev.pure ?_)
    rw [List.append_nil]
    exact h4

/-! ### Connecting -/

theorem Ev.and {m : M α} {w : World} {R S : α → List Event → World → Prop} {E U : World → Prop} (h : Ev m w R)
    (h2 : wp m (fun a w' => ∃ es, w'.trace = w.trace ++ es ∧ S a es w') E U w) : Ev m w (fun a es w' => R a es w' ∧ S a es w') := by
  refine wp_mono (wp_and h h2) ?_ (fun _ _ => trivial) (fun _ _ => trivial)
  rintro a w' ⟨⟨es, k1, k2⟩, es', k3, k4⟩
  have : es = es' := List.append_cancel_left (k1.symm.trans k3)
  subst this
  exact ⟨es, k1, k2, k4⟩

/-- The other cause of `MQTTRecvFailed` in `MQTT_Connect`: the CONNACK packet announces more bytes than the network buffer holds. -/
def BigX (cap : Nat) : List Event → World → Prop :=
  fun es _ => ∃ n rest, received es = 0x20 :: (varInt n ++ rest) ∧ n ≤ maxRemaining ∧ cap < n

theorem BigX.grow {cap : Nat} {a es b : List Event} {w w' : World} (ha : received a = []) (h : BigX cap es w) : BigX cap (a ++ es ++ b) w' := by
  obtain ⟨n, rest, h1, h2, h3⟩ := h
  exact ⟨n, rest ++ received b, by rw [received_append, received_append, ha, h1]; simp, h2, h3⟩

theorem sendConnect_ev (ci : ConnectInfo) (will : Option PublishInfo) (n : Nat) (w : World) (hnc : w.ctx.connectStatus ≠ .connected) :
    Ev (sendConnectWithoutCopy g ci will n) w
      (fun st es w' => Why g NoX st es w' ∧ (st = .success → received es = [] ∧ w'.ctx.bufSize = w.ctx.bufSize ∧ w'.ctx.connectStatus ≠ .connected)) := by
  unfold sendConnectWithoutCopy
  refine Ev.ite (fun _ => Ev.pure ⟨Why.calm rfl, by rintro ⟨⟩⟩) fun _ => Ev.liftRes fun vec _ => ?_
  cases hr : resolveVec vec with
  | ub e => unfold Ev sendWholeVector sendMessageVector; rw [wp_bind, wp_bind, hr]; exact trivial
  | ok vecs =>
    by_cases hv : vec = []
    · unfold Ev sendWholeVector sendMessageVector; rw [wp_bind, wp_bind, hr]; subst hv; exact trivial
    have hs := sendWholeVector_spec g vec vecs.flatten ⟨vecs, hr, rfl⟩ hv w
    refine ((sendWholeVector_why (g := g) vec w).and (S := fun _ es w' => received es = [] ∧ w'.ctx.bufSize = w.ctx.bufSize ∧ w'.ctx.connectStatus ≠ .connected)
      (wp_mono hs ?_ (fun _ h => h) (fun _ h => h))).mono fun st es w' h => ⟨h.1, fun _ => h.2⟩
    rintro st w' ⟨es, d, _⟩
    obtain ⟨t, hc⟩ := d.ctx
    refine ⟨es, d.trace, received_of_kinds d.kinds, by rw [hc]; rfl, ?_⟩
    rw [hc]
    show afterFail _ _ ≠ _
    unfold afterFail
    split
    · decide
    · exact hnc

theorem receivePacket_ev (n : Nat) (t : UInt32) (w : World) :
    Ev (receivePacket g n t) w (fun st es _ => Why g NoX st es w ∨ w.ctx.bufSize < n ∧ (st = .recvFailed ∨ st = .noDataAvailable)) := by
  unfold receivePacket
  refine Ev.getCtx (Ev.ite (fun hn => ?_) fun _ => ?_)
  · unfold discardPacket
    refine Ev.getCtx (Ev.getTime fun t0 w1 _ => Ev.clockFuel fun k => ?_)
    refine Ev.bind (fun _ _ _ => True) ?_ fun r es w2 _ => Ev.ite (fun _ => Ev.pure (Or.inr ⟨hn, Or.inr rfl⟩)) (fun _ => Ev.pure (Or.inr ⟨hn, Or.inl rfl⟩))
    suffices ∀ k a b w, Ev (discardLoop g t t0 k a b) w (fun _ _ _ => True) from this _ _ _ _
    intro k
    induction k with
    | zero => exact fun _ _ _ => Ev.stuck
    | succ k ih =>
      intro a b w
      unfold discardLoop
      refine Ev.ite (fun _ => ?_) (fun _ => Ev.pure trivial)
      refine Ev.bind _ (recvExact_ev g _ w) fun r es w2 _ => Ev.ite (fun _ => Ev.pure trivial) fun _ => Ev.getTime fun t w3 _ => ?_
      exact Ev.ite (fun _ => Ev.pure trivial) (fun _ => ih _ _ _)
  · refine Ev.bind _ (recvExact_ev g n w) fun r es w1 h => Ev.ite (fun _ => Ev.pure (Or.inl (Why.calm rfl))) fun hr => Ev.pure (Or.inl ?_)
    rw [List.append_nil]
    exact ⟨fun h => (by cases h), fun _ => Or.inl (h.resolve_left hr), fun h => (by cases h), fun h => (by cases h)⟩

theorem receiveConnack_why (t : UInt32) (clean sp0 : Bool) (w : World) (hnc : w.ctx.connectStatus ≠ .connected) :
    Ev (receiveConnack g t clean sp0) w (fun r es w' => Why g (BigX w.ctx.bufSize) r.1 es w') := by
  unfold receiveConnack
  refine Ev.getTime fun t0 w1 hc1 => Ev.recvFuel fun k => ?_
  refine Ev.bind (fun hr es w' => w'.ctx = w1.ctx ∧ Polled g t t0 0 hr es) ?_ ?_
  · refine wp_mono (connackLoop_tr (V := True) (h := true) g t t0 k 0 w1 (by rw [hc1]; exact hnc) (fun _ => Nat.zero_le _)) ?_ (fun _ _ => trivial) (fun _ _ => trivial)
    rintro hr w' ⟨es, h', f, -, k2, -, k4⟩
    exact ⟨es, f.trace, k2, k4⟩
  rintro hr es w2 ⟨hc2, hp⟩
  refine Ev.ite (fun hne => Ev.pure ?_) fun hst => ?_
  · rw [List.append_nil]
    show Why g _ hr.status _ _
    obtain ⟨ts, _, ⟨h1, t', _, h2⟩ | ⟨h1, hd, t', h2, h3⟩⟩ := hp
    · rw [h1]; exact Why.calm rfl
    · rcases h2 with ⟨k, _⟩ | ⟨k, h⟩ | ⟨k, _⟩ | ⟨k, _⟩
      · rw [k]; exact Why.calm rfl
      · rw [k]
        refine ⟨fun h => (by cases h), fun _ => Or.inl (Or.inl ⟨1, ?_⟩), fun h => (by cases h), fun h => (by cases h)⟩
        rw [h3, h]; simp
      · rw [k]; exact Why.calm rfl
      · exact absurd k hne
  · have hst : hr.status = .success := Decidable.byContradiction hst
    rcases hp.header with ⟨hst', _⟩ | ⟨-, -, hlen, hrec, -⟩
    · rw [hst] at hst'; rcases hst' with h | h | h <;> cases h
    unfold finishConnack
    refine Ev.getTime fun t1 w3 hc3 => ?_
    dsimp only
    refine Ev.ite (fun hty => ?_) (fun _ => Ev.pure (Why.calm rfl))
    have hb : w3.ctx.bufSize = w.ctx.bufSize := by rw [hc3, hc2, hc1]
    refine Ev.bind _ (receivePacket_ev hr.remainingLength _ w3) fun st es2 w4 h => Ev.ite (fun _ => Ev.pure ?_) fun _ => Ev.getCtx (Ev.liftRes fun x hx => ?_)
    · rw [List.append_nil]
      rcases h with h | ⟨hb', rfl | rfl⟩
      · have := h.later (.time t0 :: (es ++ [.time t1])) (fun x => x)
        have e : .time t0 :: (es ++ [.time t1]) ++ es2 = .time t0 :: (es ++ .time t1 :: es2) := by simp
        rw [e] at this
        have z := (this.weaken (X' := BigX w.ctx.bufSize) (fun x => x.elim)).before (w' := w4) [] (fun x => (by rw [List.append_nil]; exact x))
        rw [List.append_nil] at z
        exact z
      · refine ⟨fun h => (by cases h), fun _ => Or.inr ⟨hr.remainingLength, received es2, ?_, hlen, by rw [← hb]; exact hb'⟩, fun h => (by cases h), fun h => (by cases h)⟩
        rw [received_time, received_append, received_time, hrec, hty]
        rfl
      · exact Why.calm rfl
    · have hcl := deserializeAck_calm _ _ _ x hx
      obtain ⟨st', y⟩ := x
      dsimp only
      exact Ev.ite (fun _ => Ev.pure (Why.calm rfl)) (fun _ => Ev.pure (Why.calm hcl))

theorem resendPubrels_why (n c : Nat) (w : World) : Ev (resendPubrels g n c) w (Why g NoX) := by
  induction n generalizing c w with
  | zero => exact Ev.stuck
  | succ n ih =>
    unfold resendPubrels
    refine Ev.getCtx (Ev.liftRes fun x _ => Ev.ite (fun _ => Ev.pure (Why.calm rfl)) fun _ => ?_)
    exact Ev.bind _ (sendPublishAcks_why _ _ w) fun st es w1 h => Ev.ite (fun _ => Ev.pure h.fin) (fun _ => Ev.before es (ih _ w1))

theorem resendPublishes_why (n c : Nat) (w : World) : Ev (resendPublishes g n c) w (Why g NoX) := by
  induction n generalizing c w with
  | zero => exact Ev.stuck
  | succ n ih =>
    unfold resendPublishes
    refine Ev.getCtx (Ev.liftRes fun x _ => Ev.ite (fun _ => Ev.pure (Why.calm rfl)) fun _ => ?_)
    refine Ev.bind (fun r es _ => r = none → notRetrieved es) ?_ fun r es w1 h => ?_
    · exact wp_retrieveCallback trivial fun b rest _ => ⟨[.retrieve x.1 b], rfl, fun hb => ⟨x.1, by rw [← hb]; exact List.mem_singleton.mpr rfl⟩⟩
    cases r with
    | none =>
      refine Ev.pure ?_
      rw [List.append_nil]
      exact ⟨fun h => (by cases h), fun h => (by cases h), fun h => (by cases h), fun _ => h rfl⟩
    | some bytes =>
      refine Ev.before es (Ev.preHook fun w2 _ => Ev.before [.pre] ?_)
      refine Ev.bind _ (sendBuffer_ev g bytes w2) fun r es2 w3 h2 => Ev.postHook fun w4 _ => ?_
      refine Ev.ite (fun hne => Ev.pure ?_) (fun _ => (ih _ w4).mono fun _ _ _ k => ?_)
      · refine Why.before (w := w3) (X := NoX) ?_ [.post] (fun x => x)
        exact ⟨fun _ => h2.resolve_left hne, fun h => (by cases h), fun h => (by cases h), fun h => (by cases h)⟩
      · have := k.later (es2 ++ [.post]) (fun x => x)
        simpa using this

theorem resumption_why (w : World) : Ev (handleUncleanSessionResumption g) w (Why g NoX) := by
  unfold handleUncleanSessionResumption
  refine Ev.getCtx (Ev.bind _ (resendPubrels_why _ _ w) fun st es w1 h => ?_)
  exact Ev.ite (fun _ => Ev.before es (resendPublishes_why _ _ w1)) (fun _ => Ev.pure h.fin)

theorem handleCleanSession_ev (w : World) : Ev handleCleanSession w (fun st _ _ => st = .success) := by
  unfold handleCleanSession resetBuffer
  refine Ev.modifyCtx (Ev.getCtx ?_)
  dsimp only
  split
  · refine Ev.bind (fun _ _ _ => True) ?_ fun _ _ _ _ => Ev.modifyCtx (Ev.pure rfl)
    suffices ∀ n c w, Ev (clearStored n c) w (fun _ _ _ => True) from this _ _ _
    intro n
    induction n with
    | zero => exact fun _ _ => Ev.stuck
    | succ n ih =>
      intro c w
      unfold clearStored
      refine Ev.getCtx (Ev.liftRes fun x _ => Ev.ite (fun _ => Ev.pure trivial) fun _ => ?_)
      exact Ev.bind (fun _ _ _ => True) ⟨[_], rfl, trivial⟩ fun _ _ w1 _ => ih _ w1
  · exact Ev.modifyCtx (Ev.pure rfl)

theorem connectLocked_why (ci : ConnectInfo) (will : Option PublishInfo) (n : Nat) (t : UInt32) (sp0 : Bool) (w : World) :
    Ev (connectLocked g ci will n t sp0) w (fun r es w' => Why g (BigX w.ctx.bufSize) r.1 es w') := by
  unfold connectLocked
  refine Ev.getCtx (Ev.ite (fun _ => Ev.pure (Why.calm ?_)) fun hc => ?_)
  · show calmStatus (if _ then _ else _) = true
    split <;> rfl
  have hc : w.ctx.connectStatus = .notConnected := Decidable.byContradiction hc
  refine Ev.bind _ (sendConnect_ev ci will n w (by rw [hc]; decide)) fun st es w1 h => Ev.ite (fun _ => Ev.pure ?_) fun hst => ?_
  · exact (h.1.weaken (fun x => x.elim)).before [] (fun ⟨n, rest, h1, h2⟩ => ⟨n, rest, by simpa using h1, h2⟩)
  obtain ⟨h1, h2, h3⟩ := h.2 (Decidable.byContradiction hst)
  refine Ev.bind _ (receiveConnack_why t ci.cleanSession sp0 w1 h3) fun r es2 w2 hr => ?_
  rw [h2] at hr
  obtain ⟨st2, sp⟩ := r
  refine Ev.ite (fun _ => Ev.pure ?_) fun _ => ?_
  · have := hr.grow (w' := w2) es [] (fun x => BigX.grow h1 x)
    simpa using this
  · refine Ev.bind (fun st _ _ => calmStatus st = true) (Ev.ite (fun _ => (handleCleanSession_ev w2).mono fun st _ _ h => (by rw [h]; rfl)) (fun _ => Ev.pure rfl)) fun st3 es3 w3 h => ?_
    dsimp only
    split
    · exact Ev.modifyCtx (Ev.pure (Why.calm h))
    · exact Ev.pure (Why.calm h)

theorem mqttConnect_why (ci : Option ConnectInfo) (will : Option PublishInfo) (t : UInt32) (sp : Option Bool) (w : World) :
    Ev (mqttConnect g ci will t sp) w (fun r es w' => Why g (BigX w.ctx.bufSize) r.1 es w') := by
  have hcf : ∀ st (w : World), Ev (connectFailed st) w (fun _ es _ => received es = []) := by
    intro st w
    unfold connectFailed
    refine Ev.ite (fun _ => Ev.pure rfl) fun _ => ⟨[.pre, .post], by simp, rfl⟩
  have fin : ∀ st (sp : Option Bool) (es : List Event) (w w1 : World), Why g (BigX w.ctx.bufSize) st es w1 →
      Ev (do connectFailed st; pure (st, sp)) w1 (fun r es2 w' => Why g (BigX w.ctx.bufSize) r.1 (es ++ es2) w') := by
    intro st sp es w w1 h
    refine Ev.bind _ (hcf st w1) fun _ es2 w2 h2 => Ev.pure ?_
    rw [List.append_nil]
    exact h.before es2 (fun x => by have := BigX.grow (a := []) (b := es2) (w' := w2) rfl x; simpa using this)
  unfold mqttConnect
  split
  · rename_i ci sp0
    refine Ev.bind (fun r es w' => Why g (BigX w.ctx.bufSize) r.1 es w') (Ev.ite (fun _ => ?_) (fun _ => Ev.pure (Why.calm (getConnectPacketSize_calm _ _)))) fun r es w1 h => fin _ _ es w w1 h
    unfold connectCore
    refine Ev.preHook fun w1 hc => ?_
    refine Ev.bind _ (connectLocked_why ci will _ t sp0 w1) fun r es w2 h => Ev.postHook fun w3 _ => ?_
    rw [hc] at h
    obtain ⟨st, sp⟩ := r
    refine Ev.ite (fun _ => ?_) fun _ => Ev.pure ?_
    · refine Ev.bind _ (resumption_why w3) fun st es2 w4 h2 => Ev.pure ?_
      have := (h2.later (.pre :: (es ++ [.post])) (fun x => x)).weaken (X' := BigX w.ctx.bufSize) (fun x => x.elim)
      simpa using this
    · have := h.grow (w' := w3) [.pre] [.post] (fun x => BigX.grow rfl x)
      simpa using this
  · exact fin .badParameter _ [] w w (Why.calm rfl)

/-! ### Every call -/

/-- The other cause of `MQTTRecvFailed`, with the records as they are at the end. -/
def otherX (c : ApiCall) (cap : Nat) : List Event → World → Prop :=
  match c with
  | .processLoop | .receiveLoop => LoopX
  | .connect .. => BigX cap
  | _ => NoX

theorem ev_ret {m : M Status} {w : World} {X : List Event → World → Prop} (h : Ev m w (Why g X)) :
    Ev (do pure (ApiRet.status (← m))) w (fun r es w' => ∀ st, r.code = some st → Why g X st es w') :=
  Ev.bind _ h fun st es w1 k => Ev.pure (by rintro st' ⟨⟩; rw [List.append_nil]; exact k)

theorem apiCall_why (c : ApiCall) (w : World) :
    Ev (apiCall g c) w (fun r es w' => ∀ st, r.code = some st → Why g (otherX c w.ctx.bufSize) st es w') := by
  cases c with
  | connect ci will t sp =>
    exact Ev.bind _ (mqttConnect_why ci will t sp w) fun r es w1 k => Ev.pure (by rintro st' ⟨⟩; rw [List.append_nil]; exact k)
  | subscribe subs id => exact ev_ret (mqttSubUnsub_why _ subs id w)
  | unsubscribe subs id => exact ev_ret (mqttSubUnsub_why _ subs id w)
  | publish p id => exact ev_ret (mqttPublish_why p id w)
  | ping => exact ev_ret (mqttPing_why w)
  | disconnect => exact ev_ret (mqttDisconnect_why w)
  | processLoop =>
    refine ev_ret ?_
    unfold mqttProcessLoop
    exact Ev.modifyCtx (receiveSingleIteration_why true _)
  | receiveLoop => exact ev_ret (receiveSingleIteration_why false w)
  | cancelCallback id => exact ev_ret (mqttCancelCallback_why id w)
  | checkConnectStatus => exact ev_ret (mqttCheckConnectStatus_why w)
  | getPacketId =>
    refine Ev.bind (fun _ _ _ => True) ?_ fun r es w1 k => Ev.pure (by rintro st' ⟨⟩)
    unfold mqttGetPacketId
    exact Ev.preHook fun w1 _ => Ev.getCtx (Ev.modifyCtx (Ev.postHook fun w2 _ => Ev.pure trivial))

/-- The causes, for a call made in a reachable state. -/
theorem call_causes {h : List (ApiCall × ApiRet)} {w w' : World} {e : Env} {c : ApiCall} {r : ApiRet} {st : Status} (hh : FromInit g h w)
    (hv : ValidCall g c) (hd : callIn g w e c = .done r w') (hr : r.code = some st) :
    Why g (fun es _ => otherCause c w.ctx es) st (callEvents g w e c) w' := by
  obtain ⟨es, h1, h2⟩ := (apiCall_why (g := g) c { w with env := e }).done hd
  have he : callEvents g w e c = es := by
    exact newEvents_done (m := apiCall g c) hd h1
  rw [he]
  refine (h2 st hr).weaken fun hx => ?_
  have loop : w'.ctx.tables.incoming = [] → w.ctx.tables.incoming = [] := by
    intro h0
    obtain ⟨oc, ic, hi⟩ := hh.inv
    obtain ⟨_, s, k1, _, k2⟩ := hi.call hh.cfg hv hd
    obtain ⟨_, s', k3, _, k4⟩ := hi
    have k5 := k1.2.1
    have k6 := k3.2.1
    rw [k2, h0] at k5
    rw [k4, ← k5] at k6
    exact List.eq_nil_of_length_eq_zero k6
  cases c <;> first | exact hx | exact loop hx

end
end Mqtt
