/-
The handlers of incoming packets in core_mqtt.c, related to the specification `Spec.react`.
-/
import Verif.Proof.EffectsSend
import Verif.Proof.Incoming

namespace Mqtt
open Spec
set_option linter.unusedSimpArgs false

theorem outRec_inj {a b : UInt16 × OutPhase} (h : outRec a = outRec b) : a = b := by
  obtain ⟨i, p⟩ := a
  obtain ⟨j, q⟩ := b
  cases p <;> cases q <;> simp_all [outRec]

theorem inRec_inj {a b : UInt16 × InPhase} (h : inRec a = inRec b) : a = b := by
  obtain ⟨i, p⟩ := a
  obtain ⟨j, q⟩ := b
  cases p <;> cases q <;> simp_all [inRec]

theorem map_inj {α β : Type} {f : α → β} (hf : ∀ a b, f a = f b → a = b) {l m : List α} (h : l.map f = m.map f) : l = m := by
  induction l generalizing m with
  | nil => cases m with
    | nil => rfl
    | cons _ _ => simp at h
  | cons a l ih => cases m with
    | nil => simp at h
    | cons b m =>
      simp only [List.map_cons, List.cons.injEq] at h
      rw [hf a b h.1, ih h.2]

/-- The arrays determine the in-flight publishes. -/
theorem represents_unique {t : Tables} {s s' : InFlight} (h : Represents t s) (h' : Represents t s') : s = s' := by
  obtain ⟨a, b⟩ := h
  obtain ⟨a', b'⟩ := h'
  have h1 := a.size.symm.trans a'.size
  have h2 := b.size.symm.trans b'.size
  have h3 := map_inj (fun _ _ => outRec_inj) (a.entries.symm.trans a'.entries)
  have h4 := map_inj (fun _ _ => inRec_inj) (b.entries.symm.trans b'.entries)
  cases s; cases s'
  simp_all

/-- The events between a state update and the acknowledgement: hooks and callbacks. -/
def isLocal : Event → Bool
  | .pre | .post | .app .. | .clear _ => true
  | _ => false

theorem local_props {es : List Event} (h : ∀ e ∈ es, isLocal e = true) :
    hasFail es = false ∧ noSent es ∧ received es = [] ∧ wire es = [] ∧ (∀ e ∈ es, isRecvd e = false) := by
  have hn : noSent es := by
    intro e he
    have := h e he
    cases e <;> simp_all [isLocal, isSent]
  refine ⟨?_, hn, ?_, wire_of_noSent hn, ?_⟩
  · rw [hasFail, List.any_eq_false]
    intro e he
    have := h e he
    cases e <;> simp_all [isLocal, isFail]
  · unfold received
    rw [List.flatMap_eq_nil_iff]
    intro e he
    have := h e he
    cases e <;> simp_all [isLocal]
  · intro e he
    have := h e he
    cases e <;> simp_all [isLocal, isRecvd]

theorem quietAfterFail_of_noSent {es : List Event} (h : noSent es) : quietAfterFail es := by
  induction es with
  | nil => trivial
  | cons e es ih =>
    have h2 : noSent es := fun x hx => h x (List.mem_cons_of_mem _ hx)
    unfold quietAfterFail
    split
    · exact h2
    · exact ih h2

/-- A state update together with the callbacks it leads to. -/
theorem Fx.compound {w w' : World} {es : List Event} {s s' : InFlight} {T : Tables} (ht : w'.trace = w.trace ++ es)
    (he : w'.env = w.env) (hc : w'.ctx = { w.ctx with tables := T }) (hk : ∀ e ∈ es, isLocal e = true)
    (hlock : lockRun false es = Option.some false) (hclear : clearsOk es) (hrep : Represents w.ctx.tables s) (hrep' : Represents T s')
    (hcap : s'.outCap = s.outCap ∧ s'.inCap = s.inCap)
    (hmon : ∀ m : Mon, (∀ id ∈ m.opened, s.inc.phase id = Option.some .sendPubrec ∨ s.inc.phase id = Option.some .awaitPubrel) →
      (∀ id ∈ m.out, s.out.phase id ≠ none) → ∃ m', monRun m es = Option.some m' ∧
        (∀ id ∈ m'.opened, s'.inc.phase id = Option.some .sendPubrec ∨ s'.inc.phase id = Option.some .awaitPubrel) ∧
        ∀ id ∈ m'.out, s'.out.phase id ≠ none) :
    Fx false w es false w' := by
  obtain ⟨h1, h2, h3, h4, _⟩ := local_props hk
  refine ⟨ht, by rw [hc, h1, afterFail_false], quietAfterFail_of_noSent h2, fun _ => h2, hlock, by rw [hc], by rw [hc],
    by rw [hc]; rfl, by rw [hc], by rw [h3, he]; rfl, by rw [hc], ?_, ?_, hclear⟩
  · rintro oc ic ⟨hi, s2, hs2, h5, h6⟩
    have := represents_unique hs2 hrep
    subst this
    rw [hc]
    exact ⟨hi, s', hrep', hcap.1.trans h5, hcap.2.trans h6⟩
  · rintro m ⟨s2, hs2, h5, h6⟩
    have := represents_unique hs2 hrep
    subst this
    obtain ⟨m', e1, e2, e3⟩ := hmon m h5 h6
    rw [hc]
    exact ⟨m', e1, s', hrep', e2, e3⟩

/-- What handling a packet did, compared to the reaction `r` that is specified. -/
structure Reacted (r : Reaction) (w : World) (st : Status) (es : List Event) (w' : World) : Prop where
  calls : callbacks es = r.callbacks
  noRecv : ∀ e ∈ es, isRecvd e = false
  ctx : ∃ t b T, w'.ctx = { w.ctx with lastPacketTxTime := t, connectStatus := afterFail (hasFail es) w.ctx.connectStatus,
                                       controlPacketSent := b, tables := T,
                                       waitingForPingResp := if r.pong then false else w.ctx.waitingForPingResp }
  cases :
    (r.ack = none ∧ wire es = [] ∧ hasFail es = false ∧ st = r.status ∧ Represents w'.ctx.tables r.state) ∨
    (r.ack ≠ none ∧ w.ctx.connectStatus ≠ .connected ∧ wire es = [] ∧ hasFail es = false ∧
      st = notConnectedStatus w.ctx.connectStatus ∧ Represents w'.ctx.tables r.state) ∨
    (r.ack ≠ none ∧ w.ctx.connectStatus = .connected ∧ wire es <+: ackWire r.ack ∧ wire es ≠ ackWire r.ack ∧
      st = .sendFailed ∧ Represents w'.ctx.tables r.state ∧ ∃ a, Event.sent (ackWire r.ack) a ∈ es) ∨
    (∃ ty id, r.ack = some (ty, id) ∧ w.ctx.connectStatus = .connected ∧ wire es = ackWire r.ack ∧ hasFail es = false ∧
      st = (step r.state (.ack .send ty id)).1.1 ∧ Represents w'.ctx.tables (step r.state (.ack .send ty id)).2)

/-- The events when handling a packet does not return. -/
def ReactX (r : Reaction) (es : List Event) : Prop :=
  callbacks es <+: r.callbacks ∧ (∀ e ∈ es, isRecvd e = false) ∧ wire es <+: ackWire r.ack

theorem ReactX.nil (r : Reaction) : ReactX r [] := ⟨List.nil_prefix, by simp, List.nil_prefix⟩

theorem ackPacket_eq (ty : AckType) (id : UInt16) : ackPacket ty id = ackWire (some (ty, id)) := by
  cases ty <;> rfl

theorem callbacks_of_ack {es : List Event} (h : ∀ e ∈ es, isAckEvent e = true) : callbacks es = [] ∧ (∀ e ∈ es, isRecvd e = false) := by
  constructor
  · unfold callbacks
    rw [List.filter_eq_nil_iff]
    intro e he
    have := h e he
    cases e <;> simp_all [isAckEvent, isCallback]
  · intro e he
    have := h e he
    cases e <;> simp_all [isAckEvent, isRecvd]

theorem ackBytes_eq (s : PubState) (id : UInt16) : ackBytes s id = ackWire ((ackOf s).map fun ty => (ty, id)) := by
  unfold ackBytes
  cases ackOf s with
  | none => rfl
  | some ty => exact ackPacket_eq ty id

/-- Sending the acknowledgement of a reaction, after its callbacks. -/
theorem finish_tr {V : Prop} (g : Cfg) (r : Reaction) (id : UInt16) (s : PubState) {w w1 : World} {a : List Event} {T : Tables}
    (hk : ∀ e ∈ a, isLocal e = true) (hcb : callbacks a = r.callbacks) (hc : w1.ctx = { w.ctx with tables := T })
    (hrep : Represents T r.state) (hack : r.ack = (ackOf s).map fun ty => (ty, id)) (hid : r.ack ≠ none → id ≠ 0)
    (hst : r.ack = none → r.status = .success) (hp : r.pong = false) :
    Tr V false (sendPublishAcks g id s) (fun st es h' w' => h' = false ∧ Reacted r w st (a ++ es) w') (fun es => ReactX r (a ++ es)) w1 := by
  obtain ⟨l1, l2, l3, l4, l5⟩ := local_props hk
  refine Tr.mono (sendPublishAcks_tr g id s w1) ?_ ?_
  · rintro st es h' w' f ⟨h1, hd⟩
    obtain ⟨c1, c2⟩ := callbacks_of_ack hd.kinds
    have hw : wire (a ++ es) = wire es := by rw [wire_append, l4]; rfl
    have hf : hasFail (a ++ es) = hasFail es := by rw [hasFail_append, l1]; rfl
    refine ⟨h1, by rw [callbacks_append, c1, hcb, List.append_nil], ?_, ?_, ?_⟩
    · intro e he
      rcases List.mem_append.mp he with he | he
      · exact l5 e he
      · exact c2 e he
    · obtain ⟨t, b, T', hT⟩ := hd.ctx
      refine ⟨t, b, T', ?_⟩
      rw [hT, hc, hf, hp]; rfl
    · rw [hw, hf]
      have hcs : w1.ctx.connectStatus = w.ctx.connectStatus := by rw [hc]
      have htab : w1.ctx.tables = T := by rw [hc]
      rcases hd.cases with ⟨e1, e2, e3, e4⟩ | ⟨ty, e1, e2, _⟩ | ⟨ty, e1, e2, e3, e4, e5, e6, e7⟩ | ⟨ty, e1, e2, e3, e4, e5, e6, e7⟩ |
        ⟨ty, e1, e2, e3, e4, e5, _, e6⟩
      · rw [e1] at hack
        subst e4
        exact Or.inl ⟨hack, by rw [e2]; rfl, by rw [e2]; rfl, by rw [e3, hst hack], by rw [htab]; exact hrep⟩
      · rw [e1] at hack
        exact absurd e2 (hid (by rw [hack]; simp))
      · rw [e1] at hack
        refine Or.inr (Or.inl ⟨by rw [hack]; simp, by rw [← hcs]; exact e3, e4, e5, by rw [← hcs]; exact e6, by rw [e7, htab]; exact hrep⟩)
      · rw [e1] at hack
        have hb : ackWire r.ack = ackPacket ty id := by rw [hack, ackPacket_eq]; rfl
        refine Or.inr (Or.inr (Or.inl ⟨by rw [hack]; simp, by rw [← hcs]; exact e3, by rw [hb]; exact e4, by rw [hb]; exact e5, e6,
          by rw [e7.1, htab]; exact hrep, by obtain ⟨a', ha⟩ := e7.2; exact ⟨a', by rw [hb]; exact List.mem_append_right _ ha⟩⟩))
      · rw [e1] at hack
        have hb : ackWire r.ack = ackPacket ty id := by rw [hack, ackPacket_eq]; rfl
        have := e6 r.state (by rw [htab]; exact hrep)
        exact Or.inr (Or.inr (Or.inr ⟨ty, id, hack, by rw [← hcs]; exact e3, by rw [hb]; exact e4, e5, this⟩))
  · intro es hes
    obtain ⟨c1, c2⟩ := callbacks_of_ack hes.1
    refine ⟨by rw [callbacks_append, c1, hcb, List.append_nil]; exact List.prefix_refl _, ?_, ?_⟩
    · intro e he
      rcases List.mem_append.mp he with he | he
      · exact l5 e he
      · exact c2 e he
    · rw [wire_append, l4, hack, ← ackBytes_eq]
      exact hes.2

/-- The outcome of `recordIncomingPublish` for an answer of the state engine. -/
def recordResult (q : QoS) (a : Answer) : Status × PubState × Bool :=
  if a.1 = .success then (.success, a.2.getD .null, false)
  else if a.1 = .stateCollision then (.success, calculateStatePublish .receive q, true)
  else (a.1, .null, false)

/-- The world after a state update inside the hooks. -/
def updatedWorld (w : World) (T : Tables) : World :=
  { w with ctx := { w.ctx with tables := T }, trace := w.trace ++ [.pre, .post] }

theorem wp_record {Q : Status × PubState × Bool → World → Prop} {E U : World → Prop} {w : World} {id : UInt16} {q : QoS} {a : Answer}
    {T : Tables} (hs : stateCall w.ctx.tables (.publish .receive id q) = .ok (a, T)) (hQ : Q (recordResult q a) (updatedWorld w T)) :
    wp (recordIncomingPublish id q) Q E U w := by
  unfold recordIncomingPublish
  rw [wp_bind, wp_preHook, wp_bind]
  show wp (onTables fun t => stateCall t (.publish .receive id q)) _ _ _ _
  rw [wp_onTables]
  simp only [hs]
  rw [wp_bind, wp_postHook]
  have hw : ({ ctx := { w.ctx with tables := T }, env := w.env, trace := w.trace ++ [Event.pre] ++ [Event.post] } : World)
      = updatedWorld w T := by simp [updatedWorld]
  rw [hw]
  obtain ⟨st, o⟩ := a
  unfold recordResult at hQ
  simp only at hQ ⊢
  by_cases h1 : st = .success
  · rw [if_pos h1] at hQ; rw [if_pos h1]; exact hQ
  · rw [if_neg h1] at hQ; rw [if_neg h1]
    by_cases h2 : st = .stateCollision
    · rw [if_pos h2] at hQ; rw [if_pos h2]; exact hQ
    · rw [if_neg h2] at hQ; rw [if_neg h2]; exact hQ


/-- A packet description as `receiveSingleIteration` builds it: the body, followed by whatever else is in the buffer. -/
def packetOf (t : UInt8) (body extra : List UInt8) (h : Nat) : PacketInfo := ⟨t, some (body ++ extra), body.length, h⟩

theorem appCallback_publish (t : UInt8) (body extra : List UInt8) (h : Nat) (id : UInt16) (p : PublishInfo) :
    appCallback (packetOf t body extra h) id .success (some p) = emit (.app t body id .success (some p.view)) := by
  unfold appCallback packetOf PublishInfo.view
  simp

theorem appCallback_ack (t : UInt8) (body extra : List UInt8) (h : Nat) (id : UInt16) (st : Status) :
    appCallback (packetOf t body extra h) id st none = emit (.app t body id st none) := by
  unfold appCallback packetOf
  simp

theorem ackOf_publish (q : QoS) (id : UInt16) : (ackOf (calculateStatePublish .receive q)).map (fun ty => (ty, id)) = publishAck q id := by
  cases q <;> rfl

theorem step_publish_receive (s : InFlight) (id : UInt16) (q : QoS) (hid : q ≠ .qos0 → id ≠ 0) :
    let a := step s (.publish .receive id q)
    (a.1.1 = .success → a.1.2 = some (calculateStatePublish .receive q) ∧
      (q = .qos2 → s.inc.phase id = none ∧ a.2.inc.phase id = some .sendPubrec)) ∧
    (a.1.1 ≠ .success → a.2 = s) := by
  cases q with
  | qos0 => simp [step, calculateStatePublish]
  | qos1 =>
    have hid := hid (by simp)
    simp only [step, hid, if_false, Table.insert]
    split
    · simp
    · split
      · simp
      · simp [calculateStatePublish]
  | qos2 =>
    have hid := hid (by simp)
    simp only [step, hid, if_false, Table.insert]
    split
    · simp
    · next hm =>
      have hn : s.inc.phase id = none := Classical.not_not.mp (fun h => hm (phase_mem.mpr h))
      split
      · simp
      · simp [calculateStatePublish, hn, phase_append]

theorem handleIncomingPublish_tr {V : Prop} (g : Cfg) (retx manage : Bool) (t : UInt8) (body extra : List UInt8) (h : Nat) (w : World) (s : InFlight)
    (ht : t.toNat / 16 = 3) (hW : body.length < g.W) (hrep : Represents w.ctx.tables s) :
    Tr V false (handleIncomingPublish g (packetOf t body extra h))
      (fun st es h' w' => h' = false ∧ Reacted (react retx manage s t body) w st es w') (ReactX (react retx manage s t body)) w := by
  unfold handleIncomingPublish
  have same : ∀ st, Reacted ⟨st, [], none, s, false⟩ w st [] w := fun st =>
    ⟨rfl, by simp, ⟨w.ctx.lastPacketTxTime, w.ctx.controlPacketSent, w.ctx.tables, by simp [hasFail, afterFail_false]⟩,
      Or.inl ⟨rfl, rfl, rfl, rfl, hrep⟩⟩
  rcases deser_publish t body extra h ht hW with ⟨h1, h2⟩ | ⟨id, p, h1, h2, h3⟩
  · refine Tr.liftOk h2 ?_
    have hr : react retx manage s t body = ⟨.badResponse, [], none, s, false⟩ := by unfold react; rw [h1]
    rw [hr]
    exact Tr.pure ⟨rfl, same _⟩
  · refine Tr.liftOk h2 ?_
    refine Tr.getCtx ?_
    refine Tr.ite (fun h => absurd rfl h) (fun _ => ?_)
    have hr : react retx manage s t body = reactPublish s t body id p.view := by unfold react; rw [h1]
    rw [hr]
    have hq : p.view.qos = p.qos := rfl
    have hcap : w.ctx.tables.incoming = [] ↔ s.inCap = 0 := by
      rw [← hrep.2.size]; exact List.length_eq_zero_iff.symm
    unfold reactPublish
    rw [hq]
    refine Tr.ite ?_ ?_
    · intro hc
      rw [hcap] at hc
      rw [if_pos hc]
      exact Tr.pure ⟨rfl, same _⟩
    · intro hc
      rw [hcap] at hc
      rw [if_neg hc]
      have hroom : Room s (.publish .receive id p.qos) := by
        show p.qos = .qos0 ∨ 1 ≤ s.inCap
        by_cases hq0 : p.qos = .qos0
        · exact Or.inl hq0
        · exact Or.inr (Nat.one_le_iff_ne_zero.mpr fun h => hc ⟨h, hq0⟩)
      obtain ⟨T, e1, e2, e3⟩ := stateCall_refines' hrep (.publish .receive id p.qos) hroom (by simp)
      obtain ⟨k1, k2⟩ := step_publish_receive s id p.qos h3
      have kq := step_quiet (s := s) (c := .publish .receive id p.qos) trivial
      generalize hst : step s (.publish .receive id p.qos) = A at *
      obtain ⟨⟨st, o⟩, s'⟩ := A
      simp only at e1 e2 e3 k1 k2 kq ⊢
      unfold Tr
      rw [wp_bind]
      refine wp_record e1 ?_
      unfold recordResult
      simp only
      -- the state update alone
      have fu : Fx false w [.pre, .post] false (updatedWorld w T) :=
        Fx.compound rfl rfl rfl (by simp [isLocal]) rfl trivial hrep e2 e3
          (fun m hm1 hm2 => ⟨m, rfl, fun i hi => kq.1 i (hm1 i hi), fun i hi => kq.2 i (hm2 i hi)⟩)
      by_cases hs1 : st = .success
      · subst hs1
        obtain ⟨k3, k4⟩ := k1 rfl
        subst k3
        simp only [if_true, ne_eq, not_true, if_false, Option.getD_some]
        rw [appCallback_publish, wp_bind, wp_emit]
        have f : Fx false w [.pre, .post, .app t body id .success (some p.view)] false
            { updatedWorld w T with trace := (updatedWorld w T).trace ++ [.app t body id .success (some p.view)] } := by
          refine Fx.compound (by simp [updatedWorld]) rfl rfl (by simp [isLocal]) rfl trivial hrep e2 e3 ?_
          intro m hm1 hm2
          by_cases hq2 : p.qos = .qos2
          · obtain ⟨k5, k6⟩ := k4 hq2
            have hn : id ∉ m.opened := fun hmem => by rcases hm1 id hmem with h | h <;> rw [k5] at h <;> cases h
            refine ⟨{ m with opened := id :: m.opened }, by simp [monRun, monStep, hq, hq2, hn], ?_, fun i hi => kq.2 i (hm2 i hi)⟩
            intro i hi
            rcases List.mem_cons.mp hi with rfl | hi
            · exact Or.inl k6
            · exact kq.1 i (hm1 i hi)
          · exact ⟨m, by simp [monRun, monStep, hq, hq2], fun i hi => kq.1 i (hm1 i hi), fun i hi => kq.2 i (hm2 i hi)⟩
        refine Tr.after f ?_
        refine finish_tr g _ id _ (by simp [isLocal]) rfl rfl e2 (ackOf_publish _ _).symm ?_ (fun _ => rfl) rfl
        intro hne
        refine h3 ?_
        intro hq0
        rw [hq0] at hne
        exact hne rfl
      · rw [if_neg hs1, if_neg hs1]
        have hs' := k2 hs1
        subst hs'
        by_cases hs2 : st = .stateCollision
        · rw [if_pos hs2, if_pos hs2]
          refine Tr.after fu ?_
          simp only [ne_eq, not_true, if_false, Bool.true_eq_false]
          refine finish_tr g _ id _ (by simp [isLocal]) rfl rfl e2 (ackOf_publish _ _).symm ?_ (fun _ => rfl) rfl
          intro hne
          refine h3 ?_
          intro hq0
          rw [hq0] at hne
          exact hne rfl
        · rw [if_neg hs2, if_neg hs2]
          refine Tr.after fu ?_
          simp only [ne_eq, hs1, not_false_eq_true, if_true]
          refine Tr.pure ⟨rfl, rfl, by simp [isRecvd], ⟨w.ctx.lastPacketTxTime, w.ctx.controlPacketSent, T, ?_⟩, Or.inl ⟨rfl, rfl, rfl, rfl, e2⟩⟩
          simp [hasFail, isFail, afterFail_false, updatedWorld]


theorem ackTable_fail {φ : Type} (rule : φ → Option (Effect φ × PubState)) (l : Table φ) (id : UInt16)
    (h : (ackTable rule l id).1.1 ≠ .success) : (ackTable rule l id).2 = l := by
  unfold ackTable at h ⊢
  split
  · rfl
  · next p hp =>
    split
    · rfl
    · next e s he =>
      simp [hp, he] at h

theorem step_ack_fail (s : InFlight) (op : Op) (type : AckType) (id : UInt16) (h : (step s (.ack op type id)).1.1 ≠ .success) :
    (step s (.ack op type id)).2 = s := by
  simp only [step] at h ⊢
  split
  · rfl
  · next hid =>
    rw [if_neg hid] at h
    split
    · next hf =>
      rw [if_pos hf] at h
      simp only [ackTable_fail _ _ _ h]
    · next hf =>
      rw [if_neg hf] at h
      simp only [ackTable_fail _ _ _ h]

/-- A received acknowledgement that is accepted: the answer, and what happens to the other publishes. -/
theorem step_ack_receive (s : InFlight) (type : AckType) (id : UInt16) (h : (step s (.ack .receive type id)).1.1 = .success) :
    id ≠ 0 ∧
    (∃ p, (step s (.ack .receive type id)).1.2 = some p ∧ (ackOf p).map (fun ty => (ty, id)) = nextAck type id) ∧
    (∀ x, (type = .pubrel → x ≠ id) → s.inc.phase x = some .sendPubrec ∨ s.inc.phase x = some .awaitPubrel →
      (step s (.ack .receive type id)).2.inc.phase x = some .sendPubrec ∨ (step s (.ack .receive type id)).2.inc.phase x = some .awaitPubrel) ∧
    ∀ x, (type = .puback ∨ type = .pubcomp → x ≠ id) → s.out.phase x ≠ none → (step s (.ack .receive type id)).2.out.phase x ≠ none := by
  by_cases hid : id = 0
  · simp [step, hid] at h
  · refine ⟨hid, ?_⟩
    cases type with
    | pubrel =>
      simp only [step, if_neg hid, forOutgoing, Bool.false_eq_true, if_false] at h ⊢
      unfold ackTable at h ⊢
      cases hp : s.inc.phase id with
      | none => rw [hp] at h; cases h
      | some p =>
        rw [hp] at h
        cases p <;> simp only [inAck] at h ⊢ <;> try (cases h; done)
        all_goals
          refine ⟨⟨_, rfl, rfl⟩, ?_, fun x _ hx => hx⟩
          intro x hx hx2
          simp only [Effect.apply, phase_set, if_neg (hx trivial)]
          exact hx2
    | _ =>
      simp only [step, if_neg hid, forOutgoing, if_true] at h ⊢
      unfold ackTable at h ⊢
      cases hp : s.out.phase id with
      | none => rw [hp] at h; cases h
      | some p =>
        rw [hp] at h
        cases p <;> simp only [outAck] at h ⊢ <;> try (cases h; done)
        all_goals
          refine ⟨⟨_, rfl, rfl⟩, fun x _ hx => hx, ?_⟩
          intro x hx hx2
          simp only [Effect.apply, phase_set, phase_append, phase_remove]
          by_cases hxi : x = id
          · first
              | (subst hxi; simp [hp]; done)
              | exact absurd hxi (hx (by simp))
          · simp [hxi, Ne.symm hxi, hx2]

/-- The acknowledgement type of a first byte. -/
def ackByteType (t : UInt8) (type : AckType) : Prop :=
  (t = 0x40 ∧ type = .puback) ∨ (t = 0x50 ∧ type = .pubrec) ∨ (t = 0x62 ∧ type = .pubrel) ∨ (t = 0x70 ∧ type = .pubcomp)

theorem readIncoming_ack {t : UInt8} {type : AckType} (h : ackByteType t type) (body : List UInt8) :
    readIncoming t body = (idOnly body).map (.ack type) := by
  rcases h with ⟨rfl, rfl⟩ | ⟨rfl, rfl⟩ | ⟨rfl, rfl⟩ | ⟨rfl, rfl⟩ <;> rfl

theorem handlePublishAcks_tr {V : Prop} (g : Cfg) (manage : Bool) (t : UInt8) (type : AckType) (body extra : List UInt8) (h : Nat) (w : World)
    (s : InFlight) (ht : ackByteType t type) (hrep : Represents w.ctx.tables s) :
    Tr V false (handlePublishAcks g (packetOf t body extra h))
      (fun st es h' w' => h' = false ∧ Reacted (react w.ctx.retransmits manage s t body) w st es w')
      (ReactX (react w.ctx.retransmits manage s t body)) w := by
  unfold handlePublishAcks
  have same : ∀ st, Reacted ⟨st, [], none, s, false⟩ w st [] w := fun st =>
    ⟨rfl, by simp, ⟨w.ctx.lastPacketTxTime, w.ctx.controlPacketSent, w.ctx.tables, by simp [hasFail, afterFail_false]⟩,
      Or.inl ⟨rfl, rfl, rfl, rfl, hrep⟩⟩
  have hty : getAckFromPacketType (packetOf t body extra h).type = .ok type := by
    rcases ht with ⟨rfl, rfl⟩ | ⟨rfl, rfl⟩ | ⟨rfl, rfl⟩ | ⟨rfl, rfl⟩ <;> rfl
  refine Tr.liftOk hty ?_
  have hread := readIncoming_ack ht body
  have ht5 : t = 0x40 ∨ t = 0x50 ∨ t = 0x62 ∨ t = 0x70 ∨ t = 0xB0 := by
    rcases ht with ⟨rfl, _⟩ | ⟨rfl, _⟩ | ⟨rfl, _⟩ | ⟨rfl, _⟩ <;> simp
  rcases deser_id t body extra h ht5 with ⟨h1, i, h2⟩ | ⟨id, h1, hid0, h2⟩
  · refine Tr.liftOk h2 ?_
    have hr : react w.ctx.retransmits manage s t body = ⟨.badResponse, [], none, s, false⟩ := by
      unfold react; rw [hread, h1]; rfl
    rw [hr]
    refine Tr.ite ?_ (fun h => absurd (by simp) h)
    exact fun _ => Tr.pure ⟨rfl, same _⟩
  · refine Tr.liftOk h2 ?_
    refine Tr.ite (fun h => absurd rfl h) (fun _ => ?_)
    have hr : react w.ctx.retransmits manage s t body = reactAck w.ctx.retransmits s t body type id := by
      unfold react; rw [hread, h1]; rfl
    rw [hr]
    unfold reactAck
    obtain ⟨T, e1, e2, e3⟩ := stateCall_refines' hrep (.ack .receive type id) trivial (by simp)
    have k1 := step_ack_receive s type id
    have k2 := step_ack_fail s .receive type id
    generalize hst : step s (.ack .receive type id) = A at *
    obtain ⟨⟨st, o⟩, s'⟩ := A
    simp only at e1 e2 e3 k1 k2 ⊢
    unfold Tr
    rw [wp_bind, wp_preHook, wp_bind]
    show wp (onTables fun t => stateCall t (.ack .receive type id)) _ _ _ _
    rw [wp_onTables]
    simp only [e1]
    rw [wp_bind, wp_postHook]
    have hw : ({ ctx := { w.ctx with tables := T }, env := w.env, trace := w.trace ++ [Event.pre] ++ [Event.post] } : World)
        = updatedWorld w T := by simp [updatedWorld]
    rw [hw]
    by_cases hs1 : st = .success
    · subst hs1
      obtain ⟨_, ⟨p, k3, k4⟩, k5, k6⟩ := k1 rfl
      subst k3
      simp only [if_true, ne_eq, not_true, if_false, Option.getD_some]
      rw [wp_bind, wp_getCtx]
      have hretx : (updatedWorld w T).ctx.retransmits = w.ctx.retransmits := rfl
      have hmon : ∀ c : List Event, (∀ e ∈ c, ∃ i, e = .clear i) → ∀ m : Mon,
          (∀ id ∈ m.opened, s.inc.phase id = some .sendPubrec ∨ s.inc.phase id = some .awaitPubrel) →
          (∀ id ∈ m.out, s.out.phase id ≠ none) → ∃ m', monRun m (.pre :: .post :: (c ++ [.app t body id .success none])) = some m' ∧
            (∀ id ∈ m'.opened, s'.inc.phase id = some .sendPubrec ∨ s'.inc.phase id = some .awaitPubrel) ∧
            ∀ id ∈ m'.out, s'.out.phase id ≠ none := by
        intro c hc m hm1 hm2
        have hrun : ∀ m, monRun m (.pre :: .post :: (c ++ [.app t body id .success none])) = monStep m (.app t body id .success none) := by
          intro m
          show monRun m (c ++ _) = _
          rw [monRun_append]
          have : monRun m c = some m := by
            clear hm1 hm2
            induction c with
            | nil => rfl
            | cons e c ih =>
              obtain ⟨i, rfl⟩ := hc e List.mem_cons_self
              exact ih (fun e he => hc e (List.mem_cons_of_mem _ he))
          rw [this]
          show (monStep m _).bind _ = _
          cases monStep m (.app t body id .success none) <;> rfl
        rw [hrun]
        rcases ht with ⟨rfl, rfl⟩ | ⟨rfl, rfl⟩ | ⟨rfl, rfl⟩ | ⟨rfl, rfl⟩
        · refine ⟨{ m with out := m.out.filter fun x => x ≠ id }, by simp [monStep], fun i hi => k5 i (by simp) (hm1 i hi), ?_⟩
          intro i hi
          simp only [List.mem_filter, decide_eq_true_eq] at hi
          exact k6 i (fun _ => hi.2) (hm2 i hi.1)
        · exact ⟨m, by simp [monStep], fun i hi => k5 i (by simp) (hm1 i hi), fun i hi => k6 i (by simp) (hm2 i hi)⟩
        · refine ⟨{ m with opened := m.opened.filter fun x => x ≠ id }, by simp [monStep], ?_, fun i hi => k6 i (by simp) (hm2 i hi)⟩
          intro i hi
          simp only [List.mem_filter, decide_eq_true_eq] at hi
          exact k5 i (fun _ => hi.2) (hm1 i hi.1)
        · refine ⟨{ m with out := m.out.filter fun x => x ≠ id }, by simp [monStep], fun i hi => k5 i (by simp) (hm1 i hi), ?_⟩
          intro i hi
          simp only [List.mem_filter, decide_eq_true_eq] at hi
          exact k6 i (fun _ => hi.2) (hm2 i hi.1)
      have hna : nextAck type id ≠ none → id ≠ 0 := fun _ => hid0
      rw [hretx]
      by_cases hcl : (type = .puback ∨ type = .pubrec) ∧ w.ctx.retransmits = true
      · rw [if_pos hcl, if_pos hcl]
        rw [wp_bind, wp_clearCallback, appCallback_ack, wp_bind, wp_emit]
        have f : Fx false w [.pre, .post, .clear id, .app t body id .success none] false
            { ctx := { w.ctx with tables := T }, env := w.env,
              trace := (updatedWorld w T).trace ++ [.clear id] ++ [.app t body id .success none] } := by
          refine Fx.compound (by simp [updatedWorld]) rfl rfl (by simp [isLocal]) rfl ?_ hrep e2 e3 (hmon [.clear id] (by simp))
          refine ⟨⟨t, body, .success, [], rfl, ?_⟩, trivial⟩
          rcases ht with ⟨rfl, rfl⟩ | ⟨rfl, rfl⟩ | ⟨rfl, rfl⟩ | ⟨rfl, rfl⟩ <;> simp at hcl ⊢
        refine Tr.after f ?_
        exact finish_tr g _ id _ (by simp [isLocal]) rfl rfl e2 k4.symm hna (fun _ => rfl) rfl
      · rw [if_neg hcl, if_neg hcl]
        rw [appCallback_ack, wp_bind, wp_emit]
        have f : Fx false w [.pre, .post, .app t body id .success none] false
            { ctx := { w.ctx with tables := T }, env := w.env,
              trace := (updatedWorld w T).trace ++ [.app t body id .success none] } :=
          Fx.compound (by simp [updatedWorld]) rfl rfl (by simp [isLocal]) rfl trivial hrep e2 e3 (hmon [] (by simp))
        refine Tr.after f ?_
        exact finish_tr g _ id _ (by simp [isLocal]) rfl rfl e2 k4.symm hna (fun _ => rfl) rfl
    · have hs' := k2 hs1
      subst hs'
      rw [if_neg hs1]
      have fu : Fx false w [.pre, .post] false (updatedWorld w T) :=
        Fx.compound rfl rfl rfl (by simp [isLocal]) rfl trivial hrep e2 e3 (fun m hm1 hm2 => ⟨m, rfl, hm1, hm2⟩)
      refine Tr.after fu ?_
      simp only [ne_eq, hs1, not_false_eq_true, if_true]
      refine Tr.pure ⟨rfl, rfl, by simp [isRecvd], ⟨w.ctx.lastPacketTxTime, w.ctx.controlPacketSent, T, ?_⟩, Or.inl ⟨rfl, rfl, rfl, rfl, e2⟩⟩
      simp [hasFail, isFail, afterFail_false, updatedWorld]


theorem deser_pingresp (body extra : List UInt8) (h : Nat) :
    mqttDeserializeAck (some ⟨0xD0, some (body ++ extra), body.length, h⟩) (some 0) none =
      .ok (if body = [] then .success else .badResponse, some 0, none) := by
  by_cases hn : body = []
  · simp [mqttDeserializeAck, ptCONNACK, ptSUBACK, ptPINGRESP, deserializePingresp, hn]
  · simp [mqttDeserializeAck, ptCONNACK, ptSUBACK, ptPINGRESP, deserializePingresp, hn]

/-- Presenting a packet that has no further effect. -/
theorem present_tr {V : Prop} (t : UInt8) (body : List UInt8) (id : UInt16) (st : Status) (w : World) (s : InFlight)
    (hrep : Represents w.ctx.tables s) (ht : t = 0x90 ∨ t = 0xB0 ∨ t = 0xD0) :
    Tr V false (do emit (.app t body id st none); pure Status.success)
      (fun st' es h' w' => h' = false ∧ Reacted ⟨.success, [.app t body id st none], none, s, false⟩ w st' es w')
      (ReactX ⟨.success, [.app t body id st none], none, s, false⟩) w := by
  refine Tr.emit ?_ (Tr.pure ⟨rfl, rfl, by simp [isRecvd], ⟨w.ctx.lastPacketTxTime, w.ctx.controlPacketSent, w.ctx.tables, ?_⟩,
    Or.inl ⟨rfl, rfl, rfl, rfl, hrep⟩⟩)
  · rcases ht with rfl | rfl | rfl <;> simp [plainEvent]
  · simp [hasFail, isFail, afterFail_false]

theorem handleIncomingAck_tr {V : Prop} (g : Cfg) (manage : Bool) (t : UInt8) (body extra : List UInt8) (h : Nat) (w : World)
    (s : InFlight) (ht : t.toNat / 16 ≠ 3) (hrep : Represents w.ctx.tables s) :
    Tr V false (handleIncomingAck g (packetOf t body extra h) manage)
      (fun st es h' w' => h' = false ∧ Reacted (react w.ctx.retransmits manage s t body) w st es w')
      (ReactX (react w.ctx.retransmits manage s t body)) w := by
  unfold handleIncomingAck
  have same : ∀ st, Reacted ⟨st, [], none, s, false⟩ w st [] w := fun st =>
    ⟨rfl, by simp, ⟨w.ctx.lastPacketTxTime, w.ctx.controlPacketSent, w.ctx.tables, by simp [hasFail, afterFail_false]⟩,
      Or.inl ⟨rfl, rfl, rfl, rfl, hrep⟩⟩
  have hpt : (packetOf t body extra h).type = t := rfl
  rw [hpt]
  refine Tr.ite ?_ ?_
  · intro hty
    have : ∃ type, ackByteType t type := by
      rcases hty with rfl | rfl | rfl | rfl
      · exact ⟨.puback, Or.inl ⟨rfl, rfl⟩⟩
      · exact ⟨.pubrec, Or.inr (Or.inl ⟨rfl, rfl⟩)⟩
      · exact ⟨.pubrel, Or.inr (Or.inr (Or.inl ⟨rfl, rfl⟩))⟩
      · exact ⟨.pubcomp, Or.inr (Or.inr (Or.inr ⟨rfl, rfl⟩))⟩
    obtain ⟨type, hbt⟩ := this
    exact handlePublishAcks_tr g manage t type body extra h w s hbt hrep
  · intro hn1
    simp only [ptPUBACK, ptPUBREC, ptPUBREL, ptPUBCOMP, not_or] at hn1
    obtain ⟨n1, n2, n3, n4⟩ := hn1
    refine Tr.ite ?_ ?_
    · intro hp
      have hp : t = 0xD0 := hp
      subst hp
      refine Tr.liftOk (deser_pingresp body extra h) ?_
      have hread : readIncoming 0xD0 body = if body = [] then some .pingresp else none := rfl
      by_cases hb : body = []
      · have hr : react w.ctx.retransmits manage s 0xD0 body =
            ⟨.success, if manage then [] else [.app 0xD0 body 0 .success none], none, s, manage⟩ := by
          unfold react; rw [hread, if_pos hb]
        rw [hr]
        simp only [hb, if_true, ne_eq, not_true, if_false]
        refine Tr.ite ?_ ?_
        · intro hm
          rw [hm]
          refine Tr.modifyCtx rfl rfl rfl rfl rfl rfl (fun h => h) rfl ?_
          refine Tr.pure ⟨rfl, rfl, by simp, ⟨w.ctx.lastPacketTxTime, w.ctx.controlPacketSent, w.ctx.tables, ?_⟩, Or.inl ⟨rfl, rfl, rfl, rfl, hrep⟩⟩
          simp [hasFail, afterFail_false]
        · intro hm
          have hm : manage = false := by simpa using hm
          rw [hm, appCallback_ack]
          exact present_tr 0xD0 [] 0 .success w s hrep (by simp)
      · have hr : react w.ctx.retransmits manage s 0xD0 body = ⟨.badResponse, [], none, s, false⟩ := by
          unfold react; rw [hread, if_neg hb]
        rw [hr]
        simp only [hb, if_false, ne_eq, reduceCtorEq, not_false_eq_true, if_true]
        exact Tr.pure ⟨rfl, same _⟩
    · intro n5
      refine Tr.ite ?_ ?_
      · intro hty
        rcases hty with hty | hty
        · have hty : t = 0x90 := hty
          subst hty
          have hread : readIncoming 0x90 body = (subackBody body).map fun p => .suback p.1 p.2 := rfl
          rcases deser_suback body extra h with ⟨h1, i, h2⟩ | ⟨id, r, h1, h2⟩
          · refine Tr.liftOk h2 ?_
            have hr : react w.ctx.retransmits manage s 0x90 body = ⟨.badResponse, [], none, s, false⟩ := by
              unfold react; rw [hread, h1]; rfl
            rw [hr]
            refine Tr.ite (fun h => by simp at h) (fun _ => ?_)
            exact Tr.pure ⟨rfl, same _⟩
          · refine Tr.liftOk h2 ?_
            have hr : react w.ctx.retransmits manage s 0x90 body =
                ⟨.success, [.app 0x90 body id (if r then .serverRefused else .success) none], none, s, false⟩ := by
              unfold react; rw [hread, h1]; rfl
            rw [hr]
            refine Tr.ite (fun _ => ?_) (fun h => absurd (by cases r <;> simp) h)
            rw [appCallback_ack]
            exact present_tr 0x90 body id _ w s hrep (by simp)
        · have hty : t = 0xB0 := hty
          subst hty
          have hread : readIncoming 0xB0 body = (idOnly body).map .unsuback := rfl
          rcases deser_id 0xB0 body extra h (by simp) with ⟨h1, i, h2⟩ | ⟨id, h1, hid0, h2⟩
          · refine Tr.liftOk h2 ?_
            have hr : react w.ctx.retransmits manage s 0xB0 body = ⟨.badResponse, [], none, s, false⟩ := by
              unfold react; rw [hread, h1]; rfl
            rw [hr]
            refine Tr.ite (fun h => by simp at h) (fun _ => ?_)
            exact Tr.pure ⟨rfl, same _⟩
          · refine Tr.liftOk h2 ?_
            have hr : react w.ctx.retransmits manage s 0xB0 body = ⟨.success, [.app 0xB0 body id .success none], none, s, false⟩ := by
              unfold react; rw [hread, h1]; rfl
            rw [hr]
            refine Tr.ite (fun _ => ?_) (fun h => absurd (by simp) h)
            rw [appCallback_ack]
            exact present_tr 0xB0 body id _ w s hrep (by simp)
      · intro hn6
        simp only [ptSUBACK, ptUNSUBACK, ptPINGRESP, not_or] at hn6 n5
        have hr : react w.ctx.retransmits manage s t body = ⟨.badResponse, [], none, s, false⟩ := by
          unfold react readIncoming
          rw [if_neg ht, if_neg n1, if_neg n2, if_neg n3, if_neg n4, if_neg hn6.1, if_neg hn6.2, if_neg n5]
        rw [hr]
        exact Tr.pure ⟨rfl, same _⟩

/-- The dispatch of `receiveSingleIteration`, core_mqtt.c 1829-1836: the specified reaction. -/
theorem dispatch_tr {V : Prop} (g : Cfg) (manage : Bool) (t : UInt8) (body extra : List UInt8) (h : Nat) (w : World)
    (s : InFlight) (hW : body.length < g.W) (hrep : Represents w.ctx.tables s) :
    Tr V false (if (t &&& 0xF0) = ptPUBLISH then handleIncomingPublish g (packetOf t body extra h)
        else handleIncomingAck g (packetOf t body extra h) manage)
      (fun st es h' w' => h' = false ∧ Reacted (react w.ctx.retransmits manage s t body) w st es w')
      (ReactX (react w.ctx.retransmits manage s t body)) w := by
  refine Tr.ite ?_ ?_
  · intro ht
    exact handleIncomingPublish_tr g _ manage t body extra h w s ((isPublish_iff t).mp ht) hW hrep
  · intro ht
    exact handleIncomingAck_tr g manage t body extra h w s (fun h3 => ht ((isPublish_iff t).mpr h3)) hrep

end Mqtt
