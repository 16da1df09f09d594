/-
The life of an outgoing publish: how the state kept for one packet id changes in a call, and which acknowledgements are presented.
-/
import Verif.Proof.CallMon
import Verif.Spec.Life

namespace Mqtt
open Spec
set_option linter.unusedSimpArgs false

theorem acksOf_callbacks (i : UInt16) (es : List Event) : acksOf i (callbacks es) = acksOf i es := by
  induction es with
  | nil => rfl
  | cons e es ih =>
    unfold callbacks acksOf at *
    rw [List.filter_cons]
    cases e <;> simp only [isCallback, if_true, Bool.false_eq_true, if_false, List.filterMap_cons, ih]

theorem acksOf_quiet (i : UInt16) {es : List Event} (h : ∀ e ∈ es, isQuietEvent e = true) : acksOf i es = [] := by
  unfold acksOf
  rw [List.filterMap_eq_nil_iff]
  intro e he
  have := h e he
  cases e <;> simp_all [isQuietEvent]

theorem acksOf_prefix (i : UInt16) {a b : List Event} (h : a <+: b) : acksOf i a <+: acksOf i b := by
  obtain ⟨t, rfl⟩ := h
  rw [acksOf_append]
  exact List.prefix_append _ _

theorem acksOf_mem {i : UInt16} {es : List Event} {t : UInt8} {body : List UInt8} {r : Status} (ht : t = 0x40 ∨ t = 0x50 ∨ t = 0x70)
    (h : Event.app t body i r none ∈ es) : t ∈ acksOf i es := by
  unfold acksOf
  rw [List.mem_filterMap]
  exact ⟨_, h, by simp [ht]⟩

theorem quiet_ack {es : List Event} (h : ∀ e ∈ es, isAckEvent e = true) : ∀ e ∈ es, isQuietEvent e = true := by
  intro e he
  have := h e he
  cases e <;> simp_all [isAckEvent, isQuietEvent]

theorem quiet_resend {es : List Event} (h : ∀ e ∈ es, isResendEvent e = true) : ∀ e ∈ es, isQuietEvent e = true := by
  intro e he
  have := h e he
  cases e <;> simp_all [isResendEvent, isQuietEvent]

/-- How the state of the outgoing publish with packet id `i` changes in a call that returns, and which acknowledgements are presented. -/
inductive Moves (c : ApiCall) (r : ApiRet) (es : List Event) (i : UInt16) : Option OutPhase → Option OutPhase → Prop
  | same {a : Option OutPhase} : acksOf i es = [] → Moves c r es i a a
  | reserved {p : PublishInfo} {b : OutPhase} : acksOf i es = [] → c = .publish (some p) i → b = .toSend1 ∨ b = .toSend2 → Moves c r es i none (some b)
  | sent {p : PublishInfo} {a : Option OutPhase} {b : OutPhase} : acksOf i es = [] → c = .publish (some p) i → r = .status .success →
      p.qos = .qos1 ∧ b = .awaitPuback ∨ p.qos = .qos2 ∧ b = .awaitPubrec →
      a = none ∨ a = some b ∨ b = .awaitPuback ∧ a = some .toSend1 ∨ b = .awaitPubrec ∧ a = some .toSend2 → Moves c r es i a (some b)
  | pubrel {a : OutPhase} : acksOf i es = [] → a = .sendPubrel ∨ a = .awaitPubcomp → PubrelSent i es → Moves c r es i (some a) (some .awaitPubcomp)
  | dropped {a : Option OutPhase} : acksOf i es = [] → c = .cancelCallback i ∧ r = .status .success ∨ r = .connect .success (some false) → Moves c r es i a none
  | puback : acksOf i es = [0x40] → Moves c r es i (some .awaitPuback) none
  | pubrec {b : OutPhase} : acksOf i es = [0x50] → b = .sendPubrel ∨ b = .awaitPubcomp ∧ PubrelSent i es → Moves c r es i (some .awaitPubrec) (some b)
  | pubcomp : acksOf i es = [0x70] → Moves c r es i (some .awaitPubcomp) none

/-- The changes an incoming packet causes. -/
inductive Heard (es : List Event) (i : UInt16) : Option OutPhase → Option OutPhase → Prop
  | same {a : Option OutPhase} : acksOf i es = [] → Heard es i a a
  | puback : acksOf i es = [0x40] → Heard es i (some .awaitPuback) none
  | pubrec : acksOf i es = [0x50] → Heard es i (some .awaitPubrec) (some .sendPubrel)
  | pubcomp : acksOf i es = [0x70] → Heard es i (some .awaitPubcomp) none

theorem step_receive_out (s : InFlight) (id : UInt16) (q : QoS) : (step s (.publish .receive id q)).2.out = s.out := by
  cases q <;> simp only [step] <;> (try rfl) <;> (split <;> rfl)

theorem step_inAck_out (s : InFlight) (op : Op) (ty : AckType) (id : UInt16) (h : forOutgoing op ty = false) :
    (step s (.ack op ty id)).2.out = s.out := by
  simp only [step, h]
  split <;> rfl

theorem readIncoming_ackByte {t : UInt8} {body : List UInt8} {ty : AckType} {id : UInt16} (h : readIncoming t body = some (.ack ty id)) :
    ty = .puback ∧ t = 0x40 ∨ ty = .pubrec ∧ t = 0x50 ∨ ty = .pubrel ∧ t = 0x62 ∨ ty = .pubcomp ∧ t = 0x70 := by
  have key : ∀ {o : Option UInt16} {ty' : AckType}, o.map (Packet.ack ty') = some (.ack ty id) → ty = ty' := by
    intro o ty' h
    cases o with
    | none => cases h
    | some x => injection h with h; injection h with h1 h2; exact h1.symm
  unfold readIncoming at h
  split at h
  · split at h
    · cases h
    · by_cases hb : body.length < (if (‹Publish›).qos.val = 0 then 3 else 5)
      · rw [if_pos hb] at h; cases h
      · rw [if_neg hb] at h; cases h
  · split at h
    · exact Or.inl ⟨key h, by assumption⟩
    · split at h
      · exact Or.inr (Or.inl ⟨key h, by assumption⟩)
      · split at h
        · exact Or.inr (Or.inr (Or.inl ⟨key h, by assumption⟩))
        · split at h
          · exact Or.inr (Or.inr (Or.inr ⟨key h, by assumption⟩))
          · split at h
            · generalize subackBody body = o at h
              cases o <;> cases h
            · split at h
              · generalize idOnly body = o at h
                cases o <;> cases h
              · split at h
                · split at h <;> cases h
                · cases h

theorem readIncoming_kind {t : UInt8} {body : List UInt8} {p : Packet} (h : readIncoming t body = some p) (hp : ∀ ty id, p ≠ .ack ty id) :
    ¬ (t = 0x40 ∨ t = 0x50 ∨ t = 0x70) := by
  rintro (rfl | rfl | rfl)
  all_goals
    unfold readIncoming at h
    simp only [show ((0x40 : UInt8).toNat / 16 = 3) = False by decide, show ((0x50 : UInt8).toNat / 16 = 3) = False by decide,
      show ((0x70 : UInt8).toNat / 16 = 3) = False by decide, if_false, if_true, show ((0x50 : UInt8) = 0x40) = False by decide,
      show ((0x70 : UInt8) = 0x40) = False by decide, show ((0x70 : UInt8) = 0x50) = False by decide,
      show ((0x70 : UInt8) = 0x62) = False by decide] at h
    generalize idOnly body = o at h
    cases o with
    | none => cases h
    | some x => injection h with h; exact hp _ _ h.symm

/-- Acknowledgements of outgoing publishes. -/
theorem ack_heard (s : InFlight) (retx : Bool) (t : UInt8) (body : List UInt8) (ty : AckType) (id : UInt16)
    (ht : ty = .puback ∧ t = 0x40 ∨ ty = .pubrec ∧ t = 0x50 ∨ ty = .pubrel ∧ t = 0x62 ∨ ty = .pubcomp ∧ t = 0x70) (i : UInt16) :
    Heard (reactAck retx s t body ty id).callbacks i (s.out.phase i) ((reactAck retx s t body ty id).state.out.phase i) := by
  unfold reactAck
  simp only
  by_cases hs : (step s (.ack .receive ty id)).1.1 = .success
  rotate_left
  · rw [if_neg hs]
    exact .same rfl
  rw [if_pos hs]
  simp only
  have hcl : ∀ l : List Event, acksOf i ((if (ty = .puback ∨ ty = .pubrec) ∧ retx = true then [.clear id] else []) ++ l) = acksOf i l := by
    intro l
    rw [acksOf_append]
    split <;> simp [acksOf]
  rw [show ∀ es, Heard ((if (ty = .puback ∨ ty = .pubrec) ∧ retx = true then [Event.clear id] else []) ++ es) i = Heard es i from by
    intro es
    funext a b
    apply propext
    constructor
    · intro h
      cases h with
      | same h => exact .same (by rw [← hcl]; exact h)
      | puback h => exact .puback (by rw [← hcl]; exact h)
      | pubrec h => exact .pubrec (by rw [← hcl]; exact h)
      | pubcomp h => exact .pubcomp (by rw [← hcl]; exact h)
    · intro h
      cases h with
      | same h => exact .same (by rw [hcl]; exact h)
      | puback h => exact .puback (by rw [hcl]; exact h)
      | pubrec h => exact .pubrec (by rw [hcl]; exact h)
      | pubcomp h => exact .pubcomp (by rw [hcl]; exact h)]
  by_cases hty : ty = .pubrel
  · subst hty
    have ht : t = 0x62 := by simpa using ht
    subst ht
    rw [step_inAck_out _ _ _ _ rfl]
    exact .same (by simp [acksOf])
  · have hf : forOutgoing .receive ty = true := by cases ty <;> simp_all [forOutgoing]
    simp only [step, hf, if_true] at hs ⊢
    by_cases h0 : id = 0
    · rw [if_pos h0] at hs; cases hs
    · rw [if_neg h0] at hs ⊢
      simp only [ackTable] at hs ⊢
      cases hp : s.out.phase id with
      | none => rw [hp] at hs; cases hs
      | some p =>
        rw [hp] at hs
        simp only at hs ⊢
        by_cases hi : i = id
        · subst hi
          rw [hp]
          cases ty <;> cases p <;> simp only [outAck] at hs ⊢ <;>
            first | (cases hs; done) | skip
          · have ht : t = 0x40 := by simpa using ht
            simp only [Effect.apply]
            rw [phase_remove, if_pos rfl]
            exact .puback (by rw [ht]; simp [acksOf])
          · have ht : t = 0x50 := by simpa using ht
            simp only [Effect.apply]
            rw [phase_append, phase_remove, if_pos rfl, if_pos rfl]
            exact .pubrec (by rw [ht]; simp [acksOf])
          · exact absurd rfl hty
          · exact absurd rfl hty
          · have ht : t = 0x70 := by simpa using ht
            simp only [Effect.apply]
            rw [phase_remove, if_pos rfl]
            exact .pubcomp (by rw [ht]; simp [acksOf])
        · have hn : acksOf i [Event.app t body id .success none] = [] := by
            unfold acksOf
            simp [Ne.symm hi]
          have e : ∀ l : Table OutPhase, l.phase i = s.out.phase i → Heard [Event.app t body id .success none] i (s.out.phase i) (l.phase i) := by
            intro l h
            rw [h]
            exact .same hn
          cases ty <;> cases p <;> simp only [outAck] at hs ⊢ <;>
            first | (cases hs; done) | skip
          · exact e _ (by simp only [Effect.apply]; rw [phase_remove, if_neg hi])
          · exact e _ (by simp only [Effect.apply]; rw [phase_append, phase_remove, if_neg hi, if_neg (Ne.symm hi), Option.or_none])
          · exact absurd rfl hty
          · exact absurd rfl hty
          · exact e _ (by simp only [Effect.apply]; rw [phase_remove, if_neg hi])

/-- How the reaction to a packet changes the state of an outgoing publish. -/
theorem react_heard (s : InFlight) (retx manage : Bool) (t : UInt8) (body : List UInt8) (i : UInt16) :
    Heard (react retx manage s t body).callbacks i (s.out.phase i) ((react retx manage s t body).state.out.phase i) := by
  unfold react
  cases hr : readIncoming t body with
  | none => exact .same rfl
  | some p =>
    cases p with
    | publish id v =>
      simp only
      unfold reactPublish
      split
      · exact .same rfl
      · simp only
        split
        · simp only
          rw [step_receive_out]
          exact .same (by simp [acksOf])
        · split <;> exact .same rfl
    | ack ty id => exact ack_heard s retx t body ty id (readIncoming_ackByte hr) i
    | pingresp =>
      have := readIncoming_kind hr (by simp)
      refine .same ?_
      simp only
      split
      · rfl
      · simp [acksOf, this]
    | suback id f =>
      have := readIncoming_kind hr (by simp)
      exact .same (by simp [acksOf, this])
    | unsuback id =>
      have := readIncoming_kind hr (by simp)
      exact .same (by simp [acksOf, this])

/-- The acknowledgement a reaction asks for: a PUBREL only for a PUBREC that was accepted. -/
theorem react_pubrel {s : InFlight} {retx manage : Bool} {t : UInt8} {body : List UInt8} {id : UInt16}
    (h : (react retx manage s t body).ack = some (.pubrel, id)) : (react retx manage s t body).state.out.phase id = some .sendPubrel ∧
      s.out.phase id = some .awaitPubrec := by
  unfold react at h ⊢
  cases hr : readIncoming t body with
  | none => rw [hr] at h; cases h
  | some p =>
    rw [hr] at h
    cases p with
    | publish id v =>
      simp only at h
      unfold reactPublish at h
      have : ∀ q i, publishAck q i ≠ some (.pubrel, id) := by intro q i; cases q <;> simp [publishAck]
      split at h
      · cases h
      · simp only at h
        split at h
        · have h : publishAck v.qos _ = _ := h
          cases hq : v.qos <;> simp [hq, publishAck] at h
        · split at h
          · have h : publishAck v.qos _ = _ := h
            cases hq : v.qos <;> simp [hq, publishAck] at h
          · cases h
    | ack ty id' =>
      simp only [reactAck] at h ⊢
      by_cases hs : (step s (.ack .receive ty id')).1.1 = .success
      rotate_left
      · rw [if_neg hs] at h; cases h
      rw [if_pos hs] at h ⊢
      simp only at h ⊢
      cases ty <;> simp only [nextAck] at h <;> first | (cases h; done) | skip
      cases h
      simp only [step, forOutgoing, if_true] at hs ⊢
      by_cases h0 : id = 0
      · rw [if_pos h0] at hs; cases hs
      · rw [if_neg h0] at hs ⊢
        simp only [ackTable] at hs ⊢
        cases hp : s.out.phase id with
        | none => rw [hp] at hs; cases hs
        | some p =>
          rw [hp] at hs
          cases p <;> simp only [outAck] at hs ⊢ <;> first | (cases hs; done) | skip
          simp only [Effect.apply]
          rw [phase_append, phase_remove, if_pos rfl, if_pos rfl]
          simp
    | pingresp => cases h
    | suback id f => cases h
    | unsuback id => cases h

/-- Sending an acknowledgement. -/
theorem ackSend_phase {s : InFlight} {ty : AckType} {id i : UInt16} (h : ty = .pubrel → s.out.phase id = some .sendPubrel) :
    (step s (.ack .send ty id)).2.out.phase i = s.out.phase i ∨
    ty = .pubrel ∧ i = id ∧ s.out.phase i = some .sendPubrel ∧ (step s (.ack .send ty id)).2.out.phase i = some .awaitPubcomp := by
  by_cases hty : ty = .pubrel
  · subst hty
    have h := h rfl
    by_cases h0 : id = 0
    · left; simp only [step, if_pos h0]
    · rw [step_pubrel h0 h rfl]
      simp only
      rw [phase_set]
      by_cases hi : i = id
      · subst hi
        right
        rw [if_pos rfl, h]
        simp
      · left; rw [if_neg hi]
  · left
    rw [step_inAck_out]
    cases ty <;> simp_all [forOutgoing]

theorem Heard.congr {es es' : List Event} {i : UInt16} {a b : Option OutPhase} (h : Heard es i a b) (he : acksOf i es = acksOf i es') : Heard es' i a b := by
  cases h with
  | same h => exact .same (he ▸ h)
  | puback h => exact .puback (he ▸ h)
  | pubrec h => exact .pubrec (he ▸ h)
  | pubcomp h => exact .pubcomp (he ▸ h)

theorem Heard.moves {c : ApiCall} {r : ApiRet} {es : List Event} {i : UInt16} {a b : Option OutPhase} (h : Heard es i a b) : Moves c r es i a b := by
  cases h with
  | same h => exact .same h
  | puback h => exact .puback h
  | pubrec h => exact .pubrec h (Or.inl rfl)
  | pubcomp h => exact .pubcomp h

theorem Reacted.moves {s : InFlight} {retx manage : Bool} {t : UInt8} {body : List UInt8} {w w' : World} {st : Status} {es es' : List Event}
    {c : ApiCall} {r : ApiRet} (h : Reacted (react retx manage s t body) w st es w') (i : UInt16) (ha : acksOf i es' = acksOf i es)
    (hw : wire es <:+: wire es') :
    ∃ s', Represents w'.ctx.tables s' ∧ Moves c r es' i (s.out.phase i) (s'.out.phase i) := by
  have hh : Heard es' i (s.out.phase i) ((react retx manage s t body).state.out.phase i) :=
    (react_heard s retx manage t body i).congr (by rw [← h.calls, acksOf_callbacks, ha])
  rcases h.cases with k | k | k | ⟨ty, id, k1, _, k2, _, _, k3⟩
  · exact ⟨_, k.2.2.2.2, hh.moves⟩
  · exact ⟨_, k.2.2.2.2.2, hh.moves⟩
  · exact ⟨_, k.2.2.2.2.2.1, hh.moves⟩
  · refine ⟨_, k3, ?_⟩
    have hp : ty = .pubrel → (react retx manage s t body).state.out.phase id = some .sendPubrel := by
      rintro rfl
      exact (react_pubrel k1).1
    rcases ackSend_phase (i := i) hp with e | ⟨rfl, rfl, e1, e2⟩
    · rw [e]; exact hh.moves
    · rw [e2]
      rw [e1, (react_pubrel k1).2] at hh
      rw [(react_pubrel k1).2]
      have hsent : PubrelSent i es' := by
        unfold PubrelSent
        rw [k2, k1] at hw
        exact hw
      cases hh with
      | pubrec h => exact .pubrec h (Or.inr ⟨rfl, hsent⟩)

theorem infix_left {α : Type} {a b : List α} (c : List α) (h : a <:+: b) : a <:+: c ++ b := by
  obtain ⟨x, y, rfl⟩ := h
  exact ⟨c ++ x, y, by simp⟩

theorem infix_right {α : Type} {a b : List α} (c : List α) (h : a <:+: b) : a <:+: b ++ c := by
  obtain ⟨x, y, rfl⟩ := h
  exact ⟨x, y ++ c, by simp⟩

theorem Iterated.moves {g : Cfg} {manage : Bool} {s : InFlight} {w w' : World} {st : Status} {es : List Event} {c : ApiCall} {r : ApiRet}
    (hrep : Represents w.ctx.tables s) (h : Iterated g manage s w st es w') (i : UInt16) :
    ∃ s', Represents w'.ctx.tables s' ∧ Moves c r es i (s.out.phase i) (s'.out.phase i) := by
  have same : (∀ e ∈ es, isQuietEvent e = true) → w'.ctx.tables = w.ctx.tables →
      ∃ s', Represents w'.ctx.tables s' ∧ Moves c r es i (s.out.phase i) (s'.out.phase i) :=
    fun hq hw => ⟨s, by rw [hw]; exact hrep, .same (acksOf_quiet i hq)⟩
  rcases h.turn with ⟨rfl, _, _, h1⟩ | ⟨x, ka, es2, rfl, _, h2, _, h3⟩
  · exact same (by simp [isQuietEvent]) h1
  · have hq : ∀ {l : List Event}, (∀ e ∈ l, isQuietEvent e = true) →
        ∀ e ∈ Event.recvd (w.ctx.bufSize - w.ctx.index) (some x) :: (ka ++ l), isQuietEvent e = true :=
      fun hl => quiet_cons rfl (quiet_append (quiet_ack h2.1) hl)
    cases h3 with
    | stopped _ _ _ h => exact same (hq (by simp)) h
    | wait _ _ _ h => exact same (hq (by simp)) h
    | drop _ _ h1 _ _ h _ => exact same (hq (quiet_recv h1)) h
    | @packet rst _ es1 p rest w1 w2 _ more _ _ _ _ h5 h6 h7 _ h9 =>
      have hm : acksOf i more = [] := by rcases h7 with ⟨_, t, rfl⟩ | ⟨_, rfl⟩ <;> rfl
      obtain ⟨s', k1, k2⟩ := h6.moves (c := c) (r := r) (es' := .recvd (w.ctx.bufSize - w.ctx.index) (some x) :: (ka ++ (es1 ++ more))) i
        (by
          show acksOf i ([Event.recvd (w.ctx.bufSize - w.ctx.index) (some x)] ++ (ka ++ (es1 ++ more))) = _
          rw [acksOf_append, acksOf_append, acksOf_append, hm, acksOf_quiet i (quiet_ack h2.1)]
          simp [acksOf])
        (by
          show _ <:+: wire ([Event.recvd (w.ctx.bufSize - w.ctx.index) (some x)] ++ (ka ++ (es1 ++ more)))
          rw [wire_append, wire_append, wire_append]
          exact infix_left _ (infix_left _ (infix_right _ (List.infix_refl _))))
      exact ⟨s', by rw [h9]; exact k1, k2⟩

theorem Resumed.moves {s : InFlight} {w w' : World} {st : Status} {es : List Event} (hrep : Represents w.ctx.tables s)
    (h : Resumed s w st es w') (i : UInt16) : (∀ e ∈ es, isQuietEvent e = true) ∧ ∃ s', Represents w'.ctx.tables s' ∧
      (s'.out.phase i = s.out.phase i ∨ (s.out.phase i = some .sendPubrel ∨ s.out.phase i = some .awaitPubcomp) ∧
        s'.out.phase i = some .awaitPubcomp ∧ PubrelSent i es) := by
  obtain ⟨a, st1, w1, b, rfl, hp, h⟩ := h
  obtain ⟨done, rest, h1, h2, h3⟩ := hp.cases
  have hw : w'.ctx.tables = w1.ctx.tables ∧ ∀ e ∈ b, isQuietEvent e = true := by
    rcases h with ⟨_, rfl, rfl, _⟩ | ⟨_, _, hq⟩
    · exact ⟨rfl, by simp⟩
    · obtain ⟨t, hc⟩ := hq.ctx
      exact ⟨by rw [hc], quiet_resend hq.kinds⟩
  refine ⟨quiet_append (quiet_ack hp.kinds) hw.2, _, by rw [hw.1]; exact h2, ?_⟩
  have hd := hrep.1.distinct
  have hrel : ∀ l : Table OutPhase, (released done l).phase i = if i ∈ done then (l.phase i).map (fun _ => .awaitPubcomp) else l.phase i := by
    intro l
    induction l with
    | nil => simp [released, phase_nil]
    | cons e l ih =>
      have : released done (e :: l) = (if e.1 ∈ done then (e.1, OutPhase.awaitPubcomp) else e) :: released done l := rfl
      rw [this, phase_cons, phase_cons, ih]
      by_cases h1 : e.1 = i
      · subst h1
        by_cases h2 : e.1 ∈ done <;> simp [h2]
      · by_cases h2 : e.1 ∈ done <;> simp [h1, h2]
  show (released done s.out).phase i = _ ∨ _ ∧ (released done s.out).phase i = _ ∧ _
  rw [hrel]
  by_cases hi : i ∈ done
  rotate_left
  · left; rw [if_neg hi]
  · right
    rw [if_pos hi]
    have hm : i ∈ idsOf isPubrel s.out := by rw [h1]; exact List.mem_append_left _ hi
    obtain ⟨x, hx, rfl⟩ := List.mem_map.mp hm
    rw [List.mem_filter] at hx
    have e1 := phase_of_entry hd hx.1
    rw [e1]
    refine ⟨?_, rfl, ?_⟩
    · obtain ⟨id, p⟩ := x
      cases p <;> simp_all [isPubrel, isUnacked]
    · unfold PubrelSent
      rw [wire_append]
      refine infix_right _ ?_
      have hin : idPacket 0x62 x.1.toNat <:+: done.flatMap (ackPacket .pubrel) := by
        obtain ⟨u, v, rfl⟩ := List.append_of_mem hi
        rw [List.flatMap_append, List.flatMap_cons]
        exact infix_left _ (infix_right _ (List.infix_refl _))
      rcases h3 with ⟨_, rfl, _, h4, _⟩ | ⟨_, _, _, _, _, _, _, h4⟩
      · rw [h4, h1, List.append_nil]; exact hin
      · rw [h4]; exact infix_right _ hin

/-- Reserving the state of a publish. -/
theorem reserve_phase (s : InFlight) (id i : UInt16) (q : QoS) : (step s (.reserve id q)).2.out.phase i = s.out.phase i ∨
    i = id ∧ s.out.phase i = none ∧ (q = .qos1 ∧ (step s (.reserve id q)).2.out.phase i = some .toSend1 ∨
      q = .qos2 ∧ (step s (.reserve id q)).2.out.phase i = some .toSend2) := by
  have hins : ∀ p : OutPhase, (s.out.insert s.outCap id p).2.phase i = s.out.phase i ∨
      i = id ∧ s.out.phase i = none ∧ (s.out.insert s.outCap id p).2.phase i = some p := by
    intro p
    unfold Table.insert
    split
    · exact Or.inl rfl
    · rename_i hn
      split
      · exact Or.inl rfl
      · simp only
        rw [phase_append]
        by_cases hi : i = id
        · subst hi
          have : s.out.phase i = none := Classical.byContradiction fun h => hn (phase_mem.mpr h)
          right
          simp [this]
        · left
          rw [if_neg (Ne.symm hi), Option.or_none]
  cases q with
  | qos0 => exact Or.inl rfl
  | qos1 =>
    simp only [step]
    split
    · exact Or.inl rfl
    · rcases hins .toSend1 with h | ⟨h1, h2, h3⟩
      · exact Or.inl h
      · exact Or.inr ⟨h1, h2, Or.inl ⟨(by first | rfl | trivial), h3⟩⟩
  | qos2 =>
    simp only [step]
    split
    · exact Or.inl rfl
    · rcases hins .toSend2 with h | ⟨h1, h2, h3⟩
      · exact Or.inl h
      · exact Or.inr ⟨h1, h2, Or.inr ⟨(by first | rfl | trivial), h3⟩⟩

/-- Noting that a publish was sent. -/
theorem sent_phase (s : InFlight) (id i : UInt16) (q : QoS) : (step s (.publish .send id q)).2.out.phase i = s.out.phase i ∨
    i = id ∧ (step s (.publish .send id q)).1.1 = .success ∧
      (q = .qos1 ∧ (s.out.phase i = some .toSend1 ∨ s.out.phase i = some .awaitPuback) ∧ (step s (.publish .send id q)).2.out.phase i = some .awaitPuback ∨
       q = .qos2 ∧ (s.out.phase i = some .toSend2 ∨ s.out.phase i = some .awaitPubrec) ∧ (step s (.publish .send id q)).2.out.phase i = some .awaitPubrec) := by
  cases q with
  | qos0 => exact Or.inl rfl
  | _ =>
    simp only [step]
    split
    · exact Or.inl rfl
    · cases hp : s.out.phase id with
      | none => exact Or.inl rfl
      | some p =>
        cases p <;> simp only [outQoS, sentPublish, ne_eq, not_true_eq_false, not_false_eq_true, if_true, if_false, reduceCtorEq] <;>
          first | exact Or.inl rfl | exact Or.inl trivial | skip
        all_goals
          rw [phase_set]
          by_cases hi : i = id
          · subst hi
            right
            rw [if_pos rfl, hp]
            simp
          · left; rw [if_neg hi]

/-- How the state of an outgoing publish changes in a call. -/
theorem Did.moves {g : Cfg} {s : InFlight} {w w' : World} {c : ApiCall} {r : ApiRet} {es : List Event} (hrep : Represents w.ctx.tables s)
    (h : Did g s w c r es w') (i : UInt16) : ∃ s', Represents w'.ctx.tables s' ∧ Moves c r es i (s.out.phase i) (s'.out.phase i) := by
  have hd := hrep.1.distinct
  have same : (∀ e ∈ es, isQuietEvent e = true) → w'.ctx.tables = w.ctx.tables →
      ∃ s', Represents w'.ctx.tables s' ∧ Moves c r es i (s.out.phase i) (s'.out.phase i) :=
    fun hq hw => ⟨s, by rw [hw]; exact hrep, .same (acksOf_quiet i hq)⟩
  cases h with
  | publish _ h =>
    rename_i p id st _
    rcases h.cases with ⟨_, rfl, h1, _⟩ | ⟨_, _, rfl, h1⟩ | ⟨_, _, _, _, rfl, h1, _⟩ | ⟨_, zs, s1, st0, es0, w0, w1, h1, _, hsent, rfl, h2⟩
    · exact same (by simp) (by rw [h1])
    · exact same (by simp [isQuietEvent]) (by rw [h1])
    · exact ⟨s, h1, .same (acksOf_quiet i (by simp [isQuietEvent]))⟩
    · have hq : acksOf i (.pre :: (es0 ++ [.post])) = [] := by
        refine acksOf_quiet i (quiet_cons rfl (quiet_append ?_ (by simp [isQuietEvent])))
        rcases hsent.2.2 with ⟨_, h, _⟩ | ⟨_, _, rfl, _⟩ | ⟨_, _, snd, rfl, h, _⟩
        · exact quiet_send h
        · simp [isQuietEvent]
        · exact quiet_cons rfl (quiet_send h)
      have ho1 : s1.out.phase i = s.out.phase i ∨ i = id ∧ s.out.phase i = none ∧
          (p.qos = .qos1 ∧ s1.out.phase i = some .toSend1 ∨ p.qos = .qos2 ∧ s1.out.phase i = some .toSend2) := by
        rcases h1 with ⟨_, rfl⟩ | ⟨_, _, rfl⟩
        · exact Or.inl rfl
        · exact reserve_phase s id i p.qos
      have hres : Moves (.publish (some p) id) (.status st) (.pre :: (es0 ++ [.post])) i (s.out.phase i) (s1.out.phase i) := by
        rcases ho1 with h | ⟨rfl, h1, ⟨_, h2⟩ | ⟨_, h2⟩⟩
        · rw [h]; exact .same hq
        · rw [h1, h2]; exact .reserved hq rfl (Or.inl rfl)
        · rw [h1, h2]; exact .reserved hq rfl (Or.inr rfl)
      rcases h2 with ⟨_, _, h2⟩ | ⟨_, h3, h2⟩
      · exact ⟨s1, h2, hres⟩
      · refine ⟨_, h2, ?_⟩
        unfold noteSent at h3 ⊢
        by_cases hq0 : p.qos = .qos0
        · rw [if_pos hq0]; exact hres
        · rw [if_neg hq0] at h3 ⊢
          simp only at h3 ⊢
          rcases sent_phase s1 id i p.qos with h | ⟨rfl, h4, h5⟩
          · rw [h]; exact hres
          · rw [h4] at h3
            rcases h5 with ⟨e1, e2, e3⟩ | ⟨e1, e2, e3⟩
            · rw [e3]
              refine .sent hq rfl (by rw [h3]) (Or.inl ⟨e1, rfl⟩) ?_
              rcases ho1 with h | ⟨_, h, _⟩
              · rw [← h]; rcases e2 with e2 | e2 <;> simp [e2]
              · exact Or.inl h
            · rw [e3]
              refine .sent hq rfl (by rw [h3]) (Or.inr ⟨e1, rfl⟩) ?_
              rcases ho1 with h | ⟨_, h, _⟩
              · rw [← h]; rcases e2 with e2 | e2 <;> simp [e2]
              · exact Or.inl h
  | publishNull => exact same (by simp) rfl
  | subscribe _ h => obtain ⟨t, hc⟩ := h.ctx; exact same (quiet_ack h.kinds) (by rw [hc])
  | subscribeNull => exact same (by simp) rfl
  | unsubscribe _ h => obtain ⟨t, hc⟩ := h.ctx; exact same (quiet_ack h.kinds) (by rw [hc])
  | unsubscribeNull => exact same (by simp) rfl
  | ping _ h => obtain ⟨t, p, q, hc⟩ := h.ctx; exact same (quiet_ack h.kinds) (by rw [hc])
  | disconnect h =>
    rcases h.cases with ⟨_, _, rfl, hc⟩ | ⟨_, _, rfl, h1, _, _, t, hc⟩
    · exact same (by simp [isQuietEvent]) (by rw [hc])
    · exact same (quiet_cons rfl (quiet_append (quiet_send h1) (by simp [isQuietEvent]))) (by rw [hc]; rfl)
  | processLoop _ h => exact Iterated.moves (w := w.fresh) hrep h i
  | receiveLoop _ h => exact Iterated.moves hrep h i
  | cancel _ h =>
    rename_i id st _
    cases h with
    | none _ => exact same (by simp) rfl
    | some _ h1 h2 =>
      refine ⟨_, by rw [h1]; exact h2, ?_⟩
      have hq : acksOf i [Event.pre, .post] = [] := rfl
      simp only [step]
      cases hp : s.out.phase id with
      | none => exact .same hq
      | some p =>
        simp only
        rw [phase_remove]
        by_cases hi : i = id
        · subst hi
          rw [if_pos rfl]
          exact .dropped hq (Or.inl ⟨rfl, rfl⟩)
        · rw [if_neg hi]
          exact .same hq
  | check h => exact same (by simp [isQuietEvent]) (by rw [h])
  | getId h => exact same (by simp [isQuietEvent]) (by rw [h])
  | @connect ci will t0 sp0 sp st _ _ h =>
    cases h with
    | badSize _ _ h => exact same (by simp [isQuietEvent]) (by rw [h])
    | already _ _ h _ => exact same (by simp [isQuietEvent]) (by rw [h])
    | noTopic _ _ _ h => exact same (by simp [isQuietEvent]) (by rw [h])
    | notSent _ _ _ h1 _ _ h => exact same (quiet_cons rfl (quiet_append (quiet_send h1) (by simp [isQuietEvent]))) (by rw [h])
    | notAccepted _ _ _ h0 _ _ h1 h2 _ h3 =>
      obtain ⟨b, _, h4⟩ := h2.ctx
      exact same (quiet_cons rfl (quiet_append (quiet_send h0) (quiet_append (quiet_recv h2.recv) (by simp [isQuietEvent])))) (by rw [h3, h4, h1])
    | @fresh snd ca w1 w2 _ t _ _ _ h0 _ _ h1 h2 h3 =>
      refine ⟨_, by rw [h3]; exact represents_fresh _ _, ?_⟩
      refine .dropped ?_ (Or.inr rfl)
      show acksOf i ([Event.pre] ++ (snd ++ (ca ++ (cleanClears w.ctx.retransmits s ++ [.post])))) = []
      rw [acksOf_append, acksOf_append, acksOf_append, acksOf_append, acksOf_quiet i (quiet_send h0), acksOf_quiet i (quiet_recv h2.recv)]
      have : acksOf i (cleanClears w.ctx.retransmits s) = [] := by
        unfold cleanClears
        split
        · unfold acksOf
          rw [List.filterMap_eq_nil_iff]
          intro e he
          obtain ⟨x, _, rfl⟩ := List.mem_map.mp he
          rfl
        · rfl
      rw [this]
      rfl
    | @resumed _ snd ca res w1 w2 w3 w4 _ t _ _ _ h0 _ _ h1 h2 h3 _ h4 h5 =>
      obtain ⟨b, _, h6⟩ := h2.ctx
      have : ∀ {w3 : World}, w3.ctx.tables = w.ctx.tables → Represents w3.ctx.tables s := fun h => by rw [h]; exact hrep
      obtain ⟨k0, s', k1, k2⟩ := Resumed.moves (this (by rw [h3]; show _ = _; rw [connectedCtx, h6, h1])) h4 i
      refine ⟨s', by rw [h5]; exact k1, ?_⟩
      have hq : acksOf i (.pre :: (snd ++ (ca ++ (.post :: (res ++ if st = .success then [] else [.pre, .post]))))) = [] := by
        refine acksOf_quiet i (quiet_cons rfl (quiet_append (quiet_send h0) (quiet_append (quiet_recv h2.recv) (quiet_cons rfl (quiet_append k0 ?_)))))
        split <;> simp [isQuietEvent]
      rcases k2 with k2 | ⟨k2, k3, k4⟩
      · rw [k2]; exact .same hq
      · have hs : PubrelSent i (.pre :: (snd ++ (ca ++ (.post :: (res ++ if st = .success then [] else [.pre, .post]))))) := by
          unfold PubrelSent at k4 ⊢
          show _ <:+: Spec.wire ([Event.pre] ++ (snd ++ (ca ++ ([Event.post] ++ (res ++ _)))))
          rw [wire_append, wire_append, wire_append, wire_append, wire_append]
          exact infix_left _ (infix_left _ (infix_left _ (infix_left _ (infix_right _ k4))))
        rw [k3]
        rcases k2 with k2 | k2
        · rw [k2]; exact .pubrel hq (Or.inl rfl) hs
        · rw [k2]; exact .pubrel hq (Or.inr rfl) hs
  | connectNull _ h => exact same (by simp [isQuietEvent]) (by rw [h])

/-- An acknowledgement is presented only in the state in which it is due. -/
def Due (t : UInt8) (a : Option OutPhase) : Prop :=
  t = 0x40 ∧ a = some .awaitPuback ∨ t = 0x50 ∧ a = some .awaitPubrec ∨ t = 0x70 ∧ a = some .awaitPubcomp

theorem Moves.due {c : ApiCall} {r : ApiRet} {es : List Event} {i : UInt16} {a b : Option OutPhase} (h : Moves c r es i a b) {t : UInt8}
    (ht : t ∈ acksOf i es) : Due t a := by
  cases h with
  | puback h => rw [h] at ht; exact Or.inl ⟨by simpa using ht, rfl⟩
  | pubrec h _ => rw [h] at ht; exact Or.inr (Or.inl ⟨by simpa using ht, rfl⟩)
  | pubcomp h => rw [h] at ht; exact Or.inr (Or.inr ⟨by simpa using ht, rfl⟩)
  | same h => rw [h] at ht; cases ht
  | reserved h _ _ => rw [h] at ht; cases ht
  | sent h _ _ _ _ => rw [h] at ht; cases ht
  | pubrel h _ _ => rw [h] at ht; cases ht
  | dropped h _ => rw [h] at ht; cases ht

theorem Heard.due {es : List Event} {i : UInt16} {a b : Option OutPhase} (h : Heard es i a b) {t : UInt8} (ht : t ∈ acksOf i es) : Due t a :=
  (h.moves (c := .ping) (r := .packetId 0)).due ht

theorem Halted.heard {g : Cfg} {s : InFlight} {w w' : World} {c : ApiCall} {es : List Event} (h : Halted g s w c es w') (hl : Linked w es w')
    (i : UInt16) : ∃ es' b, acksOf i es <+: acksOf i es' ∧ Heard es' i (s.out.phase i) b := by
  have none : acksOf i es = [] → ∃ es' b, acksOf i es <+: acksOf i es' ∧ Heard es' i (s.out.phase i) b := fun h =>
    ⟨[], _, by rw [h]; exact List.nil_prefix, .same rfl⟩
  have quiet : (∀ e ∈ es, isQuietEvent e = true) → ∃ es' b, acksOf i es <+: acksOf i es' ∧ Heard es' i (s.out.phase i) b := fun hq => none (acksOf_quiet i hq)
  have iter : ∀ m, IterX m s w.ctx es → ∃ es' b, acksOf i es <+: acksOf i es' ∧ Heard es' i (s.out.phase i) b := by
    intro m h
    rcases h with rfl | ⟨x, ka, es2, rfl, h1, _, h2⟩
    · exact none rfl
    · have e : acksOf i (.recvd (w.ctx.bufSize - w.ctx.index) (some x) :: (ka ++ es2)) = acksOf i es2 := by
        show acksOf i ([Event.recvd (w.ctx.bufSize - w.ctx.index) (some x)] ++ (ka ++ es2)) = _
        rw [acksOf_append, acksOf_append, acksOf_quiet i (quiet_ack h1.1)]
        simp [acksOf]
      rcases h2 with rfl | ⟨_, _, _, _, _, h2⟩ | ⟨ty, hl, n, _, _, h2⟩
      · exact none e
      · exact none (e.trans (acksOf_quiet i (quiet_recv h2)))
      · rw [e, ← acksOf_callbacks]
        exact ⟨_, _, acksOf_prefix i h2.1, react_heard s w.ctx.retransmits m ty _ i⟩
  cases h with
  | publish _ h _ => exact quiet fun e he => by have := h.1 e he; cases e <;> simp_all [isPubEvent, isQuietEvent]
  | subscribe _ h _ => exact quiet (quiet_ack h.1)
  | unsubscribe _ h _ => exact quiet (quiet_ack h.1)
  | ping _ h _ => exact quiet (quiet_ack h.1)
  | processLoop _ h => exact iter true h
  | receiveLoop _ h => exact iter false h
  | disconnect _ h =>
    obtain ⟨snd, h1, h2, _⟩ := h
    have : es = .pre :: snd := List.append_cancel_left (hl.1.symm.trans h1)
    exact quiet (by rw [this]; exact quiet_cons rfl (quiet_send h2))
  | connect h =>
    cases h with
    | sending _ _ h1 => exact quiet (quiet_cons rfl (quiet_send h1))
    | waiting _ _ h1 _ _ h2 => exact quiet (quiet_cons rfl (quiet_append (quiet_send h1) (quiet_recv h2)))
    | resuming _ _ h1 _ _ h2 h3 h4 f h5 _ =>
      obtain ⟨a, b, rfl, k1, k2, _⟩ := h5
      exact quiet (quiet_cons rfl (quiet_append (quiet_send h1) (quiet_append (quiet_recv h3.recv) (quiet_cons rfl
        (quiet_append (quiet_ack k1.1) (quiet_resend k2.1))))))

theorem Halted.due {g : Cfg} {s : InFlight} {w w' : World} {c : ApiCall} {es : List Event} (h : Halted g s w c es w') (hl : Linked w es w')
    {i : UInt16} {t : UInt8} (ht : t ∈ acksOf i es) : Due t (s.out.phase i) := by
  obtain ⟨es', b, h1, h2⟩ := h.heard hl i
  exact h2.due (h1.subset ht)

/-- A new session forgets all publishes, cancelling forgets one. -/
theorem Did.drops {g : Cfg} {s s' : InFlight} {w w' : World} {c : ApiCall} {r : ApiRet} {es : List Event} (h : Did g s w c r es w') {i : UInt16}
    (hd : c = .cancelCallback i ∧ r = .status .success ∨ r = .connect .success (some false)) (hrep : Represents w'.ctx.tables s') :
    s'.out.phase i = none := by
  rcases hd with ⟨rfl, rfl⟩ | rfl
  · cases h with
    | cancel _ h =>
      generalize hst : Status.success = st at h
      cases h with
      | none => cases hst
      | some _ h1 h2 =>
        rw [h1] at hrep
        cases represents_unique hrep h2
        simp only [step] at hst ⊢
        cases hp : s.out.phase i with
        | none => rw [hp] at hst; cases hst
        | some p => simp only; rw [phase_remove, if_pos rfl]
  · cases h with
    | connect h =>
      generalize hst : Status.success = st at h
      generalize hsp : false = sp at h
      cases h with
      | badSize h => exact absurd hst.symm h
      | already _ _ _ h => subst hst; split at h <;> cases h
      | noTopic => cases hst
      | notSent => cases hst
      | notAccepted _ _ _ _ _ _ _ _ h => exact absurd hst.symm h
      | fresh _ _ _ _ _ _ _ _ h =>
        rw [h] at hrep
        cases represents_unique hrep (represents_fresh _ _)
        rfl
      | resumed => cases hsp

end Mqtt
