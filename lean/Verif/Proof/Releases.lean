/-
How the state of an incoming QoS 2 exchange changes in a call.
-/
import Verif.Spec.Releases
import Verif.Proof.InboundConnect
import Verif.Proof.CallStage

namespace Mqtt
open Spec
set_option linter.unusedSimpArgs false

/-- PUBREL is awaited, or PUBCOMP is to be sent. -/
def OpenPhase (a : Option InPhase) : Prop := a = some .awaitPubrel ∨ a = some .sendPubcomp

theorem relPresented_callbacks {i : UInt16} {es : List Event} : relPresented i (callbacks es) ↔ relPresented i es := by
  unfold relPresented callbacks
  simp [List.mem_filter, isCallback]

theorem relPresented_quiet {i : UInt16} {es : List Event} (h : ∀ e ∈ es, isQuietEvent e = true) : ¬ relPresented i es := by
  rintro ⟨b, st, hm⟩
  cases h _ hm

theorem readIncoming_rel (body : List UInt8) : readIncoming 0x62 body = (idOnly body).map (.ack .pubrel) := by
  unfold readIncoming
  rw [if_neg (by decide), if_neg (by decide), if_neg (by decide), if_pos rfl]

/-- A PUBREL is presented if and only if PUBCOMP is the answer. -/
theorem rel_iff (retx manage : Bool) (s : InFlight) (first : UInt8) (body : List UInt8) (i : UInt16) :
    relPresented i (react retx manage s first body).callbacks ↔ (react retx manage s first body).ack = some (.pubcomp, i) := by
  have h62 : ∀ pkt, readIncoming first body = some pkt → first = 0x62 → ∃ id, pkt = .ack .pubrel id := by
    intro pkt h1 h2
    rw [h2, readIncoming_rel] at h1
    cases hi : idOnly body with
    | none => rw [hi] at h1; cases h1
    | some id => rw [hi] at h1; cases h1; exact ⟨id, rfl⟩
  unfold react
  cases hr : readIncoming first body with
  | none => simp [relPresented]
  | some pkt =>
    cases pkt with
    | publish id v =>
      simp only [reactPublish]
      split
      · simp [relPresented]
      · split
        · cases v.qos <;> simp [relPresented, publishAck]
        · split
          · cases v.qos <;> simp [relPresented, publishAck]
          · simp [relPresented]
    | ack ty id =>
      simp only [reactAck]
      split
      · constructor
        · rintro ⟨b, st, hm⟩
          rcases List.mem_append.mp hm with hm | hm
          · split at hm
            · simp at hm
            · cases hm
          · simp only [List.mem_singleton, Event.app.injEq] at hm
            obtain ⟨h1, h2, h3, h4, _⟩ := hm
            obtain ⟨j, hj⟩ := h62 _ hr h1.symm
            cases hj
            rw [h3]; rfl
        · intro h
          have h2 : ty = .pubrel ∧ id = i := by cases ty <;> simp_all [nextAck]
          obtain ⟨rfl, rfl⟩ := h2
          have h3 : first = 0x62 := by
            rcases readIncoming_ackByte hr with ⟨h, _⟩ | ⟨h, _⟩ | ⟨_, h⟩ | ⟨h, _⟩
            · cases h
            · cases h
            · exact h
            · cases h
          rw [h3]
          exact ⟨body, .success, by simp⟩
      · simp [relPresented]
    | pingresp =>
      constructor
      · rintro ⟨b, st, hm⟩
        simp only at hm
        split at hm
        · cases hm
        · simp only [List.mem_singleton, Event.app.injEq] at hm
          obtain ⟨j, hj⟩ := h62 _ hr hm.1.symm
          cases hj
      · intro h; cases h
    | suback id f =>
      constructor
      · rintro ⟨b, st, hm⟩
        simp only [List.mem_singleton, Event.app.injEq] at hm
        obtain ⟨j, hj⟩ := h62 _ hr hm.1.symm
        cases hj
      · intro h; cases h
    | unsuback id =>
      constructor
      · rintro ⟨b, st, hm⟩
        simp only [List.mem_singleton, Event.app.injEq] at hm
        obtain ⟨j, hj⟩ := h62 _ hr hm.1.symm
        cases hj
      · intro h; cases h

/-- What a call means for the exchange with packet id `i`: `a` is its state before, `b` after it; `rec`: PUBREC was sent. -/
structure InStep (r : ApiRet) (es : List Event) (rec : Prop) (i : UInt16) (a b : Option InPhase) : Prop where
  begins : r = .status .success → rec → OpenPhase b
  keeps : OpenPhase a → r ≠ .connect .success (some false) → ¬ (r = .status .success ∧ relPresented i es) → OpenPhase b
  only : OpenPhase b → (r = .status .success ∧ rec) ∨ (OpenPhase a ∧ r ≠ .connect .success (some false) ∧ ¬ (r = .status .success ∧ relPresented i es))
  rel : relPresented i es → OpenPhase a
  ends : r = .status .success → relPresented i es → b = none
  idle : a = none → presented i es = [] → b = none

theorem InStep.same {r : ApiRet} {es : List Event} {rec : Prop} {i : UInt16} {a : Option InPhase} (h1 : ¬ rec) (h2 : ¬ relPresented i es)
    (h3 : r ≠ .connect .success (some false)) : InStep r es rec i a a :=
  ⟨fun _ h => absurd h h1, fun h _ _ => h, fun h => Or.inr ⟨h, h3, fun h => h2 h.2⟩, fun h => absurd h h2, fun _ h => absurd h h2, fun h _ => h⟩

theorem idPacket_bytes (f n : Nat) : idPacket f n = [UInt8.ofNat f, 2, UInt8.ofNat (n / 256), UInt8.ofNat (n % 256)] := by
  show UInt8.ofNat f :: (varInt 2 ++ be16 n) = _
  rw [varInt_two]; rfl

theorem pubrec_part {ka x : List UInt8} {ack : Option (AckType × UInt16)} {i : UInt16} (hk : ka <+: pingreqPacket) (hx : x <+: ackWire ack)
    (h : idPacket 0x50 i.toNat <:+ ka ++ x) : x = idPacket 0x50 i.toNat ∧ ack = some (.pubrec, i) := by
  have hp : pingreqPacket = [0xC0, 0] := by decide +kernel
  rw [hp] at hk
  have hxl : x.length ≤ 4 ∧ (x.length = 4 → x = ackWire ack) := by
    cases ack with
    | none => rw [List.prefix_nil.mp hx]; simp
    | some a =>
      obtain ⟨ty, id⟩ := a
      have : (ackWire (some (ty, id))).length = 4 := by simp [ackWire, idPacket_bytes]
      refine ⟨by rw [← this]; exact hx.length_le, fun h => hx.eq_of_length (by rw [h, this])⟩
  have hx4 : x = idPacket 0x50 i.toNat := by
    obtain ⟨pre, hpre⟩ := h
    have hlen := congrArg List.length hpre
    rw [idPacket_bytes] at hpre hlen ⊢
    have hkl := hk.length_le
    simp only [List.length_append, List.length_cons, List.length_nil] at hlen hkl
    -- the four bytes begin at or after the end of the ping
    obtain ⟨t, ht⟩ := hk
    rcases ka with _ | ⟨k0, _ | ⟨k1, _ | ⟨k2, ka⟩⟩⟩
    · rw [List.nil_append] at hpre
      have : pre = [] := List.eq_nil_of_length_eq_zero (by simp at hlen; omega)
      rw [this] at hpre; exact hpre.symm
    · simp only [List.cons_append, List.nil_append, List.cons.injEq] at ht
      rcases pre with _ | ⟨a, pre⟩
      · simp only [List.nil_append, List.cons_append, List.cons.injEq] at hpre
        rw [ht.1] at hpre
        exact absurd hpre.1 (by decide)
      · simp only [List.cons_append, List.nil_append, List.cons.injEq] at hpre
        have : pre = [] := List.eq_nil_of_length_eq_zero (by simp at hlen; omega)
        rw [this] at hpre; exact hpre.2.symm
    · simp only [List.cons_append, List.nil_append, List.cons.injEq] at ht
      rcases pre with _ | ⟨a, _ | ⟨b, pre⟩⟩
      · simp only [List.nil_append, List.cons_append, List.cons.injEq] at hpre
        rw [ht.1] at hpre
        exact absurd hpre.1 (by decide)
      · simp only [List.nil_append, List.cons_append, List.cons.injEq] at hpre
        rw [ht.2.1] at hpre
        exact absurd hpre.2.1 (by decide)
      · simp only [List.cons_append, List.nil_append, List.cons.injEq] at hpre
        have : pre = [] := List.eq_nil_of_length_eq_zero (by simp at hlen; omega)
        rw [this] at hpre; exact hpre.2.2.symm
    · simp at hkl
  refine ⟨hx4, ?_⟩
  have h4 := hxl.2 (by rw [hx4, idPacket_bytes]; rfl)
  rw [hx4] at h4
  cases ack with
  | none => rw [idPacket_bytes] at h4; cases h4
  | some a =>
    obtain ⟨ty, id⟩ := a
    simp only [ackWire, idPacket_bytes, List.cons.injEq] at h4
    have hty : ty = .pubrec := by
      cases ty <;> first | rfl | exact absurd h4.1 (by decide)
    have := (be16_inj (x := []) (y := []) i.toNat_lt id.toNat_lt (by simp only [be16, List.append_nil, List.cons.injEq, and_true]; exact ⟨h4.2.2.1, h4.2.2.2.1⟩)).1
    rw [hty, UInt16.toNat_inj.mp this]

/-- A packet was handled. -/
theorem packet_inStep {retx m : Bool} {s s' : InFlight} {p : Raw} {w1 w2 : World} {st : Status} {es es1 : List Event} {ka : List UInt8} {i : UInt16} (hi : i ≠ 0)
    (hk : ka = [] ∨ ka = pingreqPacket) (hw : wire es = ka ++ wire es1) (hcb : callbacks es = callbacks es1)
    (hre : Reacted (react retx m s p.first p.body) w1 st es1 w2) (hrep : Represents w2.ctx.tables s') :
    InStep (.status (callerStatus st)) es (pubrecSent i es) i (s.inc.phase i) (s'.inc.phase i) := by
  have hst := reacted_ne hre
  have hcs : callerStatus st = st := if_neg hst
  rw [hcs]
  have hrel : relPresented i es ↔ (react retx m s p.first p.body).ack = some (.pubcomp, i) := by
    rw [← relPresented_callbacks, hcb, hre.calls, rel_iff]
  have hpr : presented i es = presented i (react retx m s p.first p.body).callbacks := by
    rw [← presented_callbacks, hcb, hre.calls]
  have hkp : ka <+: pingreqPacket := by
    rcases hk with rfl | rfl
    · exact List.nil_prefix
    · exact List.prefix_refl _
  have hrec : pubrecSent i es → wire es1 = idPacket 0x50 i.toNat ∧ (react retx m s p.first p.body).ack = some (.pubrec, i) := by
    intro h
    unfold pubrecSent at h
    rw [hw] at h
    exact pubrec_part hkp hre.x.2.2 h
  have hrec' : (react retx m s p.first p.body).ack = some (.pubrec, i) → wire es1 = ackWire (react retx m s p.first p.body).ack → pubrecSent i es := by
    intro h1 h2
    unfold pubrecSent
    rw [hw, h2, h1]
    exact List.suffix_append _ _
  have hnc : (ApiRet.status st) ≠ .connect .success (some false) := by simp
  have took := react_took s retx m p i
  generalize react retx m s p.first p.body = R at *
  -- the answer was not sent
  have unsent : s' = R.state → st ≠ .success ∨ R.ack = none → ¬ pubrecSent i es →
      InStep (.status st) es (pubrecSent i es) i (s.inc.phase i) (s'.inc.phase i) := by
    rintro rfl hn hnr
    have hnn : ∀ x, R.ack = some x → ¬ (ApiRet.status st = .status .success ∧ relPresented i es) := by
      rintro x hx ⟨h1, _⟩
      rcases hn with h | h
      · injection h1 with h1; exact h h1
      · rw [h] at hx; cases hx
    cases took with
    | none h1 h2 h3 =>
      rw [h2]
      refine .same hnr ?_ hnc
      rw [hrel]
      intro h
      rcases h3 _ _ h with h | h
      · cases h
      · exact h rfl
    | one _ _ h1 h2 h3 h4 =>
      rw [h3, h1]
      have : ¬ relPresented i es := by rw [hrel, h4]; simp
      exact ⟨fun _ h => absurd h hnr, fun h => (by rcases h with h | h <;> cases h), fun h => (by rcases h with h | h <;> cases h), fun h => absurd h this,
        fun _ h => absurd h this, fun _ h => (by rw [hpr, h2] at h; cases h)⟩
    | two _ _ h1 h2 h3 h4 =>
      rw [h3, h1]
      have : ¬ relPresented i es := by rw [hrel, h4]; simp
      exact ⟨fun _ h => absurd h hnr, fun h => (by rcases h with h | h <;> cases h), fun h => (by rcases h with h | h <;> cases h), fun h => absurd h this,
        fun _ h => absurd h this, fun _ h => (by rw [hpr, h2] at h; cases h)⟩
    | oneAgain _ _ h1 h2 h3 h4 => rw [h3]; exact .same hnr (by rw [hrel, h4]; simp) hnc
    | twoAgain _ _ h1 h2 h3 h4 => rw [h3]; exact .same hnr (by rw [hrel, h4]; simp) hnc
    | rel _ h1 h2 h3 h4 =>
      rw [h3]
      exact ⟨fun _ h => absurd h hnr, fun _ _ _ => Or.inr rfl, fun _ => Or.inr ⟨h1, hnc, hnn _ h4⟩, fun _ => h1, fun h1 h2 => absurd ⟨h1, h2⟩ (hnn _ h4),
        fun h => (by rw [h] at h1; rcases h1 with h1 | h1 <;> cases h1)⟩
  rcases hre.cases with ⟨k1, k2, _, k3, k4⟩ | ⟨k1, _, k2, _, k3, k4⟩ | ⟨k1, _, k2, k2', k3, k4, _⟩ | ⟨ty, id, k1, _, k2, _, k3, k4⟩
  · refine unsent (represents_unique hrep k4) (Or.inr k1) fun h => ?_
    rw [(hrec h).2] at k1; cases k1
  · refine unsent (represents_unique hrep k4) (Or.inl ?_) fun h => ?_
    · rw [k3]; unfold notConnectedStatus; split <;> simp
    · have := (hrec h).1
      rw [k2, idPacket_bytes] at this; cases this
  · refine unsent (represents_unique hrep k4) (Or.inl (by rw [k3]; simp)) fun h => ?_
    obtain ⟨h1, h2⟩ := hrec h
    exact k2' (by rw [h1, h2]; rfl)
  · have hs' := represents_unique hrep k4
    obtain ⟨c1, c2, c3, c4⟩ := ackSend_inc (s := R.state) (ty := ty) (id := id) hi
    cases took with
    | none h1 h2 h3 =>
      have h4 := h3 _ _ k1
      rw [hs', c1 h4, h2]
      refine .same (fun h => ?_) ?_ hnc
      · have := (hrec h).2
        rw [k1] at this; cases this
        rcases h4 with h4 | h4
        · cases h4
        · exact h4 rfl
      · rw [hrel, k1]
        intro h; cases h
        rcases h4 with h4 | h4
        · cases h4
        · exact h4 rfl
    | one _ _ h1 h2 h3 h4 =>
      rw [k1] at h4; cases h4
      have nrec : ¬ pubrecSent i es := fun h => (by have := (hrec h).2; rw [k1] at this; cases this)
      have nrel : ¬ relPresented i es := by rw [hrel, k1]; simp
      rw [hs', c2 h3, h1]
      exact .same nrec nrel hnc
    | two _ _ h1 h2 h3 h4 =>
      rw [k1] at h4; cases h4
      have nrel : ¬ relPresented i es := by rw [hrel, k1]; simp
      have hst' : st = .success := by
        rw [k3]
        simp [step, hi, forOutgoing, ackTable, h3, inAck]
      rw [hs', c3 (Or.inl h3), h1]
      exact ⟨fun _ _ => Or.inl rfl, fun _ _ _ => Or.inl rfl, fun _ => Or.inl ⟨by rw [hst'], hrec' k1 k2⟩, fun h => absurd h nrel, fun _ h => absurd h nrel,
        fun _ h => (by rw [hpr, h2] at h; cases h)⟩
    | oneAgain _ _ h1 h2 h3 h4 =>
      rw [k1] at h4; cases h4
      have nrec : ¬ pubrecSent i es := fun h => (by have := (hrec h).2; rw [k1] at this; cases this)
      have nrel : ¬ relPresented i es := by rw [hrel, k1]; simp
      rw [hs']
      cases hp : s.inc.phase i with
      | none => exact absurd hp h1
      | some x =>
        rw [hp] at h3
        cases x with
        | sendPuback =>
          rw [c2 h3]
          exact ⟨fun _ h => absurd h nrec, fun h => (by rcases h with h | h <;> cases h), fun h => (by rcases h with h | h <;> cases h), fun h => absurd h nrel,
            fun _ h => absurd h nrel, fun h => (by cases h)⟩
        | _ =>
          have : (step R.state (.ack .send .puback i)).2.inc.phase i = R.state.inc.phase i := by
            simp [step, hi, forOutgoing, ackTable, h3, inAck]
          rw [this, h3]
          exact .same nrec nrel hnc
    | twoAgain _ _ h1 h2 h3 h4 =>
      rw [k1] at h4; cases h4
      have nrel : ¬ relPresented i es := by rw [hrel, k1]; simp
      rw [hs']
      cases hp : s.inc.phase i with
      | none => exact absurd hp h1
      | some x =>
        rw [hp] at h3
        have bad : (x = .sendPuback ∨ x = .sendPubcomp) → InStep (.status st) es (pubrecSent i es) i (some x) ((step R.state (.ack .send .pubrec i)).2.inc.phase i) := by
          intro hx
          have e1 : (step R.state (.ack .send .pubrec i)).2.inc.phase i = R.state.inc.phase i := by
            rcases hx with rfl | rfl <;> simp [step, hi, forOutgoing, ackTable, h3, inAck]
          have e2 : st ≠ .success := by
            rw [k3]
            rcases hx with rfl | rfl <;> simp [step, hi, forOutgoing, ackTable, h3, inAck]
          rw [e1, h3]
          exact ⟨fun h _ => (by injection h with h; exact absurd h e2), fun h _ _ => h,
            fun h => Or.inr ⟨h, hnc, fun h => nrel h.2⟩, fun h => absurd h nrel, fun _ h => absurd h nrel, fun h _ => h⟩
        have good : (x = .sendPubrec ∨ x = .awaitPubrel) → InStep (.status st) es (pubrecSent i es) i (some x) ((step R.state (.ack .send .pubrec i)).2.inc.phase i) := by
          intro hx
          have e2 : st = .success := by
            rw [k3]
            rcases hx with rfl | rfl <;> simp [step, hi, forOutgoing, ackTable, h3, inAck]
          rw [c3 (by rcases hx with rfl | rfl; exact Or.inl h3; exact Or.inr h3)]
          exact ⟨fun _ _ => Or.inl rfl, fun _ _ _ => Or.inl rfl, fun _ => Or.inl ⟨by rw [e2], hrec' k1 k2⟩, fun h => absurd h nrel, fun _ h => absurd h nrel,
            fun h => (by cases h)⟩
        cases x with
        | sendPuback => exact bad (Or.inl rfl)
        | sendPubcomp => exact bad (Or.inr rfl)
        | sendPubrec => exact good (Or.inl rfl)
        | awaitPubrel => exact good (Or.inr rfl)
    | rel _ h1 h2 h3 h4 =>
      rw [k1] at h4; cases h4
      have hst' : st = .success := by
        rw [k3]
        simp [step, hi, forOutgoing, ackTable, h3, inAck]
      have nrec : ¬ pubrecSent i es := fun h => (by have := (hrec h).2; rw [k1] at this; cases this)
      have hr : relPresented i es := by rw [hrel, k1]
      rw [hs', c4 h3]
      exact ⟨fun _ h => absurd h nrec, fun _ _ h => absurd ⟨by rw [hst'], hr⟩ h, fun h => (by rcases h with h | h <;> cases h), fun _ => h1, fun _ _ => rfl,
        fun _ _ => rfl⟩

/-- A receive call. -/
theorem did_inLoop {g : Cfg} {s : InFlight} {w w' : World} {m : Bool} {r : ApiRet} {es : List Event} (hrep : Represents w.ctx.tables s)
    (h : Did g s w (loopCall m) r es w') {i : UInt16} (hi : i ≠ 0) :
    ∃ s', Represents w'.ctx.tables s' ∧ InStep r es (pubrecSent i es) i (s.inc.phase i) (s'.inc.phase i) := by
  obtain ⟨hfx, st, rfl, ⟨rfl, rfl, h1, h2⟩ | ⟨x, ka, es2, rfl, h1, h2, h3, h4⟩⟩ := h.turn
  · refine ⟨s, by rw [h2]; exact hrep, .same (fun h => ?_) (relPresented_quiet (by simp [isQuietEvent])) (by simp)⟩
    have := (pubrec_part (ka := []) (x := []) (ack := none) List.nil_prefix (List.prefix_refl _) h).1
    rw [idPacket_bytes] at this; cases this
  · have hw : wire (.recvd (w.ctx.bufSize - w.ctx.index) (some x) :: (ka ++ es2)) = wire ka ++ wire es2 := by
      rw [wire_cons_of_noSent _ _ rfl, wire_append]
    have hcb : callbacks (.recvd (w.ctx.bufSize - w.ctx.index) (some x) :: (ka ++ es2)) = callbacks es2 := by
      have : callbacks (.recvd (w.ctx.bufSize - w.ctx.index) (some x) :: (ka ++ es2)) = callbacks (ka ++ es2) := rfl
      rw [this, callbacks_append, h2.quiet.2, List.nil_append]
    have quiet : wire es2 = [] → callbacks es2 = [] → w'.ctx.tables = w.ctx.tables →
        ∃ s', Represents w'.ctx.tables s' ∧
          InStep (.status st) (.recvd (w.ctx.bufSize - w.ctx.index) (some x) :: (ka ++ es2)) (pubrecSent i (.recvd (w.ctx.bufSize - w.ctx.index) (some x) :: (ka ++ es2))) i
            (s.inc.phase i) (s'.inc.phase i) := by
      intro q1 q2 q3
      refine ⟨s, by rw [q3]; exact hrep, .same (fun h => ?_) (fun h => ?_) (by simp)⟩
      · unfold pubrecSent at h
        rw [hw, q1] at h
        have := (pubrec_part (ack := none) h2.2 (List.prefix_refl _) h).1
        rw [idPacket_bytes] at this; cases this
      · rw [← relPresented_callbacks, hcb, q2] at h
        obtain ⟨_, _, h⟩ := h
        cases h
    cases h4 with
    | stopped _ _ _ ht => exact quiet rfl rfl ht
    | wait _ _ _ ht => exact quiet rfl rfl ht
    | drop _ _ h5 _ _ ht => exact quiet (wire_of_noSent h5.noSent) (callbacks_recv h5) ht
    | packet hp hbuf hfit hw1 ht1 hre hmore hb ht2 =>
      rename_i st1 es3 p rest w1 w2 more
      have hrep2 : ∃ s', Represents w2.ctx.tables s' := by
        rcases hre.cases with ⟨_, _, _, _, h⟩ | ⟨_, _, _, _, _, h⟩ | ⟨_, _, _, _, _, h, _⟩ | ⟨ty, id, _, _, _, _, _, h⟩
        · exact ⟨_, h⟩
        · exact ⟨_, h⟩
        · exact ⟨_, h⟩
        · exact ⟨_, h⟩
      obtain ⟨s', hs'⟩ := hrep2
      refine ⟨s', by rw [ht2]; exact hs', packet_inStep hi hw1.2.2 ?_ ?_ hre hs'⟩
      · rw [hw, (wire_more hmore).1]
      · rw [hcb, callbacks_append]
        rcases hmore with ⟨_, t, rfl⟩ | ⟨_, rfl⟩
        · show _ ++ [] = _; rw [List.append_nil]
        · show _ ++ [] = _; rw [List.append_nil]

/-- Every other call. -/
theorem did_inOther {g : Cfg} {s : InFlight} {w w' : World} {c : ApiCall} {r : ApiRet} {es : List Event} (hrep : Represents w.ctx.tables s)
    (h : Did g s w c r es w') (hc : ∀ m, c ≠ loopCall m) (i : UInt16) :
    ∃ s', Represents w'.ctx.tables s' ∧ InStep r es False i (s.inc.phase i) (s'.inc.phase i) := by
  have same' : ∀ {s'}, (∀ e ∈ es, isQuietEvent e = true) → Represents w'.ctx.tables s' → s'.inc = s.inc → r ≠ .connect .success (some false) →
      ∃ s', Represents w'.ctx.tables s' ∧ InStep r es False i (s.inc.phase i) (s'.inc.phase i) :=
    fun hq hw he hr => ⟨_, hw, by rw [he]; exact .same (fun h => h) (relPresented_quiet hq) hr⟩
  have same : (∀ e ∈ es, isQuietEvent e = true) → w'.ctx.tables = w.ctx.tables → r ≠ .connect .success (some false) →
      ∃ s', Represents w'.ctx.tables s' ∧ InStep r es False i (s.inc.phase i) (s'.inc.phase i) :=
    fun hq hw hr => same' hq (by rw [hw]; exact hrep) rfl hr
  cases h with
  | publish _ h =>
    rename_i p id st _
    rcases h.cases with ⟨_, rfl, h1, _⟩ | ⟨_, _, rfl, h1⟩ | ⟨_, _, _, _, rfl, h1, _⟩ | ⟨_, zs, s1, st0, es0, w0, w1, h1, _, hsent, rfl, h2⟩
    · exact same (by simp) (by rw [h1]) (by simp)
    · exact same (by simp [isQuietEvent]) (by rw [h1]) (by simp)
    · exact same' (by simp [isQuietEvent]) h1 rfl (by simp)
    · have hq : ∀ e ∈ Event.pre :: (es0 ++ [.post]), isQuietEvent e = true := quiet_cons rfl (quiet_append hsent.quiet (by simp [isQuietEvent]))
      have ho1 : s1.inc = s.inc := by
        rcases h1 with ⟨_, rfl⟩ | ⟨_, _, rfl⟩
        · rfl
        · exact reserve_inc _ _ _
      rcases h2 with ⟨_, _, h2⟩ | ⟨_, h3, h2⟩
      · exact same' hq h2 ho1 (by simp)
      · exact same' hq h2 ((noteSent_inc _ _ _).trans ho1) (by simp)
  | publishNull => exact same (by simp) rfl (by simp)
  | subscribe _ h => obtain ⟨t, hc⟩ := h.ctx; exact same (quiet_ack h.kinds) (by rw [hc]) (by simp)
  | subscribeNull => exact same (by simp) rfl (by simp)
  | unsubscribe _ h => obtain ⟨t, hc⟩ := h.ctx; exact same (quiet_ack h.kinds) (by rw [hc]) (by simp)
  | unsubscribeNull => exact same (by simp) rfl (by simp)
  | ping _ h => obtain ⟨t, p, q, hc⟩ := h.ctx; exact same (quiet_ack h.kinds) (by rw [hc]) (by simp)
  | disconnect h =>
    rcases h.cases with ⟨_, _, rfl, hc⟩ | ⟨_, _, rfl, h1, _, _, t, hc⟩
    · exact same (by simp [isQuietEvent]) (by rw [hc]) (by simp)
    · exact same (quiet_cons rfl (quiet_append (quiet_send h1) (by simp [isQuietEvent]))) (by rw [hc]; rfl) (by simp)
  | processLoop _ h => exact absurd rfl (hc true)
  | receiveLoop _ h => exact absurd rfl (hc false)
  | cancel _ h =>
    rename_i id st _
    cases h with
    | none _ => exact same (by simp) rfl (by simp)
    | some _ h1 h2 =>
      refine same' (by simp [isQuietEvent]) (by rw [h1]; exact h2) ?_ (by simp)
      simp only [step]
      split <;> rfl
  | check h => exact same (by simp [isQuietEvent]) (by rw [h]) (by simp)
  | getId h => exact same (by simp [isQuietEvent]) (by rw [h]) (by simp)
  | @connect ci will t0 sp0 sp st _ _ h =>
    have hne : ∀ sp, st ≠ .success → ApiRet.connect st sp ≠ .connect .success (some false) := by
      intro sp h1 h2; injection h2 with h2; exact h1 h2
    cases h with
    | badSize h0 _ h => exact same (by simp [isQuietEvent]) (by rw [h]) (hne _ h0)
    | already _ _ h h0 => exact same (by simp [isQuietEvent]) (by rw [h]) (hne _ (by rw [h0]; split <;> simp))
    | noTopic _ _ _ h => exact same (by simp [isQuietEvent]) (by rw [h]) (by simp)
    | notSent _ _ _ h1 _ _ h => exact same (quiet_cons rfl (quiet_append (quiet_send h1) (by simp [isQuietEvent]))) (by rw [h]) (by simp)
    | notAccepted _ _ _ h0 _ _ h1 h2 hs h3 =>
      obtain ⟨b, _, h4⟩ := h2.ctx
      exact same (quiet_cons rfl (quiet_append (quiet_send h0) (quiet_append (quiet_recv h2.recv) (by simp [isQuietEvent])))) (by rw [h3, h4, h1]) (hne _ hs)
    | @fresh snd ca w1 w2 _ t _ _ _ h0 _ _ h1 h2 h3 =>
      refine ⟨_, by rw [h3]; exact represents_fresh _ _, ?_⟩
      have hn : ¬ relPresented i (.pre :: (snd ++ (ca ++ (cleanClears w.ctx.retransmits s ++ [.post])))) := by
        rintro ⟨b, st, hm⟩
        rcases List.mem_cons.mp hm with h | hm
        · cases h
        rcases List.mem_append.mp hm with hm | hm
        · cases quiet_send h0 _ hm
        rcases List.mem_append.mp hm with hm | hm
        · cases quiet_recv h2.recv _ hm
        rcases List.mem_append.mp hm with hm | hm
        · unfold cleanClears at hm
          split at hm
          · obtain ⟨x, _, h⟩ := List.mem_map.mp hm
            cases h
          · cases hm
        · simp at hm
      exact ⟨fun _ h => h.elim, fun _ h => absurd rfl h, fun h => (by rcases h with h | h <;> cases h), fun h => absurd h hn, fun _ h => absurd h hn, fun _ _ => rfl⟩
    | @resumed _ snd ca res w1 w2 w3 w4 _ t _ _ _ h0 _ _ h1 h2 h3 _ h4 h5 =>
      obtain ⟨b, _, h6⟩ := h2.ctx
      obtain ⟨a, st1, w5, b5, rfl, hp, h⟩ := h4
      obtain ⟨done, rest, _, k2, _⟩ := hp.cases
      have hw : w4.ctx.tables = w5.ctx.tables ∧ ∀ e ∈ b5, isQuietEvent e = true := by
        rcases h with ⟨_, rfl, rfl, _⟩ | ⟨_, _, hq⟩
        · exact ⟨rfl, by simp⟩
        · obtain ⟨t, hc⟩ := hq.ctx
          exact ⟨by rw [hc], quiet_resend hq.kinds⟩
      refine same' (s' := { s with out := released done s.out }) ?_ (by rw [h5]; show Represents w4.ctx.tables _; rw [hw.1]; exact k2) rfl (by simp)
      refine quiet_cons rfl (quiet_append (quiet_send h0) (quiet_append (quiet_recv h2.recv) (quiet_cons rfl (quiet_append (quiet_append (quiet_ack hp.kinds) hw.2) ?_))))
      split <;> simp [isQuietEvent]
  | connectNull _ h => exact same (by simp [isQuietEvent]) (by rw [h]) (by simp)

/-- One call of a history. -/
theorem call_inStep {g : Cfg} (hg : CfgOk g) {s : InFlight} {w w' : World} {c : ApiCall} {e : Env} {r : ApiRet} (hidx : w.ctx.index ≤ w.ctx.bufSize)
    (hrep : Represents w.ctx.tables s) (hv : ValidCall g c) (hc : callIn g w e c = .done r w') {i : UInt16} (hi : i ≠ 0) :
    ∃ s', Represents w'.ctx.tables s' ∧
      InStep r (callEvents g w e c) ((∃ m, c = loopCall m) ∧ pubrecSent i (callEvents g w e c)) i (s.inc.phase i) (s'.inc.phase i) := by
  rcases call_cases hg hidx hrep e hv with ⟨r1, es, w1, h1, h2, _, hd⟩ | ⟨es, w1, h1, _⟩
  · rw [hc] at h1
    cases h1
    rw [h2]
    by_cases hl : ∃ m, c = loopCall m
    · obtain ⟨m, rfl⟩ := hl
      obtain ⟨s', k1, k2⟩ := did_inLoop (w := { w with env := e }) hrep hd hi
      exact ⟨s', k1, ⟨fun a b => k2.begins a b.2, k2.keeps, fun a => (k2.only a).imp (fun x => ⟨x.1, ⟨m, rfl⟩, x.2⟩) id, k2.rel, k2.ends, k2.idle⟩⟩
    · obtain ⟨s', k1, k2⟩ := did_inOther (w := { w with env := e }) hrep hd (fun m h => hl ⟨m, h⟩) i
      exact ⟨s', k1, ⟨fun a b => absurd b.1 hl, k2.keeps, fun a => (k2.only a).imp (fun x => x.2.elim) id, k2.rel, k2.ends, k2.idle⟩⟩
  · rw [hc] at h1; cases h1

theorem FromInit.snoc {g : Cfg} {h : List (ApiCall × ApiRet)} {w w' : World} {c : ApiCall} {e : Env} {r : ApiRet} (hh : FromInit g h w) (hv : ValidCall g c)
    (hc : callIn g w e c = .done r w') : FromInit g (h ++ [(c, r)]) w' := by
  obtain ⟨hg, w0, h1, h2, h3⟩ := hh
  exact ⟨hg, w0, h1, h2, .call h3 hv hc⟩

theorem exchangeOpen_phase {g : Cfg} {i : UInt16} (hi : i ≠ 0) {w : World} (h : ExchangeOpen g i w) :
    (∃ h0, FromInit g h0 w) ∧ ∃ s, Represents w.ctx.tables s ∧ OpenPhase (s.inc.phase i) := by
  induction h with
  | @acknowledged h0 w w' e m hh hc hp =>
    have hv : ValidCall g (loopCall m) := by cases m <;> trivial
    obtain ⟨hg, hidx, s, hrep⟩ := hh.good
    obtain ⟨s', k1, k2⟩ := call_inStep hg hidx hrep hv hc hi
    exact ⟨⟨_, hh.snoc hv hc⟩, s', k1, k2.begins rfl ⟨⟨m, rfl⟩, hp⟩⟩
  | kept _ hv hc h1 h2 ih =>
    obtain ⟨⟨h0, hh⟩, s, hrep, ho⟩ := ih
    obtain ⟨hg, hidx, _⟩ := hh.good
    obtain ⟨s', k1, k2⟩ := call_inStep hg hidx hrep hv hc hi
    exact ⟨⟨_, hh.snoc hv hc⟩, s', k1, k2.keeps ho h1 h2⟩

theorem exchangeOpen_of_phase {g : Cfg} {i : UInt16} (hi : i ≠ 0) {h0 : List (ApiCall × ApiRet)} {w : World} (hh : FromInit g h0 w) :
    ∀ s, Represents w.ctx.tables s → OpenPhase (s.inc.phase i) → ExchangeOpen g i w := by
  obtain ⟨hg, w0, h1, h2, h3⟩ := hh
  induction h3 with
  | start =>
    intro s hrep ho
    obtain ⟨oc, ic, _, _, i3⟩ := h1.inv
    rw [i3] at hrep
    rw [represents_unique hrep (represents_fresh oc ic)] at ho
    rcases ho with h | h <;> cases h
  | @call w1 w2 h e c r hrun hv hc ih =>
    intro s' hrep' ho
    have hh : FromInit g h w1 := ⟨hg, w0, h1, h2, hrun⟩
    obtain ⟨_, hidx, s, hrep⟩ := hh.good
    obtain ⟨s2, k1, k2⟩ := call_inStep hg hidx hrep hv hc hi
    cases represents_unique hrep' k1
    rcases k2.only ho with ⟨rfl, ⟨m, rfl⟩, hp⟩ | ⟨ha, hb, hd⟩
    · exact .acknowledged hh hc hp
    · exact .kept (ih s hrep ha) hv hc hb hd

/-- The exchange is open if and only if the tables say so. -/
theorem exchangeOpen_iff {g : Cfg} {i : UInt16} (hi : i ≠ 0) {h0 : List (ApiCall × ApiRet)} {w : World} (hh : FromInit g h0 w) {s : InFlight}
    (hrep : Represents w.ctx.tables s) : ExchangeOpen g i w ↔ OpenPhase (s.inc.phase i) := by
  constructor
  · intro h
    obtain ⟨_, s', k1, k2⟩ := exchangeOpen_phase hi h
    rw [represents_unique hrep k1]; exact k2
  · exact exchangeOpen_of_phase hi hh s hrep

end Mqtt
