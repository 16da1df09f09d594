/-
Rounds: what a receive call that returned without error did, in packets.
-/
import Verif.Spec.Rounds
import Verif.Proof.PacketsRun

namespace Mqtt
open Spec
set_option linter.unusedSimpArgs false

variable {strict : Bool}

/-- The answer as a list of packets. -/
def answers : Option (AckType × UInt16) → List Raw
  | none => []
  | some (ty, id) => [answerOf ty id]

theorem answers_wire (a : Option (AckType × UInt16)) : (answers a).flatMap Raw.bytes = ackWire a := by
  cases a with
  | none => rfl
  | some x => rw [← ackWire_raw]; simp [answers, answerOf, ackRaw]

theorem answers_small (a : Option (AckType × UInt16)) : ∀ v ∈ answers a, Small v := by
  cases a with
  | none => simp [answers]
  | some x =>
    intro v hv
    rw [List.mem_singleton.mp (show v ∈ [answerOf x.1 x.2] from hv)]
    exact ack_small _ _

/-- The client processed nothing, or the first packet; besides its answer it sent at most a PINGREQ. -/
def Handled (retx : Bool) (us ds us' ds' : List Raw) : Prop :=
  ∃ vs : List Raw, (∀ v ∈ vs, v = ⟨0xC0, []⟩) ∧
    (us' = us ++ vs ∧ ds' = ds ∨
      ∃ d manage fl, ds = d :: ds' ∧ us' = us ++ (vs ++ answers (react retx manage fl d.first d.body).ack) ∧
        ((react retx manage fl d.first d.body).ack = none → (react retx manage fl d.first d.body).status = .success))

theorem Iterated.handled {g : Cfg} {m : Bool} {fl : InFlight} {w w' : World} {st : Status} {es : List Event} (hit : Iterated g m fl w st es w')
    (hok : st = .success ∨ st = .needMoreBytes) {us ds : List Raw} {rest : List UInt8} (hv : ∀ d ∈ ds, d.Valid ∧ d.bytes.length ≤ w.ctx.bufSize)
    (hd : w.ctx.buffered ++ (received es ++ rest) = ds.flatMap Raw.bytes) (hs : ∀ u ∈ us, Small u) :
    (∀ e ∈ callbacks es, Telling e = true) ∧
    ∃ us' ds', us.flatMap Raw.bytes ++ wire es = us'.flatMap Raw.bytes ∧ (∀ u ∈ us', Small u) ∧ w'.ctx.buffered ++ rest = ds'.flatMap Raw.bytes ∧
      (∀ d ∈ ds', d ∈ ds) ∧ Handled w.ctx.retransmits us ds us' ds' := by
  rcases hit.turnKeep with ⟨rfl, rfl, hb, ht⟩ | ⟨r, ka, es2, rfl, hlen, hka, hka0, hturn, hkw⟩
  · rcases hok with h | h <;> cases h
  · have hkc : callbacks ka = [] := (callbacks_of_ack hka.1).1
    have hkr : Spec.received ka = [] := received_of_noRecv (callbacks_of_ack hka.1).2
    have hcb : callbacks (Event.recvd (w.ctx.bufSize - w.ctx.index) (some r) :: (ka ++ es2)) = callbacks es2 := by
      show callbacks ([Event.recvd (w.ctx.bufSize - w.ctx.index) (some r)] ++ (ka ++ es2)) = _
      rw [callbacks_append, callbacks_append, hkc]; rfl
    have hw0 : wire (Event.recvd (w.ctx.bufSize - w.ctx.index) (some r) :: (ka ++ es2)) = wire ka ++ wire es2 := by
      rw [wire_cons_of_noSent _ _ rfl, wire_append]
    have hr0 : Spec.received (Event.recvd (w.ctx.bufSize - w.ctx.index) (some r) :: (ka ++ es2)) = r ++ Spec.received es2 := by
      have e : received (Event.recvd (w.ctx.bufSize - w.ctx.index) (some r) :: (ka ++ es2)) = r ++ received (ka ++ es2) := by simp [Spec.received]
      rw [e, received_append, hkr]; rfl
    rw [hr0] at hd
    rw [hcb, hw0]
    -- the keep-alive packet
    have hping : ∃ vs0 : List Raw, wire ka = vs0.flatMap Raw.bytes ∧ (∀ v ∈ vs0, Small v) ∧ (∀ v ∈ vs0, v = ⟨0xC0, []⟩) := by
      rcases hkw with e | e | ⟨e, _⟩
      · exact ⟨[], e, by simp, by simp⟩
      · exact ⟨[⟨0xC0, []⟩], by rw [e, ← pingreq_raw]; simp, by simp [Small], by simp⟩
      · rw [e] at hok; rcases hok with h | h <;> cases h
    obtain ⟨vs, v1, v2, v3⟩ := hping
    have noPacket : es2 = [] → w'.ctx.buffered = w.ctx.buffered ++ r → (∀ e ∈ callbacks es2, Telling e = true) ∧
        ∃ us' ds', us.flatMap Raw.bytes ++ (wire ka ++ wire es2) = us'.flatMap Raw.bytes ∧ (∀ u ∈ us', Small u) ∧ w'.ctx.buffered ++ rest = ds'.flatMap Raw.bytes ∧
          (∀ d ∈ ds', d ∈ ds) ∧ Handled w.ctx.retransmits us ds us' ds' := by
      rintro rfl hb
      refine ⟨by simp [callbacks], us ++ vs, ds, ?_, ?_, ?_, fun d h => h, vs, v3, Or.inl ⟨rfl, rfl⟩⟩
      · rw [v1, List.flatMap_append]; simp [wire]
      · intro u hu
        rcases List.mem_append.mp hu with hu | hu
        · exact hs u hu
        · exact v2 u hu
      · rw [hb, ← hd]; simp [Spec.received]
    cases hturn with
    | stopped _ _ hb ht => exact noPacket rfl hb
    | wait _ _ hb ht => exact noPacket rfl hb
    | drop hr hbig =>
      rw [← List.append_assoc, ← List.append_assoc, List.append_assoc] at hd
      obtain ⟨q, ps, e5, h4⟩ := first_length hr (fun q hq => (hv q hq).1) hd
      have := (hv q (by rw [e5]; exact List.mem_cons_self)).2
      omega
    | packet hp hbuf hfit hw1 ht1 hrx hmore hb ht2 =>
      rename_i st1 es3 p prest w1 w2 more
      have hmoreq : callbacks more = [] ∧ wire more = [] ∧ Spec.received more = [] := by
        rcases hmore with ⟨_, t, rfl⟩ | ⟨_, rfl⟩ <;> exact ⟨rfl, rfl, rfl⟩
      have hcb2 : callbacks (es3 ++ more) = (react w.ctx.retransmits m fl p.first p.body).callbacks := by
        rw [callbacks_append, hmoreq.1, List.append_nil, hrx.calls]
      have hw2 : wire (es3 ++ more) = wire es3 := by rw [wire_append, hmoreq.2.1, List.append_nil]
      have hr2 : Spec.received (es3 ++ more) = [] := by
        rw [received_append, hmoreq.2.2, received_of_noRecv hrx.noRecv]; rfl
      rw [hr2, List.append_nil, ← List.append_assoc, hbuf] at hd
      obtain ⟨ds', hds, hdr⟩ := first_packet hp (fun q hq => (hv q hq).1) hd
      have hans : wire es3 = ackWire (react w.ctx.retransmits m fl p.first p.body).ack ∧
          ((react w.ctx.retransmits m fl p.first p.body).ack = none → (react w.ctx.retransmits m fl p.first p.body).status = .success) := by
        rcases hrx.cases with ⟨hack, hw, _, hst1, _⟩ | ⟨_, hnc, hw, _, hst1, _⟩ | ⟨_, _, _, _, hst1, _⟩ | ⟨ty, id, hack, _, hw, _⟩
        · refine ⟨by rw [hack, hw]; rfl, fun _ => ?_⟩
          obtain ⟨f1, f2⟩ := react_statuses w.ctx.retransmits m fl p
          rw [← hst1] at f1 f2 ⊢
          have e : callerStatus st1 = st1 := by unfold callerStatus; rw [if_neg f1]
          rw [e] at hok
          rcases hok with h | h
          · exact h
          · exact absurd h f2
        · exfalso
          rw [hst1] at hok
          revert hok
          cases w1.ctx.connectStatus <;> simp_all [notConnectedStatus, callerStatus]
        · exfalso
          rw [hst1] at hok
          revert hok
          simp [callerStatus]
        · exact ⟨hw, fun h => by rw [hack] at h; cases h⟩
      rw [hcb2, hw2]
      refine ⟨react_telling _ _ _ _, us ++ (vs ++ answers (react w.ctx.retransmits m fl p.first p.body).ack), ds', ?_, ?_, by rw [hb, hdr],
        fun d h => by rw [hds]; exact List.mem_cons_of_mem _ h, vs, v3, Or.inr ⟨p, m, fl, hds, rfl, hans.2⟩⟩
      · rw [v1, hans.1, List.flatMap_append, List.flatMap_append, answers_wire]
      · intro u hu
        rcases List.mem_append.mp hu with hu | hu
        · exact hs u hu
        rcases List.mem_append.mp hu with hu | hu
        · exact v2 u hu
        · exact answers_small _ u hu

/-- The network after a call during which the server did nothing. -/
theorem NetRun.alone {cap : Nat} : ∀ {es : List Event} {n : Net} {rest : List UInt8}, n.isOpen = true → n.down = received es ++ rest →
    NetRun strict cap n es { n with up := n.up ++ wire es, down := rest } := by
  intro es
  induction es with
  | nil =>
    intro n rest _ hd
    have e : ({ n with up := n.up ++ wire [], down := rest } : Net) = n := by
      obtain ⟨u, d, o, g, s⟩ := n
      replace hd : d = rest := hd
      subst hd
      show Net.mk (u ++ []) _ _ _ _ = _
      rw [List.append_nil]
    rw [e]
    exact .done n
  | cons e es ih =>
    intro n rest ho hd
    have other : (∀ bytes k, e ≠ .sent bytes (some k)) → (∀ k bytes, e ≠ .recvd k (some bytes)) →
        NetRun strict cap n (e :: es) { n with up := n.up ++ wire (e :: es), down := rest } := by
      intro h1 h2
      have e1 : wire (e :: es) = wire es := by
        cases e with
        | sent b k =>
          cases k with
          | none => simp [wire]
          | some k => exact absurd rfl (h1 b k)
        | _ => rfl
      have e2 : received (e :: es) = received es := by
        cases e with
        | recvd k b =>
          cases b with
          | none => simp [received]
          | some b => exact absurd rfl (h2 k b)
        | _ => simp [received]
      rw [e1]
      rw [e2] at hd
      exact .event h1 h2 (ih ho hd)
    cases e with
    | sent b k =>
      cases k with
      | none => exact other (by simp) (by simp)
      | some k =>
        have e1 : wire (.sent b (some k) :: es) = b.take k ++ wire es := by simp [wire]
        rw [e1, ← List.append_assoc]
        refine .send ?_
        rw [if_pos ho]
        exact ih (n := { n with up := n.up ++ b.take k }) ho (by simpa [received] using hd)
    | recvd k b =>
      cases b with
      | none => exact other (by simp) (by simp)
      | some b =>
        have e1 : received (.recvd k (some b) :: es) = b ++ received es := by simp [received]
        rw [e1, List.append_assoc] at hd
        rw [wire_cons_of_noSent _ _ rfl]
        exact .receive hd (Or.inl ho) (ih (n := { n with down := received es ++ rest }) ho rfl)
    | _ => exact other (by simp) (by simp)

theorem Faithful.telling {es : List Event} (h : ∀ e ∈ callbacks es, Telling e = true) : ∀ k : Shelf, Faithful k es := by
  induction es with
  | nil => intro k; trivial
  | cons e es ih =>
    intro k
    refine ⟨?_, ih (fun x hx => h x ?_) _⟩
    · rintro id bytes rfl
      have := h (.retrieve id (some bytes)) (by simp [callbacks, isCallback])
      cases this
    · unfold callbacks at hx ⊢
      rw [List.filter_cons]
      split
      · exact List.mem_cons_of_mem _ hx
      · exact hx

end Mqtt
