/-
The acknowledgements that receive calls send.
-/
import Verif.Proof.CallRecv
import Verif.Proof.CallSession

namespace Mqtt
open Spec
set_option linter.unusedSimpArgs false

theorem step_status_ne {s : InFlight} {c : Call} : (step s c).1.1 ≠ .noDataAvailable := by
  cases c with
  | reserve id q =>
    cases q <;> simp only [step]
    · simp
    all_goals
      split
      · simp
      · unfold Table.insert; split <;> (try split) <;> simp
  | publish op id q =>
    cases q <;> simp only [step]
    · simp
    all_goals
      split
      · simp
      · cases op <;> simp only
        · split
          · simp
          · split
            · simp
            · split <;> simp
        · unfold Table.insert; split <;> (try split) <;> simp
  | ack op t id =>
    simp only [step]
    split
    · simp
    · split <;> (simp only [ackTable]; split <;> (try split) <;> simp)
  | cancel id =>
    simp only [step]
    split <;> simp

/-- An acknowledgement that is sent answers the packet. -/
theorem react_ack (retx m : Bool) (s : InFlight) (first : UInt8) (body : List UInt8) :
    (react retx m s first body).ack = none ∨
    ∃ pkt, readIncoming first body = some pkt ∧ (react retx m s first body).ack = answerTo pkt := by
  unfold react
  cases hp : readIncoming first body with
  | none => exact Or.inl rfl
  | some pkt =>
    cases pkt with
    | publish id v =>
      simp only [reactPublish]
      split
      · exact Or.inl rfl
      · split
        · exact Or.inr ⟨_, rfl, rfl⟩
        · split
          · exact Or.inr ⟨_, rfl, rfl⟩
          · exact Or.inl rfl
    | ack t id =>
      simp only [reactAck]
      split
      · exact Or.inr ⟨_, rfl, rfl⟩
      · exact Or.inl rfl
    | pingresp => exact Or.inl rfl
    | suback id x => exact Or.inl rfl
    | unsuback id => exact Or.inl rfl

/-- If the reaction is a success, the answer is sent. -/
theorem react_success {retx m : Bool} {s : InFlight} {first : UInt8} {body : List UInt8} {pkt : Packet} (hp : readIncoming first body = some pkt)
    (hs : (react retx m s first body).status = .success) : (react retx m s first body).ack = answerTo pkt := by
  unfold react at hs ⊢
  rw [hp] at hs ⊢
  cases pkt with
  | publish id v =>
    simp only [reactPublish] at hs ⊢
    split at hs
    · cases hs
    · rename_i h1
      rw [if_neg h1]
      split at hs
      · rename_i h2; rw [if_pos h2]; rfl
      · rename_i h2
        rw [if_neg h2]
        split at hs
        · rename_i h3; rw [if_pos h3]; rfl
        · exact absurd hs h2
  | ack t id =>
    simp only [reactAck] at hs ⊢
    split at hs
    · rename_i h2; rw [if_pos h2]; rfl
    · rename_i h2; exact absurd hs h2
  | pingresp => rfl
  | suback id x => rfl
  | unsuback id => rfl

theorem react_status_ne (retx m : Bool) (s : InFlight) (first : UInt8) (body : List UInt8) :
    (react retx m s first body).status ≠ .noDataAvailable := by
  unfold react
  split
  · simp
  · simp only [reactPublish]
    split
    · simp
    · split
      · simp
      · split
        · simp
        · exact step_status_ne
  · simp only [reactAck]
    split
    · simp
    · exact step_status_ne
  · simp
  · simp
  · simp

/-- The receive calls send a ping, or a part of it, and then the answer to the packet at the front, or a part of it. -/
def Answers (m : Bool) (w : World) (es : List Event) : Prop :=
  ∃ ping ack, wire es = ping ++ ack ∧ ping <+: pingreqPacket ∧ (ping ≠ [] → m = true ∧ ∃ n y, es = .recvd n (some []) :: y) ∧
    (ack = [] ∨ ∃ p pkt rest, Raw.Valid p ∧ w.ctx.buffered ++ received es = p.bytes ++ rest ∧ readIncoming p.first p.body = some pkt ∧
      ack <+: ackWire (answerTo pkt))

theorem answers_nil {m : Bool} {w : World} {es : List Event} (h : wire es = []) : Answers m w es :=
  ⟨[], [], h, List.nil_prefix, fun h => absurd rfl h, Or.inl rfl⟩

theorem wire_recvd (n : Nat) (r : Option (List UInt8)) (es : List Event) : wire (.recvd n r :: es) = wire es := wire_cons_of_noSent _ _ rfl

theorem received_got (n : Nat) (r : List UInt8) (es : List Event) : received (.recvd n (some r) :: es) = r ++ received es := by simp [received]

theorem answers_mk {m : Bool} {w : World} {n : Nat} {r : List UInt8} {ka es : List Event} (hk : AckX pingreqPacket ka)
    (hm : ¬ (m = true ∧ r = []) → ka = [])
    (h : wire es = [] ∨ ∃ p pkt rest, Raw.Valid p ∧ w.ctx.buffered ++ r = p.bytes ++ rest ∧ received es = [] ∧ readIncoming p.first p.body = some pkt ∧
      wire es <+: ackWire (answerTo pkt)) : Answers m w (.recvd n (some r) :: (ka ++ es)) := by
  refine ⟨wire ka, wire es, by rw [wire_recvd, wire_append], hk.2, ?_, ?_⟩
  · intro hne
    by_cases hr : m = true ∧ r = []
    · obtain ⟨h1, rfl⟩ := hr
      exact ⟨h1, n, _, rfl⟩
    · rw [hm hr] at hne
      exact absurd rfl hne
  · rcases h with h | ⟨p, pkt, rest, h1, h2, h3, h4, h5⟩
    · exact Or.inl h
    · refine Or.inr ⟨p, pkt, rest, h1, ?_, h4, h5⟩
      rw [received_got, received_append, hk.quiet.1, h3, List.append_nil, List.append_nil]
      exact h2

theorem reacted_answer {retx m : Bool} {s : InFlight} {p : Raw} {es : List Event}
    (h : wire es <+: ackWire (react retx m s p.first p.body).ack) :
    wire es = [] ∨ ∃ pkt, readIncoming p.first p.body = some pkt ∧ wire es <+: ackWire (answerTo pkt) := by
  rcases react_ack retx m s p.first p.body with h1 | ⟨pkt, h1, h2⟩
  · rw [h1] at h
    exact Or.inl (List.prefix_nil.mp h)
  · rw [h2] at h
    exact Or.inr ⟨pkt, h1, h⟩

theorem wire_more {es more : List Event} {st : Status} (h : st = .success ∧ (∃ t, more = [.time t]) ∨ st ≠ .success ∧ more = []) :
    wire (es ++ more) = wire es ∧ received (es ++ more) = received es := by
  rcases h with ⟨_, t, rfl⟩ | ⟨_, rfl⟩
  · exact ⟨by rw [wire_append, wire_cons_of_noSent _ _ rfl]; simp [wire], by rw [received_append, received_time]; simp [received]⟩
  · simp

theorem Did.answers {g : Cfg} {s : InFlight} {w w' : World} {m : Bool} {r : ApiRet} {es : List Event} (h : Did g s w (loopCall m) r es w') :
    Answers m w es := by
  obtain ⟨_, st, rfl, ⟨rfl, rfl, h1, h2⟩ | ⟨x, ka, es2, rfl, h1, h2, h3, h4⟩⟩ := h.turn
  · exact answers_nil rfl
  · refine answers_mk h2 h3 ?_
    cases h4 with
    | stopped => exact Or.inl rfl
    | wait => exact Or.inl rfl
    | drop _ _ h5 => exact Or.inl (wire_of_noSent h5.noSent)
    | packet k1 k2 k3 k4 k5 k6 k7 k8 k9 =>
      obtain ⟨e1, e2⟩ := wire_more k7
      rw [e1, e2]
      rcases reacted_answer k6.x.2.2 with h | ⟨pkt, h5, h6⟩
      · exact Or.inl h
      · exact Or.inr ⟨_, pkt, _, k1, k2, received_of_noRecv k6.noRecv, h5, h6⟩

theorem IterX.answers {m : Bool} {s : InFlight} {w : World} {es : List Event} (h : IterX m s w.ctx es) : Answers m w es := by
  rcases h with rfl | ⟨r, ka, es2, rfl, h1, h2, h3⟩
  · exact answers_nil rfl
  · refine answers_mk h1 h2 ?_
    rcases h3 with rfl | ⟨t, hl, n, _, _, h3⟩ | ⟨t, hl, n, h3, h4, h5⟩
    · exact Or.inl rfl
    · exact Or.inl (wire_of_noSent h3.noSent)
    · obtain ⟨p1, _, _, p4⟩ := known_packet h3 h4
      rcases reacted_answer (p := ⟨t, ((w.ctx.buffered ++ r).drop hl).take n⟩) h5.2.2 with h | ⟨pkt, h6, h7⟩
      · exact Or.inl h
      · exact Or.inr ⟨⟨t, ((w.ctx.buffered ++ r).drop hl).take n⟩, pkt, _, p1, p4, received_of_noRecv h5.2.1, h6, h7⟩

theorem Halted.answers {g : Cfg} {s : InFlight} {w w' : World} {m : Bool} {es : List Event} (h : Halted g s w (loopCall m) es w') :
    Answers m w es := by
  cases m with
  | true => cases h with | processLoop _ h => exact h.answers
  | false => cases h with | receiveLoop _ h => exact h.answers

theorem reacted_ne {retx m : Bool} {s : InFlight} {first : UInt8} {body : List UInt8} {w w' : World} {st : Status} {es : List Event}
    (h : Reacted (react retx m s first body) w st es w') : st ≠ .noDataAvailable := by
  rcases h.cases with ⟨_, _, _, h, _⟩ | ⟨_, _, _, _, h, _⟩ | ⟨_, _, _, _, h, _⟩ | ⟨_, _, _, _, _, _, h, _⟩
  · rw [h]; exact react_status_ne _ _ _ _ _
  · rw [h]; unfold notConnectedStatus; split <;> simp
  · rw [h]; simp
  · rw [h]; exact step_status_ne

/-- The callbacks of a receive call that does not return are those for the packet at the front, as far as they have been made. -/
theorem IterX.fronted {m : Bool} {s : InFlight} {w : World} {es : List Event} (h : IterX m s w.ctx es) :
    callbacks es = [] ∨ ∃ p rest, Raw.Valid p ∧ w.ctx.buffered ++ received es = p.bytes ++ rest ∧
      callbacks es <+: (react w.ctx.retransmits m s p.first p.body).callbacks := by
  rcases h with rfl | ⟨r, ka, es2, rfl, h1, h2, h3⟩
  · exact Or.inl rfl
  · obtain ⟨q1, q2⟩ := h1.quiet
    have r2 : callbacks (.recvd (w.ctx.bufSize - w.ctx.index) (some r) :: (ka ++ es2)) = callbacks es2 := by
      show callbacks ([.recvd (w.ctx.bufSize - w.ctx.index) (some r)] ++ (ka ++ es2)) = _
      rw [callbacks_append, callbacks_append, q2]; rfl
    rw [r2]
    rcases h3 with rfl | ⟨t, hl, n, _, _, h3⟩ | ⟨t, hl, n, h3, h4, h5⟩
    · exact Or.inl rfl
    · exact Or.inl (callbacks_of_recvX h3)
    · obtain ⟨p1, _, _, p4⟩ := known_packet h3 h4
      refine Or.inr ⟨⟨t, ((w.ctx.buffered ++ r).drop hl).take n⟩, (w.ctx.buffered ++ r).drop (hl + n), p1, ?_, h5.1⟩
      rw [received_got, received_append, q1, received_of_noRecv h5.2.1, List.append_nil, List.append_nil]
      exact p4

theorem Halted.fronted {g : Cfg} {s : InFlight} {w w' : World} {m : Bool} {es : List Event} (h : Halted g s w (loopCall m) es w') :
    callbacks es = [] ∨ ∃ p rest, Raw.Valid p ∧ w.ctx.buffered ++ received es = p.bytes ++ rest ∧
      callbacks es <+: (react w.ctx.retransmits m s p.first p.body).callbacks := by
  cases m with
  | true => cases h with | processLoop _ h => exact h.fronted
  | false => cases h with | receiveLoop _ h => exact h.fronted

theorem readHeader_more {bs : List UInt8} {t : UInt8} {hl n : Nat} (h : readHeader bs = .known t hl n) (x : List UInt8) :
    readHeader (bs ++ x) = .known t hl n := by
  obtain ⟨h1, h2, h3, rest, rfl⟩ := readHeader_known h
  rw [List.cons_append, List.append_assoc, readHeader_intro h1 h2, h3]

theorem packet_unique {p q : Raw} {a b : List UInt8} (hp : p.Valid) (hq : q.Valid) (h : p.bytes ++ a = q.bytes ++ b) : p = q ∧ a = b := by
  obtain ⟨hl, e1, e2⟩ := readHeader_packet (rest := a) hp
  obtain ⟨hl', e3, e4⟩ := readHeader_packet (rest := b) hq
  rw [h, e3] at e1
  injection e1 with e5 e6 e7
  obtain ⟨h1, h2⟩ := List.append_inj h (by omega)
  refine ⟨?_, h2⟩
  rw [Raw.bytes_eq, Raw.bytes_eq] at h1
  injection h1 with h3 h4
  rw [e7] at h4
  have h5 := (List.append_inj h4 rfl).2
  cases p; cases q
  simp_all

/-- What became of a complete packet at the front: it was left there because the transport or the keep-alive check failed, or handled. -/
theorem did_front {g : Cfg} {s : InFlight} {w w' : World} {m : Bool} {r : ApiRet} {es : List Event} (h : Did g s w (loopCall m) r es w')
    {p : Raw} {rest : List UInt8} (hp : p.Valid) (hf : p.bytes.length ≤ w.ctx.bufSize) (hb : w.ctx.buffered ++ received es = p.bytes ++ rest) :
    ∃ st, r = .status st ∧
    ((w'.ctx.buffered = w.ctx.buffered ++ received es ∧ st ≠ .success ∧ wire es <+: pingreqPacket ∧ callbacks es = [] ∧
        w'.ctx.tables = w.ctx.tables ∧ (m = true ∨ hasFail es = true)) ∨
     (w'.ctx.buffered = rest ∧ ∃ ka es1 w1 w2 rst, wire es = wire ka ++ wire es1 ∧ (wire ka = [] ∨ wire ka = pingreqPacket) ∧
        callbacks es = callbacks es1 ∧ st = callerStatus rst ∧ w1.ctx.connectStatus = w.ctx.connectStatus ∧ w1.ctx.tables = w.ctx.tables ∧
        w'.ctx.tables = w2.ctx.tables ∧ (∀ e ∈ es1, e ∈ es) ∧ Reacted (react w.ctx.retransmits m s p.first p.body) w1 rst es1 w2)) := by
  obtain ⟨hl, e1, e2⟩ := readHeader_packet (rest := rest) hp
  obtain ⟨_, st, rfl, ⟨rfl, rfl, h1, h2⟩ | ⟨x, ka, es2, rfl, h1, h2, h3, h4⟩⟩ := h.turn
  · exact ⟨_, rfl, Or.inl ⟨by simp [received, h1], by simp, List.nil_prefix, rfl, h2, Or.inr rfl⟩⟩
  · refine ⟨st, rfl, ?_⟩
    obtain ⟨q1, q2⟩ := h2.quiet
    have r1 : received (.recvd (w.ctx.bufSize - w.ctx.index) (some x) :: (ka ++ es2)) = x ++ received es2 := by
      rw [received_got, received_append, q1]; rfl
    have r2 : callbacks (.recvd (w.ctx.bufSize - w.ctx.index) (some x) :: (ka ++ es2)) = callbacks es2 := by
      show callbacks ([.recvd (w.ctx.bufSize - w.ctx.index) (some x)] ++ (ka ++ es2)) = _
      rw [callbacks_append, callbacks_append, q2]; rfl
    have r3 : wire (.recvd (w.ctx.bufSize - w.ctx.index) (some x) :: (ka ++ es2)) = wire ka ++ wire es2 := by
      rw [wire_recvd, wire_append]
    rw [r1, ← List.append_assoc] at hb
    rw [r1, r2, r3]
    cases h4 with
    | stopped k1 k2 k3 k4 =>
      exact Or.inl ⟨by rw [k3]; simp [received], keepAliveErrors_ne k1, by simpa [wire] using h2.2, rfl, k4, Or.inl k2.1⟩
    | wait k1 k2 k3 k4 =>
      rw [received_nil, List.append_nil] at hb
      rw [← hb] at e1
      have := (k1 _ _ _ e1).2
      rw [hb, List.length_append] at this
      omega
    | drop k1 k2 k3 k4 k5 k6 k7 =>
      have := readHeader_more k1 (received es2)
      rw [hb, e1] at this
      cases this
      omega
    | @packet _ _ es1 p' rest' w1 w2 _ more k1 k2 k3 k4 k5 k6 k7 k8 k9 =>
      obtain ⟨e3, e4⟩ := wire_more k7
      rw [e4, received_of_noRecv k6.noRecv, List.append_nil] at hb
      obtain ⟨rfl, rfl⟩ := packet_unique k1 hp (k2.symm.trans hb)
      refine Or.inr ⟨k8, ka, es1, w1, w2, _, by rw [e3], k4.2.2, ?_, rfl, k4.1, k5, k9, ?_, k6⟩
      · rw [callbacks_append]
        rcases k7 with ⟨_, t, rfl⟩ | ⟨_, rfl⟩ <;> simp [callbacks, isCallback]
      · intro e he
        simp [he]

theorem parsePublish_id {t : Nat} {body : List UInt8} {s : Spec.Publish} (h : parsePublish t body = some s) : s.id < 65536 := by
  unfold parsePublish at h
  by_cases h3 : t / 16 = 3
  · simp only [h3, ne_eq, not_true, if_false, Option.bind_eq_bind] at h
    cases hq : qosOfNat (t / 2 % 4) with
    | none => simp [hq] at h
    | some qq =>
      cases hr : readStr body with
      | none => simp [hq, hr] at h
      | some x =>
        simp only [hq, hr, Option.bind_some] at h
        by_cases hz : qq.val = 0
        · simp [hz] at h; rw [← h]; show 0 < 65536; decide
        · simp only [hz, if_false] at h
          match hx : x.2 with
          | [] => simp [hx, read16] at h
          | [_] => simp [hx, read16] at h
          | a :: b :: rest =>
            simp only [hx, read16, Option.bind_some] at h
            have := a.toNat_lt
            have := b.toNat_lt
            split at h
            · cases h
            · cases h
              dsimp only
              omega
  · simp [h3] at h

theorem publish_id {first : UInt8} {body : List UInt8} {id : UInt16} {v : PubView} (h : readIncoming first body = some (.publish id v))
    (hq : v.qos ≠ .qos0) : id ≠ 0 := by
  unfold readIncoming at h
  by_cases h3 : first.toNat / 16 = 3
  · rw [if_pos h3] at h
    cases hs : parsePublish first.toNat body with
    | none => rw [hs] at h; cases h
    | some s =>
      rw [hs] at h
      dsimp only at h
      by_cases hl : body.length < (if s.qos.val = 0 then 3 else 5)
      · rw [if_pos hl] at h; cases h
      · rw [if_neg hl] at h
        injection h with h
        injection h with h1 h2
        obtain ⟨_, hb2, _, _⟩ := parsePublish_some first.toNat_lt hs
        subst h1
        have : s.qos.val ≠ 0 := by
          intro h0
          rw [← h2] at hq
          exact hq (by simp [qosName, h0])
        have h5 := hb2 this
        have h6 := parsePublish_id hs
        intro h0
        have h7 := congrArg UInt16.toNat h0
        simp at h7
        omega
  · rw [if_neg h3] at h
    repeat' split at h
    all_goals (simp at h)

theorem react_due {retx m : Bool} {t : Tables} {s : InFlight} (hrep : Represents t s) {first : UInt8} {body : List UInt8} {pkt : Packet}
    (hp : readIncoming first body = some pkt) (hs : answerDue t pkt) : (react retx m s first body).ack = answerTo pkt := by
  have hout : ∀ r ∈ inFlight t.outgoing, ∃ e ∈ s.out, r = outRec e ∧ e.1 ≠ 0 ∧ s.out.phase e.1 = some e.2 := by
    intro r hr
    have h1 := hrep.1.live_eq
    have : r ∈ s.out.map outRec := by rw [← h1]; simpa [live, inFlight] using hr
    obtain ⟨e, he, rfl⟩ := List.mem_map.mp this
    exact ⟨e, he, rfl, hrep.1.nonzero keepsId_out e he, phase_of_entry hrep.1.distinct he⟩
  have hin : ∀ r ∈ inFlight t.incoming, ∃ e ∈ s.inc, r = inRec e ∧ e.1 ≠ 0 ∧ s.inc.phase e.1 = some e.2 := by
    intro r hr
    have h1 := hrep.2.live_eq
    have : r ∈ s.inc.map inRec := by rw [← h1]; simpa [live, inFlight] using hr
    obtain ⟨e, he, rfl⟩ := List.mem_map.mp this
    exact ⟨e, he, rfl, hrep.2.nonzero keepsId_in e he, phase_of_entry hrep.2.distinct he⟩
  unfold react
  rw [hp]
  cases pkt with
  | publish id v =>
    obtain ⟨h1, h2⟩ := hs
    have hid := publish_id hp h1
    have hle := hrep.2.length_le
    have hlen : (inFlight t.incoming).length = s.inc.length := by
      have := congrArg List.length hrep.2.entries
      rw [List.length_map] at this
      exact this
    have hsz := hrep.2.size
    have hor : id ∈ s.inc.map (·.1) ∨ s.inc.length < s.inCap := by
      rcases h2 with ⟨r, hr, rfl⟩ | h2
      · obtain ⟨e, he, rfl, _⟩ := hin r hr
        rw [keepsId_in]
        exact Or.inl (List.mem_map_of_mem he)
      · exact Or.inr (by omega)
    have hcap : ¬ (s.inCap = 0 ∧ v.qos ≠ .qos0) := by
      rintro ⟨h3, _⟩
      rcases hor with h | h
      · have : s.inc = [] := List.eq_nil_of_length_eq_zero (by omega)
        rw [this] at h
        simp at h
      · omega
    simp only [reactPublish, if_neg hcap]
    have hst : (step s (.publish .receive id v.qos)).1.1 = .success ∨ (step s (.publish .receive id v.qos)).1.1 = .stateCollision := by
      cases hq : v.qos with
      | qos0 => exact absurd hq h1
      | _ =>
        simp only [step, if_neg hid]
        unfold Table.insert
        split
        · exact Or.inr rfl
        · rename_i hn
          rcases hor with h | h
          · exact absurd h hn
          · rw [if_neg (by omega)]; exact Or.inl rfl
    rcases hst with h | h
    · rw [if_pos h]; rfl
    · rw [if_neg (by rw [h]; simp), if_pos h]; rfl
  | ack ty id =>
    have hst : (step s (.ack .receive ty id)).1.1 = .success := by
      cases ty with
      | pubrec =>
        obtain ⟨r, hr, rfl, h2⟩ := hs
        obtain ⟨⟨id, p⟩, he, rfl, h3, h4⟩ := hout r hr
        rw [keepsId_out]
        cases p <;> simp_all [outRec, step, forOutgoing, ackTable, outAck]
      | pubrel =>
        obtain ⟨r, hr, rfl, h2⟩ := hs
        obtain ⟨⟨id, p⟩, he, rfl, h3, h4⟩ := hin r hr
        rw [keepsId_in]
        cases p <;> simp_all [inRec, step, forOutgoing, ackTable, inAck]
      | _ => exact hs.elim
    simp only [reactAck, if_pos hst]
    rfl
  | _ => exact hs.elim

/-- Calls that do not receive leave the received bytes alone. -/
theorem Did.buffer {g : Cfg} {s : InFlight} {w w' : World} {c : ApiCall} {r : ApiRet} {es : List Event} (h : Did g s w c r es w')
    (hp : plainCall c = true) (hl : c ≠ .processLoop) (hl' : c ≠ .receiveLoop) :
    w'.ctx.index = w.ctx.index ∧ w'.ctx.netBuf = w.ctx.netBuf ∧ ∀ e ∈ es, isRecvd e = false := by
  cases h with
  | publish _ h =>
    obtain ⟨t, T, hc⟩ := h.ctx
    refine ⟨by rw [hc], by rw [hc], ?_⟩
    rcases h.cases with ⟨_, rfl, _⟩ | ⟨_, _, rfl, _⟩ | ⟨_, _, _, _, rfl, _⟩ | ⟨_, zs, s1, st0, es0, w0, w1, _, _, hp, rfl, _⟩
    · simp
    · simp [isRecvd]
    · simp [isRecvd]
    · have hs : ∀ {x : List Event}, (∀ e ∈ x, isSendOrTime e = true) → ∀ e ∈ x, isRecvd e = false := by
        intro x hx e he
        have := hx e he
        cases e <;> simp_all [isSendOrTime, isRecvd]
      have hes0 : ∀ e ∈ es0, isRecvd e = false := by
        rcases hp.2.2 with ⟨_, h, _⟩ | ⟨_, _, rfl, _⟩ | ⟨_, _, snd, rfl, h, _⟩
        · exact hs h
        · simp [isRecvd]
        · intro e he
          rcases List.mem_cons.mp he with rfl | he
          · rfl
          · exact hs h e he
      intro e he
      simp only [List.mem_cons, List.mem_append, List.not_mem_nil, or_false] at he
      rcases he with rfl | he | rfl
      · rfl
      · exact hes0 e he
      · rfl
  | subscribe _ h =>
    obtain ⟨t, hc⟩ := h.ctx
    rw [hc]; exact ⟨rfl, rfl, (callbacks_of_ack h.kinds).2⟩
  | unsubscribe _ h =>
    obtain ⟨t, hc⟩ := h.ctx
    rw [hc]; exact ⟨rfl, rfl, (callbacks_of_ack h.kinds).2⟩
  | publishNull => exact ⟨rfl, rfl, by simp⟩
  | subscribeNull => exact ⟨rfl, rfl, by simp⟩
  | unsubscribeNull => exact ⟨rfl, rfl, by simp⟩
  | ping _ h =>
    obtain ⟨t, p, q, hc⟩ := h.ctx
    rw [hc]; exact ⟨rfl, rfl, (callbacks_of_ack h.kinds).2⟩
  | disconnect h => cases hp
  | processLoop _ _ => exact absurd rfl hl
  | receiveLoop _ _ => exact absurd rfl hl'
  | cancel _ h =>
    cases h with
    | none => exact ⟨rfl, rfl, by simp⟩
    | some _ h _ => rw [h]; exact ⟨rfl, rfl, by simp [isRecvd]⟩
  | check h => rw [h]; exact ⟨rfl, rfl, by simp [isRecvd]⟩
  | getId h => rw [h]; exact ⟨rfl, rfl, by simp [isRecvd]⟩
  | connectNull _ h => cases hp
  | connect h => cases hp

end Mqtt
