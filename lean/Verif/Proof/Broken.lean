/-
The receive call that could not send its answer.
-/
import Verif.Proof.Conversation
import Verif.Proof.Calm

namespace Mqtt
open Spec

theorem react_calm (retx m : Bool) (s : InFlight) (first : UInt8) (body : List UInt8) : callerStatus (react retx m s first body).status ∉ cannotSend := by
  unfold react
  split
  · simp [callerStatus, cannotSend]
  · unfold reactPublish
    dsimp only
    repeat' split
    · simp [callerStatus, cannotSend]
    · simp [callerStatus, cannotSend]
    · simp [callerStatus, cannotSend]
    · exact step_calm _ _
  · unfold reactAck
    dsimp only
    split
    · simp [callerStatus, cannotSend]
    · exact step_calm _ _
  all_goals simp [callerStatus, cannotSend]

/-- A receive call that reports that it could not send: it took one packet that has an answer, and sent a proper part of the answer. -/
theorem turn_broken {g : Cfg} {m : Bool} {s : InFlight} {w w' : World} {buf : List UInt8} {st : Status} {ka es : List Event}
    (h : Turn g m s w buf st ka es w') {tail : List UInt8} {pkts : List Raw} (hv : ∀ q ∈ pkts, q.Valid)
    (hs : buf ++ received es ++ tail = pkts.flatMap Raw.bytes) (hc : st ∈ cannotSend) :
    (m = true ∧ es = [] ∧ w'.ctx.buffered = buf ∧ w'.ctx.tables = w.ctx.tables) ∨
    ∃ p b, (wire ka = [] ∨ wire ka = pingreqPacket) ∧ pkts = p :: b ∧ buf ++ received es = p.bytes ++ w'.ctx.buffered ∧ p.bytes.length ≤ w.ctx.bufSize ∧
      Represents w'.ctx.tables (react w.ctx.retransmits m s p.first p.body).state ∧
      callbacks es = (react w.ctx.retransmits m s p.first p.body).callbacks ∧
      wire es <+: ackWire (react w.ctx.retransmits m s p.first p.body).ack ∧
      wire es ≠ ackWire (react w.ctx.retransmits m s p.first p.body).ack := by
  cases h with
  | stopped h1 h2 h3 h4 => exact Or.inl ⟨h2.1, rfl, h3, h4⟩
  | wait h1 h2 h3 h4 =>
    exfalso
    rw [h2] at hc
    revert hc
    repeat' split
    all_goals simp [cannotSend]
  | drop h1 h2 h3 h4 h5 h6 h7 =>
    rcases h7 with ⟨h8, _⟩ | ⟨h8, _⟩ <;> (rw [h8] at hc; revert hc; simp [cannotSend])
  | @packet rst _ es1 p rest w1 w2 _ more h1 h2 h3 h4 h5 h6 h7 h8 h9 =>
    obtain ⟨e1, e2⟩ := wire_more (es := es1) h7
    have hr0 : received (es1 ++ more) = [] := by rw [e2]; exact received_of_noRecv h6.noRecv
    have hcb : callbacks (es1 ++ more) = (react w.ctx.retransmits m s p.first p.body).callbacks := by
      rw [callbacks_append, h6.calls]
      rcases h7 with ⟨_, t, rfl⟩ | ⟨_, rfl⟩ <;> simp [callbacks, isCallback]
    rw [hr0, List.append_nil, h2] at hs
    obtain ⟨ps, rfl, _⟩ := first_packet h1 hv hs
    have hne : ∀ {r : Reaction}, r.ack ≠ none → ([] : List UInt8) ≠ ackWire r.ack := by
      intro r hr
      cases ha : r.ack with
      | none => exact absurd ha hr
      | some x => obtain ⟨ty, id⟩ := x; cases ty <;> simp [ackWire, idPacket, packet]
    refine Or.inr ⟨p, ps, h4.2.2, rfl, by rw [hr0, h2, h8]; simp, h3, ?_, hcb, ?_⟩
    · rw [h9]
      rcases h6.cases with ⟨_, _, _, d1, d3⟩ | ⟨_, _, _, _, _, d3⟩ | ⟨_, _, _, _, _, d3, _⟩ | ⟨ty, id, _, _, _, _, d1, _⟩
      · exact d3
      · exact d3
      · exact d3
      · rw [d1] at hc; exact absurd hc (step_calm _ _)
    · rw [e1]
      rcases h6.cases with ⟨_, _, _, d1, _⟩ | ⟨d0, _, d1, _⟩ | ⟨_, _, d1, d2, _⟩ | ⟨ty, id, _, _, _, _, d1, _⟩
      · rw [d1] at hc; exact absurd hc (react_calm _ _ _ _ _)
      · rw [d1]; exact ⟨List.nil_prefix, hne d0⟩
      · exact ⟨d1, d2⟩
      · rw [d1] at hc; exact absurd hc (step_calm _ _)

theorem did_broken {g : Cfg} {s : InFlight} {w w' : World} {st : Status} {es : List Event} (h : Did g s w .receiveLoop (.status st) es w')
    {tail : List UInt8} {pkts : List Raw} (hv : ∀ q ∈ pkts, q.Valid) (hs : w.ctx.buffered ++ received es ++ tail = pkts.flatMap Raw.bytes)
    (hc : st ∈ cannotSend) :
    ∃ p b, pkts = p :: b ∧ w.ctx.buffered ++ received es = p.bytes ++ w'.ctx.buffered ∧ p.bytes.length ≤ w.ctx.bufSize ∧
      Represents w'.ctx.tables (react w.ctx.retransmits false s p.first p.body).state ∧
      callbacks es = (react w.ctx.retransmits false s p.first p.body).callbacks ∧
      wire es <+: ackWire (react w.ctx.retransmits false s p.first p.body).ack ∧
      wire es ≠ ackWire (react w.ctx.retransmits false s p.first p.body).ack := by
  cases h with
  | receiveLoop f hi =>
    rcases hi.turnKeep with ⟨_, rfl, _⟩ | ⟨r, ka, es2, rfl, _, _, h4, h5, _⟩
    · revert hc; simp [cannotSend]
    · have hka : ka = [] := h4 (by simp)
      subst hka
      rw [List.nil_append] at hs ⊢
      have r1 : received (.recvd (w.ctx.bufSize - w.ctx.index) (some r) :: es2) = r ++ received es2 := received_got ..
      have r2 : callbacks (.recvd (w.ctx.bufSize - w.ctx.index) (some r) :: es2) = callbacks es2 := by
        show callbacks ([.recvd (w.ctx.bufSize - w.ctx.index) (some r)] ++ es2) = _
        rw [callbacks_append]; rfl
      rw [r1, ← List.append_assoc] at hs ⊢
      rw [r2, wire_recvd]
      rcases turn_broken h5 hv hs hc with ⟨h, _⟩ | ⟨p, b, _, h⟩
      · exact absurd h (by simp)
      · exact ⟨p, b, h⟩

/-- The same for both receive functions: either the keep-alive check could not send its PINGREQ and nothing was taken, or it is an answer that could not be
sent, perhaps after a PINGREQ. -/
theorem did_broken' {g : Cfg} {s : InFlight} {w w' : World} {m : Bool} {st : Status} {es : List Event} (h : Did g s w (loopCall m) (.status st) es w')
    {tail : List UInt8} {pkts : List Raw} (hv : ∀ q ∈ pkts, q.Valid) (hs : w.ctx.buffered ++ received es ++ tail = pkts.flatMap Raw.bytes)
    (hc : st ∈ cannotSend) :
    ∃ out part, Pinged m [] out ∧ wire es = out ++ part ∧
    ((m = true ∧ w.ctx.buffered ++ received es = w'.ctx.buffered ∧ callbacks es = [] ∧ w'.ctx.tables = w.ctx.tables ∧
        part <+: pingreqPacket ∧ part ≠ pingreqPacket) ∨
     ∃ p b, pkts = p :: b ∧ w.ctx.buffered ++ received es = p.bytes ++ w'.ctx.buffered ∧ p.bytes.length ≤ w.ctx.bufSize ∧
      Represents w'.ctx.tables (react w.ctx.retransmits m s p.first p.body).state ∧
      callbacks es = (react w.ctx.retransmits m s p.first p.body).callbacks ∧
      part <+: ackWire (react w.ctx.retransmits m s p.first p.body).ack ∧
      part ≠ ackWire (react w.ctx.retransmits m s p.first p.body).ack) := by
  have hturn : (es = [.recvd (w.ctx.bufSize - w.ctx.index) none, .pre, .post] ∧ st = .recvFailed ∧ w'.ctx.buffered = w.ctx.buffered ∧
      w'.ctx.tables = w.ctx.tables) ∨
    ∃ r ka es2, es = .recvd (w.ctx.bufSize - w.ctx.index) (some r) :: (ka ++ es2) ∧ AckX pingreqPacket ka ∧ (¬ (m = true ∧ r = []) → ka = []) ∧
      Turn g m s w (w.ctx.buffered ++ r) st ka es2 w' ∧
      (wire ka = [] ∨ wire ka = pingreqPacket ∨ st = .sendFailed ∧ es2 = [] ∧ wire ka ≠ pingreqPacket) := by
    cases m with
    | true =>
      cases h with
      | processLoop f hi =>
        rcases hi.turnKeep with h | ⟨r, ka, es2, h1, _, h3, h4, h5, h6⟩
        · exact Or.inl h
        · exact Or.inr ⟨r, ka, es2, h1, h3, h4, h5.fresh, h6⟩
    | false =>
      cases h with
      | receiveLoop f hi =>
        rcases hi.turnKeep with h | ⟨r, ka, es2, h1, _, h3, h4, h5, h6⟩
        · exact Or.inl h
        · exact Or.inr ⟨r, ka, es2, h1, h3, h4, h5, h6⟩
  rcases hturn with ⟨_, rfl, _⟩ | ⟨r, ka, es2, rfl, h2, h3, h4, h5⟩
  · revert hc; simp [cannotSend]
  · obtain ⟨q1, q2⟩ := h2.quiet
    have r1 : received (.recvd (w.ctx.bufSize - w.ctx.index) (some r) :: (ka ++ es2)) = r ++ received es2 := by
      rw [received_got, received_append, q1]; rfl
    have r2 : callbacks (.recvd (w.ctx.bufSize - w.ctx.index) (some r) :: (ka ++ es2)) = callbacks es2 := by
      show callbacks ([.recvd (w.ctx.bufSize - w.ctx.index) (some r)] ++ (ka ++ es2)) = _
      rw [callbacks_append, callbacks_append, q2]; rfl
    have r3 : wire (.recvd (w.ctx.bufSize - w.ctx.index) (some r) :: (ka ++ es2)) = wire ka ++ wire es2 := by
      rw [wire_recvd, wire_append]
    have hm : wire ka = pingreqPacket → m = true := by
      intro h
      refine Classical.byContradiction fun hn => ?_
      rw [h3 (fun h => hn h.1)] at h
      exact absurd (show ([] : List UInt8) = pingreqPacket from h) (by decide)
    have hping : wire ka = [] ∨ wire ka = pingreqPacket → Pinged m [] (wire ka) := by
      rintro (h | h)
      · rw [h]; exact .nil
      · have := Pinged.ping (hm h) (Pinged.nil (pings := m))
        rwa [List.append_nil, ← h] at this
    rw [r1, ← List.append_assoc] at hs ⊢
    rw [r2, r3]
    have hempty : ([] : List UInt8) <+: pingreqPacket ∧ ([] : List UInt8) ≠ pingreqPacket := ⟨List.nil_prefix, by decide⟩
    rcases turn_broken h4 hv hs hc with ⟨k1, rfl, k3, k4⟩ | ⟨p, b, k0, k1, k2, k3, k4, k5, k6, k7⟩
    · have e0 : wire ([] : List Event) = [] := rfl
      by_cases hk : wire ka = [] ∨ wire ka = pingreqPacket
      · exact ⟨wire ka, [], hping hk, by rw [e0], Or.inl ⟨k1, by rw [k3]; simp [received], rfl, k4, hempty⟩⟩
      · refine ⟨[], wire ka, .nil, by rw [e0]; simp, Or.inl ⟨k1, by rw [k3]; simp [received], rfl, k4, h2.2, fun h => hk (Or.inr h)⟩⟩
    · exact ⟨wire ka, wire es2, hping k0, rfl, Or.inr ⟨p, b, k1, k2, k3, k4, k5, k6, k7⟩⟩

end Mqtt
