/-
What the receive calls send while they go through a stream of packets.
-/
import Verif.Proof.CallAck
import Verif.Spec.Conversation

namespace Mqtt
open Spec

theorem Pinged.append {m : Bool} {l l' : List (List UInt8)} {a b : List UInt8} (h : Pinged m l a) (h' : Pinged m l' b) : Pinged m (l ++ l') (a ++ b) := by
  induction h with
  | nil => exact h'
  | ping hm _ ih => rw [List.append_assoc]; exact .ping hm ih
  | packet _ ih => rw [List.append_assoc]; exact .packet ih

theorem Pinged.flat {l : List (List UInt8)} {a : List UInt8} (h : Pinged false l a) : a = l.flatten := by
  induction h with
  | nil => rfl
  | ping hm => cases hm
  | packet _ ih => rw [ih]; rfl

theorem answers_append (retx m : Bool) (cap : Nat) (s : InFlight) (a b : List Raw) :
    answers retx m cap s (a ++ b) = answers retx m cap s a ++ answers retx m cap (present retx m cap s a).2 b := by
  induction a generalizing s with
  | nil => rfl
  | cons p ps ih =>
    simp only [List.cons_append, answers, present]
    split
    · exact ih s
    · rw [ih]; rfl

theorem present_cap (retx m : Bool) {c c' : Nat} {l : List Raw} (h : ∀ p ∈ l, p.bytes.length ≤ c) (h' : ∀ p ∈ l, p.bytes.length ≤ c') (s : InFlight) :
    present retx m c s l = present retx m c' s l ∧ answers retx m c s l = answers retx m c' s l := by
  induction l generalizing s with
  | nil => exact ⟨rfl, rfl⟩
  | cons p ps ih =>
    have h1 := h p List.mem_cons_self
    have h2 := h' p List.mem_cons_self
    have ih := ih (fun q hq => h q (List.mem_cons_of_mem _ hq)) (fun q hq => h' q (List.mem_cons_of_mem _ hq))
      (acked (react retx m s p.first p.body))
    constructor
    · rw [present, present, if_neg (by omega), if_neg (by omega)]; simp only [ih.1]
    · rw [answers, answers, if_neg (by omega), if_neg (by omega)]; simp only [ih.2]

theorem turn_said {g : Cfg} {m : Bool} {s : InFlight} {w w' : World} {buf : List UInt8} {st : Status} {ka es : List Event}
    (h : Turn g m s w buf st ka es w') (hrep : Represents w.ctx.tables s) {tail : List UInt8} {pkts : List Raw} (hv : ∀ q ∈ pkts, q.Valid)
    (hs : buf ++ received es ++ tail = pkts.flatMap Raw.bytes) (hf : (∀ q ∈ pkts, q.bytes.length ≤ w.ctx.bufSize) ∨ st ≠ .recvFailed)
    (hc : st ∉ cannotSend) :
    ∃ a b s', pkts = a ++ b ∧ buf ++ received es = a.flatMap Raw.bytes ++ w'.ctx.buffered ∧ Represents w'.ctx.tables s' ∧
      present w.ctx.retransmits m w.ctx.bufSize s a = (callbacks es, s') ∧
      Pinged m (answers w.ctx.retransmits m w.ctx.bufSize s a) (wire es) := by
  cases h with
  | stopped h1 h2 h3 h4 => exact ⟨[], pkts, s, rfl, by simp [received, h3], by rw [h4]; exact hrep, rfl, .nil⟩
  | wait h1 h2 h3 h4 => exact ⟨[], pkts, s, rfl, by simp [received, h3], by rw [h4]; exact hrep, rfl, .nil⟩
  | drop h1 h2 h3 h4 h5 h6 h7 =>
    rw [List.append_assoc] at hs
    obtain ⟨q, ps, rfl, hq⟩ := first_length h1 hv hs
    rcases h7 with ⟨_, h8, _⟩ | ⟨h8, _⟩
    · refine ⟨[q], ps, s, rfl, ?_, by rw [h6]; exact hrep, ?_, ?_⟩
      · rw [← List.append_assoc, List.flatMap_cons] at hs
        have := (List.append_inj hs (by rw [List.length_append]; omega)).1
        rw [this, h5]; simp
      · rw [callbacks_of_recvX h3, present, if_pos (by omega), present]
      · rw [wire_of_noSent h3.noSent, answers, if_pos (by omega)]
        exact .nil
    · rcases hf with hf | hf
      · have := hf q List.mem_cons_self
        omega
      · exact absurd h8 hf
  | @packet rst _ es1 p rest w1 w2 _ more h1 h2 h3 h4 h5 h6 h7 h8 h9 =>
    obtain ⟨e1, e2⟩ := wire_more (es := es1) h7
    have hr0 : received (es1 ++ more) = [] := by rw [e2]; exact received_of_noRecv h6.noRecv
    have hcb : callbacks (es1 ++ more) = (react w.ctx.retransmits m s p.first p.body).callbacks := by
      rw [callbacks_append, h6.calls]
      rcases h7 with ⟨_, t, rfl⟩ | ⟨_, rfl⟩ <;> simp [callbacks, isCallback]
    rw [hr0, List.append_nil, h2] at hs
    obtain ⟨ps, rfl, _⟩ := first_packet h1 hv hs
    have hnc : ∀ x, notConnectedStatus x ∈ cannotSend ∧ callerStatus (notConnectedStatus x) = notConnectedStatus x := by
      intro x; cases x <;> decide
    have key : Represents w2.ctx.tables (acked (react w.ctx.retransmits m s p.first p.body)) ∧
        wire es1 = ackWire (react w.ctx.retransmits m s p.first p.body).ack := by
      rcases h6.cases with ⟨d1, d2, _, _, d3⟩ | ⟨_, _, _, _, d1, _⟩ | ⟨_, _, _, _, d1, _⟩ | ⟨ty, id, d1, _, d2, _, _, d3⟩
      · exact ⟨by unfold acked; rw [d1]; exact d3, by rw [d1, d2]; rfl⟩
      · rw [d1, (hnc _).2] at hc
        exact absurd (hnc _).1 hc
      · rw [d1] at hc
        exact absurd (by decide) hc
      · exact ⟨by unfold acked; rw [d1]; exact d3, d2⟩
    refine ⟨[p], ps, _, rfl, by rw [hr0, h2, h8]; simp, by rw [h9]; exact key.1, ?_, ?_⟩
    · rw [hcb, present, if_neg (by omega)]
      simp [present]
    · rw [e1, key.2, answers, if_neg (by omega)]
      simp only [answers]
      have := Pinged.packet (p := ackWire (react w.ctx.retransmits m s p.first p.body).ack) (Pinged.nil (pings := m))
      rwa [List.append_nil] at this

theorem did_said {g : Cfg} {s : InFlight} {w w' : World} {m : Bool} {st : Status} {es : List Event} (h : Did g s w (loopCall m) (.status st) es w')
    (hrep : Represents w.ctx.tables s) {tail : List UInt8} {pkts : List Raw} (hv : ∀ q ∈ pkts, q.Valid)
    (hs : w.ctx.buffered ++ received es ++ tail = pkts.flatMap Raw.bytes)
    (hf : (∀ q ∈ pkts, q.bytes.length ≤ w.ctx.bufSize) ∨ st ≠ .recvFailed) (hc : st ∉ cannotSend) :
    ∃ a b s', pkts = a ++ b ∧ w.ctx.buffered ++ received es = a.flatMap Raw.bytes ++ w'.ctx.buffered ∧ Represents w'.ctx.tables s' ∧
      present w.ctx.retransmits m w.ctx.bufSize s a = (callbacks es, s') ∧
      Pinged m (answers w.ctx.retransmits m w.ctx.bufSize s a) (wire es) := by
  have hturn : (es = [.recvd (w.ctx.bufSize - w.ctx.index) none, .pre, .post] ∧ st = .recvFailed ∧ w'.ctx.buffered = w.ctx.buffered ∧
      w'.ctx.tables = w.ctx.tables) ∨
    ∃ r ka es2, es = .recvd (w.ctx.bufSize - w.ctx.index) (some r) :: (ka ++ es2) ∧ AckX pingreqPacket ka ∧ (¬ (m = true ∧ r = []) → ka = []) ∧
      Turn g m s w (w.ctx.buffered ++ r) st ka es2 w' ∧
      (wire ka = [] ∨ wire ka = pingreqPacket ∨ st = .sendFailed ∧ es2 = [] ∧ wire ka ≠ pingreqPacket) := by
    cases m with
    | true =>
      cases h with
      | processLoop f hi =>
        rcases hi.turnKeep with h | ⟨r, ka, es2, h1, _, h3, h4, h5, h6⟩
        · exact Or.inl h
        · exact Or.inr ⟨r, ka, es2, h1, h3, h4, h5.fresh, h6⟩
    | false =>
      cases h with
      | receiveLoop f hi =>
        rcases hi.turnKeep with h | ⟨r, ka, es2, h1, _, h3, h4, h5, h6⟩
        · exact Or.inl h
        · exact Or.inr ⟨r, ka, es2, h1, h3, h4, h5, h6⟩
  rcases hturn with ⟨rfl, rfl, h1, h2⟩ | ⟨r, ka, es2, rfl, h2, h3, h4, h5⟩
  · exact ⟨[], pkts, s, rfl, by simp [received, h1], by rw [h2]; exact hrep, rfl, .nil⟩
  · obtain ⟨q1, q2⟩ := h2.quiet
    have r1 : received (.recvd (w.ctx.bufSize - w.ctx.index) (some r) :: (ka ++ es2)) = r ++ received es2 := by
      rw [received_got, received_append, q1]; rfl
    have r2 : callbacks (.recvd (w.ctx.bufSize - w.ctx.index) (some r) :: (ka ++ es2)) = callbacks es2 := by
      show callbacks ([.recvd (w.ctx.bufSize - w.ctx.index) (some r)] ++ (ka ++ es2)) = _
      rw [callbacks_append, callbacks_append, q2]; rfl
    have r3 : wire (.recvd (w.ctx.bufSize - w.ctx.index) (some r) :: (ka ++ es2)) = wire ka ++ wire es2 := by
      rw [wire_recvd, wire_append]
    rw [r1, ← List.append_assoc] at hs ⊢
    rw [r2, r3]
    obtain ⟨a, b, s', k1, k2, k3, k4, k5⟩ := turn_said h4 hrep hv hs hf hc
    refine ⟨a, b, s', k1, k2, k3, k4, ?_⟩
    rcases h5 with h5 | h5 | ⟨h5, _⟩
    · rw [h5]; exact k5
    · rw [h5]
      refine .ping ?_ k5
      cases m with
      | true => rfl
      | false =>
        rw [h3 (by simp)] at h5
        exact absurd h5 (by decide)
    · rw [h5] at hc
      exact absurd (by decide) hc

theorem hist_said {g : Cfg} (hg : CfgOk g) {s : InFlight} {w w' : World} {m : Bool} {h : List (ApiCall × ApiRet)} (hh : Hist g w h w')
    (hidx : w.ctx.index ≤ w.ctx.bufSize) (hrep : Represents w.ctx.tables s) (hl : ∀ x ∈ h, x.1 = loopCall m) {es : List Event}
    (hes : w'.trace = w.trace ++ es) {tail : List UInt8} {pkts : List Raw} (hv : ∀ q ∈ pkts, q.Valid)
    (hs : w.ctx.buffered ++ received es ++ tail = pkts.flatMap Raw.bytes)
    (hf : (∀ q ∈ pkts, q.bytes.length ≤ w.ctx.bufSize) ∨ ∀ x ∈ h, x.2 ≠ .status .recvFailed)
    (hall : ∀ x ∈ h, ∀ st ∈ cannotSend, x.2 ≠ .status st) :
    ∃ a b s', pkts = a ++ b ∧ w.ctx.buffered ++ received es = a.flatMap Raw.bytes ++ w'.ctx.buffered ∧ Represents w'.ctx.tables s' ∧
      present w.ctx.retransmits m w.ctx.bufSize s a = (callbacks es, s') ∧
      Pinged m (answers w.ctx.retransmits m w.ctx.bufSize s a) (wire es) ∧
      w'.ctx.index ≤ w'.ctx.bufSize ∧ w'.ctx.bufSize = w.ctx.bufSize ∧ w'.ctx.retransmits = w.ctx.retransmits := by
  induction hh generalizing es tail with
  | start =>
    have : es = [] := by simpa using hes
    subst this
    exact ⟨[], pkts, s, rfl, by simp [received], hrep, rfl, .nil, hidx, rfl, rfl⟩
  | @call w1 w2 h e c r hh hvc hc ih =>
    have hcl : c = loopCall m := hl (c, r) (by simp)
    subst hcl
    have hi0 : Inv s.outCap s.inCap w.ctx := ⟨hidx, s, hrep, rfl, rfl⟩
    obtain ⟨i1, s1, i2, _⟩ := hh.inv hg hi0
    obtain ⟨es2, hlk, hd⟩ := callIn_done hg hvc i1 i2 hc
    obtain ⟨es1, he1⟩ := hh.grows hg hi0
    have hes' : es = es1 ++ es2 := by
      have h1 : w2.trace = w1.trace ++ es2 := hlk.trace
      rw [h1, he1, List.append_assoc] at hes
      exact (List.append_cancel_left hes).symm
    subst hes'
    rw [received_append] at hs
    obtain ⟨a, b, s', k1, k2, k3, k4, k5, k6, k7, k8⟩ := ih (fun x hx => hl x (by simp [hx])) (es := es1) he1 (tail := received es2 ++ tail)
      (by rw [← hs]; simp) (hf.imp_right fun h x hx => h x (by simp [hx])) (fun x hx => hall x (by simp [hx]))
    have hrs : s' = s1 := represents_unique k3 i2
    subst hrs
    have hs2 : w1.ctx.buffered ++ received es2 ++ tail = b.flatMap Raw.bytes := by
      have : w.ctx.buffered ++ (received es1 ++ received es2) ++ tail = (w.ctx.buffered ++ received es1) ++ (received es2 ++ tail) := by simp
      rw [this, k2, k1, List.flatMap_append, List.append_assoc] at hs
      have := List.append_cancel_left hs
      rw [← this]; simp
    obtain ⟨_, st, rfl, _⟩ := hd.turn
    have hfit : (∀ q ∈ b, q.bytes.length ≤ w1.ctx.bufSize) ∨ st ≠ .recvFailed := by
      rcases hf with hf | hf
      · exact Or.inl fun q hq => by rw [k7]; exact hf q (by rw [k1]; exact List.mem_append_right _ hq)
      · exact Or.inr fun h => hf (loopCall m, .status st) (by simp) (by rw [h])
    obtain ⟨a', b', s'', j1, j2, j3, j4, j5⟩ := did_said (w := { w1 with env := e }) hd i2 (tail := tail) (pkts := b)
      (fun q hq => hv q (by rw [k1]; exact List.mem_append_right _ hq)) hs2 hfit
      (fun hm => hall (loopCall m, .status st) (by simp) st hm rfl)
    have hkeep := hd.keeps (w := { w1 with env := e }) i2
    have j4 : present w.ctx.retransmits m w.ctx.bufSize s' a' = (callbacks es2, s'') := by rw [← k7, ← k8]; exact j4
    have j5 : Pinged m (answers w.ctx.retransmits m w.ctx.bufSize s' a') (wire es2) := by rw [← k7, ← k8]; exact j5
    refine ⟨a ++ a', b', s'', by rw [k1, j1, List.append_assoc], ?_, j3, ?_, ?_, ?_, ?_, ?_⟩
    · rw [received_append, ← List.append_assoc, k2, List.append_assoc, List.flatMap_append, List.append_assoc]
      exact congrArg _ j2
    · rw [present_append, k4, callbacks_append, j4]
    · rw [answers_append, k4, wire_append]
      exact Pinged.append k5 j5
    · exact (hkeep.inv _ _ ⟨i1, s', i2, rfl, rfl⟩).1
    · exact hkeep.bufSize.trans k7
    · exact hkeep.retransmits.trans k8

end Mqtt
