/-
What a receive call does with the stream of packets.
-/
import Verif.Proof.CallKeep
import Verif.Spec.Receiving

namespace Mqtt
open Spec
set_option linter.unusedSimpArgs false

/-- What a receive call did with the bytes `buf`: those buffered before and those its first receive call delivered.  `ka` are the events of the
keep-alive check, `es` those that followed. -/
inductive Turn (g : Cfg) (manage : Bool) (s : InFlight) (w : World) (buf : List UInt8) : Status → List Event → List Event → World → Prop
  /-- the keep-alive check ended the call -/
  | stopped {st : Status} {ka : List Event} {w' : World} : st ∈ keepAliveErrors → manage = true ∧ ka ≠ [] → w'.ctx.buffered = buf → w'.ctx.tables = w.ctx.tables →
      Turn g manage s w buf st ka [] w'
  /-- there is no complete packet -/
  | wait {st : Status} {ka : List Event} {w' : World} : (∀ t hl n, readHeader buf = .known t hl n → hl + n ≤ w.ctx.bufSize ∧ buf.length < hl + n) →
      st = (if buf = [] then .success else if readHeader buf = .malformed then .badResponse else .needMoreBytes) →
      w'.ctx.buffered = buf → w'.ctx.tables = w.ctx.tables → Turn g manage s w buf st ka [] w'
  /-- a packet too large for the buffer is dropped -/
  | drop {st : Status} {ka es : List Event} {t : UInt8} {hl n : Nat} {w' : World} : readHeader buf = .known t hl n → w.ctx.bufSize < hl + n →
      RecvX es → buf.length + (received es).length ≤ hl + n → w'.ctx.buffered = [] → w'.ctx.tables = w.ctx.tables →
      (st = .success ∧ buf.length + (received es).length = hl + n ∧ hasFail es = false ∨
        st = .recvFailed ∧ (hasFail es = true ∨ Starved g.recvPollingTimeoutMs es)) →
      Turn g manage s w buf st ka es w'
  /-- a packet is taken -/
  | packet {st : Status} {ka es : List Event} {p : Raw} {rest : List UInt8} {w1 w2 w' : World} {more : List Event} : p.Valid → buf = p.bytes ++ rest →
      p.bytes.length ≤ w.ctx.bufSize → w1.ctx.connectStatus = w.ctx.connectStatus ∧ hasFail ka = false ∧ (wire ka = [] ∨ wire ka = pingreqPacket) → w1.ctx.tables = w.ctx.tables →
      Reacted (react w.ctx.retransmits manage s p.first p.body) w1 st es w2 →
      (st = .success ∧ (∃ t, more = [.time t]) ∨ st ≠ .success ∧ more = []) →
      w'.ctx.buffered = rest → w'.ctx.tables = w2.ctx.tables → Turn g manage s w buf (callerStatus st) ka (es ++ more) w'

/-- A keep-alive check that does not end the call sent nothing or a whole PINGREQ. -/
theorem KeepStep.sound {g : Cfg} {m : Bool} {r : List UInt8} {w w' : World} {st : Status} {es : List Event} (h : KeepStep g m r w st es w')
    (hs : st = .success) : hasFail es = false ∧ (wire es = [] ∨ wire es = pingreqPacket) := by
  subst hs
  rcases h with ⟨_, _, now, h⟩ | ⟨_, _, rfl, _⟩
  · rcases h with ⟨_, rfl, _⟩ | ⟨_, _, rfl, _⟩ | ⟨_, _, es', rfl, w1, _, hp⟩
    · exact ⟨rfl, Or.inl rfl⟩
    · exact ⟨rfl, Or.inl rfl⟩
    · have e1 : hasFail (.time now :: .pre :: .post :: es') = hasFail es' := by simp [hasFail, isFail]
      have e2 : wire (.time now :: .pre :: .post :: es') = wire es' := by
        rw [wire_cons_of_noSent _ _ rfl, wire_cons_of_noSent _ _ rfl, wire_cons_of_noSent _ _ rfl]
      rw [e1, e2]
      rcases hp.cases with h | h | h
      · exact ⟨h.2.2.1, Or.inl h.2.1⟩
      · exact absurd h.2.2.2.1 (by simp)
      · exact ⟨h.2.2.1, Or.inr h.2.1⟩
  · exact ⟨rfl, Or.inl rfl⟩

theorem notConnectedStatus_error (c : ConnStatus) : notConnectedStatus c ∈ keepAliveErrors := by cases c <;> decide

/-- With what the keep-alive check can end a call. -/
theorem KeepStep.errors {g : Cfg} {m : Bool} {r : List UInt8} {w w' : World} {st : Status} {es : List Event} (h : KeepStep g m r w st es w')
    (hs : st ≠ .success) : st ∈ keepAliveErrors := by
  rcases h with ⟨_, _, now, h⟩ | ⟨_, h, _⟩
  · rcases h with ⟨_, _, _, h⟩ | ⟨_, _, _, _, h⟩ | ⟨_, _, es', _, w1, _, hp⟩
    · split at h
      · rw [h]; decide
      · exact absurd h hs
    · exact absurd h hs
    · rcases hp.cases with h | h | h
      · rw [h.2.2.2.1]; exact notConnectedStatus_error _
      · rw [h.2.2.2.1]; decide
      · exact absurd h.2.2.2.1 hs
  · exact absurd h hs

theorem keepAliveErrors_ne {st : Status} (h : st ∈ keepAliveErrors) : st ≠ .success := by rintro rfl; revert h; decide

/-- A complete packet at the front of the bytes. -/
theorem readHeader_packet {p : Raw} {rest : List UInt8} (hp : p.Valid) :
    ∃ hl, readHeader (p.bytes ++ rest) = .known p.first hl p.body.length ∧ hl + p.body.length = p.bytes.length := by
  refine ⟨_, readHeader_bytes hp rest, ?_⟩
  rw [Raw.bytes_eq]
  simp only [List.length_cons, List.length_append]
  omega

/-- With what the keep-alive check sent. -/
theorem Iterated.turnKeep {g : Cfg} {m : Bool} {s : InFlight} {w w' : World} {st : Status} {es : List Event} (h : Iterated g m s w st es w') :
    (es = [.recvd (w.ctx.bufSize - w.ctx.index) none, .pre, .post] ∧ st = .recvFailed ∧ w'.ctx.buffered = w.ctx.buffered ∧
      w'.ctx.tables = w.ctx.tables) ∨
    ∃ r ka es2, es = .recvd (w.ctx.bufSize - w.ctx.index) (some r) :: (ka ++ es2) ∧ w.ctx.index + r.length ≤ w.ctx.bufSize ∧
      AckX pingreqPacket ka ∧ (¬ (m = true ∧ r = []) → ka = []) ∧ Turn g m s w (w.ctx.buffered ++ r) st ka es2 w' ∧
      (wire ka = [] ∨ wire ka = pingreqPacket ∨ st = .sendFailed ∧ es2 = [] ∧ wire ka ≠ pingreqPacket) := by
  obtain ⟨hidx, ⟨rfl, rfl, hc⟩ | ⟨r, kst, ka, w1, w2, hlen, hw1, hk, h⟩⟩ := h
  · exact Or.inl ⟨rfl, rfl, by rw [hc]; rfl, by rw [hc]⟩
  · refine Or.inr ?_
    obtain ⟨k1, k2, k3, k4, k5, k6, k7⟩ := hk.keeps
    have hb1 : w1.ctx.buffered = w.ctx.buffered ++ r := by rw [hw1]; exact appended_buffered (by omega)
    have hb2 : w2.ctx.buffered = w.ctx.buffered ++ r := by rw [← hb1]; unfold Ctx.buffered; rw [k1, k2]
    have ht2 : w2.ctx.tables = w.ctx.tables := by rw [k3, hw1]; rfl
    have hs2 : w2.ctx.bufSize = w.ctx.bufSize := by
      unfold Ctx.bufSize
      rw [k2, hw1]
      show (writeAt _ _ _).length = _
      rw [writeAt_length]
      have h1 : w.ctx.netBuf.length = w.ctx.bufSize := rfl
      omega
    have hi2 : w2.ctx.index = w.ctx.index + r.length := by rw [k1, hw1]; rfl
    have hl2 : (w.ctx.buffered ++ r).length = w2.ctx.index := by
      rw [List.length_append, buffered_length hidx, hi2]
    rcases h with ⟨h1, h2, h3, h4⟩ | ⟨h1, es2, h2, h3⟩
    · refine ⟨r, ka, [], by rw [h2, List.append_nil], by omega, k6, k7, .stopped (by rw [h4]; exact hk.errors h1) ?_ (by rw [h3, hb2]) (by rw [h3, ht2]), ?_⟩
      rcases hk with ⟨hm, _, _, hk⟩ | ⟨_, hk, _⟩
      · refine ⟨hm, ?_⟩
        rcases hk with ⟨_, rfl, _⟩ | ⟨_, _, rfl, _⟩ | ⟨_, _, _, rfl, _⟩ <;> simp
      · exact absurd hk h1
      · rw [h4]
        rcases hk with ⟨_, _, now, hk⟩ | ⟨_, hk, _⟩
        · rcases hk with ⟨_, rfl, _⟩ | ⟨_, _, rfl, _⟩ | ⟨_, _, es', rfl, w1, _, hp⟩
          · exact Or.inl rfl
          · exact Or.inl rfl
          · have e2 : wire (.time now :: .pre :: .post :: es') = wire es' := by
              rw [wire_cons_of_noSent _ _ rfl, wire_cons_of_noSent _ _ rfl, wire_cons_of_noSent _ _ rfl]
            rw [e2]
            rcases hp.cases with h | h | h
            · exact Or.inl h.2.1
            · exact Or.inr (Or.inr ⟨h.2.2.2.1, rfl, h.2.2.1⟩)
            · exact Or.inr (Or.inl h.2.1)
        · exact absurd hk h1
    · refine ⟨r, ka, es2, h2, by omega, k6, k7, ?_, by rcases (hk.sound h1).2 with h | h <;> simp [h]⟩
      unfold Advance at h3
      rw [hb2] at h3
      split at h3
      · rename_i hr
        obtain ⟨rfl, h4, h5⟩ := h3
        refine .wait (by rw [hr]; exact fun _ _ _ h => nomatch h) ?_ (by rw [h4, hb2]) (by rw [h4, ht2])
        rw [h5, hr, if_neg (by simp : ¬ Header.incomplete = Header.malformed)]
      · rename_i hr
        obtain ⟨rfl, h4, h5⟩ := h3
        refine .wait (by rw [hr]; exact fun _ _ _ h => nomatch h) ?_ (by rw [h4, hb2]) (by rw [h4, ht2])
        rw [h5, hr, if_pos rfl, if_neg]
        intro h0
        rw [h0] at hr
        cases hr
      · rename_i t hl n hr
        split at h3
        · rename_i hbig
          obtain ⟨d1, d2, d3, d4⟩ := h3
          have hidx2 : w2.ctx.index ≤ w2.ctx.bufSize := by rw [hi2, hs2]; omega
          refine .drop hr (by rw [← hs2]; exact hbig) d1 (by rw [hl2]; omega) (by rw [d3]; rfl) (by rw [d3]; exact ht2) ?_
          rcases d4 with ⟨d4, d5, d6⟩ | d4
          · exact Or.inl ⟨d4, by rw [hl2]; omega, d6⟩
          · exact Or.inr d4
        · rename_i hbig
          split at h3
          · rename_i hmore
            obtain ⟨rfl, h4, h5⟩ := h3
            refine .wait ?_ ?_ (by rw [h4, hb2]) (by rw [h4, ht2])
            · rintro t' hl' n' h'
              rw [hr] at h'
              cases h'
              exact ⟨by rw [← hs2]; omega, by rw [hl2]; omega⟩
            · rw [h5, hr, if_neg, if_neg (by simp)]
              intro h0
              rw [h0] at hr
              cases hr
          · rename_i hmore
            obtain ⟨rst, re, w3, rx, e1, e2, e3, e4, e5⟩ := h3
            obtain ⟨p1, p2, p3, p4⟩ := known_packet hr (by rw [hl2]; omega)
            rw [e3]
            have hret : w2.ctx.retransmits = w.ctx.retransmits := by rw [k4, hw1]; rfl
            rw [hret] at e1
            obtain ⟨n1, n2⟩ := hk.sound h1
            have hcs : w2.ctx.connectStatus = w.ctx.connectStatus ∧ hasFail ka = false ∧ (wire ka = [] ∨ wire ka = pingreqPacket) :=
              ⟨by rw [k5, hw1, n1, afterFail_false]; rfl, n1, n2⟩
            have htab : w'.ctx.tables = w3.ctx.tables := by rw [e4]
            rcases e2 with ⟨f1, rfl, _⟩ | ⟨f1, rfl⟩
            · rw [← List.append_nil es2]
              exact .packet (p := ⟨t, ((w.ctx.buffered ++ r).drop hl).take n⟩) p1 p4 (by rw [p3, ← hs2]; omega) hcs ht2 e1 (Or.inr ⟨f1, rfl⟩) e5 htab
            · exact .packet (p := ⟨t, ((w.ctx.buffered ++ r).drop hl).take n⟩) p1 p4 (by rw [p3, ← hs2]; omega) hcs ht2 e1 (Or.inl ⟨f1, rx, rfl⟩) e5 htab

theorem Iterated.turn {g : Cfg} {m : Bool} {s : InFlight} {w w' : World} {st : Status} {es : List Event} (h : Iterated g m s w st es w') :
    (es = [.recvd (w.ctx.bufSize - w.ctx.index) none, .pre, .post] ∧ st = .recvFailed ∧ w'.ctx.buffered = w.ctx.buffered ∧
      w'.ctx.tables = w.ctx.tables) ∨
    ∃ r ka es2, es = .recvd (w.ctx.bufSize - w.ctx.index) (some r) :: (ka ++ es2) ∧ w.ctx.index + r.length ≤ w.ctx.bufSize ∧
      AckX pingreqPacket ka ∧ (¬ (m = true ∧ r = []) → ka = []) ∧ Turn g m s w (w.ctx.buffered ++ r) st ka es2 w' := by
  rcases h.turnKeep with h | ⟨r, ka, es2, h1, h2, h3, h4, h5, _⟩
  · exact Or.inl h
  · exact Or.inr ⟨r, ka, es2, h1, h2, h3, h4, h5⟩

/-! ### Streams of packets -/

theorem Raw.bytes_ne_nil (p : Raw) : p.bytes ≠ [] := by rw [Raw.bytes_eq]; simp

/-- The first packet of a stream is determined by the bytes. -/
theorem first_packet {p : Raw} (hp : p.Valid) {rest tail : List UInt8} {pkts : List Raw} (hv : ∀ q ∈ pkts, q.Valid)
    (h : p.bytes ++ rest ++ tail = pkts.flatMap Raw.bytes) : ∃ ps, pkts = p :: ps ∧ rest ++ tail = ps.flatMap Raw.bytes := by
  cases pkts with
  | nil =>
    have := List.append_eq_nil_iff.mp (List.append_eq_nil_iff.mp h).1
    exact absurd this.1 (Raw.bytes_ne_nil p)
  | cons q ps =>
    have hq := hv q List.mem_cons_self
    rw [List.append_assoc, List.flatMap_cons] at h
    obtain ⟨hl, e1, e2⟩ := readHeader_packet (rest := rest ++ tail) hp
    obtain ⟨hl', e3, e4⟩ := readHeader_packet (rest := ps.flatMap Raw.bytes) hq
    rw [h, e3] at e1
    injection e1 with e5 e6 e7
    have hlen : p.bytes.length = q.bytes.length := by omega
    obtain ⟨h1, h2⟩ := List.append_inj h hlen
    have : p = q := by
      rw [Raw.bytes_eq, Raw.bytes_eq] at h1
      injection h1 with h3 h4
      rw [e7] at h4
      have h5 := (List.append_inj h4 rfl).2
      cases p; cases q
      simp_all
    subst this
    exact ⟨ps, rfl, h2⟩

/-- So is its length by its header. -/
theorem first_length {buf tail : List UInt8} {t : UInt8} {hl n : Nat} {pkts : List Raw} (hr : readHeader buf = .known t hl n) (hv : ∀ q ∈ pkts, q.Valid)
    (h : buf ++ tail = pkts.flatMap Raw.bytes) : ∃ q ps, pkts = q :: ps ∧ q.bytes.length = hl + n := by
  obtain ⟨h1, h2, h3, rest, rfl⟩ := readHeader_known hr
  cases pkts with
  | nil => simp at h
  | cons q ps =>
    refine ⟨q, ps, rfl, ?_⟩
    have hq := hv q List.mem_cons_self
    obtain ⟨hl', e3, e4⟩ := readHeader_packet (rest := ps.flatMap Raw.bytes) hq
    rw [List.flatMap_cons] at h
    rw [← h] at e3
    have e5 := readHeader_intro h1 h2 (rest ++ tail)
    rw [List.cons_append, List.append_assoc, e5] at e3
    injection e3 with e6 e7 e8
    rw [h3]; omega

theorem present_append (retx m : Bool) (cap : Nat) (s : InFlight) (a b : List Raw) :
    present retx m cap s (a ++ b) =
      ((present retx m cap s a).1 ++ (present retx m cap (present retx m cap s a).2 b).1, (present retx m cap (present retx m cap s a).2 b).2) := by
  induction a generalizing s with
  | nil => rfl
  | cons p ps ih =>
    simp only [List.cons_append, present]
    split
    · exact ih s
    · rw [ih]; simp

theorem Seen.append {retx m : Bool} {cap : Nat} {s s1 s2 : InFlight} {a b : List Raw} {x y : List Event} (h : Seen retx m cap s a x s1)
    (h' : Seen retx m cap s1 b y s2) : Seen retx m cap s (a ++ b) (x ++ y) s2 := by
  induction h with
  | nil => exact h'
  | dropped h1 _ ih => exact .dropped h1 (ih h')
  | taken h1 h2 _ ih => rw [List.append_assoc]; exact .taken h1 h2 (ih h')

theorem callbacks_of_recvX {es : List Event} (h : RecvX es) : callbacks es = [] := by
  induction h with
  | nil => rfl
  | @cons e es he _ ih => cases e <;> simp_all [isRecvOrTime, callbacks, isCallback]
  | failed n _ ih => simpa [callbacks, isCallback] using ih

/-- How far one receive call gets in a stream. -/
theorem Turn.seen {g : Cfg} {m : Bool} {s : InFlight} {w w' : World} {buf : List UInt8} {st : Status} {ka es : List Event}
    (h : Turn g m s w buf st ka es w') (hrep : Represents w.ctx.tables s) {tail : List UInt8} {pkts : List Raw} (hv : ∀ q ∈ pkts, q.Valid)
    (hs : buf ++ received es ++ tail = pkts.flatMap Raw.bytes) (hf : (∀ q ∈ pkts, q.bytes.length ≤ w.ctx.bufSize) ∨ st ≠ .recvFailed) :
    ∃ a b s', pkts = a ++ b ∧ a.length ≤ 1 ∧ buf ++ received es = a.flatMap Raw.bytes ++ w'.ctx.buffered ∧ Represents w'.ctx.tables s' ∧
      Seen w.ctx.retransmits m w.ctx.bufSize s a (callbacks es) s' ∧
      (st ∉ cannotSend → present w.ctx.retransmits m w.ctx.bufSize s a = (callbacks es, s')) := by
  cases h with
  | stopped h1 h2 h3 h4 => exact ⟨[], pkts, s, rfl, by simp, by simp [received, h3], by rw [h4]; exact hrep, .nil s, fun _ => rfl⟩
  | wait h1 h2 h3 h4 => exact ⟨[], pkts, s, rfl, by simp, by simp [received, h3], by rw [h4]; exact hrep, .nil s, fun _ => rfl⟩
  | drop h1 h2 h3 h4 h5 h6 h7 =>
    rw [List.append_assoc] at hs
    obtain ⟨q, ps, rfl, hq⟩ := first_length h1 hv hs
    rcases h7 with ⟨_, h8, _⟩ | ⟨h8, _⟩
    · refine ⟨[q], ps, s, rfl, by simp, ?_, by rw [h6]; exact hrep, ?_, ?_⟩
      · rw [← List.append_assoc, List.flatMap_cons] at hs
        have := (List.append_inj hs (by rw [List.length_append]; omega)).1
        rw [this, h5]; simp
      · rw [callbacks_of_recvX h3]
        exact .dropped (by omega) (.nil s)
      · intro _
        rw [callbacks_of_recvX h3, present, if_pos (by omega), present]
    · rcases hf with hf | hf
      · have := hf q List.mem_cons_self
        omega
      · exact absurd h8 hf
  | @packet rst _ es1 p rest w1 w2 _ more h1 h2 h3 h4 h5 h6 h7 h8 h9 =>
    have hm : received more = [] ∧ callbacks more = [] := by
      rcases h7 with ⟨_, t, rfl⟩ | ⟨_, rfl⟩ <;> exact ⟨rfl, rfl⟩
    have hr0 : received (es1 ++ more) = [] := by
      rw [received_append, hm.1, List.append_nil]; exact received_of_noRecv h6.noRecv
    have hcb : callbacks (es1 ++ more) = (react w.ctx.retransmits m s p.first p.body).callbacks := by
      rw [callbacks_append, hm.2, List.append_nil, h6.calls]
    rw [hr0, List.append_nil, h2] at hs
    obtain ⟨ps, rfl, _⟩ := first_packet h1 hv hs
    rw [hr0, hcb, h9]
    have key : ∃ s', Represents w2.ctx.tables s' ∧ (s' = acked (react w.ctx.retransmits m s p.first p.body) ∨
        s' = (react w.ctx.retransmits m s p.first p.body).state ∧ callerStatus rst ∈ cannotSend) := by
      rcases h6.cases with ⟨e1, _, _, _, e2⟩ | ⟨_, e0, _, _, e1, e2⟩ | ⟨_, _, _, _, e1, e2, _⟩ | ⟨ty, id, e1, _, _, _, e2, e3⟩
      · exact ⟨_, e2, Or.inl (by unfold acked; rw [e1])⟩
      · refine ⟨_, e2, Or.inr ⟨rfl, ?_⟩⟩
        rw [e1]
        unfold notConnectedStatus
        split <;> simp [callerStatus, cannotSend]
      · exact ⟨_, e2, Or.inr ⟨rfl, by rw [e1]; simp [callerStatus, cannotSend]⟩⟩
      · exact ⟨_, e3, Or.inl (by unfold acked; rw [e1])⟩
    obtain ⟨s', k1, k2⟩ := key
    refine ⟨[p], ps, s', rfl, by simp, by rw [h2, h8]; simp, k1, ?_, ?_⟩
    · have := Seen.taken (retx := w.ctx.retransmits) (manage := m) (s := s) h3 (Or.imp_right And.left k2) (.nil s')
      rwa [List.append_nil] at this
    · intro hc
      rcases k2 with rfl | ⟨_, k2⟩
      · rw [present, if_neg (by omega)]
        simp [present]
      · exact absurd k2 hc

/-! ### Histories of receive calls -/

theorem Turn.fresh {g : Cfg} {m : Bool} {s : InFlight} {w w' : World} {buf : List UInt8} {st : Status} {ka es : List Event}
    (h : Turn g m s w.fresh buf st ka es w') : Turn g m s w buf st ka es w' := by
  cases h with
  | stopped h1 h2 h3 h4 => exact .stopped h1 h2 h3 h4
  | wait h1 h2 h3 h4 => exact .wait h1 h2 h3 h4
  | drop h1 h2 h3 h4 h5 h6 h7 => exact .drop h1 h2 h3 h4 h5 h6 h7
  | packet h1 h2 h3 h4 h5 h6 h7 h8 h9 => exact .packet h1 h2 h3 h4 h5 h6 h7 h8 h9

/-- What a receive call that returned did. -/
theorem Did.turn {g : Cfg} {s : InFlight} {w w' : World} {m : Bool} {r : ApiRet} {es : List Event} (h : Did g s w (loopCall m) r es w') :
    Fx false w es false w' ∧ ∃ st, r = .status st ∧
    ((es = [.recvd (w.ctx.bufSize - w.ctx.index) none, .pre, .post] ∧ st = .recvFailed ∧ w'.ctx.buffered = w.ctx.buffered ∧
      w'.ctx.tables = w.ctx.tables) ∨
    ∃ r ka es2, es = .recvd (w.ctx.bufSize - w.ctx.index) (some r) :: (ka ++ es2) ∧ w.ctx.index + r.length ≤ w.ctx.bufSize ∧
      AckX pingreqPacket ka ∧ (¬ (m = true ∧ r = []) → ka = []) ∧ Turn g m s w (w.ctx.buffered ++ r) st ka es2 w') := by
  cases m with
  | true =>
    cases h with
    | processLoop f hi =>
      refine ⟨f, _, rfl, ?_⟩
      rcases hi.turn with h | ⟨r, ka, es2, h1, h2, h3, h4, h5⟩
      · exact Or.inl h
      · exact Or.inr ⟨r, ka, es2, h1, h2, h3, h4, h5.fresh⟩
  | false =>
    cases h with
    | receiveLoop f hi => exact ⟨f, _, rfl, hi.turn⟩

theorem AckX.quiet {b : List UInt8} {es : List Event} (h : AckX b es) : received es = [] ∧ callbacks es = [] := by
  obtain ⟨h1, h2⟩ := callbacks_of_ack h.1
  exact ⟨received_of_noRecv h2, h1⟩

/-- How far one receive call gets in a stream. -/
theorem Did.seen {g : Cfg} {s : InFlight} {w w' : World} {m : Bool} {r : ApiRet} {es : List Event} (h : Did g s w (loopCall m) r es w')
    (hrep : Represents w.ctx.tables s) {tail : List UInt8} {pkts : List Raw} (hv : ∀ q ∈ pkts, q.Valid)
    (hs : w.ctx.buffered ++ received es ++ tail = pkts.flatMap Raw.bytes)
    (hf : (∀ q ∈ pkts, q.bytes.length ≤ w.ctx.bufSize) ∨ r ≠ .status .recvFailed) :
    ∃ a b s', pkts = a ++ b ∧ w.ctx.buffered ++ received es = a.flatMap Raw.bytes ++ w'.ctx.buffered ∧ Represents w'.ctx.tables s' ∧
      Seen w.ctx.retransmits m w.ctx.bufSize s a (callbacks es) s' ∧
      ((∀ st ∈ cannotSend, r ≠ .status st) → present w.ctx.retransmits m w.ctx.bufSize s a = (callbacks es, s')) := by
  obtain ⟨_, st, rfl, ⟨rfl, rfl, h1, h2⟩ | ⟨x, ka, es2, rfl, h1, h2, h3, h4⟩⟩ := h.turn
  · exact ⟨[], pkts, s, rfl, by simp [received, h1], by rw [h2]; exact hrep, .nil s, fun _ => rfl⟩
  · obtain ⟨q1, q2⟩ := h2.quiet
    have e1 : received (.recvd (w.ctx.bufSize - w.ctx.index) (some x) :: (ka ++ es2)) = x ++ received es2 := by
      show received ([.recvd (w.ctx.bufSize - w.ctx.index) (some x)] ++ (ka ++ es2)) = _
      rw [received_append, received_append, q1]; simp [received]
    have e2 : callbacks (.recvd (w.ctx.bufSize - w.ctx.index) (some x) :: (ka ++ es2)) = callbacks es2 := by
      show callbacks ([.recvd (w.ctx.bufSize - w.ctx.index) (some x)] ++ (ka ++ es2)) = _
      rw [callbacks_append, callbacks_append, q2]; simp [callbacks, isCallback]
    rw [e1, ← List.append_assoc] at hs ⊢
    rw [e2]
    obtain ⟨a, b, s', k1, k2, k3, k4, k5, k6⟩ := h4.seen hrep hv hs (hf.imp_right fun h h' => h (by rw [h']))
    exact ⟨a, b, s', k1, k3, k4, k5, fun hc => k6 fun hm => hc st hm rfl⟩

/-- A history only adds to the trace. -/
theorem Hist.grows {g : Cfg} (hg : CfgOk g) {w w' : World} {h : List (ApiCall × ApiRet)} {oc ic : Nat} (hh : Hist g w h w') (hi : Inv oc ic w.ctx) :
    ∃ es, w'.trace = w.trace ++ es := by
  induction hh with
  | start => exact ⟨[], by simp⟩
  | call hh hv hc ih =>
    obtain ⟨es, h1⟩ := ih
    obtain ⟨i1, s, i2, _⟩ := hh.inv hg hi
    obtain ⟨es2, hl, _⟩ := callIn_done hg hv i1 i2 hc
    refine ⟨es ++ es2, ?_⟩
    have h2 := hl.trace
    rw [h2]
    show _ ++ _ = _
    rw [← List.append_assoc, ← h1]

/-- How far a history of receive calls gets in a stream. -/
theorem Hist.seen {g : Cfg} (hg : CfgOk g) {s : InFlight} {w w' : World} {m : Bool} {h : List (ApiCall × ApiRet)} (hh : Hist g w h w')
    (hidx : w.ctx.index ≤ w.ctx.bufSize) (hrep : Represents w.ctx.tables s) (hl : ∀ x ∈ h, x.1 = loopCall m) {es : List Event}
    (hes : w'.trace = w.trace ++ es) {tail : List UInt8} {pkts : List Raw} (hv : ∀ q ∈ pkts, q.Valid)
    (hs : w.ctx.buffered ++ received es ++ tail = pkts.flatMap Raw.bytes)
    (hf : (∀ q ∈ pkts, q.bytes.length ≤ w.ctx.bufSize) ∨ ∀ x ∈ h, x.2 ≠ .status .recvFailed) :
    ∃ a b s', pkts = a ++ b ∧ w.ctx.buffered ++ received es = a.flatMap Raw.bytes ++ w'.ctx.buffered ∧ Represents w'.ctx.tables s' ∧
      Seen w.ctx.retransmits m w.ctx.bufSize s a (callbacks es) s' ∧
      ((∀ x ∈ h, ∀ st ∈ cannotSend, x.2 ≠ .status st) → present w.ctx.retransmits m w.ctx.bufSize s a = (callbacks es, s')) ∧
      w'.ctx.index ≤ w'.ctx.bufSize ∧ w'.ctx.bufSize = w.ctx.bufSize ∧ w'.ctx.retransmits = w.ctx.retransmits := by
  induction hh generalizing es tail with
  | start =>
    have : es = [] := by simpa using hes
    subst this
    exact ⟨[], pkts, s, rfl, by simp [received], hrep, .nil s, fun _ => rfl, hidx, rfl, rfl⟩
  | @call w1 w2 h e c r hh hvc hc ih =>
    have hcl : c = loopCall m := hl (c, r) (by simp)
    subst hcl
    have hi0 : Inv s.outCap s.inCap w.ctx := ⟨hidx, s, hrep, rfl, rfl⟩
    obtain ⟨i1, s1, i2, _⟩ := hh.inv hg hi0
    obtain ⟨es2, hlk, hd⟩ := callIn_done hg hvc i1 i2 hc
    obtain ⟨es1, he1⟩ := hh.grows hg hi0
    have hes' : es = es1 ++ es2 := by
      have h1 : w2.trace = w1.trace ++ es2 := hlk.trace
      rw [h1, he1, List.append_assoc] at hes
      exact (List.append_cancel_left hes).symm
    subst hes'
    rw [received_append] at hs
    obtain ⟨a, b, s', k1, k2, k3, k4, k5, k6, k7, k8⟩ := ih (fun x hx => hl x (by simp [hx])) (es := es1) he1 (tail := received es2 ++ tail)
      (by rw [← hs]; simp) (hf.imp_right fun h x hx => h x (by simp [hx]))
    have hrs : s' = s1 := represents_unique k3 i2
    subst hrs
    have hs2 : w1.ctx.buffered ++ received es2 ++ tail = b.flatMap Raw.bytes := by
      have : w.ctx.buffered ++ (received es1 ++ received es2) ++ tail = (w.ctx.buffered ++ received es1) ++ (received es2 ++ tail) := by simp
      rw [this, k2, k1, List.flatMap_append, List.append_assoc] at hs
      have := List.append_cancel_left hs
      rw [← this]; simp
    have hfit : (∀ q ∈ b, q.bytes.length ≤ w1.ctx.bufSize) ∨ r ≠ .status .recvFailed := by
      rcases hf with hf | hf
      · exact Or.inl fun q hq => by rw [k7]; exact hf q (by rw [k1]; exact List.mem_append_right _ hq)
      · exact Or.inr (hf (loopCall m, r) (by simp))
    obtain ⟨a', b', s'', j1, j2, j3, j4, j5⟩ := Did.seen (w := { w1 with env := e }) hd i2 (tail := tail) (pkts := b)
      (fun q hq => hv q (by rw [k1]; exact List.mem_append_right _ hq)) hs2 hfit
    have hkeep := hd.keeps (w := { w1 with env := e }) i2
    have hkr : w1.ctx.retransmits = w.ctx.retransmits := k8
    refine ⟨a ++ a', b', s'', by rw [k1, j1, List.append_assoc], ?_, j3, ?_, ?_, ?_, ?_, ?_⟩
    · rw [received_append, ← List.append_assoc, k2, List.append_assoc, List.flatMap_append, List.append_assoc]
      exact congrArg _ j2
    · rw [callbacks_append]
      rw [← k7, ← hkr] at k4 ⊢
      exact Seen.append k4 j4
    · intro hall
      rw [present_append, k5 (fun x hx => hall x (by simp [hx])), callbacks_append]
      have := j5 (hall (loopCall m, r) (by simp))
      rw [← k7, ← hkr]
      show (callbacks es1 ++ (present w1.ctx.retransmits m w1.ctx.bufSize s' a').1, (present w1.ctx.retransmits m w1.ctx.bufSize s' a').2) = _
      rw [show present w1.ctx.retransmits m w1.ctx.bufSize s' a' = (callbacks es2, s'') from this]
    · exact (hkeep.inv _ _ ⟨i1, s', i2, rfl, rfl⟩).1
    · exact hkeep.bufSize.trans k7
    · exact hkeep.retransmits.trans k8

/-- `MQTT_ReceiveLoop` takes a packet that fits the buffer as soon as it is complete. -/
theorem Turn.takes {g : Cfg} {s : InFlight} {w w' : World} {buf : List UInt8} {st : Status} {ka es : List Event}
    (h : Turn g false s w buf st ka es w') {p : Raw} {rest : List UInt8} (hp : p.Valid) (hf : p.bytes.length ≤ w.ctx.bufSize)
    (hb : buf = p.bytes ++ rest) : w'.ctx.buffered = rest ∧ received es = [] := by
  obtain ⟨hl, e1, e2⟩ := readHeader_packet (rest := rest) hp
  rw [← hb] at e1
  cases h with
  | stopped h1 h2 _ _ => cases h2.1
  | wait h1 h2 h3 h4 =>
    have := (h1 _ _ _ e1).2
    rw [hb, List.length_append] at this
    omega
  | drop h1 h2 =>
    rw [e1] at h1
    cases h1
    omega
  | @packet rst _ es1 q rest' w1 w2 _ more h1 h2 h3 h4 h5 h6 h7 h8 h9 =>
    have hm : received more = [] := by
      rcases h7 with ⟨_, t, rfl⟩ | ⟨_, rfl⟩ <;> rfl
    refine ⟨?_, by rw [received_append, hm, List.append_nil]; exact received_of_noRecv h6.noRecv⟩
    obtain ⟨hl', e3, e4⟩ := readHeader_packet (rest := rest') h1
    rw [← h2, e1] at e3
    injection e3 with e5 e6 e7
    rw [h2] at hb
    rw [h8]
    exact (List.append_inj hb (by omega)).2

/-- Without a transport error, `MQTT_ReceiveLoop` receives something or takes a packet, unless there is none or the transport delivers nothing. -/
theorem Did.advances {g : Cfg} {s : InFlight} {w w' : World} {r : ApiRet} {es : List Event} (h : Did g s w .receiveLoop r es w')
    (hidx : w.ctx.index ≤ w.ctx.bufSize) (hrep : Represents w.ctx.tables s) (hnf : hasFail es = false) {tail : List UInt8} {pkts : List Raw}
    (hv : ∀ q ∈ pkts, q.Valid) (hs : w.ctx.buffered ++ received es ++ tail = pkts.flatMap Raw.bytes) (hf : ∀ q ∈ pkts, q.bytes.length ≤ w.ctx.bufSize) :
    ∃ a b, pkts = a ++ b ∧ w.ctx.buffered ++ received es = a.flatMap Raw.bytes ++ w'.ctx.buffered ∧
      (received es ≠ [] ∨ a ≠ [] ∨ pkts = [] ∨ (tail ≠ [] ∧ ∃ n y, 1 ≤ n ∧ es = .recvd n (some []) :: y)) := by
  obtain ⟨a, b, s', k1, k2, _⟩ := Did.seen (m := false) h hrep hv hs (Or.inl hf)
  refine ⟨a, b, k1, k2, ?_⟩
  cases hp : pkts with
  | nil => exact Or.inr (Or.inr (Or.inl rfl))
  | cons p ps =>
    subst hp
    have hpv := hv p List.mem_cons_self
    have hpf := hf p List.mem_cons_self
    by_cases hr : received es = []
    · obtain ⟨_, st, rfl, ⟨rfl, _⟩ | ⟨x, ka, es2, rfl, h1, h2, h3, h4⟩⟩ := Did.turn (m := false) h
      · simp [hasFail, isFail] at hnf
      · obtain ⟨q1, q2⟩ := h2.quiet
        have e1 : received (.recvd (w.ctx.bufSize - w.ctx.index) (some x) :: (ka ++ es2)) = x ++ received es2 := by
          show received ([.recvd (w.ctx.bufSize - w.ctx.index) (some x)] ++ (ka ++ es2)) = _
          rw [received_append, received_append, q1]; simp [received]
        rw [hr] at hs k2
        rw [e1] at hr
        obtain ⟨rfl, hr2⟩ := List.append_eq_nil_iff.mp hr
        rw [List.append_nil] at hs k2 h4
        have done : (∃ rest, w.ctx.buffered = p.bytes ++ rest) → a ≠ [] := by
          rintro ⟨rest, hrest⟩ ha
          subst ha
          have := (h4.takes hpv hpf hrest).1
          rw [this, hrest] at k2
          have := congrArg List.length k2
          simp at this
          exact Raw.bytes_ne_nil p this
        by_cases htail : tail = []
        · subst htail
          exact Or.inr (Or.inl (done ⟨ps.flatMap Raw.bytes, by simpa using hs⟩))
        · by_cases hn : 1 ≤ w.ctx.bufSize - w.ctx.index
          · exact Or.inr (Or.inr (Or.inr ⟨htail, _, _, hn, rfl⟩))
          · refine Or.inr (Or.inl (done ?_))
            rw [List.flatMap_cons] at hs
            have hlen := buffered_length hidx
            rw [List.append_eq_append_iff] at hs
            rcases hs with ⟨c, h5, h6⟩ | ⟨c, h5, h6⟩
            · have := congrArg List.length h5
              rw [List.length_append, hlen] at this
              have hc : c = [] := List.length_eq_zero_iff.mp (by omega)
              subst hc
              exact ⟨[], by simpa using h5.symm⟩
            · exact ⟨c, h5⟩
    · exact Or.inl hr

theorem flatMap_bytes_nil {ps : List Raw} (h : ps.flatMap Raw.bytes = []) : ps = [] := by
  cases ps with
  | nil => rfl
  | cons p ps =>
    rw [List.flatMap_cons] at h
    exact absurd (List.append_eq_nil_iff.mp h).1 (Raw.bytes_ne_nil p)

/-- Calls of `MQTT_ReceiveLoop` get through a stream if the transport delivers something whenever it is asked. -/
theorem Hist.advances {g : Cfg} (hg : CfgOk g) {s : InFlight} {w w' : World} {h : List (ApiCall × ApiRet)} (hh : Hist g w h w')
    (hidx : w.ctx.index ≤ w.ctx.bufSize) (hrep : Represents w.ctx.tables s) (hl : ∀ x ∈ h, x.1 = .receiveLoop) {es : List Event}
    (hes : w'.trace = w.trace ++ es) (hnf : hasFail es = false) {tail : List UInt8} {pkts : List Raw} (hv : ∀ q ∈ pkts, q.Valid)
    (hs : w.ctx.buffered ++ received es ++ tail = pkts.flatMap Raw.bytes) (hf : ∀ q ∈ pkts, q.bytes.length ≤ w.ctx.bufSize)
    (heager : ∀ x n y, es = x ++ .recvd n (some []) :: y → 1 ≤ n → w.ctx.buffered ++ received x = pkts.flatMap Raw.bytes) :
    ∃ a b, pkts = a ++ b ∧ w.ctx.buffered ++ received es = a.flatMap Raw.bytes ++ w'.ctx.buffered ∧
      tail.length + b.length ≤ (pkts.flatMap Raw.bytes).length + pkts.length - h.length := by
  induction hh generalizing es tail with
  | start =>
    have : es = [] := by simpa using hes
    subst this
    refine ⟨[], pkts, rfl, by simp [received], ?_⟩
    rw [← hs]; simp; omega
  | @call w1 w2 h e c r hh hvc hc ih =>
    have hcl : c = .receiveLoop := hl (c, r) (by simp)
    subst hcl
    have hi0 : Inv s.outCap s.inCap w.ctx := ⟨hidx, s, hrep, rfl, rfl⟩
    obtain ⟨i1, s1, i2, _⟩ := hh.inv hg hi0
    obtain ⟨es2, hlk, hd⟩ := callIn_done hg hvc i1 i2 hc
    obtain ⟨es1, he1⟩ := hh.grows hg hi0
    have hes' : es = es1 ++ es2 := by
      have h1 : w2.trace = w1.trace ++ es2 := hlk.trace
      rw [h1, he1, List.append_assoc] at hes
      exact (List.append_cancel_left hes).symm
    subst hes'
    rw [received_append] at hs
    rw [hasFail_append, Bool.or_eq_false_iff] at hnf
    have hbs : w1.ctx.bufSize = w.ctx.bufSize := by
      obtain ⟨_, _, _, _, _, _, _, _, _, h, _⟩ := hh.seen hg hidx hrep (m := false) (fun x hx => hl x (by simp [hx])) he1 (tail := received es2 ++ tail) hv
        (by rw [← hs]; simp) (Or.inl hf)
      exact h
    obtain ⟨a, b, k1, k2, k3⟩ := ih (fun x hx => hl x (by simp [hx])) (es := es1) he1 hnf.1 (tail := received es2 ++ tail)
      (by rw [← hs]; simp) (fun x n y hx hn => heager x n (y ++ es2) (by rw [hx]; simp) hn)
    have hs2 : w1.ctx.buffered ++ received es2 ++ tail = b.flatMap Raw.bytes := by
      have : w.ctx.buffered ++ (received es1 ++ received es2) ++ tail = (w.ctx.buffered ++ received es1) ++ (received es2 ++ tail) := by simp
      rw [this, k2, k1, List.flatMap_append, List.append_assoc] at hs
      have := List.append_cancel_left hs
      rw [← this]; simp
    obtain ⟨a', b', j1, j2, j3⟩ := Did.advances (w := { w1 with env := e }) hd i1 i2 hnf.2 (tail := tail) (pkts := b)
      (fun q hq => hv q (by rw [k1]; exact List.mem_append_right _ hq)) hs2
      (fun q hq => by show _ ≤ w1.ctx.bufSize; rw [hbs]; exact hf q (by rw [k1]; exact List.mem_append_right _ hq))
    refine ⟨a ++ a', b', by rw [k1, j1, List.append_assoc], ?_, ?_⟩
    · rw [received_append, ← List.append_assoc, k2, List.append_assoc, List.flatMap_append, List.append_assoc]
      exact congrArg _ j2
    · rw [List.length_append] at k3
      have hb := congrArg List.length j1
      rw [List.length_append] at hb
      rw [List.length_append, List.length_singleton]
      have dec : 1 ≤ (received es2).length + a'.length ∨ tail.length + b'.length = 0 := by
        rcases j3 with j3 | j3 | j3 | ⟨j3, n, y, hn, rfl⟩
        · exact Or.inl (by have := List.length_pos_iff.mpr j3; omega)
        · exact Or.inl (by have := List.length_pos_iff.mpr j3; omega)
        · subst j3
          have hn := List.append_eq_nil_iff.mp hs2
          refine Or.inr ?_
          rw [hn.2]
          have hb : 0 = a'.length + b'.length := hb
          show 0 + b'.length = 0
          omega
        · exfalso
          have h1 := heager es1 n y rfl hn
          have h2 : w.ctx.buffered ++ (received es1 ++ received (Event.recvd n (some []) :: y)) ++ tail =
              (w.ctx.buffered ++ received es1) ++ (received (Event.recvd n (some []) :: y) ++ tail) := by simp
          rw [h2, ← h1] at hs
          have := List.append_right_eq_self.mp hs
          exact j3 (List.append_eq_nil_iff.mp this).2
      omega

end Mqtt
