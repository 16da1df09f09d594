/-
`MQTT_Connect` and `MQTT_Disconnect` keep what holds between the calls.
-/
import Verif.Proof.BrokerConnect

namespace Mqtt
open Spec
set_option linter.unusedSimpArgs false

variable {strict : Bool}

section
variable {i : UInt16} {b : Bool} {n0 : Nat} {t0 P : List Publish} {k c : Nat} {w w' : World} {n n' : Net} {shelf : Shelf} {es : List Event}
  {g : Cfg} {ci : ConnectInfo} {will : Option PublishInfo} {timeoutMs : UInt32} {sp0 sp : Bool} {st : Status} {s : InFlight}

theorem Ready.connect (h : Ready i b n0 t0 P k c w.ctx n shelf) (hi : i ≠ 0) (hrep : Represents w.ctx.tables s) (hv : ci.Valid will)
    (hd : ConnectDone g ci will timeoutMs sp0 s w st sp es w') (hn : NetRun strict w.ctx.bufSize n es n') (hf : Faithful shelf es) :
    Ready i b n0 t0 P k c w'.ctx { n' with isOpen := n'.isOpen && !(decide (st ≠ .success)) } (es.foldl Shelf.note shelf) ∧ acksOf i es = [] := by
  have same : w'.ctx.tables = w.ctx.tables → ∀ fl, Represents w.ctx.tables fl → ∃ fl', Represents w'.ctx.tables fl' ∧ fl'.out.phase i = fl.out.phase i :=
    fun e fl hfl => ⟨fl, by rw [e]; exact hfl, rfl⟩
  -- sending the CONNECT
  have sent : ∀ {st1 : Status} {snd : List Event}, (getConnectPacketSize (some ci) will).status = .success → (∀ x, will = some x → x.pTopicName ≠ none) →
      (∀ e ∈ snd, isSendOrTime e = true) → SentResult (connectPacket (ci.toSpec will)) st1 snd →
      received (.pre :: snd) = [] ∧ callbacks (.pre :: snd) = [] ∧ (∀ e ∈ Event.pre :: snd, isQuietEvent e = true) ∧
      ∃ u : Raw, Small u ∧ (∀ i, upNote i u = none) ∧ wire (.pre :: snd) <+: u.bytes ∧ (st1 = .success → wire (.pre :: snd) = u.bytes) := by
    intro st1 snd h1 h2 h3 h4
    obtain ⟨u, u1, u2, _, u3⟩ := connect_raw h1 hv h2
    refine ⟨received_of_noRecv (noRecv_pre h3), ?_, quiet_cons rfl (quiet_send h3), u, u2, u3, ?_⟩
    · show callbacks ([Event.pre] ++ snd) = []
      rw [callbacks_append, callbacks_send h3]; rfl
    · show wire ([Event.pre] ++ snd) <+: _ ∧ (_ → wire ([Event.pre] ++ snd) = _)
      rw [wire_append, u1]
      show wire snd <+: _ ∧ (_ → wire snd = _)
      rcases h4 with ⟨rfl, _, h⟩ | ⟨rfl, h, _⟩
      · rw [h]; exact ⟨List.prefix_refl _, fun _ => rfl⟩
      · exact ⟨h, fun h => by cases h⟩
  have hpp : noSent [.post, .pre, .post] := by
    intro e he
    simp at he
    rcases he with rfl | rfl | rfl <;> rfl
  obtain ⟨fl, k1, k2, k3, k4⟩ := id h
  have := represents_unique k1 hrep
  subst this
  cases hd with
  | badSize h1 h2 h3 =>
    exact ⟨h.nothing hi (by rw [h3]; exact ⟨rfl, rfl, rfl, afterFail_not _ _⟩) (same (by rw [h3])) hn rfl rfl rfl, rfl⟩
  | already h1 h2 h3 h4 => exact ⟨h.nothing hi (by rw [h3]; exact ⟨rfl, rfl, rfl, Iff.rfl⟩) (same (by rw [h3])) hn rfl rfl rfl, rfl⟩
  | noTopic h1 h2 h3 h4 => exact ⟨h.nothing hi (by rw [h4]; exact ⟨rfl, rfl, rfl, Iff.rfl⟩) (same (by rw [h4])) hn rfl rfl rfl, rfl⟩
  | @notSent snd _ t h1 h2 h3 h4 h5 h6 h7 =>
    obtain ⟨a1, a2, a3, u, a4, a5, a6, _⟩ := sent h1 h3 h4 h6
    obtain ⟨vs, p', b1, b2, b3, b4⟩ := a4.piece a6
    have hno : vs.filterMap (upNote i) = [] := by
      rcases b4 with ⟨_, rfl, _⟩ | ⟨_, rfl, _⟩
      · simp [a5]
      · rfl
    rw [show decide (w.ctx.connectStatus ≠ .notConnected) = false by simp [h2]] at k4
    have hl := k4.lost (ea := .pre :: snd) (eb := [.post, .pre, .post]) k3 hi hn a1 b1 b2 b3 hno hpp
    refine ⟨?_, ?_⟩
    · refine ⟨fl, by rw [h7]; exact k1, by rw [h7]; exact k2, by rw [h7]; exact k3, ?_⟩
      rw [h7]
      show Link i w.ctx.bufSize b n0 t0 P k c (decide (w.ctx.connectStatus ≠ .notConnected)) _ w.ctx.buffered w.ctx.retransmits _ _
      rw [show decide (w.ctx.connectStatus ≠ .notConnected) = false by simp [h2]]
      have : (Event.pre :: (snd ++ [Event.post, .pre, .post])).foldl Shelf.note shelf = shelf := by
        show ((Event.pre :: snd) ++ [Event.post, .pre, .post]).foldl Shelf.note shelf = shelf
        rw [List.foldl_append, shelf_quiet a2]; rfl
      rw [this]
      exact hl
    · exact acksOf_quiet i (quiet_append a3 (by simp [isQuietEvent]))
  | @notAccepted _ _ snd ca w1 w2 _ t h1 h2 h3 h4 h5 h6 h7 h8 h9 h10 =>
    obtain ⟨a1, a2, a3, u, a4, a5, a6, _⟩ := sent h1 h3 h4 h6
    obtain ⟨vs, p', b1, b2, b3, b4⟩ := a4.piece a6
    have hno : vs.filterMap (upNote i) = [] := by
      rcases b4 with ⟨_, rfl, _⟩ | ⟨_, rfl, _⟩
      · simp [a5]
      · rfl
    rw [show decide (w.ctx.connectStatus ≠ .notConnected) = false by simp [h2]] at k4
    have hl := k4.lost (ea := .pre :: snd) (eb := ca ++ [.post, .pre, .post]) k3 hi hn a1 b1 b2 b3 hno
      (noSent_append.mpr ⟨h8.recv.noSent, hpp⟩)
    have hidx := buffered_nil (k4.idle rfl) k2
    obtain ⟨nb, e1, e2⟩ := h8.ctx
    rw [h7] at e1 e2
    have e1 : nb.length = w.ctx.bufSize := e1
    rw [e2] at h10
    refine ⟨?_, ?_⟩
    · rw [show decide (st ≠ .success) = true by simp [h9]]
      refine ⟨fl, by rw [h10]; exact k1, by rw [h10]; show w.ctx.index ≤ nb.length; rw [e1]; exact k2, by rw [h10]; show 4 ≤ nb.length; rw [e1]; exact k3, ?_⟩
      rw [buffered_zero (c := w'.ctx) (by rw [h10]; exact hidx), h10]
      show Link i nb.length b n0 t0 P k c (decide (w.ctx.connectStatus ≠ .notConnected)) _ _ w.ctx.retransmits _ _
      rw [show decide (w.ctx.connectStatus ≠ .notConnected) = false by simp [h2], e1]
      have : (Event.pre :: (snd ++ (ca ++ [.post, .pre, .post]))).foldl Shelf.note shelf = shelf := by
        show ((Event.pre :: snd) ++ (ca ++ [Event.post, .pre, .post])).foldl Shelf.note shelf = shelf
        rw [List.foldl_append, shelf_quiet a2, List.foldl_append, shelf_quiet (callbacks_recv h8.recv)]; rfl
      rw [this, ← k4.idle rfl]
      exact hl
    · exact acksOf_quiet i (quiet_append a3 (quiet_append (quiet_recv h8.recv) (by simp [isQuietEvent])))
  | @fresh snd ca w1 w2 _ t h1 h2 h3 h4 h5 h6 h7 h8 h9 =>
    obtain ⟨a1, a2, a3, u, a4, a5, a6, a7⟩ := sent h1 h3 h4 h6
    rw [show decide (w.ctx.connectStatus ≠ .notConnected) = false by simp [h2]] at k4
    obtain ⟨nb, e1, e2⟩ := h8.ctx
    rw [h7] at e1 e2
    have e1 : nb.length = w.ctx.bufSize := e1
    rw [e2] at h9
    have hrc : received ca = [0x20, 2, 0, 0] := by
      rcases (h8.accept.mp rfl).2.2 with h | ⟨h, _⟩
      · exact h
      · have := h8.session rfl
        rw [h] at this
        cases this
    have hn : NetRun strict w.ctx.bufSize n ((.pre :: snd ++ ca) ++ (cleanClears w.ctx.retransmits fl ++ [.post])) n' := by
      simpa using hn
    obtain ⟨n2, r1, r2⟩ := hn.split
    obtain ⟨g1, g2, outs, g3, _, g4⟩ := k4.greeted r1 a4 a1 (a7 rfl) h8.recv.noSent (Or.inl hrc)
    have g3 := g3 hrc
    have hsh : (Event.pre :: (snd ++ (ca ++ (cleanClears w.ctx.retransmits fl ++ [Event.post])))).foldl Shelf.note shelf =
        fun j => if j ∈ idsOf isUnacked fl.out then none else shelf j := by
      show ((Event.pre :: snd) ++ (ca ++ (cleanClears w.ctx.retransmits fl ++ [Event.post]))).foldl Shelf.note shelf = _
      rw [List.foldl_append, shelf_quiet a2, List.foldl_append, shelf_quiet (callbacks_recv h8.recv), List.foldl_append]
      show (cleanClears w.ctx.retransmits fl).foldl Shelf.note shelf = _
      unfold cleanClears
      cases hr : w.ctx.retransmits with
      | true => rw [if_pos rfl, clears_shelf]
      | false =>
        rw [if_neg (by simp)]
        funext j
        show shelf j = _
        rw [k4.unused hr j]
        split <;> rfl
    have hkept : shelf i = none ∨ i ∈ idsOf isUnacked fl.out := by
      obtain ⟨us, _, ds, _, q1, _⟩ := k4.ties
      obtain ⟨_, _, q2⟩ := q1.tie
      generalize us.filterMap (upNote i) = U at q2
      generalize ds.filterMap (downNote i) = D at q2
      generalize decide (i.toNat ∈ n.server.held) = hl at q2
      by_cases hm : i ∈ idsOf isUnacked fl.out
      · exact Or.inr hm
      · left
        have hm : ∀ p, fl.out.phase i = some p → isUnacked p = false := by
          intro p hp
          by_cases hx : isUnacked p = true
          · exact absurd ((idsOf_phase hrep.1.distinct).mpr ⟨p, hp, hx⟩) hm
          · simpa using hx
        generalize fl.out.phase i = ph at q2 hm
        cases q2 with
        | idle h => exact h
        | rel h => exact h
        | comp h => exact h
        | one h =>
          have := hm _ rfl
          rcases h with rfl | rfl <;> cases this
        | two h =>
          have := hm _ rfl
          rcases h with rfl | rfl <;> cases this
    have hlink : Link i w.ctx.bufSize b n0 t0 P k c true none [] w.ctx.retransmits n2 (fun j => if j ∈ idsOf isUnacked fl.out then none else shelf j) := by
      refine ⟨⟨[], [], outs, [], ?_, fun _ => ⟨g1, rfl⟩, fun _ => ⟨rfl, fun h => by cases h⟩⟩, fun h => (by cases h), ?_, ?_⟩
      · have : (if i ∈ idsOf isUnacked fl.out then none else shelf i) = none := by
          rcases hkept with h | h
          · rw [h]; split <;> rfl
          · rw [if_pos h]
        rw [this]
        exact g3
      · intro j x hx
        by_cases hj : j ∈ idsOf isUnacked fl.out
        · simp [hj] at hx
        · simp only [hj, if_false] at hx
          exact k4.shelves j x hx
      · intro hr j
        simp only [k4.unused hr j]
        split <;> rfl
    have htail : received (cleanClears w.ctx.retransmits fl ++ [.post]) = [] ∧ wire (cleanClears w.ctx.retransmits fl ++ [.post]) = [] := by
      rw [received_append, wire_append, wire_clears]
      refine ⟨?_, rfl⟩
      have : received (cleanClears w.ctx.retransmits fl) = [] := by
        refine received_of_noRecv ?_
        intro e he
        unfold cleanClears at he
        split at he
        · obtain ⟨x, _, rfl⟩ := List.mem_map.mp he
          rfl
        · cases he
      rw [this]; rfl
    have r3 := r2.sends htail.1
    rw [htail.2, Net.push_nil] at r3
    have hlink := (hlink.served r3 k3 hi).close (decide (Status.success ≠ .success))
    refine ⟨?_, ?_⟩
    · refine ⟨⟨fl.outCap, fl.inCap, [], []⟩, by rw [h9]; exact represents_empty hrep, by rw [h9]; exact Nat.zero_le _, ?_, ?_⟩
      · rw [h9]; show 4 ≤ (List.replicate nb.length 0).length; rw [List.length_replicate, e1]; exact k3
      · rw [buffered_zero (c := w'.ctx) (by rw [h9]; rfl), h9, hsh]
        show Link i (List.replicate nb.length (0 : UInt8)).length b n0 t0 P k c true none [] w.ctx.retransmits _ _
        rw [List.length_replicate, e1]
        exact hlink
    · show acksOf i ((Event.pre :: snd) ++ (ca ++ (cleanClears w.ctx.retransmits fl ++ [.post]))) = []
      rw [acksOf_append, acksOf_append, acksOf_append, acksOf_quiet i a3, acksOf_quiet i (quiet_recv h8.recv)]
      have : acksOf i (cleanClears w.ctx.retransmits fl) = [] := by
        unfold cleanClears
        split
        · unfold acksOf
          rw [List.filterMap_eq_nil_iff]
          intro e he
          obtain ⟨x, _, rfl⟩ := List.mem_map.mp he
          rfl
        · rfl
      rw [this]
      rfl
  | @resumed _ snd ca res w1 w2 w3 w4 _ t h1 h2 h3 h4 h5 h6 h7 h8 h9 h10 h11 h12 =>
    obtain ⟨a1, a2, a3, u, a4, a5, a6, a7⟩ := sent h1 h3 h4 h6
    rw [show decide (w.ctx.connectStatus ≠ .notConnected) = false by simp [h2]] at k4
    have hidx := buffered_nil (k4.idle rfl) k2
    obtain ⟨nb, e1, e2⟩ := h8.ctx
    rw [h7] at e1 e2
    have e1 : nb.length = w.ctx.bufSize := e1
    rw [e2] at h9
    have hrc : received ca = [0x20, 2, 1, 0] := by
      have := h8.session rfl
      simpa using this
    have hsplit : (Event.pre :: (snd ++ (ca ++ (.post :: (res ++ if st = .success then [] else [.pre, .post]))))) =
        (.pre :: snd ++ ca) ++ ([.post] ++ (res ++ if st = .success then [] else [.pre, .post])) := by simp
    rw [hsplit] at hn hf ⊢
    obtain ⟨n2, r1, r2⟩ := hn.split
    obtain ⟨g1, g2, outs, _, g3, g4⟩ := k4.greeted r1 a4 a1 (a7 rfl) h8.recv.noSent (Or.inr hrc)
    have g3 := g3 hrc
    have hpre : (.pre :: snd ++ ca).foldl Shelf.note shelf = shelf := by
      rw [List.foldl_append, shelf_quiet a2, shelf_quiet (callbacks_recv h8.recv)]
    have hfr : Faithful shelf res := by
      have := hf.append.2
      rw [hpre] at this
      exact (this.append.2).append.1
    obtain ⟨vs, p', s', c1, c2, c3, c4, _, c5, c6, c7, c8, c9⟩ := resumed_pieces (by rw [h9]; exact hrep) h11 k4.shelves hfr i
    have htl : ∀ e ∈ (if st = .success then ([] : List Event) else [.pre, .post]), e = .pre ∨ e = .post := by
      intro e he
      split at he <;> simp at he
      exact he
    have hend : received (if st = .success then ([] : List Event) else [.pre, .post]) = [] ∧
        wire (if st = .success then ([] : List Event) else [.pre, .post]) = [] ∧
        (∀ k : Shelf, (if st = .success then ([] : List Event) else [.pre, .post]).foldl Shelf.note k = k) ∧
        ∀ e ∈ (if st = .success then ([] : List Event) else [.pre, .post]), isQuietEvent e = true := by
      split
      · exact ⟨rfl, rfl, fun _ => rfl, by simp⟩
      · exact ⟨rfl, rfl, fun _ => rfl, by simp [isQuietEvent]⟩
    have hrcv : received ([Event.post] ++ (res ++ if st = .success then [] else [.pre, .post])) = [] := by
      rw [received_append, received_append, c6, hend.1]; rfl
    have hwire : wire ([Event.post] ++ (res ++ if st = .success then [] else [.pre, .post])) = vs.flatMap Raw.bytes ++ p' := by
      rw [wire_append, wire_append, hend.2.1, c1, List.append_nil]; rfl
    have hshelf : ([Event.post] ++ (res ++ if st = .success then ([] : List Event) else [.pre, .post])).foldl Shelf.note shelf = shelf := by
      rw [List.foldl_append, List.foldl_append]
      rw [show ([Event.post].foldl Shelf.note shelf) = shelf from rfl, c7, hend.2.2.1]
    have r3 := r2.sends hrcv
    rw [hwire] at r3
    obtain ⟨us', part', g5, g6⟩ := g3.pushed (ph' := s'.out.phase i) (P' := P) (k' := k) (c' := c) (kept' := shelf i) (fun _ => rfl) (fun u hu => (c2 u hu).1) c3 (Or.inl g1)
      (fun q L held ht => by
        rw [g4] at ht ⊢
        exact (c9 q P L k c held ht).1)
      (fun q L held ht => by
        rw [g4] at ht ⊢
        exact (c9 q P L k c held ht).2)
    obtain ⟨us2, ds2, g7, g8⟩ := g5.served r3 k3 hi
    have hgr : n'.greeted = true := g8 (by rw [Net.push_open g2]; exact g1)
    have hst : w4.ctx.netBuf = nb ∧ w4.ctx.index = 0 ∧ w4.ctx.retransmits = w.ctx.retransmits ∧ w4.ctx.connectStatus ≠ .notConnected := by
      obtain ⟨a, st1, w5, b', _, hp, hq⟩ := h11
      obtain ⟨t1, x1, T1, hc1⟩ := hp.ctx
      have hc2 : ∃ t2 x2, w4.ctx = { w5.ctx with lastPacketTxTime := t2, connectStatus := afterFail x2 w5.ctx.connectStatus } := by
        rcases hq with ⟨_, _, rfl, _⟩ | ⟨_, _, hq⟩
        · exact ⟨_, false, rfl⟩
        · obtain ⟨t2, hc⟩ := hq.ctx
          exact ⟨t2, _, hc⟩
      obtain ⟨t2, x2, hc2⟩ := hc2
      rw [hc2, hc1, h9]
      refine ⟨rfl, hidx, rfl, ?_⟩
      show afterFail x2 (afterFail _ ConnStatus.connected) ≠ .notConnected
      rw [ne_eq, afterFail_not, afterFail_not]
      decide
    obtain ⟨m1, m2, m3, m4⟩ := hst
    refine ⟨?_, ?_⟩
    · refine ⟨s', by rw [h12]; exact c5, by rw [h12]; show w4.ctx.index ≤ _; rw [m2]; exact Nat.zero_le _, ?_, ?_⟩
      · rw [h12]; show 4 ≤ w4.ctx.netBuf.length; rw [m1, e1]; exact k3
      · rw [buffered_zero (c := w'.ctx) (by rw [h12]; exact m2), List.foldl_append, hpre, hshelf, h12]
        show Link i w4.ctx.netBuf.length b n0 t0 P k c (decide (afterFail _ w4.ctx.connectStatus ≠ .notConnected)) _ [] w4.ctx.retransmits _ _
        rw [m1, e1, m3, show decide (afterFail (decide (st ≠ .success)) w4.ctx.connectStatus ≠ .notConnected) = true by simp [afterFail_not, m4]]
        refine ⟨⟨us2, part', ds2, [], g7.setOpen _, fun _ => ⟨hgr, rfl⟩, fun ho => ⟨?_, fun h => by cases h⟩⟩, fun h => (by cases h), k4.shelves, k4.unused⟩
        rw [g6 g2]
        by_cases hp' : p' = []
        · exact hp'
        · exfalso
          have := c4 hp'
          simp [this] at ho
    · rw [acksOf_append, acksOf_append, acksOf_append, acksOf_append, acksOf_quiet i a3, acksOf_quiet i (quiet_recv h8.recv), acksOf_quiet i c8,
        acksOf_quiet i hend.2.2.2]
      rfl

theorem Ready.disconnect (h : Ready i b n0 t0 P k c w.ctx n shelf) (hi : i ≠ 0) (hd : DisconnectDone w st es w') (hn : NetRun strict w.ctx.bufSize n es n') :
    Ready i b n0 t0 P k c w'.ctx { n' with isOpen := n'.isOpen && !true } (es.foldl Shelf.note shelf) ∧ acksOf i es = [] := by
  rcases hd.cases with ⟨h1, h2, rfl, h3⟩ | ⟨h1, snd, rfl, h2, h3, h4, t, h5⟩
  · exact ⟨h.nothing hi (by rw [h3]; exact ⟨rfl, rfl, rfl, Iff.rfl⟩) (fun fl hfl => ⟨fl, by rw [h3]; exact hfl, rfl⟩) hn rfl rfl rfl, rfl⟩
  · refine ⟨?_, acksOf_quiet i (quiet_cons rfl (quiet_append (quiet_send h2) (by simp [isQuietEvent])))⟩
    have hw : wire (.pre :: (snd ++ [.post])) <+: (Raw.bytes ⟨0xE0, []⟩) := by
      rw [wire_hooked, disconnect_raw]
      rcases h4 with ⟨_, _, h⟩ | ⟨_, h, _⟩
      · rw [h]; exact List.prefix_refl _
      · exact h
    have hrcv : received (.pre :: (snd ++ [.post])) = [] := by
      show received ([Event.pre] ++ (snd ++ [.post])) = []
      rw [received_append, received_append, received_of_kinds h2]; rfl
    have hcb : callbacks (.pre :: (snd ++ [.post])) = [] := by
      show callbacks ([Event.pre] ++ (snd ++ [.post])) = []
      rw [callbacks_append, callbacks_append, callbacks_send h2]; rfl
    obtain ⟨fl, k1, k2, k3, k4⟩ := (h.plain (ctx' := w.ctx) hi ⟨rfl, rfl, rfl, Iff.rfl⟩ (fun fl hfl => ⟨fl, hfl, rfl⟩) hn hcb hrcv (u := ⟨0xE0, []⟩) (by simp [Small])
      (upNote_other (by decide) (by decide)) hw (fun h => absurd h h1) (closing := true) (fun _ _ => rfl))
    obtain ⟨us, part, ds, buf, q1, q2, q3⟩ := k4.ties
    refine ⟨fl, by rw [h5]; exact k1, by rw [h5]; exact Nat.zero_le _, ?_, ?_⟩
    · rw [h5]; show 4 ≤ (List.replicate _ 0).length; rw [List.length_replicate]; exact k3
    · rw [buffered_zero (c := w'.ctx) (by rw [h5]; rfl), h5]
      show Link i (List.replicate w.ctx.bufSize (0 : UInt8)).length b n0 t0 P k c (decide (ConnStatus.notConnected ≠ .notConnected)) _ [] w.ctx.retransmits _ _
      rw [List.length_replicate]
      exact ⟨⟨us, part, ds, buf, q1, fun h => (by simp at h), fun ho => (by simp at ho)⟩, fun _ => rfl, k4.shelves, k4.unused⟩

end

end Mqtt
