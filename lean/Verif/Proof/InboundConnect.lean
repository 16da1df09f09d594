/-
`MQTT_Connect` and the messages from the server.
-/
import Verif.Proof.InboundCall

namespace Mqtt
open Spec
set_option linter.unusedSimpArgs false

/-- What the server sends after it accepted the connection. -/
theorem InTie.pushes {i : UInt16} {q : Prop} {O R : List Publish} {ph : Option InPhase} {U : List InUp} {D : List InDown} {cap : Nat} {o o' : Outbox} {outs : List Raw}
    (h : InTie q O R (o.slot i) ph U D) (hi : i ≠ 0) (hp : Pushes true cap o outs o') :
    ∃ new, o'.offered = o.offered ++ new ∧ InTie q (O ++ withId i new) R (o'.slot i) ph U (D ++ outs.filterMap (inDown i)) := by
  induction hp with
  | nil => exact ⟨[], by simp, by simpa [withId] using h⟩
  | unasked _ hu ih =>
    obtain ⟨new, h1, h2⟩ := ih
    refine ⟨new, h1, ?_⟩
    rw [inNotes_snoc, Unasked.inDown hu i]
    simpa using h2
  | offer _ ho ih =>
    obtain ⟨new, h1, h2⟩ := ih
    obtain ⟨new', h3, h4⟩ := h2.offers hi ho
    refine ⟨new ++ new', by rw [h3, h1, List.append_assoc], ?_⟩
    rw [inNotes_snoc, withId_app, ← List.append_assoc, ← List.append_assoc]
    exact h4

section
variable {i : UInt16} {cap : Nat} {b : Bool} {n0 : Nat} {o0 R : List Publish} {ph : Option InPhase}
  {buffered : List UInt8} {n n' : Net} {shelf : Shelf} {vs : List Raw} {p' : List UInt8} {ea eb : List Event}

/-- An attempt to connect that fails. -/
theorem InLink.lost (h : InLink i cap b n0 o0 R false ph buffered n shelf) (hcap : 4 ≤ cap) (hi : i ≠ 0) (hr : NetRun true cap n (ea ++ eb) n')
    (ha : Spec.received ea = []) (hw : wire ea = vs.flatMap Raw.bytes ++ p') (hv : ∀ u ∈ vs, Small u) (hp' : readPacket p' = none)
    (hnote : vs.filterMap (inUp i) = []) (hb : noSent eb) :
    InLink i cap b n0 o0 R false ph buffered { n' with isOpen := n'.isOpen && !true } shelf := by
  obtain ⟨us, part, ds, buf, h1, h2, h3⟩ := h.ties
  obtain ⟨n1, r1, r2⟩ := hr.split
  have s1 := r1.sends ha
  rw [hw] at s1
  obtain ⟨us', part', h4, h5⟩ := InTies.pushed (xs := []) (buf' := buf) (ds := ds) h1 rfl (fun ho => (h3 ho).1) hv hp' (Or.inr hnote)
    (fun q O slot U D h => by rw [hnote, List.append_nil]; exact h) (fun _ _ _ _ _ h => h)
  obtain ⟨us2, ds2, h6, h7⟩ := h4.served s1 hcap hi
  obtain ⟨us3, ds3, h8, _⟩ := h6.served (r2.receives hb).1 hcap hi
  refine ⟨⟨us3, part', ds3, buf ++ Spec.received eb, ⟨h8.up, h8.stuck, h8.small, h8.valid, ?_, h8.fresh, h8.floor, h8.tie⟩, fun h => (by cases h), ?_⟩,
    h.idle, h.shelves⟩
  · have := h8.down
    simp only at this
    rw [← this]; simp
  · intro ho
    simp at ho

/-- The server accepted the connection: it has a new session, or still the old one. -/
theorem InLink.greeted (h : InLink i cap b n0 o0 R false ph buffered n shelf) (hi : i ≠ 0) (hr : NetRun true cap n (ea ++ eb) n') {u : Raw} (hu : Small u)
    (ha : Spec.received ea = []) (hw : wire ea = u.bytes) (hb : noSent eb) (hrc : Spec.received eb = [0x20, 2, 0, 0] ∨ Spec.received eb = [0x20, 2, 1, 0]) :
    n'.greeted = true ∧ n'.isOpen = true ∧ ∃ outs, (Spec.received eb = [0x20, 2, 0, 0] → InTies i cap b n0 o0 R none n' [] [] [] outs) ∧
      (Spec.received eb = [0x20, 2, 1, 0] → InTies i cap b n0 o0 R ph n' [] [] [] outs) := by
  obtain ⟨us, part, ds, buf, h1, h2, h3⟩ := h.ties
  obtain ⟨n1, r1, r2⟩ := hr.split
  obtain ⟨s2, hcl⟩ := r2.receives hb
  have ho1 : n1.isOpen = n.isOpen := r1.isOpen
  have ho2 : n'.isOpen = n1.isOpen := r2.isOpen
  have ho : n.isOpen = true := by
    cases ho : n.isOpen with
    | true => rfl
    | false =>
      have := hcl (by rw [ho1, ho])
      rcases hrc with h | h <;> rw [this] at h <;> cases h
  obtain ⟨rfl, h4⟩ := h3 ho
  obtain ⟨hg, rfl, rfl⟩ := h4 rfl
  have hup : n.up = [] := h1.up
  have hdown : n.down = [] := (List.append_eq_nil_iff.mp h1.down).2
  have s1 := (r1.sends ha).trans s2
  rw [hw, Net.push_open ho, hup, List.nil_append] at s1
  have hgr : Greets true cap u.bytes n.server { n with up := u.bytes } := .unread rfl hdown hg rfl
  have hgr := hgr.served hu s1
  obtain ⟨new, h5, h6⟩ := h1.tie
  have hun : ∀ {outs : List Raw}, (∀ p ∈ outs, Unasked false cap p) → ∀ d ∈ outs, d.Valid ∧ d.bytes.length ≤ cap :=
    fun ho d hd => ⟨(ho d hd).1, (ho d hd).2.1⟩
  have e1 : packet 0x20 [0, 0] = [0x20, 2, 0, 0] := by decide +kernel
  have e2 : packet 0x20 [1, 0] = [0x20, 2, 1, 0] := by decide +kernel
  have e3 : ∀ code : UInt8, packet 0x20 [0, code] = [0x20, 2, 0, code] := by decide +kernel
  cases hgr with
  | unread a1 a2 =>
    simp only at a2
    rcases hrc with h | h <;> rw [h] at a2 <;> cases a2
  | refused a1 a2 a3 a4 =>
    simp only at a4
    rw [e3] at a4
    rcases hrc with h | h <;> rw [h] at a4 <;> simp at a4
    exact absurd a4.1.symm a3
  | @begun outs ses a1 a2 a3 a4 a5 =>
    simp only at a1 a2 a3 a4 a5
    rw [e1] at a4
    rcases hrc with h | h
    · rw [h] at a4
      have a4 : n'.down = outs.flatMap Raw.bytes := by simpa using a4
      refine ⟨a2, by rw [ho2, ho1, ho], outs, fun _ => ?_, fun h' => ?_⟩
      · have hses : n'.server.sessions = n.server.sessions + 1 := by rw [a5]
        have ht : InTie (b = true ∧ n'.server.sessions = n0) (withId i new) R (n.server.out.dropped.slot i) none [] [] := by
          refine .free fun hq => ?_
          have := h1.floor
          have := hq.2
          omega
        obtain ⟨new', g1, g2⟩ := ht.pushes hi a3
        refine ⟨a1, rfl, by simp, hun a3.lax, a4, fun h => (by rw [a2] at h; cases h), ?_, new ++ new', ?_, ?_⟩
        · rw [hses]; exact Nat.le_succ_of_le h1.floor
        · rw [g1, ← List.append_assoc, ← h5]; rfl
        · rw [withId_app]
          exact g2
      · rw [h] at h'; simp at h'
    · rw [h] at a4; simp at a4
  | @resumed outs a1 a2 a3 a4 a5 =>
    simp only at a1 a2 a3 a4 a5
    rw [e2] at a4
    rcases hrc with h | h
    · rw [h] at a4; simp at a4
    · rw [h] at a4
      have a4 : n'.down = outs.flatMap Raw.bytes := by simpa using a4
      refine ⟨a2, by rw [ho2, ho1, ho], outs, fun h' => ?_, fun _ => ?_⟩
      · rw [h] at h'; simp at h'
      · have hses : n'.server.sessions = n.server.sessions := by rw [a5]
        obtain ⟨new', g1, g2⟩ := (InTie.unsent h6).pushes (o := n.server.out.unsent) hi a3
        refine ⟨a1, rfl, by simp, hun a3.lax, a4, fun h => (by rw [a2] at h; cases h), by rw [hses]; exact h1.floor, new ++ new', ?_, ?_⟩
        · rw [g1, ← List.append_assoc, ← h5]; rfl
        · rw [withId_app, hses]
          exact g2

end

section
variable {i : UInt16} {b : Bool} {n0 : Nat} {o0 R : List Publish} {w w' : World} {n n' : Net} {shelf : Shelf} {es : List Event}
  {g : Cfg} {ci : ConnectInfo} {will : Option PublishInfo} {timeoutMs : UInt32} {sp0 sp : Bool} {st : Status} {s : InFlight}

theorem InReady.connect (h : InReady i b n0 o0 R w.ctx n shelf) (hi : i ≠ 0) (hrep : Represents w.ctx.tables s) (hv : ci.Valid will)
    (hd : ConnectDone g ci will timeoutMs sp0 s w st sp es w') (hn : NetRun true w.ctx.bufSize n es n') (hf : Faithful shelf es) :
    InReady i b n0 o0 R w'.ctx { n' with isOpen := n'.isOpen && !(decide (st ≠ .success)) } (es.foldl Shelf.note shelf) ∧ presented i es = [] := by
  have same : w'.ctx.tables = w.ctx.tables → ∀ fl, Represents w.ctx.tables fl → ∃ fl', Represents w'.ctx.tables fl' ∧ fl'.inc.phase i = fl.inc.phase i :=
    fun e fl hfl => ⟨fl, by rw [e]; exact hfl, rfl⟩
  -- sending the CONNECT
  have sent : ∀ {st1 : Status} {snd : List Event}, (getConnectPacketSize (some ci) will).status = .success → (∀ x, will = some x → x.pTopicName ≠ none) →
      (∀ e ∈ snd, isSendOrTime e = true) → SentResult (connectPacket (ci.toSpec will)) st1 snd →
      received (.pre :: snd) = [] ∧ callbacks (.pre :: snd) = [] ∧ (∀ e ∈ Event.pre :: snd, isQuietEvent e = true) ∧
      ∃ u : Raw, Small u ∧ inUp i u = none ∧ wire (.pre :: snd) <+: u.bytes ∧ (st1 = .success → wire (.pre :: snd) = u.bytes) := by
    intro st1 snd h1 h2 h3 h4
    obtain ⟨u, u1, u2, u3, _⟩ := connect_raw h1 hv h2
    have u3 : u.first = 0x10 := UInt8.toNat_inj.mp u3
    refine ⟨received_of_noRecv (noRecv_pre h3), ?_, quiet_cons rfl (quiet_send h3), u, u2,
      inUp_other (by rw [u3]; decide) (by rw [u3]; decide) (by rw [u3]; decide), ?_⟩
    · show callbacks ([Event.pre] ++ snd) = []
      rw [callbacks_append, callbacks_send h3]; rfl
    · show wire ([Event.pre] ++ snd) <+: _ ∧ (_ → wire ([Event.pre] ++ snd) = _)
      rw [wire_append, u1]
      show wire snd <+: _ ∧ (_ → wire snd = _)
      rcases h4 with ⟨rfl, _, h⟩ | ⟨rfl, h, _⟩
      · rw [h]; exact ⟨List.prefix_refl _, fun _ => rfl⟩
      · exact ⟨h, fun h => by cases h⟩
  have hpp : noSent [.post, .pre, .post] := by
    intro e he
    simp at he
    rcases he with rfl | rfl | rfl <;> rfl
  obtain ⟨fl, k1, k2, k3, k4⟩ := id h
  have := represents_unique k1 hrep
  subst this
  cases hd with
  | badSize h1 h2 h3 =>
    exact ⟨h.nothing hi (by rw [h3]; exact ⟨rfl, rfl, rfl, afterFail_not _ _⟩) (same (by rw [h3])) hn rfl rfl rfl, rfl⟩
  | already h1 h2 h3 h4 => exact ⟨h.nothing hi (by rw [h3]; exact ⟨rfl, rfl, rfl, Iff.rfl⟩) (same (by rw [h3])) hn rfl rfl rfl, rfl⟩
  | noTopic h1 h2 h3 h4 => exact ⟨h.nothing hi (by rw [h4]; exact ⟨rfl, rfl, rfl, Iff.rfl⟩) (same (by rw [h4])) hn rfl rfl rfl, rfl⟩
  | @notSent snd _ t h1 h2 h3 h4 h5 h6 h7 =>
    obtain ⟨a1, a2, a3, u, a4, a5, a6, _⟩ := sent h1 h3 h4 h6
    obtain ⟨vs, p', b1, b2, b3, b4⟩ := a4.piece a6
    have hno : vs.filterMap (inUp i) = [] := by
      rcases b4 with ⟨_, rfl, _⟩ | ⟨_, rfl, _⟩
      · simp [a5]
      · rfl
    rw [show decide (w.ctx.connectStatus ≠ .notConnected) = false by simp [h2]] at k4
    have hl := k4.lost (ea := .pre :: snd) (eb := [.post, .pre, .post]) k3 hi hn a1 b1 b2 b3 hno hpp
    refine ⟨?_, ?_⟩
    · refine ⟨fl, by rw [h7]; exact k1, by rw [h7]; exact k2, by rw [h7]; exact k3, ?_⟩
      rw [h7]
      show InLink i w.ctx.bufSize b n0 o0 R (decide (w.ctx.connectStatus ≠ .notConnected)) _ w.ctx.buffered _ _
      rw [show decide (w.ctx.connectStatus ≠ .notConnected) = false by simp [h2]]
      have : (Event.pre :: (snd ++ [Event.post, .pre, .post])).foldl Shelf.note shelf = shelf := by
        show ((Event.pre :: snd) ++ [Event.post, .pre, .post]).foldl Shelf.note shelf = shelf
        rw [List.foldl_append, shelf_quiet a2]; rfl
      rw [this]
      exact hl
    · exact presented_quiet i (quiet_append a3 (by simp [isQuietEvent]))
  | @notAccepted _ _ snd ca w1 w2 _ t h1 h2 h3 h4 h5 h6 h7 h8 h9 h10 =>
    obtain ⟨a1, a2, a3, u, a4, a5, a6, _⟩ := sent h1 h3 h4 h6
    obtain ⟨vs, p', b1, b2, b3, b4⟩ := a4.piece a6
    have hno : vs.filterMap (inUp i) = [] := by
      rcases b4 with ⟨_, rfl, _⟩ | ⟨_, rfl, _⟩
      · simp [a5]
      · rfl
    rw [show decide (w.ctx.connectStatus ≠ .notConnected) = false by simp [h2]] at k4
    have hl := k4.lost (ea := .pre :: snd) (eb := ca ++ [.post, .pre, .post]) k3 hi hn a1 b1 b2 b3 hno
      (noSent_append.mpr ⟨h8.recv.noSent, hpp⟩)
    have hidx := buffered_nil (k4.idle rfl) k2
    obtain ⟨nb, e1, e2⟩ := h8.ctx
    rw [h7] at e1 e2
    have e1 : nb.length = w.ctx.bufSize := e1
    rw [e2] at h10
    refine ⟨?_, ?_⟩
    · rw [show decide (st ≠ .success) = true by simp [h9]]
      refine ⟨fl, by rw [h10]; exact k1, by rw [h10]; show w.ctx.index ≤ nb.length; rw [e1]; exact k2, by rw [h10]; show 4 ≤ nb.length; rw [e1]; exact k3, ?_⟩
      rw [buffered_zero (c := w'.ctx) (by rw [h10]; exact hidx), h10]
      show InLink i nb.length b n0 o0 R (decide (w.ctx.connectStatus ≠ .notConnected)) _ _ _ _
      rw [show decide (w.ctx.connectStatus ≠ .notConnected) = false by simp [h2], e1]
      have : (Event.pre :: (snd ++ (ca ++ [.post, .pre, .post]))).foldl Shelf.note shelf = shelf := by
        show ((Event.pre :: snd) ++ (ca ++ [Event.post, .pre, .post])).foldl Shelf.note shelf = shelf
        rw [List.foldl_append, shelf_quiet a2, List.foldl_append, shelf_quiet (callbacks_recv h8.recv)]; rfl
      rw [this, ← k4.idle rfl]
      exact hl
    · exact presented_quiet i (quiet_append a3 (quiet_append (quiet_recv h8.recv) (by simp [isQuietEvent])))
  | @fresh snd ca w1 w2 _ t h1 h2 h3 h4 h5 h6 h7 h8 h9 =>
    obtain ⟨a1, a2, a3, u, a4, a5, a6, a7⟩ := sent h1 h3 h4 h6
    rw [show decide (w.ctx.connectStatus ≠ .notConnected) = false by simp [h2]] at k4
    obtain ⟨nb, e1, e2⟩ := h8.ctx
    rw [h7] at e1 e2
    have e1 : nb.length = w.ctx.bufSize := e1
    rw [e2] at h9
    have hrc : received ca = [0x20, 2, 0, 0] := by
      rcases (h8.accept.mp rfl).2.2 with h | ⟨h, _⟩
      · exact h
      · have := h8.session rfl
        rw [h] at this
        cases this
    have hn : NetRun true w.ctx.bufSize n ((.pre :: snd ++ ca) ++ (cleanClears w.ctx.retransmits fl ++ [.post])) n' := by
      simpa using hn
    obtain ⟨n2, r1, r2⟩ := hn.split
    obtain ⟨g1, g2, outs, g3, _⟩ := k4.greeted hi r1 a4 a1 (a7 rfl) h8.recv.noSent (Or.inl hrc)
    have g3 := g3 hrc
    have hsh : (Event.pre :: (snd ++ (ca ++ (cleanClears w.ctx.retransmits fl ++ [Event.post])))).foldl Shelf.note shelf =
        (cleanClears w.ctx.retransmits fl).foldl Shelf.note shelf := by
      show ((Event.pre :: snd) ++ (ca ++ (cleanClears w.ctx.retransmits fl ++ [Event.post]))).foldl Shelf.note shelf = _
      rw [List.foldl_append, shelf_quiet a2, List.foldl_append, shelf_quiet (callbacks_recv h8.recv), List.foldl_append]
      rfl
    have hlink : InLink i w.ctx.bufSize b n0 o0 R true none [] n2 ((cleanClears w.ctx.retransmits fl).foldl Shelf.note shelf) := by
      refine ⟨⟨[], [], outs, [], g3, fun _ => ⟨g1, rfl⟩, fun _ => ⟨rfl, fun h => by cases h⟩⟩, fun h => (by cases h), ?_⟩
      intro j x hx
      refine k4.shelves j x ?_
      unfold cleanClears at hx
      split at hx
      · rw [clears_shelf] at hx
        by_cases hj : j ∈ idsOf isUnacked fl.out
        · simp [hj] at hx
        · simpa only [hj, if_false] using hx
      · exact hx
    have htail : received (cleanClears w.ctx.retransmits fl ++ [.post]) = [] ∧ wire (cleanClears w.ctx.retransmits fl ++ [.post]) = [] := by
      rw [received_append, wire_append, wire_clears]
      refine ⟨?_, rfl⟩
      have : received (cleanClears w.ctx.retransmits fl) = [] := by
        refine received_of_noRecv ?_
        intro e he
        unfold cleanClears at he
        split at he
        · obtain ⟨x, _, rfl⟩ := List.mem_map.mp he
          rfl
        · cases he
      rw [this]; rfl
    have r3 := r2.sends htail.1
    rw [htail.2, Net.push_nil] at r3
    have hlink := (hlink.served r3 k3 hi).close (decide (Status.success ≠ .success))
    refine ⟨?_, ?_⟩
    · refine ⟨⟨fl.outCap, fl.inCap, [], []⟩, by rw [h9]; exact represents_empty hrep, by rw [h9]; exact Nat.zero_le _, ?_, ?_⟩
      · rw [h9]; show 4 ≤ (List.replicate nb.length 0).length; rw [List.length_replicate, e1]; exact k3
      · rw [buffered_zero (c := w'.ctx) (by rw [h9]; rfl), h9, hsh]
        show InLink i (List.replicate nb.length (0 : UInt8)).length b n0 o0 R true none [] _ _
        rw [List.length_replicate, e1]
        exact hlink
    · show presented i ((Event.pre :: snd) ++ (ca ++ (cleanClears w.ctx.retransmits fl ++ [.post]))) = []
      rw [presented_append, presented_append, presented_append, presented_quiet i a3, presented_quiet i (quiet_recv h8.recv)]
      have : presented i (cleanClears w.ctx.retransmits fl) = [] := by
        unfold cleanClears
        split
        · unfold presented
          rw [List.filterMap_eq_nil_iff]
          intro e he
          obtain ⟨x, _, rfl⟩ := List.mem_map.mp he
          rfl
        · rfl
      rw [this]
      rfl
  | @resumed _ snd ca res w1 w2 w3 w4 _ t h1 h2 h3 h4 h5 h6 h7 h8 h9 h10 h11 h12 =>
    obtain ⟨a1, a2, a3, u, a4, a5, a6, a7⟩ := sent h1 h3 h4 h6
    rw [show decide (w.ctx.connectStatus ≠ .notConnected) = false by simp [h2]] at k4
    have hidx := buffered_nil (k4.idle rfl) k2
    obtain ⟨nb, e1, e2⟩ := h8.ctx
    rw [h7] at e1 e2
    have e1 : nb.length = w.ctx.bufSize := e1
    rw [e2] at h9
    have hrc : received ca = [0x20, 2, 1, 0] := by
      have := h8.session rfl
      simpa using this
    have hsplit : (Event.pre :: (snd ++ (ca ++ (.post :: (res ++ if st = .success then [] else [.pre, .post]))))) =
        (.pre :: snd ++ ca) ++ ([.post] ++ (res ++ if st = .success then [] else [.pre, .post])) := by simp
    rw [hsplit] at hn hf ⊢
    obtain ⟨n2, r1, r2⟩ := hn.split
    obtain ⟨g1, g2, outs, _, g3⟩ := k4.greeted hi r1 a4 a1 (a7 rfl) h8.recv.noSent (Or.inr hrc)
    have g3 := g3 hrc
    have hpre : (.pre :: snd ++ ca).foldl Shelf.note shelf = shelf := by
      rw [List.foldl_append, shelf_quiet a2, shelf_quiet (callbacks_recv h8.recv)]
    have hfr : Faithful shelf res := by
      have := hf.append.2
      rw [hpre] at this
      exact (this.append.2).append.1
    obtain ⟨vs, p', s', c1, c2, c3, c4, cinc, c5, c6, c7, c8, _⟩ := resumed_pieces (by rw [h9]; exact hrep) h11 k4.shelves hfr i
    have hvs : vs.filterMap (inUp i) = [] := by
      rw [List.filterMap_eq_nil_iff]
      intro u hu
      obtain ⟨_, j, hj⟩ := c2 u hu
      exact inUp_out hj
    have hend : received (if st = .success then ([] : List Event) else [.pre, .post]) = [] ∧
        wire (if st = .success then ([] : List Event) else [.pre, .post]) = [] ∧
        (∀ k : Shelf, (if st = .success then ([] : List Event) else [.pre, .post]).foldl Shelf.note k = k) ∧
        ∀ e ∈ (if st = .success then ([] : List Event) else [.pre, .post]), isQuietEvent e = true := by
      split
      · exact ⟨rfl, rfl, fun _ => rfl, by simp⟩
      · exact ⟨rfl, rfl, fun _ => rfl, by simp [isQuietEvent]⟩
    have hrcv : received ([Event.post] ++ (res ++ if st = .success then [] else [.pre, .post])) = [] := by
      rw [received_append, received_append, c6, hend.1]; rfl
    have hwire : wire ([Event.post] ++ (res ++ if st = .success then [] else [.pre, .post])) = vs.flatMap Raw.bytes ++ p' := by
      rw [wire_append, wire_append, hend.2.1, c1, List.append_nil]; rfl
    have hshelf : ([Event.post] ++ (res ++ if st = .success then ([] : List Event) else [.pre, .post])).foldl Shelf.note shelf = shelf := by
      rw [List.foldl_append, List.foldl_append]
      rw [show ([Event.post].foldl Shelf.note shelf) = shelf from rfl, c7, hend.2.2.1]
    have r3 := r2.sends hrcv
    rw [hwire] at r3
    obtain ⟨us', part', g5, g6⟩ := InTies.pushed (xs := []) (buf' := []) (ds := outs) g3 rfl (fun _ => rfl) (fun u hu => (c2 u hu).1) c3 (Or.inl g1)
      (fun q O slot U D h => by rw [hvs, List.append_nil]; exact h) (fun _ _ _ _ _ h => h)
    obtain ⟨us2, ds2, g7, g8⟩ := g5.served r3 k3 hi
    have hgr : n'.greeted = true := g8 (by rw [Net.push_open g2]; exact g1)
    have hst : w4.ctx.netBuf = nb ∧ w4.ctx.index = 0 ∧ w4.ctx.connectStatus ≠ .notConnected := by
      obtain ⟨a, st1, w5, b', _, hp, hq⟩ := h11
      obtain ⟨t1, x1, T1, hc1⟩ := hp.ctx
      have hc2 : ∃ t2 x2, w4.ctx = { w5.ctx with lastPacketTxTime := t2, connectStatus := afterFail x2 w5.ctx.connectStatus } := by
        rcases hq with ⟨_, _, rfl, _⟩ | ⟨_, _, hq⟩
        · exact ⟨_, false, rfl⟩
        · obtain ⟨t2, hc⟩ := hq.ctx
          exact ⟨t2, _, hc⟩
      obtain ⟨t2, x2, hc2⟩ := hc2
      rw [hc2, hc1, h9]
      refine ⟨rfl, hidx, ?_⟩
      show afterFail x2 (afterFail _ ConnStatus.connected) ≠ .notConnected
      rw [ne_eq, afterFail_not, afterFail_not]
      decide
    obtain ⟨m1, m2, m4⟩ := hst
    refine ⟨?_, ?_⟩
    · refine ⟨s', by rw [h12]; exact c5, by rw [h12]; show w4.ctx.index ≤ _; rw [m2]; exact Nat.zero_le _, ?_, ?_⟩
      · rw [h12]; show 4 ≤ w4.ctx.netBuf.length; rw [m1, e1]; exact k3
      · rw [buffered_zero (c := w'.ctx) (by rw [h12]; exact m2), List.foldl_append, hpre, hshelf, h12, cinc]
        show InLink i w4.ctx.netBuf.length b n0 o0 R (decide (afterFail _ w4.ctx.connectStatus ≠ .notConnected)) _ [] _ _
        rw [m1, e1, show decide (afterFail (decide (st ≠ .success)) w4.ctx.connectStatus ≠ .notConnected) = true by simp [afterFail_not, m4]]
        refine ⟨⟨us2, part', ds2, [], g7.setOpen _, fun _ => ⟨hgr, rfl⟩, fun ho => ⟨?_, fun h => by cases h⟩⟩, fun h => (by cases h), k4.shelves⟩
        rw [g6 g2]
        by_cases hp' : p' = []
        · exact hp'
        · exfalso
          have := c4 hp'
          simp [this] at ho
    · rw [presented_append, presented_append, presented_append, presented_append, presented_quiet i a3, presented_quiet i (quiet_recv h8.recv),
        presented_quiet i c8, presented_quiet i hend.2.2.2]
      rfl

end

/-! ### Every call and every run -/

section
variable {i : UInt16} {b : Bool} {n0 : Nat} {o0 R : List Publish} {w w' : World} {n n' : Net} {shelf : Shelf} {es : List Event}
  {g : Cfg} {s : InFlight} {a : ApiCall} {r : ApiRet}

/-- A call that returned. -/
theorem InReady.call (h : InReady i b n0 o0 R w.ctx n shelf) (hi : i ≠ 0) (hrep : Represents w.ctx.tables s) (hv : ValidCall g a)
    (hd : Did g s w a r es w') (hn : NetRun true w.ctx.bufSize n es n') (hf : Faithful shelf es) :
    InReady i b n0 o0 (R ++ presented i es) w'.ctx { n' with isOpen := n'.isOpen && !closes a r } (es.foldl Shelf.note shelf) := by
  have calm : ∀ {closing : Bool}, closing = closes a r →
      InReady i b n0 o0 R w'.ctx { n' with isOpen := n'.isOpen && !closing } (es.foldl Shelf.note shelf) ∧ presented i es = [] →
      InReady i b n0 o0 (R ++ presented i es) w'.ctx { n' with isOpen := n'.isOpen && !closes a r } (es.foldl Shelf.note shelf) := by
    intro closing h2 h3
    rw [h3.2, ← h2, List.append_nil]
    exact h3.1
  have keep : w'.ctx.tables = w.ctx.tables → ∀ fl, Represents w.ctx.tables fl → ∃ fl', Represents w'.ctx.tables fl' ∧ fl'.inc.phase i = fl.inc.phase i :=
    fun e fl hfl => ⟨fl, by rw [e]; exact hfl, rfl⟩
  cases hd with
  | @publish p id st _ _ f hd => exact calm rfl (h.publish hi hrep (hv p rfl).1 hd hn)
  | publishNull =>
    have := h.nothing (closing := false) hi ⟨rfl, rfl, rfl, Iff.rfl⟩ (keep rfl) hn rfl rfl rfl
    exact calm rfl ⟨this, rfl⟩
  | subscribe f hd => exact calm rfl (h.sub hi hd hn)
  | subscribeNull =>
    have := h.nothing (closing := false) hi ⟨rfl, rfl, rfl, Iff.rfl⟩ (keep rfl) hn rfl rfl rfl
    exact calm rfl ⟨this, rfl⟩
  | unsubscribe f hd => exact calm rfl (h.sub hi hd hn)
  | unsubscribeNull =>
    have := h.nothing (closing := false) hi ⟨rfl, rfl, rfl, Iff.rfl⟩ (keep rfl) hn rfl rfl rfl
    exact calm rfl ⟨this, rfl⟩
  | ping f hd => exact calm rfl (h.ping hi hd hn)
  | disconnect hd => exact calm rfl (h.disconnect hi hd hn)
  | processLoop f hd =>
    refine InReady.loop (w := w.fresh) h hi hrep hd ?_ f.bufSize ?_ (fun hc => f.idle (by rw [show w.ctx.connectStatus = _ from hc]; decide)) hn
    · rw [f.status, afterFail_not]; rfl
    · exact (f.inv _ _ ⟨h.choose_spec.2.1, s, hrep, rfl, rfl⟩).1
  | receiveLoop f hd =>
    refine InReady.loop h hi hrep hd ?_ f.bufSize ?_ (fun hc => f.idle (by rw [hc]; decide)) hn
    · rw [f.status, afterFail_not]
    · exact (f.inv _ _ ⟨h.choose_spec.2.1, s, hrep, rfl, rfl⟩).1
  | @cancel id st _ _ h0 hd =>
    cases hd with
    | none h1 =>
      have := h.nothing (closing := false) hi ⟨rfl, rfl, rfl, Iff.rfl⟩ (keep rfl) hn rfl rfl rfl
      exact calm rfl ⟨this, rfl⟩
    | some h1 h2 h3 =>
      refine calm rfl ⟨h.nothing hi (by rw [h2]; exact ⟨rfl, rfl, rfl, Iff.rfl⟩) ?_ hn rfl rfl rfl, rfl⟩
      intro fl hfl
      cases represents_unique hfl hrep
      refine ⟨_, by rw [h2]; exact h3, ?_⟩
      simp only [step]
      cases hp : s.out.phase id <;> rfl
  | check hd =>
    have := h.nothing (closing := closes .checkConnectStatus (.status (connectStatusCode w.ctx.connectStatus))) hi (by rw [hd]; exact ⟨rfl, rfl, rfl, Iff.rfl⟩) (keep (by rw [hd])) hn rfl rfl rfl
    exact calm rfl ⟨this, rfl⟩
  | getId hd =>
    have := h.nothing (closing := false) hi (by rw [hd]; exact ⟨rfl, rfl, rfl, Iff.rfl⟩) (keep (by rw [hd])) hn rfl rfl rfl
    exact calm rfl ⟨this, rfl⟩
  | @connect ci will t sp0 sp st _ _ hd => exact calm rfl (h.connect hi hrep (hv ci rfl) hd hn hf)
  | @connectNull ci will t sp0 _ _ hd =>
    have := h.nothing (closing := true) hi (by rw [hd]; exact ⟨rfl, rfl, rfl, afterFail_not _ _⟩) (keep (by rw [hd])) hn rfl rfl rfl
    exact calm rfl ⟨this, rfl⟩

end

/-- Everything that can happen keeps what holds between the calls. -/
theorem Sys.inReady {g : Cfg} (hg : CfgOk g) {i : UInt16} (hi : i ≠ 0) {b : Bool} {n0 : Nat} {o0 R : List Publish} {s0 s : Sys}
    {h : List (ApiCall × ApiRet)} (hr : Sys.Run g true s0 h s) (h0 : InReady i b n0 o0 R s0.world.ctx s0.net s0.shelf) :
    ∃ es, s.world.trace = s0.world.trace ++ es ∧ InReady i b n0 o0 (R ++ presented i es) s.world.ctx s.net s.shelf := by
  induction hr with
  | start => exact ⟨[], by simp, by simpa [presented] using h0⟩
  | serve _ hs ih =>
    obtain ⟨es, h1, fl, h2, h3, h4, h5⟩ := ih
    exact ⟨es, h1, fl, h2, h3, h4, h5.serve hs h4 hi⟩
  | hangUp _ ih =>
    obtain ⟨es, h1, fl, h2, h3, h4, h5⟩ := ih
    have := h5.close true
    rw [Bool.not_true, Bool.and_false] at this
    exact ⟨es, h1, fl, h2, h3, h4, this⟩
  | dial _ hc ih =>
    obtain ⟨es, h1, fl, h2, h3, h4, h5⟩ := ih
    refine ⟨es, h1, fl, h2, h3, h4, ?_⟩
    simp only [ne_eq, hc, not_true_eq_false, decide_false] at h5 ⊢
    exact h5.dial
  | @call s1 h e a r w n hr hv hc hn hf ih =>
    obtain ⟨es, h1, h2⟩ := ih
    obtain ⟨fl, h3, h4, _⟩ := id h2
    obtain ⟨es', hl, hdid⟩ := callIn_done hg hv h4 h3 hc
    have hes : callEvents g s1.world e a = es' := by
      unfold callEvents
      exact newEvents_done (w := { s1.world with env := e }) hc hl.trace
    rw [hes] at hn hf ⊢
    have := InReady.call (w := { s1.world with env := e }) h2 hi h3 hv hdid hn hf
    refine ⟨es ++ es', by rw [show w.trace = s1.world.trace ++ es' from hl.trace, h1, List.append_assoc], ?_⟩
    rw [presented_append, ← List.append_assoc]
    exact this

/-- Before the first call. -/
theorem Sys.inFirst {g : Cfg} {s : Sys} (h : Sys.Initial g s) (i : UInt16) :
    InReady i false 0 s.net.server.out.offered [] s.world.ctx s.net s.shelf := by
  obtain ⟨oc, ic, h1, h2, h3⟩ := h.ctx.inv
  refine ⟨⟨oc, ic, [], []⟩, by rw [h3]; exact represents_fresh oc ic, by rw [h1]; exact Nat.zero_le _, h.buffer, ?_⟩
  rw [buffered_zero h1, h2]
  refine ⟨⟨[], [], [], [], ⟨h.quiet.1, rfl, by simp, by simp, h.quiet.2, fun _ => ⟨rfl, rfl⟩, Nat.zero_le _, [], by simp, ?_⟩, fun h => (by simp at h),
    fun ho => (by rw [h.closed] at ho; cases ho)⟩, fun _ => rfl, fun j x hx => (by rw [h.shelf] at hx; cases hx)⟩
  rw [h.held.2 i]
  exact .free (fun hq => (by cases hq.1))

theorem receiving_iff {t : Tables} {s : InFlight} (h : Represents t s) (i : UInt16) : Receiving t i ↔ s.inc.phase i ≠ none := by
  unfold Receiving inFlight
  rw [h.2.entries]
  constructor
  · rintro ⟨r, hr, he⟩ hp
    obtain ⟨e, hm, rfl⟩ := List.mem_map.mp hr
    rw [keepsId_in e] at he
    unfold Table.phase at hp
    rw [Option.map_eq_none_iff, List.find?_eq_none] at hp
    exact absurd he (by simpa using hp e hm)
  · intro hp
    cases hq : s.inc.phase i with
    | none => exact absurd hq hp
    | some p =>
      obtain ⟨a, b, hl, _, _⟩ := phase_some_split h.2.distinct hq
      exact ⟨inRec (i, p), List.mem_map.mpr ⟨(i, p), by rw [hl]; simp, rfl⟩, keepsId_in _⟩

/-- From a moment at which neither side has a message with packet id `i` in flight. -/
theorem InReady.again {i : UInt16} {n0 : Nat} {o0 R : List Publish} {b : Bool} {ctx : Ctx} {n : Net} {shelf : Shelf} (h : InReady i b n0 o0 R ctx n shelf)
    (hs : n.server.out.slot i = none) (hf : ∀ fl, Represents ctx.tables fl → fl.inc.phase i = none) :
    InReady i true n.server.sessions n.server.out.offered [] ctx n shelf := by
  obtain ⟨fl, h1, h2, h3, h4⟩ := h
  refine ⟨fl, h1, h2, h3, ?_⟩
  have hp := hf fl h1
  rw [hp] at h4 ⊢
  obtain ⟨us, part, ds, buf, q1, q2, q3⟩ := h4.ties
  refine ⟨⟨us, part, ds, buf, ⟨q1.up, q1.stuck, q1.small, q1.valid, q1.down, q1.fresh, Nat.le_refl _, [], by simp, ?_⟩, q2, q3⟩, h4.idle, h4.shelves⟩
  obtain ⟨_, _, ht⟩ := q1.tie
  generalize us.filterMap (inUp i) = U at ht ⊢
  generalize ds.filterMap (inDown i) = D at ht ⊢
  rw [hs] at ht ⊢
  cases ht with
  | free _ => exact .free (fun _ => ⟨rfl, .nil⟩)

end Mqtt
