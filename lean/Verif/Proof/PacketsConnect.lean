/-
The system of bytes and the protocol of packets: `MQTT_Connect`, every call, every run.
-/
import Verif.Proof.PacketsLoop

namespace Mqtt
open Spec
set_option linter.unusedSimpArgs false

variable {strict : Bool}

theorem pending_ids (s : InFlight) : s.pending = idsOf isUnacked s.out := by
  unfold InFlight.pending idsOf
  congr 1
  refine List.filter_congr ?_
  intro e _
  cases e.2 <;> rfl

theorem releasing_ids (s : InFlight) : s.releasing = idsOf isPubrel s.out := by
  unfold InFlight.releasing idsOf
  congr 1
  refine List.filter_congr ?_
  intro e _
  cases e.2 <;> rfl

theorem pubrels_bytes (ids : List UInt16) : (ids.map fun j => (⟨0x62, be16 j.toNat⟩ : Raw)).flatMap Raw.bytes = ids.flatMap (ackPacket .pubrel) := by
  rw [List.flatMap_map]
  rfl

theorem pubrels_small (ids : List UInt16) : ∀ u ∈ ids.map fun j => (⟨0x62, be16 j.toNat⟩ : Raw), Small u := by
  intro u hu
  obtain ⟨j, _, rfl⟩ := List.mem_map.mp hu
  exact ack_small 0x62 j.toNat

/-- The copies that were retrieved. -/
theorem copies_of {shelf : Shelf} {S : UInt16 → Option Raw} (hs : ∀ j, shelf j = (S j).map Raw.bytes) (done : List (UInt16 × List UInt8))
    (hk : ∀ e ∈ done, shelf e.1 = some e.2) : ∃ copies : List (UInt16 × Raw), copies.map (·.1) = done.map (·.1) ∧ (∀ e ∈ copies, S e.1 = some e.2) ∧
      (copies.map (·.2)).flatMap Raw.bytes = done.flatMap (·.2) := by
  induction done with
  | nil => exact ⟨[], rfl, by simp, rfl⟩
  | cons e done ih =>
    obtain ⟨copies, h1, h2, h3⟩ := ih (fun x hx => hk x (List.mem_cons_of_mem _ hx))
    have := hk e List.mem_cons_self
    rw [hs] at this
    cases hS : S e.1 with
    | none => rw [hS] at this; cases this
    | some c =>
      rw [hS] at this
      have hc : c.bytes = e.2 := by simpa using this
      refine ⟨(e.1, c) :: copies, by simp [h1], ?_, by simp [h3, hc]⟩
      intro x hx
      rcases List.mem_cons.mp hx with rfl | hx
      · exact hS
      · exact h2 x hx

/-- What the resumption sends. -/
theorem resumed_resends {s : InFlight} {w w' : World} {st : Status} {es : List Event} (h : Resumed s w st es w')
    {shelf : Shelf} {S : UInt16 → Option Raw} (hs : ∀ j, shelf j = (S j).map Raw.bytes) (hc : ∀ j c, S j = some c → Small c) (hf : Faithful shelf es) :
    ∃ (vs : List Raw) (p' : List UInt8) (s' : InFlight), wire es = vs.flatMap Raw.bytes ++ p' ∧ (∀ u ∈ vs, Small u) ∧ readPacket p' = none ∧
      (p' ≠ [] → st ≠ .success) ∧ Resends w.ctx.retransmits s S (decide (st = .success)) vs s' ∧ Represents w'.ctx.tables s' ∧ received es = [] ∧
      (∀ k, es.foldl Shelf.note k = k) := by
  obtain ⟨a, st1, w1, b, rfl, hp, h⟩ := h
  obtain ⟨done, rest, h1, h2, h3⟩ := hp.cases
  have hqa := quiet_ack hp.kinds
  have hra : received a = [] := received_of_noRecv (noRecv_of_ack hp.kinds)
  have hsa : ∀ k, a.foldl Shelf.note k = k := shelf_still hqa (no_store_ack hp.kinds)
  rw [← releasing_ids] at h1
  have hrel : ({ s with out := released done s.out } : InFlight) = s.release done := rfl
  rw [hrel] at h2
  rcases h with ⟨hno, rfl, rfl, rfl⟩ | ⟨rfl, hr, hq⟩
  · rw [List.append_nil]
    rcases h3 with ⟨hst, rfl, _, hw, _⟩ | ⟨hst, id, rest', part, _, h4, h5, hw⟩
    · rw [List.append_nil] at h1
      subst h1
      have hr : w.ctx.retransmits = false := by
        rcases hno with h | h
        · exact absurd hst h
        · exact h
      rw [← releasing_ids] at hw
      refine ⟨_, [], _, by rw [hw, List.append_nil, pubrels_bytes], pubrels_small _, rfl, fun h => absurd rfl h, ?_, h2, hra, hsa⟩
      rw [hst, hr]
      exact .none rfl
    · refine ⟨_, part, _, by rw [hw, pubrels_bytes], pubrels_small _, (ack_small 0x62 id.toNat).part h4 h5, fun _ => by rw [hst]; decide, ?_, h2, hra, hsa⟩
      rw [hst]
      exact .releases ⟨rest, h1.symm⟩
  · rcases h3 with ⟨_, rfl, _, hw, _⟩ | ⟨hst, _⟩
    rotate_left
    · cases hst
    rw [List.append_nil] at h1
    subst h1
    rw [← releasing_ids] at hw
    obtain ⟨done2, rest2, h4, h5⟩ := hq.cases
    rw [← pending_ids] at h4
    have hfb : Faithful shelf b := by have := hf.append.2; rwa [hsa] at this
    have hret : ∀ e ∈ done2, (e.1, some e.2) ∈ retrieved b := by
      intro e he
      have : (e.1, some e.2) ∈ asRetrieved done2 := List.mem_map.mpr ⟨e, he, rfl⟩
      rcases h5 with ⟨_, _, _, h, _⟩ | ⟨_, _, _, _, _, _, h⟩ | ⟨_, _, _, _, _, _, h, _⟩ <;> rw [h]
      · exact this
      · exact List.mem_append_left _ this
      · exact List.mem_append_left _ this
    obtain ⟨copies, c1, c2, c3⟩ := copies_of hs done2 (fun e he => hfb.mem hq.kinds (hret e he))
    have hqb := quiet_resend hq.kinds
    have htab : w'.ctx.tables = w1.ctx.tables := by
      obtain ⟨t, hc⟩ := hq.ctx
      rw [hc]
    have hcommon : ∀ p', wire b = (copies.map (·.2)).flatMap Raw.bytes ++ p' →
        wire (a ++ b) = (s.releasing.map (fun j => (⟨0x62, be16 j.toNat⟩ : Raw)) ++ copies.map (·.2)).flatMap Raw.bytes ++ p' := by
      intro p' h
      rw [wire_append, hw, h, List.flatMap_append, pubrels_bytes, List.append_assoc]
    have hsm : ∀ u ∈ s.releasing.map (fun j => (⟨0x62, be16 j.toNat⟩ : Raw)) ++ copies.map (·.2), Small u := by
      intro u hu
      rcases List.mem_append.mp hu with hu | hu
      · exact pubrels_small _ u hu
      · obtain ⟨e, he, rfl⟩ := List.mem_map.mp hu
        exact hc _ _ (c2 e he)
    have hrest : ∀ k, (a ++ b).foldl Shelf.note k = k := by
      intro k
      rw [List.foldl_append, hsa, shelf_still hqb (no_store_resend hq.kinds)]
    have hrr : received (a ++ b) = [] := by
      rw [received_append, hra, received_of_noRecv (noRecv_of_resend hq.kinds)]
      rfl
    have hpre : copies.map (·.1) <+: s.pending := ⟨rest2, by rw [c1, h4]⟩
    rcases h5 with ⟨gst, grest, _, _, g⟩ | ⟨gst, _, g, _⟩ | ⟨gst, id, rest', bytes, part, _, gr, g1, g2, g⟩
    · refine ⟨_, [], _, hcommon [] (by rw [g, c3, List.append_nil]), hsm, rfl, fun h => absurd rfl h, ?_, by rw [htab]; exact h2, hrr, hrest⟩
      rw [gst]
      exact .all hr (by rw [c1, h4, grest, List.append_nil]) c2
    · refine ⟨_, [], _, hcommon [] (by rw [g, c3, List.append_nil]), hsm, rfl, fun h => absurd rfl h, ?_, by rw [htab]; exact h2, hrr, hrest⟩
      rw [gst]
      exact .publishes hr hpre c2
    · have hk := hfb.mem hq.kinds (id := id) (x := bytes) (by rw [gr]; simp)
      rw [hs] at hk
      cases hS : S id with
      | none => rw [hS] at hk; cases hk
      | some u =>
        rw [hS] at hk
        have hk : u.bytes = bytes := by simpa using hk
        refine ⟨_, part, _, hcommon part (by rw [g, c3]), hsm, (hc id u hS).part (by rw [hk]; exact g1) (by rw [hk]; exact g2), fun _ => by rw [gst]; decide, ?_,
          by rw [htab]; exact h2, hrr, hrest⟩
        rw [gst]
        exact .publishes hr hpre c2

section
variable {cap : Nat} {retx : Bool} {a b : Proto} {w w' : World} {n n' : Net} {shelf : Shelf} {es : List Event} {st : Status} {s : InFlight} {g : Cfg}
  {ci : ConnectInfo} {will : Option PublishInfo} {timeoutMs : UInt32} {sp0 sp : Bool} {buf part : List UInt8} {ea eb : List Event} {u : Raw}

/-- The CONNECT was sent and something received. -/
theorem Agrees.asked (h : Agrees cap a n buf part shelf) (hp : a.isOpen = true → part = []) (hcap : 4 ≤ cap) (hidle : a.stage = .idle) (hr : NetRun strict cap n (ea ++ eb) n') (hu : Small u)
    (hf : u.first = 0x10) (ha : Spec.received ea = []) (hw : wire ea = u.bytes) (hb : noSent eb) :
    ∃ a', Proto.Run strict retx cap a a' ∧ a'.stage = .asking ∧ a'.flight = a.flight ∧ a'.shelf = a.shelf ∧ a'.sent = a.sent ∧ a'.ok = a.ok ∧ a'.isOpen = a.isOpen ∧
      (a.isOpen = false → Spec.received eb = []) ∧ ∃ part', (a.isOpen = true → part' = []) ∧ Agrees cap a' n' (buf ++ Spec.received eb) part' shelf := by
  obtain ⟨n1, r1, r2⟩ := hr.split
  have s1 := r1.sends ha
  rw [hw] at s1
  obtain ⟨s2, hcl⟩ := r2.receives hb
  obtain ⟨part', h1, h2⟩ := h.pushed (vs := [u]) (p' := []) hp (by simpa using hu) rfl
  have e : [u].flatMap Raw.bytes ++ [] = u.bytes := by simp
  rw [e] at h1
  have h1' : Agrees cap { a.put [u] with stage := .asking } (n.push u.bytes) buf part' shelf :=
    ⟨h1.up, h1.stuck, h1.small, h1.valid, h1.down, h1.isOpen, h1.greeted, h1.server, h1.shelf, h1.copies⟩
  obtain ⟨a1, k1, k2, k3⟩ := h1'.served (retx := retx) hcap (s1.trans s2)
  refine ⟨a1, (Spec.Proto.Run.one (.ask hidle hf)).trans k1, k2.stage, k2.flight, k2.shelf, k2.sent, k2.ok, k2.isOpen, ?_, part', h2, k3.received rfl⟩
  intro ho
  refine hcl ?_
  have : n1.isOpen = n.isOpen := r1.isOpen
  rw [this, h.isOpen, ho]

theorem Tracks.connect (h : Tracks retx cap a w.ctx n shelf) (hrep : Represents w.ctx.tables s) (hv : ci.Valid will)
    (hd : ConnectDone g ci will timeoutMs sp0 s w st sp es w') (hn : NetRun strict w.ctx.bufSize n es n') (hf : Faithful shelf es) :
    Follows strict retx cap a (.connect (some ci) will timeoutMs (some sp0)) (.connect st (some sp)) w'.ctx { n' with isOpen := n'.isOpen && !(decide (st ≠ .success)) }
      (es.foldl Shelf.note shelf) := by
  cases represents_unique h.tables hrep
  have hcp : ∀ p id, (.connect (some ci) will timeoutMs (some sp0) : ApiCall) ≠ .publish (some p) id := by simp
  have fail : ∀ {st : Status}, st ≠ .success → ∀ x, (.connect st (some sp) : ApiRet) ≠ .connect .success x := by
    intro st h x he
    injection he with h1 _
    exact h h1
  -- sending the CONNECT
  have sent : ∀ {st1 : Status} {snd : List Event}, (getConnectPacketSize (some ci) will).status = .success → (∀ x, will = some x → x.pTopicName ≠ none) →
      (∀ e ∈ snd, isSendOrTime e = true) → SentResult (connectPacket (ci.toSpec will)) st1 snd →
      received (.pre :: snd) = [] ∧ callbacks (.pre :: snd) = [] ∧
      ∃ u : Raw, Small u ∧ u.first = 0x10 ∧ wire (.pre :: snd) <+: u.bytes ∧ (st1 = .success → wire (.pre :: snd) = u.bytes) ∧
        (st1 = .sendFailed → wire (.pre :: snd) ≠ u.bytes) := by
    intro st1 snd h1 h2 h3 h4
    obtain ⟨u, u1, u2, u3, _⟩ := connect_raw h1 hv h2
    refine ⟨received_of_noRecv (noRecv_pre h3), ?_, u, u2, UInt8.toNat_inj.mp u3, ?_⟩
    · show callbacks ([Event.pre] ++ snd) = []
      rw [callbacks_append, callbacks_send h3]; rfl
    · show wire ([Event.pre] ++ snd) <+: _ ∧ (_ → wire ([Event.pre] ++ snd) = _) ∧ (_ → wire ([Event.pre] ++ snd) ≠ _)
      rw [wire_append, u1]
      show wire snd <+: _ ∧ (_ → wire snd = _) ∧ (_ → wire snd ≠ _)
      rcases h4 with ⟨rfl, _, h⟩ | ⟨rfl, h, h'⟩
      · rw [h]; exact ⟨List.prefix_refl _, fun _ => rfl, fun h => by cases h⟩
      · exact ⟨h, fun h => (by cases h), fun _ => h'⟩
  have hpp : noSent [.post, .pre, .post] := by
    intro e he
    simp at he
    rcases he with rfl | rfl | rfl <;> rfl
  have ⟨buf, part, k1, k2, k3, k4⟩ := h.agrees
  cases hd with
  | badSize h1 h2 h3 =>
    exact h.nothing (c := .connect (some ci) will timeoutMs (some sp0)) (r := .connect st (some sp0)) (ctx' := w'.ctx) (by rw [h3]; exact ⟨rfl, rfl, rfl, afterFail_not _ _⟩) (by rw [h3]) hn rfl rfl rfl hcp (fail h1)
  | already h1 h2 h3 h4 =>
    refine h.nothing (c := .connect (some ci) will timeoutMs (some sp0)) (r := .connect st (some sp0)) (ctx' := w'.ctx) (by rw [h3]; exact ⟨rfl, rfl, rfl, Iff.rfl⟩) (by rw [h3]) hn rfl rfl rfl hcp (fail ?_)
    rw [h4]
    split <;> decide
  | noTopic h1 h2 h3 h4 =>
    exact h.nothing (c := .connect (some ci) will timeoutMs (some sp0)) (r := .connect .badParameter (some sp0)) (ctx' := w'.ctx) (by rw [h4]; exact ⟨rfl, rfl, rfl, Iff.rfl⟩) (by rw [h4]) hn rfl rfl rfl hcp (fail (by decide))
  | @notSent snd _ t h1 h2 h3 h4 h5 h6 h7 =>
    obtain ⟨a1, a2, u, a4, a5, a6, _, a8⟩ := sent h1 h3 h4 h6
    have hn : NetRun strict w.ctx.bufSize n ((.pre :: snd) ++ [.post, .pre, .post]) n' := hn
    have e1 : wire ((Event.pre :: snd) ++ [.post, .pre, .post]) = wire (Event.pre :: snd) := by rw [wire_append]; exact List.append_nil _
    have hst : (readPacket (wire (Event.pre :: snd))) = none := a4.part a6 (a8 rfl)
    have hsh : (Event.pre :: (snd ++ [Event.post, .pre, .post])).foldl Shelf.note shelf = shelf := by
      show ((Event.pre :: snd) ++ [Event.post, .pre, .post]).foldl Shelf.note shelf = shelf
      rw [List.foldl_append, shelf_quiet a2]; rfl
    rw [hsh]
    obtain ⟨a', q1, q2, q3, q4⟩ := h.moves (vs := []) (p' := wire (Event.pre :: snd)) (closing := decide (Status.sendFailed ≠ .success)) (ctx' := w'.ctx)
      (by rw [h7]; exact ⟨rfl, rfl, rfl, Iff.rfl⟩) hn (by rw [received_append, a1]; rfl) (by rw [e1]; rfl) (by simp) hst (fun _ => rfl) (fun _ => rfl) (.refl a)
      (by rw [Proto.put_nil]) rfl rfl rfl rfl (Or.inl rfl) k1.shelf k1.copies (by rw [h7]; exact h.tables)
    exact ⟨a', q1, q2, by rw [q3, accepted_other hcp, List.append_nil], fun _ ho => by rw [q4]; exact ho, fun x hx => absurd hx (fail (by decide) x)⟩
  | @notAccepted _ _ snd ca w1 w2 _ t h1 h2 h3 h4 h5 h6 h7 h8 h9 h10 =>
    obtain ⟨a1, a2, u, a4, a5, a6, a7, _⟩ := sent h1 h3 h4 h6
    have hid : a.stage = .idle := by rw [h.stage, if_pos h2]
    have hidx := buffered_nil (h.idle h2) h.index
    obtain ⟨nb, e1, e2⟩ := h8.ctx
    rw [h7] at e1 e2
    have e1 : nb.length = w.ctx.bufSize := e1
    rw [e2] at h10
    rw [h.size] at hn e1
    have hsh : (Event.pre :: (snd ++ (ca ++ [.post, .pre, .post]))).foldl Shelf.note shelf = shelf := by
      show ((Event.pre :: snd) ++ (ca ++ [Event.post, .pre, .post])).foldl Shelf.note shelf = shelf
      rw [List.foldl_append, shelf_quiet a2, List.foldl_append, shelf_quiet (callbacks_recv h8.recv)]; rfl
    rw [hsh]
    obtain ⟨b, b1, b2, b3, b4, b5, b6, b7, b8, part', b9, b10⟩ := k1.asked (retx := retx) (ea := .pre :: snd) (eb := ca ++ [.post, .pre, .post]) k3 h.room hid hn a4 a5 a1 (a7 rfl)
      (noSent_append.mpr ⟨h8.recv.noSent, hpp⟩)
    have b11 : Agrees cap { b with stage := .idle, isOpen := false } { n' with isOpen := n'.isOpen && !(decide (st ≠ .success)) } (buf ++ Spec.received (ca ++ [.post, .pre, .post])) part' shelf := by
      have := b10.setOpen false
      have e : (n'.isOpen && !(decide (st ≠ .success))) = false := by simp [h9]
      rw [e]
      exact ⟨this.up, this.stuck, this.small, this.valid, this.down, this.isOpen, this.greeted, this.server, this.shelf, this.copies⟩
    have hcs : w'.ctx.connectStatus = .notConnected := by rw [h10]; exact h2
    refine ⟨_, .step b1 (.giveUp b2), ⟨⟨_, part', b11, fun h => (by cases h), fun h => (by cases h), fun _ h => (by cases h)⟩, ?_, ?_, ?_, h.room, ?_, ?_, ?_⟩, ?_, ?_,
      fun x hx => absurd hx (fail h9 x)⟩
    · show Represents _ b.flight
      rw [b3, h10]; exact h.tables
    · rw [h10]; show w.ctx.index ≤ nb.length; rw [hidx]; exact Nat.zero_le _
    · rw [h10]; exact e1
    · rw [h10]; exact h.retx
    · rw [if_pos hcs]
    · intro _; exact buffered_zero (c := w'.ctx) (by rw [h10]; exact hidx)
    · rw [accepted_other hcp, List.append_nil]; exact b5
    · intro _ ho; show b.ok = true; rw [b6]; exact ho
  | @fresh snd ca w1 w2 _ t h1 h2 h3 h4 h5 h6 h7 h8 h9 =>
    obtain ⟨a1, a2, u, a4, a5, a6, a7, _⟩ := sent h1 h3 h4 h6
    have hid : a.stage = .idle := by rw [h.stage, if_pos h2]
    obtain ⟨nb, e1, e2⟩ := h8.ctx
    rw [h7] at e1 e2
    have e1 : nb.length = w.ctx.bufSize := e1
    rw [e2] at h9
    rw [h.size] at hn e1
    have hrc : received ca = [0x20, 2, 0, 0] := by
      rcases (h8.accept.mp rfl).2.2 with h | ⟨h, _⟩
      · exact h
      · have := h8.session rfl
        rw [h] at this
        cases this
    have hn : NetRun strict cap n ((.pre :: snd ++ ca) ++ (cleanClears w.ctx.retransmits a.flight ++ [.post])) n' := by
      simpa using hn
    obtain ⟨n2, r1, r2⟩ := hn.split
    obtain ⟨b, b1, b2, b3, b4, b5, b6, b7, b8, part', b9, b10⟩ := k1.asked (retx := retx) k3 h.room hid r1 a4 a5 a1 (a7 rfl) h8.recv.noSent
    have hopen : a.isOpen = true := by
      cases ho : a.isOpen with
      | true => rfl
      | false =>
        have := b8 ho
        rw [hrc] at this
        cases this
    obtain ⟨g1, g2, g3⟩ := k4 hid hopen
    have hbuf : buf = [] := by
      have := k1.down
      rw [g3] at this
      exact (List.append_eq_nil_iff.mp this).1
    have hpart : part' = [] := b9 hopen
    subst hbuf hpart
    rw [hrc, List.nil_append] at b10
    have hpk : ([0x20, 2, 0, 0] : List UInt8) = (⟨0x20, [0, 0]⟩ : Raw).bytes := by decide +kernel
    have hdown := b10.down
    rw [hpk] at hdown
    obtain ⟨ds, d1, d2⟩ := first_packet (p := ⟨0x20, [0, 0]⟩) (rest := []) (tail := n2.down) (by unfold Raw.Valid ServerFirstByte maxRemaining; decide) (fun q hq => (b10.valid q hq).1)
      (by rw [List.append_nil]; exact hdown)
    rw [List.nil_append] at d2
    have hsh : (Event.pre :: (snd ++ (ca ++ (cleanClears w.ctx.retransmits a.flight ++ [Event.post])))).foldl Shelf.note shelf =
        (cleanClears w.ctx.retransmits a.flight).foldl Shelf.note shelf := by
      show ((Event.pre :: snd) ++ (ca ++ (cleanClears w.ctx.retransmits a.flight ++ [Event.post]))).foldl Shelf.note shelf = _
      rw [List.foldl_append, shelf_quiet a2, List.foldl_append, shelf_quiet (callbacks_recv h8.recv), List.foldl_append]
      rfl
    rw [hsh]
    have hshelf : ∀ j, (cleanClears w.ctx.retransmits a.flight).foldl Shelf.note shelf j = (if retx = true ∧ j ∈ b.flight.pending then none else b.shelf j).map Raw.bytes := by
      intro j
      rw [b3, b4, pending_ids]
      unfold cleanClears
      rw [h.retx]
      cases retx with
      | false => simp [k1.shelf]
      | true =>
        simp only [if_true, true_and]
        rw [clears_shelf]
        simp only
        by_cases hj : j ∈ idsOf isUnacked a.flight.out
        · simp [hj]
        · simp only [hj, if_false]; exact k1.shelf j
    have hag : Agrees cap { b with stage := .on, down := ds, flight := { b.flight with out := [], inc := [] }, ok := true, shelf := fun j => if retx = true ∧ j ∈ b.flight.pending then none else b.shelf j }
        n2 [] [] ((cleanClears w.ctx.retransmits a.flight).foldl Shelf.note shelf) := by
      refine ⟨b10.up, b10.stuck, b10.small, fun d hd => b10.valid d (by rw [d1]; exact List.mem_cons_of_mem _ hd), d2, b10.isOpen, b10.greeted, b10.server, hshelf, ?_⟩
      intro j x hx
      have hx : (if retx = true ∧ j ∈ b.flight.pending then none else b.shelf j) = some x := hx
      split at hx
      · cases hx
      · exact b10.copies j x hx
    have htail : received (cleanClears w.ctx.retransmits a.flight ++ [.post]) = [] ∧ wire (cleanClears w.ctx.retransmits a.flight ++ [.post]) = [] := by
      rw [received_append, wire_append, wire_clears]
      refine ⟨?_, rfl⟩
      have : received (cleanClears w.ctx.retransmits a.flight) = [] := by
        refine received_of_noRecv ?_
        intro e he
        unfold cleanClears at he
        split at he
        · obtain ⟨x, _, rfl⟩ := List.mem_map.mp he
          rfl
        · cases he
      rw [this]; rfl
    have r3 := r2.sends htail.1
    rw [htail.2, Net.push_nil] at r3
    have hcs : w'.ctx.connectStatus ≠ .notConnected := by
      rw [h9]
      show ConnStatus.connected ≠ .notConnected
      decide
    have hb' : w'.ctx.buffered = [] := buffered_zero (c := w'.ctx) (by rw [h9]; rfl)
    obtain ⟨a', q1, q2, q3, q4⟩ := hag.finish (closing := decide (Status.success ≠ .success)) (retx := retx) (ctx' := w'.ctx) r3 (fun _ => hb'.symm)
      (fun _ _ => rfl) (fun h _ _ => by cases h)
      (by
        show Represents _ { b.flight with out := [], inc := [] }
        rw [b3, h9]; exact represents_empty hrep)
      (by rw [h9]; exact Nat.zero_le _)
      (by rw [h9]; show (List.replicate nb.length (0 : UInt8)).length = cap; rw [List.length_replicate]; exact e1) h.room
      (by rw [h9]; exact h.retx) (by rw [if_neg hcs]) (fun _ => hb')
    refine ⟨a', b1.trans ((Spec.Proto.Run.one (.welcome b2 (b7.trans hopen) d1)).trans q1), q2, ?_, fun _ _ => by rw [q4], fun _ _ _ => by rw [q4]⟩
    rw [q3, accepted_other hcp, List.append_nil]
    exact b5
  | @resumed _ snd ca res w1 w2 w3 w4 _ t h1 h2 h3 h4 h5 h6 h7 h8 h9 h10 h11 h12 =>
    obtain ⟨a1, a2, u, a4, a5, a6, a7, _⟩ := sent h1 h3 h4 h6
    have hid : a.stage = .idle := by rw [h.stage, if_pos h2]
    have hidx := buffered_nil (h.idle h2) h.index
    obtain ⟨nb, e1, e2⟩ := h8.ctx
    rw [h7] at e1 e2
    have e1 : nb.length = w.ctx.bufSize := e1
    rw [e2] at h9
    rw [h.size] at hn e1
    have hrc : received ca = [0x20, 2, 1, 0] := by
      have := h8.session rfl
      simpa using this
    have hsplit : (Event.pre :: (snd ++ (ca ++ (.post :: (res ++ if st = .success then [] else [.pre, .post]))))) =
        (.pre :: snd ++ ca) ++ ([.post] ++ (res ++ if st = .success then [] else [.pre, .post])) := by simp
    rw [hsplit] at hn hf ⊢
    obtain ⟨n2, r1, r2⟩ := hn.split
    obtain ⟨b, b1, b2, b3, b4, b5, b6, b7, b8, part', b9, b10⟩ := k1.asked (retx := retx) k3 h.room hid r1 a4 a5 a1 (a7 rfl) h8.recv.noSent
    have hopen : a.isOpen = true := by
      cases ho : a.isOpen with
      | true => rfl
      | false =>
        have := b8 ho
        rw [hrc] at this
        cases this
    obtain ⟨g1, g2, g3⟩ := k4 hid hopen
    have hbuf : buf = [] := by
      have := k1.down
      rw [g3] at this
      exact (List.append_eq_nil_iff.mp this).1
    have hpart : part' = [] := b9 hopen
    subst hbuf hpart
    rw [hrc, List.nil_append] at b10
    have hpk : ([0x20, 2, 1, 0] : List UInt8) = (⟨0x20, [1, 0]⟩ : Raw).bytes := by decide +kernel
    have hdown := b10.down
    rw [hpk] at hdown
    obtain ⟨ds, d1, d2⟩ := first_packet (p := ⟨0x20, [1, 0]⟩) (rest := []) (tail := n2.down) (by unfold Raw.Valid ServerFirstByte maxRemaining; decide) (fun q hq => (b10.valid q hq).1)
      (by rw [List.append_nil]; exact hdown)
    rw [List.nil_append] at d2
    have hpre : (.pre :: snd ++ ca).foldl Shelf.note shelf = shelf := by
      rw [List.foldl_append, shelf_quiet a2, shelf_quiet (callbacks_recv h8.recv)]
    have hfr : Faithful shelf res := by
      have := hf.append.2
      rw [hpre] at this
      exact (this.append.2).append.1
    obtain ⟨vs, p', s', c1, c2, c3, c4, c5, c6, c7, c8⟩ := resumed_resends h11 k1.shelf k1.copies hfr
    have hw3 : w3.ctx.retransmits = retx := by rw [h9]; exact h.retx
    rw [hw3] at c5
    have hend : received (if st = .success then ([] : List Event) else [.pre, .post]) = [] ∧
        wire (if st = .success then ([] : List Event) else [.pre, .post]) = [] ∧
        (∀ k : Shelf, (if st = .success then ([] : List Event) else [.pre, .post]).foldl Shelf.note k = k) := by
      split
      · exact ⟨rfl, rfl, fun _ => rfl⟩
      · exact ⟨rfl, rfl, fun _ => rfl⟩
    have hrcv : received ([Event.post] ++ (res ++ if st = .success then [] else [.pre, .post])) = [] := by
      rw [received_append, received_append, c7, hend.1]; rfl
    have hwire : wire ([Event.post] ++ (res ++ if st = .success then [] else [.pre, .post])) = vs.flatMap Raw.bytes ++ p' := by
      rw [wire_append, wire_append, hend.2.1, c1, List.append_nil]; rfl
    have hshelf : ([Event.post] ++ (res ++ if st = .success then ([] : List Event) else [.pre, .post])).foldl Shelf.note shelf = shelf := by
      rw [List.foldl_append, List.foldl_append]
      rw [show ([Event.post].foldl Shelf.note shelf) = shelf from rfl, c8, hend.2.2]
    rw [List.foldl_append, hpre, hshelf]
    have r3 := r2.sends hrcv
    rw [hwire] at r3
    have hag : Agrees cap { b with stage := .on, down := ds, flight := s' } n2 [] [] shelf :=
      ⟨b10.up, b10.stuck, b10.small, fun d hd => b10.valid d (by rw [d1]; exact List.mem_cons_of_mem _ hd), d2, b10.isOpen, b10.greeted, b10.server, b10.shelf, b10.copies⟩
    obtain ⟨part2, p1, p2⟩ := hag.pushed (fun _ => rfl) c2 c3
    have hst : w4.ctx.netBuf = nb ∧ w4.ctx.index = 0 ∧ w4.ctx.connectStatus ≠ .notConnected ∧ w4.ctx.retransmits = w.ctx.retransmits := by
      obtain ⟨a, st1, w5, b', _, hp, hq⟩ := h11
      obtain ⟨t1, x1, T1, hc1⟩ := hp.ctx
      have hc2 : ∃ t2 x2, w4.ctx = { w5.ctx with lastPacketTxTime := t2, connectStatus := afterFail x2 w5.ctx.connectStatus } := by
        rcases hq with ⟨_, _, rfl, _⟩ | ⟨_, _, hq⟩
        · exact ⟨_, false, rfl⟩
        · obtain ⟨t2, hc⟩ := hq.ctx
          exact ⟨t2, _, hc⟩
      obtain ⟨t2, x2, hc2⟩ := hc2
      rw [hc2, hc1, h9]
      refine ⟨rfl, hidx, ?_, rfl⟩
      show afterFail x2 (afterFail _ ConnStatus.connected) ≠ .notConnected
      rw [ne_eq, afterFail_not, afterFail_not]
      decide
    obtain ⟨m1, m2, m4, m5⟩ := hst
    have hcs : w'.ctx.connectStatus ≠ .notConnected := by
      rw [h12]
      show afterFail _ w4.ctx.connectStatus ≠ .notConnected
      rw [ne_eq, afterFail_not]
      exact m4
    have hb' : w'.ctx.buffered = [] := buffered_zero (c := w'.ctx) (by rw [h12]; exact m2)
    have hopen2 : b.isOpen = true := b7.trans hopen
    have hstep := Spec.Proto.Run.one (strict := strict) (cap := cap) (.resume b2 hopen2 d1 (by rw [b3, b4]; exact c5))
    by_cases hs : st = .success
    · subst hs
      have hp'0 : p' = [] := by
        by_cases hp' : p' = []
        · exact hp'
        · exact absurd rfl (c4 hp')
      have hag2 : Agrees cap { b.put vs with stage := .on, down := ds, flight := s', isOpen := decide (Status.success = .success), ok := if decide (Status.success = .success) = true then retx else b.ok }
          (n2.push (vs.flatMap Raw.bytes ++ p')) [] part2 shelf :=
        ⟨p1.up, p1.stuck, p1.small, p1.valid, p1.down, by rw [p1.isOpen]; exact hopen2, p1.greeted, p1.server, p1.shelf, p1.copies⟩
      obtain ⟨a', q1, q2, q3, q4⟩ := hag2.finish (closing := decide (Status.success ≠ .success)) (retx := retx) (ctx' := w'.ctx) r3 (fun _ => hb'.symm)
        (fun _ _ => by rw [p2 hopen2]; exact hp'0) (fun h _ _ => by cases h) (by rw [h12]; exact c6)
        (by rw [h12]; show w4.ctx.index ≤ _; rw [m2]; exact Nat.zero_le _) (by rw [h12]; show w4.ctx.netBuf.length = _; rw [m1]; exact e1) h.room
        (by rw [h12]; show w4.ctx.retransmits = _; rw [m5]; exact h.retx) (by rw [if_neg hcs]) (fun _ => hb')
      have hok : Calm retx (.connect (some ci) will timeoutMs (some sp0)) (.connect .success (some true)) → a'.ok = true := by
        intro hc
        rw [q4]
        exact hc rfl rfl
      refine ⟨a', b1.trans (hstep.trans q1), q2, ?_, fun hc _ => hok hc, fun _ _ hc => hok hc⟩
      rw [q3, accepted_other hcp, List.append_nil]
      exact b5
    · have ho : ∀ {x y : Net}, Served strict cap x y → Served strict cap { x with isOpen := false } { y with isOpen := false } := fun h => h.shut
      have hag2 : Agrees cap { b.put vs with stage := .on, down := ds, flight := s', isOpen := decide (st = .success), ok := if decide (st = .success) = true then retx else b.ok }
          { n2.push (vs.flatMap Raw.bytes ++ p') with isOpen := false } [] part2 shelf :=
        ⟨p1.up, p1.stuck, p1.small, p1.valid, p1.down, by simp [hs], p1.greeted, p1.server, p1.shelf, p1.copies⟩
      obtain ⟨a', q1, q2, q3, q4⟩ := hag2.finish (closing := true) (retx := retx) (ctx' := w'.ctx) (ho r3) (fun _ => hb'.symm)
        (fun _ h => by cases h) (fun h _ _ => by cases h) (by rw [h12]; exact c6)
        (by rw [h12]; show w4.ctx.index ≤ _; rw [m2]; exact Nat.zero_le _) (by rw [h12]; show w4.ctx.netBuf.length = _; rw [m1]; exact e1) h.room
        (by rw [h12]; show w4.ctx.retransmits = _; rw [m5]; exact h.retx) (by rw [if_neg hcs]) (fun _ => hb')
      refine ⟨a', b1.trans (hstep.trans q1), ?_, ?_, ?_, fun x hx => absurd hx (fun he => hs (by injection he))⟩
      · have e : ({ n' with isOpen := n'.isOpen && !(decide (st ≠ .success)) } : Net) = { { n' with isOpen := false } with isOpen := ({ n' with isOpen := false } : Net).isOpen && !true } := by
          simp [hs]
        rw [e]
        exact q2
      · rw [q3, accepted_other hcp, List.append_nil]
        exact b5
      · intro _ ho
        rw [q4]
        show (if decide (st = .success) = true then retx else b.ok) = true
        rw [if_neg (by simp [hs]), b6]
        exact ho

end

end Mqtt
