/-
C89: exchanges do not interfere.
-/
import Verif.Spec.Concern
import Verif.Props.Malformed

namespace Mqtt
open Spec

/-- Two tables agree, in order, apart from the entry with id `k`. -/
def KeptApart {φ : Type} (k : Option UInt16) (l l' : Table φ) : Prop := (l'.filter fun e => some e.1 ≠ k) = l.filter fun e => some e.1 ≠ k

theorem kept_refl {φ : Type} (k : Option UInt16) (l : Table φ) : KeptApart k l l := rfl

theorem kept_trans {φ : Type} {k : Option UInt16} {l1 l2 l3 : Table φ} (h1 : KeptApart k l1 l2) (h2 : KeptApart k l2 l3) : KeptApart k l1 l3 := Eq.trans h2 h1

theorem kept_remove {φ : Type} (l : Table φ) (id : UInt16) : KeptApart (some id) l (l.remove id) := by
  unfold KeptApart Table.remove
  rw [List.filter_filter]
  congr 1
  funext e
  by_cases h : e.1 = id <;> simp [h]

theorem kept_set {φ : Type} (l : Table φ) (id : UInt16) (p : φ) : KeptApart (some id) l (l.set id p) := by
  unfold KeptApart Table.set
  induction l with
  | nil => rfl
  | cons e l ih =>
    rw [List.map_cons]
    by_cases h : e.1 = id
    · rw [if_pos h, List.filter_cons_of_neg (by simp), List.filter_cons_of_neg (by simp [h]), ih]
    · rw [if_neg h, List.filter_cons_of_pos (by simp [h]), List.filter_cons_of_pos (by simp [h]), ih]

theorem kept_push {φ : Type} {l l' : Table φ} {id : UInt16} (p : φ) (h : KeptApart (some id) l l') : KeptApart (some id) l (l' ++ [(id, p)]) := by
  unfold KeptApart at h ⊢
  rw [List.filter_append, h]
  simp

theorem kept_insert {φ : Type} (cap : Nat) (l : Table φ) (id : UInt16) (p : φ) : KeptApart (some id) l (l.insert cap id p).2 := by
  unfold Table.insert
  split
  · exact kept_refl _ _
  · split
    · exact kept_refl _ _
    · exact kept_push p (kept_refl _ _)

theorem kept_ack {φ : Type} (rule : φ → Option (Effect φ × PubState)) (l : Table φ) (id : UInt16) : KeptApart (some id) l (ackTable rule l id).2 := by
  unfold ackTable
  split
  · exact kept_refl _ _
  · split
    · exact kept_refl _ _
    · rename_i e _ _
      cases e with
      | goto p => exact kept_set _ _ _
      | requeue p => exact kept_push p (kept_remove _ _)
      | finish => exact kept_remove _ _

/-- The in-flight state changed at most at `i` (outgoing) and `j` (incoming). -/
def Frame (i j : Option UInt16) (s s' : InFlight) : Prop := KeptApart i s.out s'.out ∧ KeptApart j s.inc s'.inc

theorem frame_refl (i j : Option UInt16) (s : InFlight) : Frame i j s s := ⟨rfl, rfl⟩

theorem frame_trans {i j : Option UInt16} {s1 s2 s3 : InFlight} (h1 : Frame i j s1 s2) (h2 : Frame i j s2 s3) : Frame i j s1 s3 :=
  ⟨kept_trans h1.1 h2.1, kept_trans h1.2 h2.2⟩

theorem frame_reserve (s : InFlight) (id : UInt16) (q : QoS) (j : Option UInt16) : Frame (some id) j s (step s (.reserve id q)).2 := by
  cases q <;> simp only [step]
  · exact frame_refl _ _ _
  all_goals
    split
    · exact frame_refl _ _ _
    · exact ⟨kept_insert _ _ _ _, rfl⟩

theorem frame_send (s : InFlight) (id : UInt16) (q : QoS) (j : Option UInt16) : Frame (some id) j s (step s (.publish .send id q)).2 := by
  cases q <;> simp only [step]
  · exact frame_refl _ _ _
  all_goals
    split
    · exact frame_refl _ _ _
    · split
      · exact frame_refl _ _ _
      · split
        · exact frame_refl _ _ _
        · split
          · exact frame_refl _ _ _
          · exact ⟨kept_set _ _ _, rfl⟩

theorem frame_receive (s : InFlight) (id : UInt16) (q : QoS) (i : Option UInt16) (hq : q ≠ .qos0) : Frame i (some id) s (step s (.publish .receive id q)).2 := by
  cases q <;> simp only [step]
  · exact absurd rfl hq
  all_goals
    split
    · exact frame_refl _ _ _
    · exact ⟨rfl, kept_insert _ _ _ _⟩

theorem frame_outAck (s : InFlight) (op : Op) (ty : AckType) (id : UInt16) (j : Option UInt16) (h : forOutgoing op ty = true) :
    Frame (some id) j s (step s (.ack op ty id)).2 := by
  simp only [step, h, if_true]
  split
  · exact frame_refl _ _ _
  · exact ⟨kept_ack _ _ _, rfl⟩

theorem frame_inAck (s : InFlight) (op : Op) (ty : AckType) (id : UInt16) (i : Option UInt16) (h : forOutgoing op ty = false) :
    Frame i (some id) s (step s (.ack op ty id)).2 := by
  simp only [step, h]
  split
  · exact frame_refl _ _ _
  · exact ⟨rfl, kept_ack _ _ _⟩

/-- What the reaction to a packet changes, and what sending its acknowledgement changes. -/
theorem frame_react (retx m : Bool) (s : InFlight) (first : UInt8) (body : List UInt8) :
    let i := (readIncoming first body).bind aboutOutgoing
    let j := (readIncoming first body).bind aboutIncoming
    Frame i j s (react retx m s first body).state ∧
      ∀ ty id, (react retx m s first body).ack = some (ty, id) → ∀ s1, Frame i j s1 (step s1 (.ack .send ty id)).2 := by
  simp only [react]
  cases hr : readIncoming first body with
  | none => exact ⟨frame_refl _ _ _, fun _ _ h => by cases h⟩
  | some p =>
    cases p with
    | publish id v =>
      simp only [Option.bind_some, aboutOutgoing, aboutIncoming]
      by_cases hq : v.qos = .qos0
      · rw [if_pos hq]
        have hst : step s (.publish .receive id v.qos) = ((.success, some .publishDone), s) := by rw [hq]; rfl
        have hp : publishAck v.qos id = none := by rw [hq]; rfl
        unfold reactPublish
        rw [if_neg (by simp [hq])]
        simp only [hst, if_true, hp]
        exact ⟨frame_refl _ _ _, fun _ _ h => by cases h⟩
      · rw [if_neg hq]
        have hack : ∀ ty id', publishAck v.qos id = some (ty, id') → ∀ s1, Frame none (some id) s1 (step s1 (.ack .send ty id')).2 := by
          intro ty id' h s1
          unfold publishAck at h
          split at h
          · cases h
          all_goals
            cases h
            exact frame_inAck _ _ _ _ _ rfl
        unfold reactPublish
        split
        · exact ⟨frame_refl _ _ _, fun _ _ h => by cases h⟩
        · simp only
          split
          · exact ⟨frame_receive _ _ _ _ hq, hack⟩
          · split
            · exact ⟨frame_refl _ _ _, hack⟩
            · exact ⟨frame_refl _ _ _, fun _ _ h => by cases h⟩
    | ack ty id =>
      simp only [reactAck]
      cases ty <;> simp only [Option.bind_some, aboutOutgoing, aboutIncoming] <;> split <;> simp only [nextAck] <;> constructor <;>
        first
        | exact frame_refl _ _ _
        | exact frame_outAck _ _ _ _ _ rfl
        | exact frame_inAck _ _ _ _ _ rfl
        | (intro ty id' h; cases h; intro s1; exact frame_outAck _ _ _ _ _ rfl)
        | (intro ty id' h; cases h; intro s1; exact frame_inAck _ _ _ _ _ rfl)
        | (intro ty id' h; cases h)
    | pingresp => exact ⟨frame_refl _ _ _, fun _ _ h => by cases h⟩
    | suback => exact ⟨frame_refl _ _ _, fun _ _ h => by cases h⟩
    | unsuback => exact ⟨frame_refl _ _ _, fun _ _ h => by cases h⟩

theorem apartFrom_out {recs : Records} {cap : Nat} {l : Table OutPhase} (h : Holds outRec recs cap l) (k : Option UInt16) :
    apartFrom k recs = (l.filter fun e => some e.1 ≠ k).map outRec := by
  have he : ∀ e : UInt16 × OutPhase, (outRec e).packetId = e.1 := by rintro ⟨_, p⟩; cases p <;> rfl
  unfold apartFrom inFlight
  rw [h.entries, List.filter_map]
  congr 2
  funext e
  simp [he]

theorem apartFrom_in {recs : Records} {cap : Nat} {l : Table InPhase} (h : Holds inRec recs cap l) (k : Option UInt16) :
    apartFrom k recs = (l.filter fun e => some e.1 ≠ k).map inRec := by
  have he : ∀ e : UInt16 × InPhase, (inRec e).packetId = e.1 := by rintro ⟨_, p⟩; cases p <;> rfl
  unfold apartFrom inFlight
  rw [h.entries, List.filter_map]
  congr 2
  funext e
  simp [he]

theorem frame_records {i j : Option UInt16} {s s' : InFlight} {t t' : Tables} (h : Represents t s) (h' : Represents t' s') (hf : Frame i j s s') :
    apartFrom i t'.outgoing = apartFrom i t.outgoing ∧ apartFrom j t'.incoming = apartFrom j t.incoming := by
  rw [apartFrom_out h.1, apartFrom_out h'.1, apartFrom_in h.2, apartFrom_in h'.2, hf.1, hf.2]
  exact ⟨rfl, rfl⟩

/-- The packet a receive call takes is the front packet of the stream. -/
theorem frontPacket_eq {p : Raw} (hp : p.Valid) (rest : List UInt8) : frontPacket (p.bytes ++ rest) = readIncoming p.first p.body := by
  obtain ⟨hl, e1, e2⟩ := readHeader_packet (rest := rest) hp
  unfold frontPacket
  rw [e1]
  simp only
  rw [if_pos (by rw [List.length_append]; omega)]
  have e3 := Raw.bytes_eq p
  have : p.bytes ++ rest = (p.bytes.take hl ++ p.body) ++ rest := by
    congr 1
    have h4 : p.bytes.drop hl = p.body := by
      rw [e3, ← List.cons_append]
      have : (p.first :: varInt p.body.length).length = hl := by
        have := congrArg List.length e3
        simp only [List.length_cons, List.length_append] at this ⊢
        omega
      rw [← this, List.drop_left]
    rw [← h4, List.take_append_drop]
  rw [this, List.append_assoc, List.drop_append_of_le_length (by rw [List.length_take]; omega)]
  have h5 : (p.bytes.take hl).drop hl = [] := by
    rw [List.drop_eq_nil_iff, List.length_take]; omega
  rw [h5, List.nil_append, List.take_left]

theorem did_frame {g : Cfg} {s : InFlight} {w w' : World} {c : ApiCall} {r : ApiRet} {es : List Event} (hrep : Represents w.ctx.tables s) (h : Did g s w c r es w')
    (hc : ∀ ci will t sp, c ≠ .connect ci will t sp) :
    ∃ s', Represents w'.ctx.tables s' ∧ Frame (outgoingOf (w.ctx.buffered ++ received es) c) (incomingOf (w.ctx.buffered ++ received es) c) s s' := by
  have same : ∀ {w' : World} {i j : Option UInt16}, w'.ctx.tables = w.ctx.tables → ∃ s', Represents w'.ctx.tables s' ∧ Frame i j s s' :=
    fun h => ⟨s, by rw [h]; exact hrep, frame_refl _ _ _⟩
  have loop : ∀ m, c = loopCall m → ∃ s', Represents w'.ctx.tables s' ∧
      Frame (outgoingOf (w.ctx.buffered ++ received es) c) (incomingOf (w.ctx.buffered ++ received es) c) s s' := by
    rintro m rfl
    have e0 : ∀ st, outgoingOf st (loopCall m) = (frontPacket st).bind aboutOutgoing ∧ incomingOf st (loopCall m) = (frontPacket st).bind aboutIncoming := by
      intro st; cases m <;> exact ⟨rfl, rfl⟩
    rw [(e0 _).1, (e0 _).2]
    obtain ⟨_, st, rfl, ⟨rfl, rfl, h1, h2⟩ | ⟨x, ka, es2, rfl, h1, h2, h3, h4⟩⟩ := h.turn
    · exact same h2
    · obtain ⟨q1, q2⟩ := h2.quiet
      cases h4 with
      | stopped _ _ _ k => exact same k
      | wait _ _ _ k => exact same k
      | drop _ _ _ _ _ k => exact same k
      | @packet st ka es p rest w1 w2 w' more k1 k2 k3 k4 k5 k6 k7 k8 k9 =>
        have e1 : received (.recvd (w.ctx.bufSize - w.ctx.index) (some x) :: (ka ++ (es ++ more))) = x := by
          rw [received_got, received_append, q1, received_append, received_of_noRecv k6.noRecv]
          rcases k7 with ⟨_, t, rfl⟩ | ⟨_, rfl⟩ <;> simp [received]
        rw [e1, k2, frontPacket_eq k1]
        obtain ⟨f1, f2⟩ := frame_react w.ctx.retransmits m s p.first p.body
        rw [k9]
        rcases k6.cases with ⟨_, _, _, _, e2⟩ | ⟨_, _, _, _, _, e2⟩ | ⟨_, _, _, _, _, e2, _⟩ | ⟨ty, id, e1, _, _, _, _, e3⟩
        · exact ⟨_, e2, f1⟩
        · exact ⟨_, e2, f1⟩
        · exact ⟨_, e2, f1⟩
        · exact ⟨_, e3, frame_trans f1 (f2 _ _ e1 _)⟩
  cases h with
  | @publish p id st _ _ _ h =>
    simp only [outgoingOf, incomingOf]
    rcases h.cases with ⟨_, rfl, h1, _⟩ | ⟨_, _, rfl, h1⟩ | ⟨_, _, _, _, rfl, h1, _⟩ | ⟨_, zs, s1, st0, es0, w0, w1, h1, _, hsent, rfl, h2⟩
    · exact same (by rw [h1])
    · exact same (by rw [h1])
    · exact ⟨s, h1, frame_refl _ _ _⟩
    · by_cases hq : p.qos = .qos0
      · rw [if_pos hq]
        have hs1 : s1 = s := by
          rcases h1 with ⟨_, h1⟩ | ⟨h1, _⟩
          · exact h1
          · exact absurd hq h1
        subst hs1
        rcases h2 with ⟨_, _, h2⟩ | ⟨_, h3, h2⟩
        · exact ⟨_, h2, frame_refl _ _ _⟩
        · unfold noteSent at h2
          rw [if_pos hq] at h2
          exact ⟨_, h2, frame_refl _ _ _⟩
      · rw [if_neg hq]
        have f1 : Frame (some id) none s s1 := by
          rcases h1 with ⟨h1, _⟩ | ⟨_, _, rfl⟩
          · exact absurd h1 hq
          · exact frame_reserve _ _ _ _
        rcases h2 with ⟨_, _, h2⟩ | ⟨_, h3, h2⟩
        · exact ⟨_, h2, f1⟩
        · unfold noteSent at h2
          rw [if_neg hq] at h2
          exact ⟨_, h2, frame_trans f1 (frame_send _ _ _ _)⟩
  | publishNull => exact same rfl
  | subscribe _ h => obtain ⟨t, hc⟩ := h.ctx; exact same (by rw [hc])
  | subscribeNull => exact same rfl
  | unsubscribe _ h => obtain ⟨t, hc⟩ := h.ctx; exact same (by rw [hc])
  | unsubscribeNull => exact same rfl
  | ping _ h => obtain ⟨t, p, q, hc⟩ := h.ctx; exact same (by rw [hc])
  | disconnect h =>
    rcases h.cases with ⟨_, _, rfl, hc⟩ | ⟨_, _, rfl, h1, _, _, t, hc⟩
    · exact same (by rw [hc])
    · exact same (by rw [hc]; rfl)
  | processLoop _ _ => exact loop true rfl
  | receiveLoop _ _ => exact loop false rfl
  | @cancel id _ _ _ _ h =>
    cases h with
    | none _ => exact same rfl
    | some _ h1 h2 =>
      refine ⟨_, by rw [h1]; exact h2, ?_⟩
      simp only [step, outgoingOf]
      split
      · exact frame_refl _ _ _
      · exact ⟨kept_remove _ _, rfl⟩
  | check h => exact same (by rw [h])
  | getId h => exact same (by rw [h])
  | connect => exact absurd rfl (hc _ _ _ _)
  | connectNull => exact absurd rfl (hc _ _ _ _)

/-- **C89** A call other than `MQTT_Connect` touches at most one exchange in each direction, the one it is about: all other publishes in flight are left as they are, in
the same order. -/
theorem C89_call {g : Cfg} {h : List (ApiCall × ApiRet)} {w w' : World} (hh : FromInit g h w) {e : Env} {c : ApiCall} (hv : ValidCall g c) {r : ApiRet}
    (hcall : callIn g w e c = .done r w') (hc : ∀ ci will t sp, c ≠ .connect ci will t sp) :
    let stream := w.ctx.buffered ++ received (callEvents g w e c)
    apartFrom (outgoingOf stream c) w'.ctx.tables.outgoing = apartFrom (outgoingOf stream c) w.ctx.tables.outgoing ∧
      apartFrom (incomingOf stream c) w'.ctx.tables.incoming = apartFrom (incomingOf stream c) w.ctx.tables.incoming := by
  obtain ⟨hg, hidx, s, hrep⟩ := hh.good
  rcases call_cases hg hidx hrep e hv with ⟨r1, es, w1, h1, h2, _, hd⟩ | ⟨es, w1, h1, h2, _, hd⟩
  · rw [hcall] at h1
    cases h1
    simp only [h2]
    obtain ⟨s', k1, k2⟩ := did_frame (w := { w with env := e }) hrep hd hc
    exact frame_records hrep k1 k2
  · rw [hcall] at h1; cases h1

/-- **C89** for one exchange: a call that is not about the outgoing (incoming) publish with packet id `k` leaves it exactly as it is. -/
theorem C89_exchange {g : Cfg} {h : List (ApiCall × ApiRet)} {w w' : World} (hh : FromInit g h w) {e : Env} {c : ApiCall} (hv : ValidCall g c) {r : ApiRet}
    (hcall : callIn g w e c = .done r w') (hc : ∀ ci will t sp, c ≠ .connect ci will t sp) (x : Rec) :
    (outgoingOf (w.ctx.buffered ++ received (callEvents g w e c)) c ≠ some x.packetId → (x ∈ inFlight w'.ctx.tables.outgoing ↔ x ∈ inFlight w.ctx.tables.outgoing)) ∧
    (incomingOf (w.ctx.buffered ++ received (callEvents g w e c)) c ≠ some x.packetId → (x ∈ inFlight w'.ctx.tables.incoming ↔ x ∈ inFlight w.ctx.tables.incoming)) := by
  obtain ⟨h1, h2⟩ := C89_call hh hv hcall hc
  have key : ∀ {k : Option UInt16} {l l' : Records}, apartFrom k l' = apartFrom k l → k ≠ some x.packetId → (x ∈ inFlight l' ↔ x ∈ inFlight l) := by
    intro k l l' he hk
    have : ∀ l, x ∈ apartFrom k l ↔ x ∈ inFlight l := by
      intro l
      unfold apartFrom
      rw [List.mem_filter]
      simp [Ne.symm hk]
    rw [← this l', ← this l, he]
  exact ⟨key h1, key h2⟩

/-- **C89** `MQTT_Connect` is about all exchanges at once: a new session forgets all of them, and otherwise it adds none, drops none and reorders none, and
leaves the incoming publishes as they are. -/
theorem C89_connect {g : Cfg} {h : List (ApiCall × ApiRet)} {w w' : World} (hh : FromInit g h w) {e : Env} {ci : Option ConnectInfo} {will : Option PublishInfo} {t : UInt32}
    {sp : Option Bool} (hv : ValidCall g (.connect ci will t sp)) {r : ApiRet} (hcall : callIn g w e (.connect ci will t sp) = .done r w') :
    r = .connect .success (some false) ∧ inFlight w'.ctx.tables.outgoing = [] ∧ inFlight w'.ctx.tables.incoming = [] ∨
    r ≠ .connect .success (some false) ∧ inFlight w'.ctx.tables.incoming = inFlight w.ctx.tables.incoming ∧
      (inFlight w'.ctx.tables.outgoing).map (·.packetId) = (inFlight w.ctx.tables.outgoing).map (·.packetId) := by
  obtain ⟨hg, hidx, s, hrep⟩ := hh.good
  rcases call_cases hg hidx hrep e hv with ⟨r1, es, w1, h1, h2, _, hd⟩ | ⟨es, w1, h1, h2, _, hd⟩
  · rw [hcall] at h1
    cases h1
    clear h2
    have same : r ≠ .connect .success (some false) → w'.ctx.tables = w.ctx.tables → r = .connect .success (some false) ∧ inFlight w'.ctx.tables.outgoing = [] ∧ inFlight w'.ctx.tables.incoming = [] ∨
        r ≠ .connect .success (some false) ∧ inFlight w'.ctx.tables.incoming = inFlight w.ctx.tables.incoming ∧
      (inFlight w'.ctx.tables.outgoing).map (·.packetId) = (inFlight w.ctx.tables.outgoing).map (·.packetId) := by
      intro h1 h2
      rw [h2]
      exact Or.inr ⟨h1, rfl, rfl⟩
    cases hd with
    | connectNull _ h => exact same (by simp) (by rw [h])
    | @connect ci will t0 sp0 sp st _ _ h =>
      cases h with
      | badSize h0 _ h => exact same (by simpa using fun h => absurd h h0) (by rw [h])
      | already _ _ h h0 => exact same (by rw [h0]; split <;> simp) (by rw [h])
      | noTopic _ _ _ h => exact same (by simp) (by rw [h])
      | notSent _ _ _ h1 _ _ h => exact same (by simp) (by rw [h])
      | notAccepted _ _ _ h0 _ _ h1 h2 h5 h3 =>
        obtain ⟨b, _, h4⟩ := h2.ctx
        exact same (by simpa using fun h => absurd h h5) (by rw [h3, h4, h1])
      | @fresh snd ca w1 w2 _ t _ _ _ h0 _ _ h1 h2 h3 =>
        left
        refine ⟨rfl, ?_⟩
        rw [h3]
        exact inFlight_fresh _ _
      | @resumed _ snd ca res w1 w2 w3 w4 _ t _ _ _ h0 _ _ h1 h2 h3 _ h4 h5 =>
        right
        refine ⟨by simp, ?_⟩
        obtain ⟨b, _, h6⟩ := h2.ctx
        obtain ⟨a, st1, w5, b, rfl, hp, hx⟩ := h4
        obtain ⟨done, rest, _, h8, _⟩ := hp.cases
        have hw : w4.ctx.tables = w5.ctx.tables := by
          rcases hx with ⟨_, rfl, rfl, _⟩ | ⟨_, _, hq⟩
          · rfl
          · obtain ⟨t, hc⟩ := hq.ctx
            rw [hc]
        have ht : w'.ctx.tables = w5.ctx.tables := by rw [h5]; exact hw
        rw [ht]
        have he : ∀ e : UInt16 × OutPhase, (outRec e).packetId = e.1 := by rintro ⟨_, p⟩; cases p <;> rfl
        unfold inFlight
        rw [h8.2.entries, h8.1.entries, show List.filter _ w.ctx.tables.incoming = _ from hrep.2.entries, show List.filter _ w.ctx.tables.outgoing = _ from hrep.1.entries]
        refine ⟨rfl, ?_⟩
        simp only [List.map_map, released]
        apply List.map_congr_left
        intro e _
        simp only [Function.comp_apply, he]
        split <;> rfl
  · rw [hcall] at h1; cases h1

/-- Non-vacuity of C89: publish 7 is being sent and message 9 is being received.  Publishing 8, the arrival of the PUBREL for 9 and the arrival of the PUBCOMP for 7 each touch one exchange. -/
example : (inFlight Ex.rel1.ctx.tables.outgoing).map (·.packetId) = [7] ∧ (inFlight Ex.rel1.ctx.tables.incoming).map (·.packetId) = [9] ∧
    outgoingOf [] (Ex.publishCall .qos1 8) = some 8 ∧ incomingOf [] (Ex.publishCall .qos1 8) = none ∧
    Ex.ret (callIn Ex.g Ex.rel1 (Ex.env []) (Ex.publishCall .qos1 8)) = some (.status .success) ∧
    (inFlight (callIn Ex.g Ex.rel1 (Ex.env []) (Ex.publishCall .qos1 8)).world.ctx.tables.outgoing).map (·.packetId) = [7, 8] ∧
    Ex.rel1.ctx.buffered ++ received (callEvents Ex.g Ex.rel1 Ex.relEnv .receiveLoop) = [0x62, 2, 0, 9] ∧
    outgoingOf [0x62, 2, 0, 9] .receiveLoop = none ∧ incomingOf [0x62, 2, 0, 9] .receiveLoop = some 9 ∧
    (inFlight Ex.rel2.ctx.tables.outgoing).map (·.packetId) = [7] ∧ (inFlight Ex.rel2.ctx.tables.incoming).map (·.packetId) = [] ∧
    outgoingOf [0x70, 2, 0, 7, 0x62] .processLoop = some 7 ∧ incomingOf [0x70, 2, 0, 7, 0x62] .processLoop = none := by
  decide +kernel

/-- Non-vacuity of `C89_connect`: both cases. -/
example : Ex.ret (callIn Ex.g Ex.w0 (Ex.env [0x20, 2, 0, 0]) Ex.connectCall) = some (.connect .success (some false)) ∧
    Ex.ret (callIn Ex.g (callIn Ex.g Ex.after (Ex.env []) .disconnect).world (Ex.env [0x20, 2, 1, 0]) Ex.connectCall) = some (.connect .success (some true)) ∧
    (inFlight (callIn Ex.g (callIn Ex.g Ex.after (Ex.env []) .disconnect).world (Ex.env [0x20, 2, 1, 0]) Ex.connectCall).world.ctx.tables.outgoing).map (·.packetId) = [7] ∧
    (inFlight Ex.after.ctx.tables.outgoing).map (·.packetId) = [7] := by
  decide +kernel

end Mqtt
