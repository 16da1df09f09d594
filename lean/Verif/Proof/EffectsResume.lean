/-
What the resumption of a session does: the PUBRELs and PUBLISHes sent again after a CONNACK with session present, and the clearing of stored
publishes after one without.
-/
import Verif.Proof.EffectsConnect

namespace Mqtt
open Spec
set_option linter.unusedSimpArgs false

/-! ### The record arrays -/

/-- The records a scan with mask `m` finds, in order. -/
def hits (m : Nat) (b : Records) : List UInt16 := (b.filter fun r => checkBitmap m r.publishState).map (·.packetId)

/-- One step of a scan. -/
theorem stateSelectLoop_cases (m : Nat) (a b : Records) :
    (hits m b = [] ∧ stateSelectLoop (a ++ b) m a.length = .ok (0, (a ++ b).length)) ∨
    ∃ b1 r b2, b = b1 ++ r :: b2 ∧ checkBitmap m r.publishState = true ∧ hits m b = r.packetId :: hits m b2 ∧
      stateSelectLoop (a ++ b) m a.length = .ok (r.packetId, (a ++ b1 ++ [r]).length) := by
  cases hf : b.find? (fun r => checkBitmap m r.publishState) with
  | none =>
    left
    have hall : ∀ r ∈ b, checkBitmap m r.publishState = false := by
      intro r hr
      have := List.find?_eq_none.mp hf r hr
      simpa using this
    refine ⟨?_, stateSelectLoop_none m b a hall⟩
    unfold hits
    rw [List.filter_eq_nil_iff.mpr (by intro r hr; simp [hall r hr])]
    rfl
  | some r =>
    right
    obtain ⟨hr, b₁, b₂, hb, hb₁⟩ := List.find?_eq_some_iff_append.mp hf
    have hb₁' : ∀ x ∈ b₁, checkBitmap m x.publishState = false := by
      intro x hx; simpa using hb₁ x hx
    refine ⟨b₁, r, b₂, hb, hr, ?_, ?_⟩
    · unfold hits
      have he : b₁.filter (fun r => checkBitmap m r.publishState) = [] := by
        rw [List.filter_eq_nil_iff]; intro x hx; simp [hb₁' x hx]
      rw [hb, List.filter_append, he, List.nil_append, List.filter_cons, if_pos hr, List.map_cons]
    · have := stateSelectLoop_hit m r b₂ hr b₁ a hb₁'
      rw [show a ++ b = a ++ b₁ ++ r :: b₂ by rw [hb]; simp, this]
      simp [Nat.add_assoc]

/-- A record of an array that holds in-flight publishes is unused or the record of an entry. -/
theorem Spec.Holds.entry {recs : Records} {cap : Nat} {l : Table OutPhase} (h : Holds outRec recs cap l) {r : Rec} (hr : r ∈ recs)
    (h0 : r.packetId ≠ 0) : ∃ p, r = outRec (r.packetId, p) ∧ l.phase r.packetId = some p := by
  have hm : r ∈ live recs := mem_live.mpr ⟨hr, h0⟩
  rw [h.live_eq] at hm
  obtain ⟨⟨id, p⟩, he, rfl⟩ := List.mem_map.mp hm
  have hid : (outRec (id, p)).packetId = id := keepsId_out _
  refine ⟨p, by rw [hid], ?_⟩
  rw [hid]
  obtain ⟨a, b, rfl⟩ := List.append_of_mem he
  exact phase_split (pairwise_split h.distinct).1

/-- The ids of the records in use are different. -/
theorem Spec.Holds.ids {recs : Records} {cap : Nat} {l : Table OutPhase} (h : Holds outRec recs cap l) {a b : Records} {r : Rec}
    (hr : recs = a ++ r :: b) (h0 : r.packetId ≠ 0) : ∀ x ∈ a, x.packetId ≠ r.packetId := by
  intro x hx he
  have hl : live recs = live a ++ r :: live b := by
    rw [hr]; unfold live; rw [List.filter_append, List.filter_cons, if_pos (by simpa using h0)]
  have hp : (live recs).Pairwise fun u v => u.packetId ≠ v.packetId := by
    rw [h.live_eq, List.pairwise_map]
    refine h.distinct.imp ?_
    intro u v huv
    rw [keepsId_out, keepsId_out]; exact huv
  rw [hl, List.pairwise_append] at hp
  exact hp.2.2 x (mem_live.mpr ⟨hx, by rw [he]; exact h0⟩) r (by simp) he

theorem findInRecord_at {a b : Records} {r : Rec} (h0 : r.packetId ≠ 0) (ha : ∀ x ∈ a, x.packetId ≠ r.packetId) :
    findInRecord (a ++ r :: b) r.packetId = .ok (some (a.length, r)) := by
  rcases findInRecord_spec h0 (a ++ r :: b) with ⟨h1, _⟩ | ⟨a', r', b', h1, h2, h3, h4⟩
  · exact absurd rfl (h1 r (by simp))
  · rw [h4]
    have : a = a' ∧ r = r' := by
      rcases List.append_eq_append_iff.mp h1 with ⟨c, e1, e2⟩ | ⟨c, e1, e2⟩
      · cases c with
        | nil => simp at e1 e2; exact ⟨e1.symm, e2.1⟩
        | cons x c =>
          simp at e2
          exact absurd rfl (by have := h3 x (by rw [e1]; simp); rw [← e2.1] at this; exact this)
      · cases c with
        | nil => simp at e1 e2; exact ⟨e1, e2.1.symm⟩
        | cons x c =>
          simp at e2
          exact absurd h2 (by have := ha x (by rw [e1]; simp); rw [← e2.1] at this; exact this)
    rw [this.1, this.2]

/-- Sending a PUBREL leaves every record where it is. -/
theorem stateCall_pubrel {t : Tables} {s : InFlight} (h : Represents t s) {a b : Records} {r : Rec} (hr : t.outgoing = a ++ r :: b)
    (hs : checkBitmap (bitmap [.pubCompPending, .pubRelSend]) r.publishState = true) :
    r.packetId ≠ 0 ∧ (∃ p, s.out.phase r.packetId = some p ∧ isPubrel p = true) ∧
    stateCall t (.ack .send .pubrel r.packetId) =
      .ok ((.success, some .pubCompPending), { t with outgoing := a ++ { r with publishState := .pubCompPending } :: b }) := by
  have hm : r ∈ t.outgoing := by rw [hr]; simp
  have h0 : r.packetId ≠ 0 := by
    intro h0
    rw [h.1.clean r hm h0] at hs
    exact absurd hs (by decide)
  obtain ⟨p, hp, hph⟩ := h.1.entry hm h0
  have hq : p = .sendPubrel ∨ p = .awaitPubcomp := by
    rw [pubrelMask, hp] at hs
    revert hs
    cases p <;> simp [outRec]
  refine ⟨h0, ⟨p, hph, by rcases hq with rfl | rfl <;> rfl⟩, ?_⟩
  have hf := findInRecord_at (b := b) h0 (h.1.ids hr h0)
  have hn : calculateStateAck .pubrel .send r.qos = .pubCompPending := by rw [hp]; rcases hq with rfl | rfl <;> rfl
  have e : updateStateAck (a ++ r :: b) a.length r.packetId r.publishState .pubCompPending =
      .ok (.success, a ++ { r with publishState := .pubCompPending } :: b) := by
    rcases hq with rfl | rfl
    · have hps : r.publishState = .pubRelSend := by rw [hp]; rfl
      exact updateStateAck_goto (by rw [hps]; decide) (by rw [hps]; decide) (by decide) (by decide)
    · have hps : r.publishState = .pubCompPending := by rw [hp]; rfl
      rw [hps, updateStateAck_same (by decide), ← hps]
  have ho : isPublishOutgoing .pubrel .send = true := rfl
  have e2 : updateStateAckApi t r.packetId .pubrel .send =
      .ok (.success, some .pubCompPending, { t with outgoing := a ++ { r with publishState := .pubCompPending } :: b }) := by
    unfold updateStateAckApi
    rw [if_neg h0]
    dsimp only
    rw [ho, if_pos rfl, hr, hf]
    simp only [Res.ok_bind, hn, e, Res.pure_eq, if_true]
  show (do let (st, o, t) ← updateStateAckApi t r.packetId .pubrel .send; pure ((st, o), t)) = _
  rw [e2]; rfl

/-! ### The PUBRELs -/

/-- The entries whose PUBREL has been sent wait for the PUBCOMP. -/
def released (done : List UInt16) (l : Table OutPhase) : Table OutPhase :=
  l.map fun e => if e.1 ∈ done then (e.1, .awaitPubcomp) else e

theorem released_nil (l : Table OutPhase) : released [] l = l := by simp [released]

theorem released_cons (id : UInt16) (done : List UInt16) (l : Table OutPhase) :
    released done (l.set id .awaitPubcomp) = released (id :: done) l := by
  unfold released Table.set
  rw [List.map_map]
  apply List.map_congr_left
  intro e _
  by_cases h : e.1 = id
  · by_cases h2 : id ∈ done <;> simp [h, h2]
  · simp [h]

/-- What sending the PUBRELs for `todo` did. -/
structure PubrelsDone (todo : List UInt16) (s : InFlight) (w : World) (st : Status) (es : List Event) (w' : World) : Prop where
  kinds : ∀ e ∈ es, isAckEvent e = true
  ctx : ∃ t b T, w'.ctx = { w.ctx with lastPacketTxTime := t, connectStatus := afterFail (hasFail es) w.ctx.connectStatus,
                                       controlPacketSent := b, tables := T }
  cases : ∃ done rest, todo = done ++ rest ∧ Represents w'.ctx.tables { s with out := released done s.out } ∧
    (st = .success ∧ rest = [] ∧ hasFail es = false ∧ wire es = todo.flatMap (ackPacket .pubrel) ∧
        w'.ctx.tables.outgoing.length = w.ctx.tables.outgoing.length ∨
      st = .sendFailed ∧ ∃ id rest' part, rest = id :: rest' ∧ part <+: ackPacket .pubrel id ∧ part ≠ ackPacket .pubrel id ∧
        wire es = done.flatMap (ackPacket .pubrel) ++ part)

theorem step_pubrel {s : InFlight} {id : UInt16} {p : OutPhase} (h0 : id ≠ 0) (hp : s.out.phase id = some p) (hq : isPubrel p = true) :
    step s (.ack .send .pubrel id) = ((.success, some .pubCompPending), { s with out := s.out.set id .awaitPubcomp }) := by
  simp only [step, if_neg h0, forOutgoing, if_true, ackTable, hp]
  cases p <;> first | rfl | cases hq

abbrev pubrelBits : Nat := bitmap [.pubCompPending, .pubRelSend]

theorem hits_set (a b : Records) (r r' : Rec) (h : checkBitmap pubrelBits r.publishState = checkBitmap pubrelBits r'.publishState)
    (hid : r.packetId = r'.packetId) : hits pubrelBits (a ++ r :: b) = hits pubrelBits (a ++ r' :: b) := by
  simp only [hits, List.filter_append, List.filter_cons, h]
  split <;> simp [hid]

theorem resendPubrels_tr {V : Prop} (g : Cfg) : ∀ (n : Nat) (a b : Records) (s : InFlight) (w : World), w.ctx.tables.outgoing = a ++ b →
    b.length < n → Represents w.ctx.tables s → w.ctx.connectStatus = .connected →
    Tr V false (resendPubrels g n a.length) (fun st es h' w' => h' = false ∧ PubrelsDone (hits pubrelBits b) s w st es w')
      (AckX ((hits pubrelBits b).flatMap (ackPacket .pubrel))) w := by
  intro n
  induction n with
  | zero => intro a b s w _ h; omega
  | succ n ih =>
    intro a b s w hab hb hrep hc
    unfold resendPubrels
    refine Tr.getCtx ?_
    rcases stateSelectLoop_cases pubrelBits a b with ⟨h1, h2⟩ | ⟨b1, r, b2, h1, h2, h3, h4⟩
    · refine Tr.liftOk (a := (0, (a ++ b).length, none)) ?_ ?_
      · unfold pubrelToResend
        rw [hab, stateSelect_pubrel, h2]; rfl
      refine Tr.ite (fun _ => Tr.pure ⟨rfl, by simp, ?_, [], [], h1, ?_, Or.inl ⟨rfl, rfl, rfl, by rw [h1]; rfl, rfl⟩⟩) (fun h => absurd rfl h)
      · exact ⟨w.ctx.lastPacketTxTime, w.ctx.controlPacketSent, w.ctx.tables, by simp [hasFail, afterFail_false]⟩
      · rw [released_nil]; exact hrep
    · have hsplit : w.ctx.tables.outgoing = (a ++ b1) ++ r :: b2 := by rw [hab, h1]; simp
      obtain ⟨h0, ⟨p, hp, hq⟩, hcall⟩ := stateCall_pubrel hrep hsplit h2
      refine Tr.liftOk (a := (r.packetId, (a ++ b1 ++ [r]).length, some .pubRelSend)) ?_ ?_
      · unfold pubrelToResend
        rw [hab, stateSelect_pubrel, h4]
        show Res.ok (_, _, if r.packetId ≠ 0 then some PubState.pubRelSend else none) = _
        rw [if_pos h0]
      refine Tr.ite (fun h => absurd h h0) (fun _ => ?_)
      have hxb : ackBytes .pubRelSend r.packetId = ackPacket .pubrel r.packetId := rfl
      refine Tr.bind (R' := fun st es h' w' => h' = false ∧ AckDone r.packetId .pubRelSend w st es w')
        (Tr.mono (sendPublishAcks_tr g r.packetId .pubRelSend w) (fun _ _ _ _ _ h => h) ?_) ?_
      · intro es hes
        refine ⟨hes.1, ?_⟩
        rw [h3, List.flatMap_cons]
        exact hes.2.trans (List.prefix_append _ _)
      · rintro st es h' w1 f1 ⟨rfl, hd⟩
        obtain ⟨t, cs, T, hctx⟩ := hd.ctx
        rcases hd.cases with ⟨e, _⟩ | ⟨ty, _, e, _⟩ | ⟨ty, _, _, e, _⟩ | ⟨ty, e1, _, _, e4, e5, e6, e7⟩ | ⟨ty, e1, _, _, e4, e5, ⟨o, e6⟩, e7⟩
        · cases e
        · exact absurd e h0
        · exact absurd hc e
        · obtain rfl : ty = .pubrel := by cases e1; rfl
          refine Tr.ite (fun _ => Tr.pure ⟨rfl, by simpa using hd.kinds, by simpa using hd.ctx, [], hits pubrelBits b, rfl, ?_, ?_⟩)
            (fun h => absurd (by rw [e6]; decide) h)
          · rw [released_nil, e7.1]; exact hrep
          · refine Or.inr ⟨e6, r.packetId, hits pubrelBits b2, wire es, h3, e4, e5, ?_⟩
            simp
        · obtain rfl : ty = .pubrel := by cases e1; rfl
          rw [hcall] at e6
          have hst : st = .success := by injection e6 with e6; exact (Prod.mk.inj (Prod.mk.inj e6).1).1.symm
          have htab : w1.ctx.tables.outgoing = a ++ b1 ++ [{ r with publishState := .pubCompPending }] ++ b2 := by
            injection e6 with e6
            rw [← (Prod.mk.inj e6).2]; simp
          refine Tr.ite (fun h => absurd hst h) (fun _ => ?_)
          have hrep1 : Represents w1.ctx.tables { s with out := s.out.set r.packetId .awaitPubcomp } := by
            have := (e7 s hrep).2
            rwa [step_pubrel h0 hp hq] at this
          have hc1 : w1.ctx.connectStatus = .connected := by rw [hctx, e5, hc]; rfl
          have hcur : (a ++ b1 ++ [r]).length = (a ++ b1 ++ [{ r with publishState := PubState.pubCompPending }]).length := by simp
          rw [hcur]
          have hlen : b2.length < n := by
            have := congrArg List.length h1
            simp at this; omega
          refine Tr.mono (ih _ b2 { s with out := s.out.set r.packetId .awaitPubcomp } w1 htab hlen hrep1 hc1) ?_ ?_
          · rintro st2 es2 h' w2 f2 ⟨rfl, hd2⟩
            obtain ⟨t2, cs2, T2, hctx2⟩ := hd2.ctx
            obtain ⟨done, rest, k1, k2, k3⟩ := hd2.cases
            refine ⟨rfl, ?_, ⟨t2, cs2, T2, ?_⟩, r.packetId :: done, rest, by rw [h3, k1]; rfl, ?_, ?_⟩
            · intro e he
              rcases List.mem_append.mp he with he | he
              · exact hd.kinds e he
              · exact hd2.kinds e he
            · rw [hctx2, hctx, hasFail_append, ← afterFail_or]
            · rw [← released_cons]; exact k2
            · rcases k3 with ⟨m1, m2, m3, m4, m5⟩ | ⟨m1, id, rest', part, m2, m3, m4, m5⟩
              · refine Or.inl ⟨m1, m2, by rw [hasFail_append, e5, m3]; rfl, ?_, ?_⟩
                · rw [wire_append, e4, m4, h3, List.flatMap_cons]
                · rw [m5, htab, hsplit]; simp
              · refine Or.inr ⟨m1, id, rest', part, m2, m3, m4, ?_⟩
                rw [wire_append, e4, m5, List.flatMap_cons, List.append_assoc]
          · intro es2 hes2
            refine ⟨?_, ?_⟩
            · intro e he
              rcases List.mem_append.mp he with he | he
              · exact hd.kinds e he
              · exact hes2.1 e he
            · rw [wire_append, e4, h3, List.flatMap_cons]
              exact (List.prefix_append_right_inj _).mpr hes2.2

/-! ### The PUBLISHes -/

abbrev publishBits : Nat := bitmap [.publishSend, .pubAckPending, .pubRecPending]

theorem Tr.retrieve {V : Prop} {h : Bool} {α : Type} {w : World} {X : List Event → Prop} {id : UInt16} {k : Option (List UInt8) → M α}
    {R : α → List Event → Bool → World → Prop} (hx : X [])
    (hR : ∀ p w', w'.ctx = w.ctx →
      Tr V h (k p) (fun a es h' w' => R a (.retrieve id p :: es) h' w') (fun es => X (.retrieve id p :: es)) w') :
    Tr V h (retrieveCallback id >>= k) R X w := by
  unfold Tr
  rw [wp_bind]
  refine wp_retrieveCallback (Fxs.refl h w hx) ?_
  intro p rest hc
  have f : Fx h w [.retrieve id p] h { w with env := { w.env with retrieves := rest }, trace := w.trace ++ [.retrieve id p] } :=
    Fx.plain rfl rfl rfl rfl
  exact Tr.after (R := R) (X := X) f (hR p _ rfl)

/-- The events of resending publishes. -/
def isResendEvent : Event → Bool
  | .retrieve .. | .pre | .post | .sent .. | .time _ => true
  | _ => false

theorem retrieved_of_sends {es : List Event} (h : ∀ e ∈ es, isSendOrTime e = true) : retrieved es = [] := by
  unfold retrieved
  rw [List.filterMap_eq_nil_iff]
  intro e he
  have := h e he
  cases e <;> simp_all [isSendOrTime]

theorem isResendEvent_of {e : Event} (h : isSendOrTime e = true) : isResendEvent e = true := by
  cases e <;> simp_all [isSendOrTime, isResendEvent]

/-- Sending the retrieved packet between the hooks: result, events and world. -/
def SentStored (bytes : List UInt8) (w : World) (r : Option Nat) (es : List Event) (w' : World) : Prop :=
  ∃ snd, es = .pre :: (snd ++ [.post]) ∧ (∀ e ∈ snd, isSendOrTime e = true) ∧
    (∃ t, w'.ctx = { w.ctx with lastPacketTxTime := t, connectStatus := afterFail (hasFail es) w.ctx.connectStatus }) ∧
    (r = some bytes.length ∧ wire es = bytes ∧ hasFail es = false ∨ r ≠ some bytes.length ∧ wire es <+: bytes ∧ wire es ≠ bytes)

theorem sendStored_tr {V : Prop} (g : Cfg) (bytes : List UInt8) (w : World) (hc : w.ctx.connectStatus = .connected) :
    Tr V false (do preHook; let r ← sendBuffer g bytes; postHook; pure r)
      (fun r es h' w' => h' = false ∧ SentStored bytes w r es w') (AckX bytes) w := by
  refine Tr.preHook ?_
  refine Tr.bind (R' := fun r es h' w' => h' = true ∧ ∃ n, SendDelta (w.add .pre) es w' ∧ n ≤ bytes.length ∧ wire es = bytes.take n ∧
      hasFail es = r.isNone ∧ (∀ m, r = some m → m = n) ∧ (r = none → n < bytes.length)) ?_ ?_
  · refine wp_mono (sendBuffer_spec g bytes (w.add .pre)) ?_ ?_ (fun _ h => h.elim)
    · rintro r w' ⟨es, n, hd, h⟩
      exact ⟨es, true, hd.fx hc, rfl, n, hd, h⟩
    · rintro w' ⟨es, hd, hs⟩
      exact ⟨es, true, hd.fx hc, SendX.hooked ⟨hd.kinds, hs⟩⟩
  · rintro r es h' w1 f1 ⟨rfl, n, hd, hn, hw, hf, hm, hm0⟩
    refine Tr.postHook (Tr.pure ⟨rfl, es, rfl, hd.kinds, ?_, ?_⟩)
    · obtain ⟨t, ht⟩ := hd.ctx
      refine ⟨t, ?_⟩
      show w1.ctx = _
      rw [ht, hasFail_cons_hook _ _ (Or.inl rfl), hasFail_append]
      simp [hasFail, isFail, World.add]
    · have hwire : wire (.pre :: (es ++ [.post])) = wire es := by
        rw [wire_cons_of_noSent _ _ rfl, wire_append]; simp [wire]
      have hfail : hasFail (.pre :: (es ++ [.post])) = hasFail es := by
        rw [hasFail_cons_hook _ _ (Or.inl rfl), hasFail_append]; simp [hasFail, isFail]
      rw [hwire, hfail, hw]
      by_cases hr : r = some bytes.length
      · left
        have := hm _ hr
        exact ⟨hr, by rw [List.take_of_length_le (by omega)], by rw [hf, hr]; rfl⟩
      · right
        refine ⟨hr, List.take_prefix _ _, take_ne ?_⟩
        cases r with
        | none => exact hm0 rfl
        | some m =>
          have := hm m rfl
          subst this
          have : m ≠ bytes.length := fun h => hr (by rw [h])
          omega

/-- The packets sent again, as the callback would have to report them. -/
def asRetrieved (done : List (UInt16 × List UInt8)) : List (UInt16 × Option (List UInt8)) := done.map fun x => (x.1, some x.2)

/-- What sending the stored publishes `todo` again did. -/
structure PublishesDone (todo : List UInt16) (w : World) (st : Status) (es : List Event) (w' : World) : Prop where
  kinds : ∀ e ∈ es, isResendEvent e = true
  ctx : ∃ t, w'.ctx = { w.ctx with lastPacketTxTime := t, connectStatus := afterFail (hasFail es) w.ctx.connectStatus }
  cases : ∃ (done : List (UInt16 × List UInt8)) (rest : List UInt16), todo = done.map (·.1) ++ rest ∧
    ((st = .success ∧ rest = [] ∧ hasFail es = false ∧ retrieved es = asRetrieved done ∧ wire es = done.flatMap (·.2)) ∨
     (st = .publishRetrieveFailed ∧ hasFail es = false ∧ wire es = done.flatMap (·.2) ∧
       ∃ id rest', rest = id :: rest' ∧ retrieved es = asRetrieved done ++ [(id, none)]) ∨
     (st = .sendFailed ∧ ∃ id rest' bytes part, rest = id :: rest' ∧ retrieved es = asRetrieved done ++ [(id, some bytes)] ∧
       part <+: bytes ∧ part ≠ bytes ∧ wire es = done.flatMap (·.2) ++ part))

/-- What happened when resending stored publishes did not come to an end. -/
def PublishesX (todo : List UInt16) (es : List Event) : Prop :=
  (∀ e ∈ es, isResendEvent e = true) ∧ (retrieved es).map (·.1) <+: todo ∧ wire es <+: (retrieved es).flatMap fun x => x.2.getD []

theorem asRetrieved_getD (done : List (UInt16 × List UInt8)) :
    (asRetrieved done).flatMap (fun x => x.2.getD []) = done.flatMap (·.2) := by
  unfold asRetrieved
  rw [List.flatMap_map]; rfl

theorem retrieved_cons (id : UInt16) (p : Option (List UInt8)) (es : List Event) :
    retrieved (.retrieve id p :: es) = (id, p) :: retrieved es := rfl

theorem isResendEvent_of_ack {e : Event} (h : isAckEvent e = true) : isResendEvent e = true := by
  cases e <;> simp_all [isAckEvent, isResendEvent]

theorem retrieved_of_acks {es : List Event} (h : ∀ e ∈ es, isAckEvent e = true) : retrieved es = [] := by
  unfold retrieved
  rw [List.filterMap_eq_nil_iff]
  intro e he
  have := h e he
  cases e <;> simp_all [isAckEvent]

theorem resendPublishes_tr {V : Prop} (g : Cfg) : ∀ (n : Nat) (a b : Records) (s : InFlight) (w : World), w.ctx.tables.outgoing = a ++ b →
    b.length < n → Represents w.ctx.tables s → w.ctx.connectStatus = .connected →
    Tr V false (resendPublishes g n a.length) (fun st es h' w' => h' = false ∧ PublishesDone (hits publishBits b) w st es w')
      (PublishesX (hits publishBits b)) w := by
  intro n
  induction n with
  | zero => intro a b s w _ h; omega
  | succ n ih =>
    intro a b s w hab hb hrep hc
    unfold resendPublishes
    refine Tr.getCtx ?_
    rcases stateSelectLoop_cases publishBits a b with ⟨h1, h2⟩ | ⟨b1, r, b2, h1, h2, h3, h4⟩
    · refine Tr.liftOk (a := (0, (a ++ b).length)) ?_ ?_
      · unfold publishToResend
        rw [hab, stateSelect_publish, h2]
      refine Tr.ite (fun _ => Tr.pure ⟨rfl, by simp, ?_, [], [], h1, Or.inl ⟨rfl, rfl, rfl, rfl, rfl⟩⟩) (fun h => absurd rfl h)
      exact ⟨w.ctx.lastPacketTxTime, by simp [hasFail, afterFail_false]⟩
    · have hm : r ∈ w.ctx.tables.outgoing := by rw [hab, h1]; simp
      have h0 : r.packetId ≠ 0 := by
        intro h0
        rw [hrep.1.clean r hm h0] at h2
        exact absurd h2 (by decide)
      refine Tr.liftOk (a := (r.packetId, (a ++ b1 ++ [r]).length)) ?_ ?_
      · unfold publishToResend
        rw [hab, stateSelect_publish, h4]
      refine Tr.ite (fun h => absurd h h0) (fun _ => ?_)
      refine Tr.retrieve ⟨by simp, List.nil_prefix, List.nil_prefix⟩ ?_
      intro p w1 hw1
      cases p with
      | none =>
        refine Tr.pure ⟨rfl, by simp [isResendEvent], ⟨w.ctx.lastPacketTxTime, ?_⟩, [], hits publishBits b, rfl, Or.inr (Or.inl ⟨rfl, rfl, rfl,
          r.packetId, hits publishBits b2, h3, rfl⟩)⟩
        rw [hw1]; simp [hasFail, isFail, afterFail_false]
      | some bytes =>
        show Tr V false (do preHook; let x ← sendBuffer g bytes; postHook
                            if x ≠ some bytes.length then pure Status.sendFailed else resendPublishes g n (a ++ b1 ++ [r]).length) _ _ _
        have hre : (do preHook; let x ← sendBuffer g bytes; postHook
                       if x ≠ some bytes.length then pure Status.sendFailed else resendPublishes g n (a ++ b1 ++ [r]).length) =
            (do let x ← (do preHook; let x ← sendBuffer g bytes; postHook; pure x)
                if x ≠ some bytes.length then pure Status.sendFailed else resendPublishes g n (a ++ b1 ++ [r]).length) := by
          simp only [bind_assoc, pure_bind]
        rw [hre]
        refine Tr.bind (R' := fun x es h' w' => h' = false ∧ SentStored bytes w1 x es w')
          (Tr.mono (sendStored_tr g bytes w1 (by rw [hw1]; exact hc)) (fun _ _ _ _ _ h => h) ?_) ?_
        · intro es hes
          refine ⟨?_, ?_, ?_⟩
          · intro e he
            rcases List.mem_cons.mp he with rfl | he
            · rfl
            · exact isResendEvent_of_ack (hes.1 e he)
          · rw [retrieved_cons, retrieved_of_acks hes.1, h3]
            exact ⟨_, rfl⟩
          · rw [retrieved_cons, retrieved_of_acks hes.1, wire_cons_of_noSent _ _ rfl]
            simpa using hes.2
        · rintro x es h' w2 f2 ⟨rfl, snd, hes, hk, ⟨t, ht⟩, hx⟩
          rw [hw1] at ht
          have hkind : ∀ e ∈ Event.retrieve r.packetId (some bytes) :: es, isResendEvent e = true := by
            intro e he
            rw [hes] at he
            simp only [List.mem_cons, List.mem_append, List.not_mem_nil, or_false] at he
            rcases he with rfl | rfl | he | rfl
            · rfl
            · rfl
            · exact isResendEvent_of (hk e he)
            · rfl
          have hret : retrieved es = [] := by
            rw [hes]
            show retrieved ([.pre] ++ (snd ++ [.post])) = []
            rw [retrieved_append, retrieved_append, retrieved_of_sends hk]; rfl
          have hfr : hasFail (.retrieve r.packetId (some bytes) :: es) = hasFail es := by simp [hasFail, isFail]
          refine Tr.ite ?_ ?_
          · intro hne
            rcases hx with ⟨e, _⟩ | ⟨_, e1, e2⟩
            · exact absurd e hne
            · refine Tr.pure ⟨rfl, by simpa using hkind, ⟨t, by simpa [hfr] using ht⟩, [], hits publishBits b, rfl, Or.inr (Or.inr ⟨rfl,
                r.packetId, hits publishBits b2, bytes, wire es, h3, ?_, e1, e2, ?_⟩)⟩
              · rw [List.append_nil, retrieved_cons, hret]; rfl
              · rw [List.append_nil, wire_cons_of_noSent _ _ rfl]; rfl
          · intro hne
            rcases hx with ⟨_, e1, e2⟩ | ⟨e, _⟩
            rotate_left
            · exact absurd e hne
            have hc2 : w2.ctx.connectStatus = .connected := by rw [ht, e2, hc]; rfl
            have htab : w2.ctx.tables = w.ctx.tables := by rw [ht]
            have hlen : b2.length < n := by
              have := congrArg List.length h1
              simp at this; omega
            refine Tr.mono (ih (a ++ b1 ++ [r]) b2 s w2 (by rw [htab, hab, h1]; simp) hlen (by rw [htab]; exact hrep) hc2) ?_ ?_
            · rintro st es2 h' w3 f3 ⟨rfl, hd⟩
              obtain ⟨t3, ht3⟩ := hd.ctx
              obtain ⟨done, rest, k1, k2⟩ := hd.cases
              have hf3 : hasFail (.retrieve r.packetId (some bytes) :: (es ++ es2)) = hasFail es2 := by
                show hasFail ((.retrieve r.packetId (some bytes) :: es) ++ es2) = _
                rw [hasFail_append, hfr, e2]; rfl
              have hr3 : retrieved (.retrieve r.packetId (some bytes) :: (es ++ es2)) = (r.packetId, some bytes) :: retrieved es2 := by
                rw [retrieved_cons, retrieved_append, hret]; rfl
              have hw3 : wire (.retrieve r.packetId (some bytes) :: (es ++ es2)) = bytes ++ wire es2 := by
                rw [wire_cons_of_noSent _ _ rfl, wire_append, e1]
              refine ⟨rfl, ?_, ⟨t3, ?_⟩, (r.packetId, bytes) :: done, rest, by rw [h3, k1]; rfl, ?_⟩
              · intro e he
                rcases List.mem_cons.mp he with rfl | he
                · rfl
                · rcases List.mem_append.mp he with he | he
                  · exact hkind e (List.mem_cons_of_mem _ he)
                  · exact hd.kinds e he
              · rw [ht3, ht, hf3, e2, afterFail_false]
              · rw [hf3, hr3, hw3]
                rcases k2 with ⟨m1, m2, m3, m4, m5⟩ | ⟨m1, m2, m3, id, rest', m4, m5⟩ | ⟨m1, id, rest', bs, part, m2, m3, m4, m5, m6⟩
                · exact Or.inl ⟨m1, m2, m3, by rw [m4]; rfl, by rw [m5]; rfl⟩
                · exact Or.inr (Or.inl ⟨m1, m2, by rw [m3]; rfl, id, rest', m4, by rw [m5]; rfl⟩)
                · exact Or.inr (Or.inr ⟨m1, id, rest', bs, part, m2, by rw [m3]; rfl, m4, m5, by rw [m6, ← List.append_assoc]; rfl⟩)
            · rintro es2 ⟨g1, g2, g3⟩
              refine ⟨?_, ?_, ?_⟩
              · intro e he
                rcases List.mem_cons.mp he with rfl | he
                · rfl
                · rcases List.mem_append.mp he with he | he
                  · exact hkind e (List.mem_cons_of_mem _ he)
                  · exact g1 e he
              · rw [retrieved_cons, retrieved_append, hret, h3]
                exact (List.prefix_append_right_inj [r.packetId]).mpr g2
              · rw [retrieved_cons, retrieved_append, hret, wire_cons_of_noSent _ _ rfl, wire_append, e1]
                exact (List.prefix_append_right_inj bytes).mpr g3

/-! ### Both -/

theorem hits_pubrel {recs : Records} {cap : Nat} {l : Table OutPhase} (h : Holds outRec recs cap l) : hits pubrelBits recs = idsOf isPubrel l :=
  filter_hits h _ isPubrel (by decide) (by intro id p; rw [pubrelMask]; cases p <;> rfl)

theorem hits_publish {recs : Records} {cap : Nat} {l : Table OutPhase} (h : Holds outRec recs cap l) : hits publishBits recs = idsOf isUnacked l :=
  filter_hits h _ isUnacked (by decide) (by intro id p; rw [publishMask]; cases p <;> rfl)

theorem idsOf_released {l : Table OutPhase} (hd : l.Pairwise fun x y => x.1 ≠ y.1) : idsOf isUnacked (released (idsOf isPubrel l) l) = idsOf isUnacked l := by
  have key : ∀ e ∈ l, isUnacked e.2 = true → e.1 ∉ idsOf isPubrel l := by
    intro e he hu hm
    unfold idsOf at hm
    obtain ⟨e', he', h1⟩ := List.mem_map.mp hm
    obtain ⟨he', h2⟩ := List.mem_filter.mp he'
    obtain ⟨a, b, rfl⟩ := List.append_of_mem he
    obtain ⟨d1, d2, _⟩ := pairwise_split (id := e.1) (p := e.2) hd
    rcases List.mem_append.mp he' with h | h
    · exact d1 e' h h1
    · rcases List.mem_cons.mp h with rfl | h
      · rw [isPubrel, hu] at h2; cases h2
      · exact d2 e' h h1
  unfold idsOf released at *
  rw [List.filter_map, List.map_map]
  have e1 : l.filter ((fun e => isUnacked e.2) ∘ fun e => if e.1 ∈ List.map (·.1) (List.filter (fun e => isPubrel e.2) l) then (e.1, OutPhase.awaitPubcomp) else e) =
      l.filter (fun e => isUnacked e.2) := by
    apply List.filter_congr
    intro e he
    simp only [Function.comp]
    cases hu : isUnacked e.2 with
    | true => rw [if_neg (key e he hu)]; exact hu
    | false =>
      split
      · rfl
      · exact hu
  rw [e1]
  apply List.map_congr_left
  intro e _
  simp only [Function.comp]
  split <;> rfl

/-- What the resumption of the session did: first the PUBRELs, then the stored publishes. -/
def Resumed (s : InFlight) (w : World) (st : Status) (es : List Event) (w' : World) : Prop :=
  ∃ a st1 w1 b, es = a ++ b ∧ PubrelsDone (idsOf isPubrel s.out) s w st1 a w1 ∧
    (((st1 ≠ .success ∨ w.ctx.retransmits = false) ∧ b = [] ∧ w' = w1 ∧ st = st1) ∨
     (st1 = .success ∧ w.ctx.retransmits = true ∧ PublishesDone (idsOf isUnacked s.out) w1 st b w'))

/-- What happened when the resumption did not come to an end. -/
def ResumeX (s : InFlight) (es : List Event) : Prop :=
  ∃ a b, es = a ++ b ∧ AckX ((idsOf isPubrel s.out).flatMap (ackPacket .pubrel)) a ∧ PublishesX (idsOf isUnacked s.out) b ∧
    (b ≠ [] → wire a = (idsOf isPubrel s.out).flatMap (ackPacket .pubrel))

theorem PublishesX.nil (l : List UInt16) : PublishesX l [] := ⟨by simp, List.nil_prefix, List.nil_prefix⟩

theorem handleUncleanSessionResumption_tr {V : Prop} (g : Cfg) (s : InFlight) (w : World) (hrep : Represents w.ctx.tables s)
    (hc : w.ctx.connectStatus = .connected) :
    Tr V false (handleUncleanSessionResumption g) (fun st es h' w' => h' = false ∧ Resumed s w st es w') (ResumeX s) w := by
  unfold handleUncleanSessionResumption
  refine Tr.getCtx ?_
  refine Tr.bind (R' := fun st es h' w' => h' = false ∧ PubrelsDone (idsOf isPubrel s.out) s w st es w') ?_ ?_
  · have := resendPubrels_tr (V := V) g (w.ctx.tables.outgoing.length + 1) [] w.ctx.tables.outgoing s w rfl (by omega) hrep hc
    rw [hits_pubrel hrep.1] at this
    refine Tr.mono this (fun _ _ _ _ _ h => h) ?_
    intro es hes
    exact ⟨es, [], by simp, hes, PublishesX.nil _, fun h => absurd rfl h⟩
  · rintro st1 a h' w1 f1 ⟨rfl, hd⟩
    refine Tr.ite ?_ ?_
    · rintro ⟨rfl, hr⟩
      obtain ⟨t, cs, T, hctx⟩ := hd.ctx
      obtain ⟨done, rest, k1, k2, k3⟩ := hd.cases
      rcases k3 with ⟨_, rfl, m3, m4, m5⟩ | ⟨m, _⟩
      rotate_left
      · cases m
      rw [List.append_nil] at k1
      subst k1
      have hlen : w1.ctx.tables.outgoing.length < w.ctx.tables.outgoing.length + 1 := by omega
      have hc1 : w1.ctx.connectStatus = .connected := by rw [hctx, m3, hc]; rfl
      have := resendPublishes_tr (V := V) g (w.ctx.tables.outgoing.length + 1) [] w1.ctx.tables.outgoing _ w1 rfl hlen k2 hc1
      rw [hits_publish k2.1, idsOf_released hrep.1.distinct] at this
      refine Tr.mono this ?_ ?_
      · rintro st es h' w2 f2 ⟨rfl, hd2⟩
        exact ⟨rfl, a, .success, w1, es, rfl, hd, Or.inr ⟨rfl, hr, hd2⟩⟩
      · intro es hes
        exact ⟨a, es, rfl, ⟨hd.kinds, by rw [m4]; exact List.prefix_refl _⟩, hes, fun _ => m4⟩
    · intro hno
      refine Tr.pure ⟨rfl, a, st1, w1, [], rfl, hd, Or.inl ⟨?_, rfl, rfl, rfl⟩⟩
      by_cases h : st1 = .success
      · right
        cases hr : w.ctx.retransmits with
        | false => rfl
        | true => exact absurd ⟨h, hr⟩ hno
      · exact Or.inl h

/-! ### Clearing -/

theorem clearStored_eq : ∀ (n : Nat) (a b : Records) (s : InFlight) (w : World), w.ctx.tables.outgoing = a ++ b → b.length < n →
    Represents w.ctx.tables s →
    clearStored n a.length w = .done () { w with trace := w.trace ++ (hits publishBits b).map .clear } := by
  intro n
  induction n with
  | zero => intro a b s w _ h; omega
  | succ n ih =>
    intro a b s w hab hb hrep
    unfold clearStored
    show M.bind getCtx _ w = _
    simp only [M.bind, getCtx]
    rcases stateSelectLoop_cases publishBits a b with ⟨h1, h2⟩ | ⟨b1, r, b2, h1, h2, h3, h4⟩
    · have e : publishToResend w.ctx.tables a.length = .ok (0, (a ++ b).length) := by
        unfold publishToResend
        rw [hab, stateSelect_publish, h2]
      rw [e, h1]
      show Out.done () w = _
      simp
    · have hm : r ∈ w.ctx.tables.outgoing := by rw [hab, h1]; simp
      have h0 : r.packetId ≠ 0 := by
        intro h0
        rw [hrep.1.clean r hm h0] at h2
        exact absurd h2 (by decide)
      have e : publishToResend w.ctx.tables a.length = .ok (r.packetId, (a ++ b1 ++ [r]).length) := by
        unfold publishToResend
        rw [hab, stateSelect_publish, h4]
      have hlen : b2.length < n := by
        have := congrArg List.length h1
        simp at this; omega
      rw [e]
      show (if r.packetId = 0 then (pure () : M Unit) else (clearCallback r.packetId >>= fun _ => clearStored n (a ++ b1 ++ [r]).length)) w = _
      rw [if_neg h0]
      show clearStored n (a ++ b1 ++ [r]).length { w with trace := w.trace ++ [.clear r.packetId] } = _
      rw [ih (a ++ b1 ++ [r]) b2 s { w with trace := w.trace ++ [.clear r.packetId] } (by rw [hab, h1]; simp) hlen hrep, h3]
      simp

/-- The context after `handleCleanSession`. -/
def cleanedCtx (c : Ctx) : Ctx :=
  { c with index := 0, netBuf := List.replicate c.bufSize 0,
           tables := freshTables c.tables.outgoing.length c.tables.incoming.length }

/-- The stored publishes forgotten by a clean session. -/
def cleanClears (retr : Bool) (s : InFlight) : List Event := if retr then (idsOf isUnacked s.out).map .clear else []

theorem handleCleanSession_eq (w : World) (s : InFlight) (hrep : Represents w.ctx.tables s) :
    handleCleanSession w = .done .success { w with ctx := cleanedCtx w.ctx, trace := w.trace ++ cleanClears w.ctx.retransmits s } := by
  unfold handleCleanSession resetBuffer
  show M.bind (modifyCtx _) _ w = _
  simp only [M.bind, modifyCtx]
  cases hr : w.ctx.retransmits with
  | false =>
    simp only [Bind.bind, M.bind, getCtx, hr, Bool.false_eq_true, if_false, Pure.pure, M.pure, modifyCtx, cleanedCtx, cleanClears, freshTables,
      List.append_nil]
  | true =>
    simp only [Bind.bind, M.bind, getCtx, hr, if_true]
    have key := clearStored_eq (w.ctx.tables.outgoing.length + 1) [] w.ctx.tables.outgoing s
      { w with ctx := { w.ctx with netBuf := List.replicate w.ctx.bufSize 0, index := 0, retransmits := true } } rfl (Nat.lt_succ_self _) hrep
    rw [List.length_nil] at key
    rw [key]
    simp only [modifyCtx, Pure.pure, M.pure, cleanedCtx, cleanClears, freshTables, if_true, hits_publish hrep.1, hr]

end Mqtt
