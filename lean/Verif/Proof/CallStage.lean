/-
Which state the publish with a given packet id is in, from the acknowledgements that were presented.
-/
import Verif.Proof.CallLife
import Verif.Props.Status
import Verif.Proof.CallAck

namespace Mqtt
open Spec
set_option linter.unusedSimpArgs false

/-- A relation between the acknowledgements presented so far and the state that no call breaks holds in every history. -/
theorem Hist.track {g : Cfg} (hg : CfgOk g) {w w' : World} {h : List (ApiCall × ApiRet)} {oc ic : Nat} {i : UInt16} {R : List UInt8 → Option OutPhase → Prop}
    (hs : Hist g w h w') (hi : Inv oc ic w.ctx) (hr : ∀ x ∈ h, x.2 ≠ .connect .success (some false))
    (hcan : (ApiCall.cancelCallback i, ApiRet.status .success) ∉ h)
    (hstep : ∀ c r es a b l, Moves c r es i a b → ¬ (c = .cancelCallback i ∧ r = .status .success ∨ r = .connect .success (some false)) → R l a →
      R (l ++ acksOf i es) b)
    (h0 : ∀ s, Represents w.ctx.tables s → R [] (s.out.phase i)) {es : List Event} (hes : w'.trace = w.trace ++ es) :
    ∃ s', Represents w'.ctx.tables s' ∧ R (acksOf i es) (s'.out.phase i) := by
  induction hs generalizing es with
  | start =>
    obtain ⟨_, s, hrep, _⟩ := hi
    have : es = [] := List.append_cancel_left (as := w.trace) (by rw [← hes, List.append_nil])
    exact ⟨s, hrep, by rw [this]; exact h0 s hrep⟩
  | @call w1 w2 h e c r hs hv hc ih =>
    obtain ⟨es0, he0⟩ := hs.grows hg hi
    obtain ⟨s, hrep, hR⟩ := ih (fun x hx => hr x (List.mem_append_left _ hx)) (fun hx => hcan (List.mem_append_left _ hx)) he0
    obtain ⟨i1, _⟩ := hs.inv hg hi
    obtain ⟨es1, hl, hd⟩ := callIn_done hg hv i1 hrep hc
    obtain ⟨s', hrep', hm⟩ := Did.moves (w := { w1 with env := e }) hrep hd i
    have he : es = es0 ++ es1 := by
      have : w2.trace = w1.trace ++ es1 := hl.trace
      rw [this, he0, List.append_assoc] at hes
      exact (List.append_cancel_left hes).symm
    refine ⟨s', hrep', ?_⟩
    rw [he, acksOf_append]
    refine hstep _ _ _ _ _ _ hm ?_ hR
    rintro (⟨rfl, rfl⟩ | rfl)
    · exact hcan (by simp)
    · exact hr (c, _) (by simp) rfl

/-- A publish of QoS 1 that was sent. -/
def Track1 (l : List UInt8) (a : Option OutPhase) : Prop := l = [] → a = some .awaitPuback

/-- A publish of QoS 2 that was sent. -/
def Track2 (l : List UInt8) (a : Option OutPhase) : Prop :=
  (l = [] → a = some .awaitPubrec) ∧ (l = [0x50] → a = some .sendPubrel ∨ a = some .awaitPubcomp)

/-- A publish of QoS 2 whose PUBREL was sent. -/
def Track3 (l : List UInt8) (a : Option OutPhase) : Prop := l = [] → a = some .awaitPubcomp

theorem append_one {l x : List UInt8} {t : UInt8} (h : l ++ x = [t]) : l = [] ∧ x = [t] ∨ l = [t] ∧ x = [] := by
  cases l with
  | nil => exact Or.inl ⟨rfl, h⟩
  | cons a l =>
    rw [List.cons_append] at h
    injection h with h1 h2
    obtain ⟨rfl, rfl⟩ := List.append_eq_nil_iff.mp h2
    exact Or.inr ⟨by rw [h1], rfl⟩

theorem track1_step {i : UInt16} {c : ApiCall} {r : ApiRet} {es : List Event} {a b : Option OutPhase} {l : List UInt8} (h : Moves c r es i a b)
    (hn : ¬ (c = .cancelCallback i ∧ r = .status .success ∨ r = .connect .success (some false))) (hR : Track1 l a) : Track1 (l ++ acksOf i es) b := by
  intro hl
  obtain ⟨h1, h2⟩ := List.append_eq_nil_iff.mp hl
  have ha := hR h1
  cases h <;> simp_all

theorem track3_step {i : UInt16} {c : ApiCall} {r : ApiRet} {es : List Event} {a b : Option OutPhase} {l : List UInt8} (h : Moves c r es i a b)
    (hn : ¬ (c = .cancelCallback i ∧ r = .status .success ∨ r = .connect .success (some false))) (hR : Track3 l a) : Track3 (l ++ acksOf i es) b := by
  intro hl
  obtain ⟨h1, h2⟩ := List.append_eq_nil_iff.mp hl
  have ha := hR h1
  cases h <;> simp_all
  all_goals
    rename_i h3 h4
    rcases h3 with ⟨_, rfl⟩ | ⟨_, rfl⟩ <;> simp at h4

theorem track2_step {i : UInt16} {c : ApiCall} {r : ApiRet} {es : List Event} {a b : Option OutPhase} {l : List UInt8} (h : Moves c r es i a b)
    (hn : ¬ (c = .cancelCallback i ∧ r = .status .success ∨ r = .connect .success (some false))) (hR : Track2 l a) : Track2 (l ++ acksOf i es) b := by
  constructor
  · intro hl
    obtain ⟨h1, h2⟩ := List.append_eq_nil_iff.mp hl
    have ha := hR.1 h1
    cases h <;> simp_all
  · intro hl
    rcases append_one hl with ⟨h1, h2⟩ | ⟨h1, h2⟩
    · have ha := hR.1 h1
      cases h <;> simp_all
      rename_i h3
      rcases h3 with rfl | ⟨rfl, _⟩ <;> simp
    · have ha := hR.2 h1
      cases h <;> simp_all
      all_goals
        rename_i h3 h4
        rcases h3 with ⟨_, rfl⟩ | ⟨_, rfl⟩ <;> rcases ha with rfl | rfl <;> simp at h4

/-- A publish that was sent is awaiting its acknowledgement. -/
theorem step_sent_success {s : InFlight} {id : UInt16} {q : QoS} (hq : q ≠ .qos0) (h : (step s (.publish .send id q)).1.1 = .success) :
    (step s (.publish .send id q)).2.out.phase id = some (if q = .qos1 then .awaitPuback else .awaitPubrec) := by
  cases q with
  | qos0 => exact absurd rfl hq
  | _ =>
    simp only [step] at h ⊢
    split at h
    · cases h
    · rename_i h0
      rw [if_neg h0]
      cases hp : s.out.phase id with
      | none => rw [hp] at h; cases h
      | some p =>
        rw [hp] at h
        cases p <;> simp only [outQoS, sentPublish, ne_eq, not_true_eq_false, not_false_eq_true, if_true, if_false, reduceCtorEq] at h ⊢
        all_goals
          rw [phase_set, if_pos rfl, hp]
          rfl

theorem Did.published {g : Cfg} {s s' : InFlight} {w w' : World} {p : PublishInfo} {id : UInt16} {es : List Event}
    (h : Did g s w (.publish (some p) id) (.status .success) es w') (hq : p.qos ≠ .qos0) (hrep : Represents w'.ctx.tables s') :
    s'.out.phase id = some (if p.qos = .qos1 then .awaitPuback else .awaitPubrec) := by
  cases h with
  | publish _ h =>
    rcases h.cases with ⟨h1, _⟩ | ⟨_, h1, _⟩ | ⟨_, _, h1, _⟩ | ⟨_, zs, s1, st0, es0, w0, w1, h1, _, hsent, rfl, h2⟩
    · cases h1
    · unfold notConnectedStatus at h1; split at h1 <;> cases h1
    · exact absurd rfl h1
    · rcases h2 with ⟨h3, h4, _⟩ | ⟨_, h3, h2⟩
      · exact absurd h4.symm h3
      · have := represents_unique hrep h2
        subst this
        unfold noteSent at h3 ⊢
        rw [if_neg hq] at h3 ⊢
        exact step_sent_success hq h3.symm

/-- The state of a publish that was made, from the acknowledgements presented since then. -/
theorem Spec.Published.stage {g : Cfg} {h : List (ApiCall × ApiRet)} {w : World} {i : UInt16} {q : QoS} {es : List Event} (hp : Published g h w i q es)
    (hq : q ≠ .qos0) : ∃ s, Represents w.ctx.tables s ∧ (if q = .qos1 then Track1 else Track2) (acksOf i es) (s.out.phase i) := by
  obtain ⟨h1, h2, p, w0, w1, e0, rfl, k2, k3, hv, k4, k5, k6, k7, k8, k9⟩ := hp
  obtain ⟨hg, hidx, s0, hrep0⟩ := k3.good
  have hf : FromInit g (h1 ++ [(.publish (some p) i, .status .success)]) w1 := k3.append (.call (.start _) hv k4)
  obtain ⟨es1, hl, hd⟩ := callIn_done hg hv hidx hrep0 k4
  obtain ⟨_, _, hi⟩ := hf.inv
  by_cases hq1 : p.qos = .qos1
  · rw [if_pos hq1]
    refine Hist.track hg k6 hi k8 k9 (fun _ _ _ _ _ _ => track1_step) ?_ k7
    intro s hrep _
    rw [hd.published hq hrep, if_pos hq1]
  · rw [if_neg hq1]
    refine Hist.track hg k6 hi k8 k9 (fun _ _ _ _ _ _ => track2_step) ?_ k7
    intro s hrep
    refine ⟨fun _ => ?_, fun h => by cases h⟩
    rw [hd.published hq hrep, if_neg hq1]

/-- An acknowledgement in the state in which it is awaited is presented. -/
theorem react_accepts {s : InFlight} {retx m : Bool} {i : UInt16} {t : UInt8} (h0 : i ≠ 0) (h : Due t (s.out.phase i)) :
    (react retx m s t (be16 i.toNat)).callbacks = (if (t = 0x40 ∨ t = 0x50) ∧ retx = true then [.clear i] else []) ++ [.app t (be16 i.toNat) i .success none] ∧
    (react retx m s t (be16 i.toNat)).status = .success := by
  have hid : idOnly (be16 i.toNat) = some i := by
    have hn : i.toNat ≠ 0 := fun h => h0 (UInt16.toNat_inj.mp h)
    have := idOnly_be16 i.toNat ⟨Nat.pos_of_ne_zero hn, by have := i.toNat_lt; omega⟩
    rw [this]; simp
  have key : ∀ ty, ackByteType t ty → (∃ p, s.out.phase i = some p ∧ ∃ x, outAck ty p = some x) → forOutgoing .receive ty = true →
      (ty = .puback ∨ ty = .pubrec ↔ t = 0x40 ∨ t = 0x50) →
      (react retx m s t (be16 i.toNat)).callbacks = (if (t = 0x40 ∨ t = 0x50) ∧ retx = true then [.clear i] else []) ++ [.app t (be16 i.toNat) i .success none] ∧
      (react retx m s t (be16 i.toNat)).status = .success := by
    rintro ty hty ⟨p, h1, x, h2⟩ h3 h4
    have hs : (step s (.ack .receive ty i)).1.1 = .success := by
      simp only [step, if_neg h0, h3, if_true, ackTable, h1, h2]
    unfold react
    rw [readIncoming_ack hty, hid]
    simp only [Option.map_some, reactAck, if_pos hs, h4]
    exact ⟨trivial, trivial⟩
  rcases h with ⟨rfl, h⟩ | ⟨rfl, h⟩ | ⟨rfl, h⟩
  · exact key .puback (by simp [ackByteType]) ⟨_, h, _, rfl⟩ rfl (by simp)
  · exact key .pubrec (by simp [ackByteType]) ⟨_, h, _, rfl⟩ rfl (by simp)
  · exact key .pubcomp (by simp [ackByteType]) ⟨_, h, _, rfl⟩ rfl (by simp)

/-- A call that handles an acknowledgement that is awaited presents it. -/
theorem accepts {g : Cfg} {h0 : List (ApiCall × ApiRet)} {w w' : World} (hh : FromInit g h0 w) (e : Env) (m : Bool) {r : ApiRet}
    (hc : callIn g w e (loopCall m) = .done r w') {s : InFlight} (hrep : Represents w.ctx.tables s) {i : UInt16} {t : UInt8} (hdue : Due t (s.out.phase i))
    (hsz : 4 ≤ w.ctx.bufSize)
    (hb : w.ctx.buffered ++ received (callEvents g w e (loopCall m)) = idPacket t.toNat i.toNat ++ w'.ctx.buffered) :
    callbacks (callEvents g w e (loopCall m)) =
      (if (t = 0x40 ∨ t = 0x50) ∧ w.ctx.retransmits = true then [.clear i] else []) ++ [.app t (be16 i.toNat) i .success none] := by
  obtain ⟨hg, hidx, _, _⟩ := hh.good
  have hv : ValidCall g (loopCall m) := by cases m <;> trivial
  have hi : i ≠ 0 := by
    have : ∃ p, s.out.phase i = some p := by rcases hdue with ⟨_, h⟩ | ⟨_, h⟩ | ⟨_, h⟩ <;> exact ⟨_, h⟩
    obtain ⟨p, hp⟩ := this
    obtain ⟨a, b, hs, _⟩ := phase_some_split hrep.1.distinct hp
    exact hrep.1.nonzero keepsId_out (i, p) (by rw [hs]; simp)
  have hp : (⟨t, be16 i.toNat⟩ : Raw).Valid := by
    have k : ∀ t : UInt8, t = 0x40 ∨ t = 0x50 ∨ t = 0x70 → ServerFirstByte t.toNat := by decide +kernel
    refine ⟨k t ?_, by show (2 : Nat) ≤ maxRemaining; decide⟩
    rcases hdue with ⟨rfl, _⟩ | ⟨rfl, _⟩ | ⟨rfl, _⟩ <;> decide
  rcases call_cases hg hidx hrep e hv with ⟨r, es, w1, h1, h2, _, hd⟩ | ⟨es, w1, h1, h2, _, hd⟩
  · rw [hc] at h1
    cases h1
    rw [h2] at hb ⊢
    have hf : (⟨t, be16 i.toNat⟩ : Raw).bytes.length ≤ w.ctx.bufSize := by
      have : (⟨t, be16 i.toNat⟩ : Raw).bytes.length = 4 := by simp [Raw.bytes, packet, be16, varInt]
      omega
    obtain ⟨st, h3, ⟨h4, _⟩ | ⟨h4, ka, es1, w1, w2, rst, h5, h6, h7, h8, h9, h10, h11, hsub, h12⟩⟩ := did_front hd hp hf hb
    · exfalso
      have hb' : w.ctx.buffered ++ received es = (⟨t, be16 i.toNat⟩ : Raw).bytes ++ w'.ctx.buffered := hb
      rw [h4] at hb'
      have := congrArg List.length hb'
      have hne := List.length_pos_iff.mpr (Raw.bytes_ne_nil ⟨t, be16 i.toNat⟩)
      rw [List.length_append (bs := _ ++ _)] at this
      have he : (({ w with env := e } : World).ctx.buffered ++ received es).length = (w.ctx.buffered ++ received es).length := rfl
      omega
    · rw [h7, h12.calls]
      exact (react_accepts hi hdue).1
  · rw [hc] at h1; cases h1

theorem react_pubrec {s : InFlight} {retx m : Bool} {t : UInt8} {body : List UInt8} {i : UInt16} (h : 0x50 ∈ acksOf i (react retx m s t body).callbacks) :
    (react retx m s t body).ack = some (.pubrel, i) := by
  have other : ∀ (id : UInt16) (r : Status), readIncoming t body ≠ none → (∀ p, readIncoming t body = some p → ∀ ty id, p ≠ .ack ty id) →
      (0x50 : UInt8) ∉ acksOf i [Event.app t body id r none] := by
    intro id r h1 h2 h3
    obtain ⟨p, hp⟩ := Option.ne_none_iff_exists'.mp h1
    have := readIncoming_kind hp (h2 p hp)
    simp [acksOf, this] at h3
  unfold react at h ⊢
  cases hr : readIncoming t body with
  | none => rw [hr] at h; cases h
  | some p =>
    rw [hr] at h other
    cases p with
    | publish id v =>
      simp only [reactPublish] at h
      split at h
      · cases h
      · split at h
        · simp [acksOf] at h
        · split at h <;> cases h
    | ack ty id =>
      simp only [reactAck] at h ⊢
      by_cases hs : (step s (.ack .receive ty id)).1.1 = .success
      · rw [if_pos hs] at h ⊢
        simp only [acksOf_append] at h
        have h1 : acksOf i (if (ty = .puback ∨ ty = .pubrec) ∧ retx = true then [.clear id] else []) = [] := by split <;> rfl
        rw [h1, List.nil_append] at h
        have h2 : id = i ∧ t = 0x50 := by
          simp only [acksOf, List.filterMap_cons, List.filterMap_nil] at h
          by_cases hc : id = i ∧ (t = 0x40 ∨ t = 0x50 ∨ t = 0x70)
          · rw [if_pos hc] at h
            simp only [List.mem_singleton] at h
            exact ⟨hc.1, h.symm⟩
          · rw [if_neg hc] at h; cases h
        obtain ⟨rfl, rfl⟩ := h2
        rcases readIncoming_ackByte hr with ⟨_, h⟩ | ⟨rfl, _⟩ | ⟨_, h⟩ | ⟨_, h⟩
        · cases h
        · rfl
        · cases h
        · cases h
      · rw [if_neg hs] at h; cases h
    | pingresp =>
      simp only at h
      split at h
      · cases h
      · exact absurd h (other _ _ (by simp) (by simp))
    | suback id f => exact absurd h (other _ _ (by simp) (by simp))
    | unsuback id => exact absurd h (other _ _ (by simp) (by simp))

/-- A call that presents a PUBREC and reports success has sent the PUBREL and awaits the PUBCOMP. -/
theorem Did.pubrelSent {g : Cfg} {s s' : InFlight} {w w' : World} {m : Bool} {es : List Event} {i : UInt16}
    (h : Did g s w (loopCall m) (.status .success) es w') (hin : 0x50 ∈ acksOf i es) (hrep : Represents w'.ctx.tables s') :
    s'.out.phase i = some .awaitPubcomp := by
  obtain ⟨_, st, he, ⟨rfl, rfl, h1, h2⟩ | ⟨x, ka, es2, rfl, h1, h2, h3, h4⟩⟩ := h.turn
  · cases hin
  · have e : acksOf i (.recvd (w.ctx.bufSize - w.ctx.index) (some x) :: (ka ++ es2)) = acksOf i es2 := by
      show acksOf i ([Event.recvd (w.ctx.bufSize - w.ctx.index) (some x)] ++ (ka ++ es2)) = _
      rw [acksOf_append, acksOf_append, acksOf_quiet i (quiet_ack h2.1)]
      simp [acksOf]
    rw [e] at hin
    cases h4 with
    | stopped => cases hin
    | wait => cases hin
    | drop _ _ h1 => rw [acksOf_quiet i (quiet_recv h1)] at hin; cases hin
    | @packet rst _ es1 p rest w1 w2 _ more _ _ _ _ _ h6 h7 _ h9 =>
      have hm : acksOf i more = [] := by rcases h7 with ⟨_, t, rfl⟩ | ⟨_, rfl⟩ <;> rfl
      rw [acksOf_append, hm, List.append_nil, ← acksOf_callbacks, h6.calls] at hin
      have hack := react_pubrec hin
      have hs : rst = .success := by
        have := reacted_ne h6
        injection he with he
        unfold callerStatus at he
        rw [if_neg this] at he
        exact he.symm
      rw [h9] at hrep
      rcases h6.cases with ⟨k1, _⟩ | ⟨_, _, _, _, k2, _⟩ | ⟨_, _, _, _, k1, _⟩ | ⟨ty, id, k1, _, _, _, k0, k2⟩
      · rw [hack] at k1; cases k1
      · rw [hs] at k2
        unfold notConnectedStatus at k2
        split at k2 <;> cases k2
      · rw [hs] at k1; cases k1
      · rw [hack] at k1
        cases k1
        have := represents_unique hrep k2
        subst this
        have hp := (react_pubrel hack).1
        have hd : i ≠ 0 := by
          rintro rfl
          rw [hs] at k0
          simp [step] at k0
        rw [step_pubrel hd hp rfl]
        simp only
        rw [phase_set, if_pos rfl, hp]
        rfl

theorem phase_released (done : List UInt16) (l : Table OutPhase) (i : UInt16) :
    (released done l).phase i = if i ∈ done then (l.phase i).map (fun _ => .awaitPubcomp) else l.phase i := by
  induction l with
  | nil => simp [released, phase_nil]
  | cons e l ih =>
    have : released done (e :: l) = (if e.1 ∈ done then (e.1, OutPhase.awaitPubcomp) else e) :: released done l := rfl
    rw [this, phase_cons, phase_cons, ih]
    by_cases h1 : e.1 = i
    · subst h1
      by_cases h2 : e.1 ∈ done <;> simp [h2]
    · by_cases h2 : e.1 ∈ done <;> simp [h1, h2]

/-- After a resumption that succeeded every publish whose PUBREC was received awaits its PUBCOMP. -/
theorem Resumed.released {s s' : InFlight} {w w' : World} {es : List Event} (hrep : Represents w.ctx.tables s)
    (h : Resumed s w .success es w') {i : UInt16} (hi : s.out.phase i = some .sendPubrel ∨ s.out.phase i = some .awaitPubcomp)
    (hrep' : Represents w'.ctx.tables s') : s'.out.phase i = some .awaitPubcomp := by
  obtain ⟨a, st1, w1, b, rfl, hp, h⟩ := h
  have hs : st1 = .success ∧ w'.ctx.tables = w1.ctx.tables := by
    rcases h with ⟨_, _, rfl, h⟩ | ⟨h, _, hq⟩
    · exact ⟨h.symm, rfl⟩
    · obtain ⟨t, hc⟩ := hq.ctx
      exact ⟨h, by rw [hc]⟩
  obtain ⟨done, rest, h1, h2, h3⟩ := hp.cases
  rcases h3 with ⟨_, rfl, _⟩ | ⟨h3, _⟩
  rotate_left
  · rw [hs.1] at h3; cases h3
  rw [List.append_nil] at h1
  rw [hs.2] at hrep'
  have := represents_unique hrep' h2
  subst this
  show (Mqtt.released done s.out).phase i = _
  have hm : i ∈ done := by
    rw [← h1]
    obtain ⟨p, hp, hq⟩ : ∃ p, s.out.phase i = some p ∧ isPubrel p = true := by
      rcases hi with h | h <;> exact ⟨_, h, rfl⟩
    obtain ⟨x, y, e, _⟩ := phase_some_split hrep.1.distinct hp
    exact List.mem_map.mpr ⟨(i, p), List.mem_filter.mpr ⟨by rw [e]; simp, hq⟩, rfl⟩
  rw [phase_released, if_pos hm]
  rcases hi with h | h <;> rw [h] <;> rfl

theorem Did.resumed {g : Cfg} {s s' : InFlight} {w w' : World} {c : ApiCall} {es : List Event} (hrep : Represents w.ctx.tables s)
    (h : Did g s w c (.connect .success (some true)) es w') {i : UInt16}
    (hi : s.out.phase i = some .sendPubrel ∨ s.out.phase i = some .awaitPubcomp) (hrep' : Represents w'.ctx.tables s') :
    s'.out.phase i = some .awaitPubcomp := by
  generalize hst : ApiRet.connect .success (some true) = r at h
  cases h with
  | @connect ci will t0 sp0 sp st _ _ h =>
    injection hst with e1 e2
    injection e2 with e2
    subst e1 e2
    generalize hst : Status.success = st at h
    generalize hsp : true = sp at h
    cases h with
    | badSize h _ _ => exact absurd hst.symm h
    | already _ _ _ h => subst hst; split at h <;> cases h
    | noTopic _ _ _ h => cases hst
    | notSent => cases hst
    | notAccepted _ _ _ _ _ _ _ _ h => exact absurd hst.symm h
    | fresh => cases hsp
    | @resumed _ snd ca res w1 w2 w3 w4 _ t _ _ _ h0 _ _ h1 h2 h3 _ h4 h5 =>
      subst hst
      obtain ⟨b, _, h6⟩ := h2.ctx
      have : ∀ {w3 : World}, w3.ctx.tables = w.ctx.tables → Represents w3.ctx.tables s := fun h => by rw [h]; exact hrep
      exact Resumed.released (this (by rw [h3]; show _ = _; rw [connectedCtx, h6, h1])) h4 hi (by rw [h5] at hrep'; exact hrep')
  | connectNull => cases hst
  | _ => cases hst

end Mqtt
