/-
The system of bytes and the protocol of packets: the receive loop.
-/
import Verif.Proof.PacketsCall

namespace Mqtt
open Spec
set_option linter.unusedSimpArgs false

variable {strict : Bool}

theorem step_statuses (s : InFlight) (c : Call) : (step s c).1.1 ≠ .noDataAvailable ∧ (step s c).1.1 ≠ .needMoreBytes := by
  cases c with
  | reserve id q =>
    simp only [step]
    repeat' split
    all_goals simp [Table.insert]
    all_goals repeat' split
    all_goals simp
  | publish op id q =>
    simp only [step]
    repeat' split
    all_goals simp_all [Table.insert]
    all_goals repeat' split
    all_goals simp
  | ack op ty id =>
    simp only [step]
    repeat' split
    · simp
    · unfold ackTable
      repeat' split
      all_goals simp
    · unfold ackTable
      repeat' split
      all_goals simp
  | cancel id =>
    simp only [step]
    repeat' split
    all_goals simp

theorem react_statuses (retx manage : Bool) (s : InFlight) (p : Raw) : (react retx manage s p.first p.body).status ≠ .noDataAvailable ∧
    (react retx manage s p.first p.body).status ≠ .needMoreBytes := by
  unfold react
  cases readIncoming p.first p.body with
  | none => simp
  | some q =>
    cases q with
    | publish id v =>
      simp only
      unfold reactPublish
      have := step_statuses s (.publish .receive id v.qos)
      by_cases h1 : s.inCap = 0 ∧ v.qos ≠ .qos0
      · rw [if_pos h1]; simp
      · rw [if_neg h1]
        simp only
        by_cases h2 : (step s (.publish .receive id v.qos)).1.1 = .success
        · rw [if_pos h2]; simp
        · rw [if_neg h2]
          by_cases h3 : (step s (.publish .receive id v.qos)).1.1 = .stateCollision
          · rw [if_pos h3]; simp
          · rw [if_neg h3]; exact this
    | ack ty id =>
      simp only
      unfold reactAck
      have := step_statuses s (.ack .receive ty id)
      simp only
      by_cases h2 : (step s (.ack .receive ty id)).1.1 = .success
      · rw [if_pos h2]; simp
      · rw [if_neg h2]; exact this
    | pingresp => simp
    | suback id b => simp
    | unsuback id => simp

/-- The application is told something, or to forget something. -/
def Telling : Event → Bool
  | .app .. => true
  | .clear _ => true
  | _ => false

theorem telling_shelf {cb : List Event} (h : ∀ e ∈ cb, Telling e = true) : ∀ (k : Shelf) (j : UInt16), cb.foldl Shelf.note k j = if Event.clear j ∈ cb then none else k j := by
  induction cb with
  | nil => intro k j; simp
  | cons e cb ih =>
    intro k j
    rw [List.foldl_cons, ih (fun x hx => h x (List.mem_cons_of_mem _ hx))]
    have := h e List.mem_cons_self
    cases e with
    | app => simp [Shelf.note]
    | clear id =>
      by_cases hj : j = id
      · simp [Shelf.note, hj]
      · simp [Shelf.note, hj]
    | _ => cases this

theorem react_telling (retx manage : Bool) (s : InFlight) (p : Raw) : ∀ e ∈ (react retx manage s p.first p.body).callbacks, Telling e = true := by
  unfold react
  cases readIncoming p.first p.body with
  | none => simp
  | some q =>
    cases q with
    | publish id v =>
      simp only
      unfold reactPublish
      by_cases h1 : s.inCap = 0 ∧ v.qos ≠ .qos0
      · rw [if_pos h1]; simp
      · rw [if_neg h1]
        simp only
        by_cases h2 : (step s (.publish .receive id v.qos)).1.1 = .success
        · rw [if_pos h2]; simp [Telling]
        · rw [if_neg h2]
          by_cases h3 : (step s (.publish .receive id v.qos)).1.1 = .stateCollision
          · rw [if_pos h3]; simp
          · rw [if_neg h3]; simp
    | ack ty id =>
      simp only
      unfold reactAck
      simp only
      by_cases h2 : (step s (.ack .receive ty id)).1.1 = .success
      · rw [if_pos h2]
        by_cases h3 : (ty = .puback ∨ ty = .pubrec) ∧ retx = true
        · simp only [if_pos h3]
          simp [Telling]
        · simp only [if_neg h3]
          simp [Telling]
      · rw [if_neg h2]; simp
    | pingresp => cases manage <;> simp [Telling]
    | suback id b => simp [Telling]
    | unsuback id => simp [Telling]

/-- Dealing with a packet, the application is at most told to forget something. -/
theorem react_shelf (retx manage : Bool) (s : InFlight) (p : Raw) (k : Shelf) (j : UInt16) :
    (react retx manage s p.first p.body).callbacks.foldl Shelf.note k j =
      if Event.clear j ∈ (react retx manage s p.first p.body).callbacks then none else k j :=
  telling_shelf (react_telling retx manage s p) k j

section
variable {cap : Nat} {retx : Bool} {a : Proto} {w w' : World} {n n' : Net} {shelf : Shelf} {c : ApiCall} {es : List Event} {st : Status} {s : InFlight} {g : Cfg}

theorem Tracks.loop {m : Bool} (h : Tracks retx cap a w.ctx n shelf) (hrep : Represents w.ctx.tables s) (hit : Iterated g m s w st es w')
    (hst : w'.ctx.connectStatus = .notConnected ↔ w.ctx.connectStatus = .notConnected) (hbs : w'.ctx.bufSize = w.ctx.bufSize)
    (hidx : w'.ctx.index ≤ w'.ctx.bufSize) (hre : w'.ctx.retransmits = w.ctx.retransmits) (hidle : w.ctx.connectStatus = .notConnected → noSent es)
    (hn : NetRun strict w.ctx.bufSize n es n') (hc : c = .processLoop ∨ c = .receiveLoop) :
    Follows strict retx cap a c (.status st) w'.ctx { n' with isOpen := n'.isOpen && !(decide (st = .sendFailed)) } (es.foldl Shelf.note shelf) := by
  have hcp : ∀ p id, c ≠ .publish (some p) id := by rcases hc with rfl | rfl <;> simp
  have hcalm : Calm retx c (.status st) → st = .success ∨ st = .needMoreBytes := by rcases hc with rfl | rfl <;> exact id
  cases represents_unique h.tables hrep
  obtain ⟨buf, part, h1, h2, h3, h4⟩ := h.agrees
  rw [h.size] at hn hbs
  have hstage : a.stage = if w'.ctx.connectStatus = .notConnected then .idle else .on := by
    rw [h.stage]
    simp only [hst]
  have hidx' : w'.ctx.index ≤ w'.ctx.bufSize := hidx
  have hre' : w'.ctx.retransmits = retx := by rw [hre]; exact h.retx
  by_cases hoff : w.ctx.connectStatus = .notConnected
  · -- not connected: nothing can be received
    have hs0 := hidle hoff
    have hst0 : a.stage = .idle := by rw [h.stage, if_pos hoff]
    obtain ⟨r1, r2⟩ := hn.receives hs0
    have hq : received es = [] ∧ Served strict cap n n' := by
      cases ho : a.isOpen with
      | false =>
        have := r2 (by rw [h1.isOpen]; exact ho)
        rw [this] at r1
        exact ⟨this, r1⟩
      | true =>
        obtain ⟨g1, g2, g3⟩ := h4 hst0 ho
        have hp := h3 ho
        have hu : n.up = [] := by rw [h1.up, g2, hp]; rfl
        have := r1.quiet hu (by rw [h1.greeted]; exact g1)
        have hd : n.down = [] := by
          have := h1.down
          rw [g3] at this
          exact (List.append_eq_nil_iff.mp this).2
        have e : received es = [] := by
          rw [← this] at hd
          exact (List.append_eq_nil_iff.mp hd).1
        rw [e] at r1
        exact ⟨e, r1⟩
    obtain ⟨hrec, hsv⟩ := hq
    have hbuf0 := h.idle hoff
    -- no packet was taken
    have hcb : callbacks es = [] ∧ w'.ctx.buffered = [] ∧ w'.ctx.tables = w.ctx.tables := by
      rcases hit.turnKeep with ⟨rfl, rfl, hb, ht⟩ | ⟨r, ka, es2, rfl, hlen, hka, hka0, hturn, hkw⟩
      · exact ⟨rfl, by rw [hb]; exact hbuf0, ht⟩
      · have hr0 : r = [] := by
          have e : received (Event.recvd (w.ctx.bufSize - w.ctx.index) (some r) :: (ka ++ es2)) = r ++ received (ka ++ es2) := by simp [Spec.received]
          rw [e] at hrec
          exact (List.append_eq_nil_iff.mp hrec).1
        subst hr0
        have hkc : callbacks ka = [] := (callbacks_of_ack hka.1).1
        rw [hbuf0] at hturn
        have key : es2 = [] → callbacks (Event.recvd (w.ctx.bufSize - w.ctx.index) (some []) :: (ka ++ es2)) = [] := by
          rintro rfl
          show callbacks ([Event.recvd (w.ctx.bufSize - w.ctx.index) (some [])] ++ (ka ++ [])) = _
          rw [callbacks_append, callbacks_append, hkc]; rfl
        cases hturn with
        | stopped _ _ hb ht => exact ⟨key rfl, hb, ht⟩
        | wait _ _ hb ht => exact ⟨key rfl, hb, ht⟩
        | drop hr hbig => cases hr
        | packet hp hbuf =>
          have := List.append_eq_nil_iff.mp hbuf.symm
          exact absurd this.1 (Raw.bytes_ne_nil _)
    rw [shelf_quiet hcb.1]
    obtain ⟨a', q1, q2, q3, q4⟩ := h1.finish (closing := decide (st = .sendFailed)) (retx := retx) (ctx' := w'.ctx) hsv (fun h => by rw [hst0] at h; cases h)
      (fun ho _ => h3 ho) (fun h ho _ => h4 h ho) (by rw [hcb.2.2]; exact h.tables) hidx' hbs h.room hre' hstage (fun _ => hcb.2.1)
    exact ⟨a', q1, q2, by rw [q3, accepted_other hcp, List.append_nil], fun _ ho => by rw [q4]; exact ho, by simp⟩
  · have hon : a.stage = .on := by rw [h.stage, if_neg hoff]
    have hb0 := h2 hon
    subst hb0
    have hnot : ∀ {P : Prop}, w'.ctx.connectStatus = .notConnected → P := fun hx => absurd (hst.mp hx) hoff
    rcases hit.turnKeep with ⟨rfl, rfl, hb, ht⟩ | ⟨r, ka, es2, rfl, hlen, hka, hka0, hturn, hkw⟩
    · have hs := (hn.sends rfl)
      have e : wire [Event.recvd (w.ctx.bufSize - w.ctx.index) none, .pre, .post] = [] := rfl
      rw [e, Net.push_nil] at hs
      obtain ⟨a', q1, q2, q3, q4⟩ := h1.finish (closing := decide (Status.recvFailed = .sendFailed)) (retx := retx) (ctx' := w'.ctx) hs (fun _ => hb.symm)
        (fun ho _ => h3 ho) (fun h _ _ => by rw [hon] at h; cases h) (by rw [ht]; exact h.tables) hidx' hbs h.room hre' hstage hnot
      exact ⟨a', q1, q2, by rw [q3, accepted_other hcp, List.append_nil], fun _ ho => by rw [q4]; exact ho, by simp⟩
    · obtain ⟨n1, hn1, hn2⟩ := Spec.NetRun.split (a := [.recvd (w.ctx.bufSize - w.ctx.index) (some r)]) (b := ka ++ es2) hn
      have hrv := (hn1.receives (by intro e he; rw [List.mem_singleton.mp he]; rfl)).1
      have e : Spec.received [.recvd (w.ctx.bufSize - w.ctx.index) (some r)] = r := by simp [Spec.received]
      rw [e] at hrv
      obtain ⟨a1, hrun1, hsame, ha1⟩ := h1.served (retx := retx) h.room hrv
      have ha1 := ha1.received rfl
      have hon1 : a1.stage = .on := by rw [hsame.stage]; exact hon
      have hpart1 : a1.isOpen = true → part = [] := fun ho => h3 (by rw [← hsame.isOpen]; exact ho)
      have hfl1 : a1.flight = a.flight := hsame.flight
      have hkc : callbacks ka = [] := (callbacks_of_ack hka.1).1
      have hkr : Spec.received ka = [] := received_of_noRecv (callbacks_of_ack hka.1).2
      have hcb : callbacks (Event.recvd (w.ctx.bufSize - w.ctx.index) (some r) :: (ka ++ es2)) = callbacks es2 := by
        show callbacks ([Event.recvd (w.ctx.bufSize - w.ctx.index) (some r)] ++ (ka ++ es2)) = _
        rw [callbacks_append, callbacks_append, hkc]; rfl
      rw [shelf_callbacks, hcb]
      -- nothing is taken
      have noPacket : es2 = [] → w'.ctx.buffered = w.ctx.buffered ++ r → w'.ctx.tables = w.ctx.tables →
          Follows strict retx cap a c (.status st) w'.ctx { n' with isOpen := n'.isOpen && !(decide (st = .sendFailed)) } ((callbacks es2).foldl Shelf.note shelf) := by
        rintro rfl hb ht
        rw [List.append_nil] at hn2
        obtain ⟨vs, p', e1, e2, e3, e4⟩ := Small.piece (u := ⟨0xC0, []⟩) (by simp [Small]) (x := wire ka) (by rw [pingreq_raw]; exact hka.2)
        obtain ⟨part', h5, h6⟩ := ha1.pushed hpart1 e2 e3
        have hs := hn2.sends hkr
        rw [e1] at hs
        have hrun2 : Proto.Run strict retx cap a1 (a1.put vs) := by
          rcases e4 with ⟨_, rfl, _⟩ | ⟨_, rfl, _⟩
          · exact .one (.plain hon1 (by unfold PlainPacket; decide))
          · rw [Proto.put_nil]; exact .refl _
        have hp : p' ≠ [] → st = .sendFailed := by
          intro hp
          rcases e4 with ⟨_, _, rfl⟩ | ⟨f1, rfl, rfl⟩
          · exact absurd rfl hp
          · rcases hkw with h | h | ⟨h, _⟩
            · exact absurd h hp
            · exact absurd h f1
            · exact h
        obtain ⟨a', q1, q2, q3, q4⟩ := h5.finish (closing := decide (st = .sendFailed)) (retx := retx) (ctx' := w'.ctx) hs (fun _ => hb.symm)
          (fun ho hc => by
            rw [h6 ho]
            exact Classical.byContradiction fun hp' => by
              have := hp hp'
              simp [this] at hc)
          (fun h _ _ => by
            have h : a1.stage = .idle := h
            rw [hon1] at h; cases h)
          (by rw [ht]; show Represents _ a1.flight; rw [hfl1]; exact h.tables) hidx' hbs h.room hre' (by show a1.stage = _; rw [hsame.stage]; exact hstage) hnot
        refine ⟨a', hrun1.trans (hrun2.trans q1), q2, ?_, fun _ ho => by rw [q4]; show a1.ok = true; rw [hsame.ok]; exact ho, by simp⟩
        rw [q3, accepted_other hcp, List.append_nil]
        exact hsame.sent
      cases hturn with
      | stopped _ _ hb ht => exact noPacket rfl hb ht
      | wait _ _ hb ht => exact noPacket rfl hb ht
      | drop hr hbig =>
        obtain ⟨q, ps, e5, h4⟩ := first_length hr (fun q hq => (ha1.valid q hq).1) ha1.down
        have := (ha1.valid q (by rw [e5]; exact List.mem_cons_self)).2
        rw [h.size] at hbig
        omega
      | packet hp hbuf hfit hw1 ht1 hrx hmore hb ht2 =>
        rename_i st1 es3 p rest w1 w2 more
        rw [h.retx] at hrx
        have hmoreq : callbacks more = [] ∧ wire more = [] ∧ Spec.received more = [] := by
          rcases hmore with ⟨_, t, rfl⟩ | ⟨_, rfl⟩ <;> exact ⟨rfl, rfl, rfl⟩
        have hcb2 : callbacks (es3 ++ more) = (react retx m a.flight p.first p.body).callbacks := by
          rw [callbacks_append, hmoreq.1, List.append_nil, hrx.calls]
        rw [hcb2]
        have hw2 : wire (ka ++ (es3 ++ more)) = wire ka ++ wire es3 := by
          rw [wire_append, wire_append, hmoreq.2.1, List.append_nil]
        have hr2 : Spec.received (ka ++ (es3 ++ more)) = [] := by
          rw [received_append, received_append, hmoreq.2.2, hkr, received_of_noRecv hrx.noRecv]; rfl
        have hs := hn2.sends hr2
        rw [hw2] at hs
        -- the packet
        have hd1 := ha1.down
        rw [hbuf] at hd1
        obtain ⟨ds, hds, hdr⟩ := first_packet hp (fun q hq => (ha1.valid q hq).1) hd1
        -- the keep-alive packet
        have hping : ∃ vs0 : List Raw, wire ka = vs0.flatMap Raw.bytes ∧ (∀ v ∈ vs0, Small v) ∧ Proto.Run strict retx cap a1 (a1.put vs0) := by
          rcases hw1.2.2 with e | e
          · exact ⟨[], e, by simp, by rw [Proto.put_nil]; exact .refl _⟩
          · exact ⟨[⟨0xC0, []⟩], by rw [e, ← pingreq_raw]; simp, by simp [Small], .one (.plain hon1 (by unfold PlainPacket; decide))⟩
        obtain ⟨vs0, v1, v2, v3⟩ := hping
        -- the end of the call
        have done : ∀ {b : Proto} {vs : List Raw} {p' : List UInt8}, Proto.Run strict retx cap (a1.put vs0) b → wire ka ++ wire es3 = vs.flatMap Raw.bytes ++ p' →
            (∀ v ∈ vs, Small v) → readPacket p' = none → (p' ≠ [] → callerStatus st1 = .sendFailed) → b.up = (a1.put vs).up → b.down = ds → b.greeted = a1.greeted →
            b.server = a1.server → b.isOpen = a1.isOpen → b.stage = a1.stage → b.sent = a1.sent → b.shelf = cleared a1.shelf (react retx m a.flight p.first p.body).callbacks →
            Represents w2.ctx.tables b.flight → (Calm retx c (.status (callerStatus st1)) → a1.ok = true → b.ok = true) →
            Follows strict retx cap a c (.status (callerStatus st1)) w'.ctx { n' with isOpen := n'.isOpen && !(decide (callerStatus st1 = .sendFailed)) }
              ((react retx m a.flight p.first p.body).callbacks.foldl Shelf.note shelf) := by
          intro b vs p' k1 k2 k3 k4 k5 k6 k7 k8 k9 k10 k11 k12 k13 k14 k15
          rw [k2] at hs
          obtain ⟨part', h5, h6⟩ := ha1.pushed hpart1 k3 k4
          have h7 : Agrees cap b (n1.push (vs.flatMap Raw.bytes ++ p')) rest part' ((react retx m a.flight p.first p.body).callbacks.foldl Shelf.note shelf) := by
            refine ⟨by rw [k6]; exact h5.up, h5.stuck, by rw [k6]; exact h5.small, ?_, ?_, by rw [k10]; exact h5.isOpen, by rw [k8]; exact h5.greeted,
              by rw [k9]; exact h5.server, ?_, ?_⟩
            · rw [k7]; exact fun d hd => ha1.valid d (by rw [hds]; exact List.mem_cons_of_mem _ hd)
            · rw [k7]
              have e : (n1.push (vs.flatMap Raw.bytes ++ p')).down = n1.down := rfl
              rw [e, ← hdr]
            · intro j
              rw [react_shelf, k13]
              unfold cleared
              by_cases hj : Event.clear j ∈ (react retx m a.flight p.first p.body).callbacks
              · rw [if_pos hj, if_pos hj]; rfl
              · rw [if_neg hj, if_neg hj]; exact ha1.shelf j
            · intro j x hx
              rw [k13] at hx
              unfold cleared at hx
              by_cases hj : Event.clear j ∈ (react retx m a.flight p.first p.body).callbacks
              · rw [if_pos hj] at hx; cases hx
              · rw [if_neg hj] at hx; exact ha1.copies j x hx
          obtain ⟨a', q1, q2, q3, q4⟩ := h7.finish (closing := decide (callerStatus st1 = .sendFailed)) (retx := retx) (ctx' := w'.ctx) hs (fun _ => hb.symm)
            (fun ho hc => by
              rw [h6 (by rw [← k10]; exact ho)]
              exact Classical.byContradiction fun hp' => by
                have := k5 hp'
                simp [this] at hc)
            (fun h _ _ => by rw [k11, hon1] at h; cases h)
            (by rw [ht2]; exact k14) hidx' hbs h.room hre' (by rw [k11, hsame.stage]; exact hstage) hnot
          refine ⟨a', hrun1.trans (v3.trans (k1.trans q1)), q2, ?_, fun hc ho => by rw [q4]; exact k15 hc (by rw [hsame.ok]; exact ho), by simp⟩
          rw [q3, accepted_other hcp, List.append_nil, k12]
          exact hsame.sent
        have hon2 : (a1.put vs0).stage = .on := hon1
        have hds2 : (a1.put vs0).down = p :: ds := hds
        have hfl2 : (a1.put vs0).flight = a.flight := hfl1
        rcases hrx.cases with ⟨hack, hw, _, hst1, hre2⟩ | ⟨_, hnc, hw, _, hst1, hre2⟩ | ⟨hack, _, hpre, hne, hst1, hre2, _⟩ | ⟨ty, id, hack, _, hw, _, _, hre2⟩
        · have hack2 : (react retx m (a1.put vs0).flight p.first p.body).ack = none := by rw [hfl2]; exact hack
          refine done (vs := vs0) (p' := []) (.one (.take hon2 hds2 hack2)) (by rw [v1, hw]) v2 rfl (fun h => absurd rfl h) rfl rfl rfl rfl rfl rfl rfl ?_ ?_ ?_
          · show cleared a1.shelf (react retx m (a1.put vs0).flight p.first p.body).callbacks = _
            rw [hfl2]
          · show Represents _ (react retx m (a1.put vs0).flight p.first p.body).state
            rw [hfl2]; exact hre2
          · intro hca ho
            show (a1.ok && decide ((react retx m (a1.put vs0).flight p.first p.body).status = .success)) = true
            rw [ho, hfl2, Bool.true_and]
            obtain ⟨f1, f2⟩ := react_statuses retx m a.flight p
            rw [← hst1] at f1 f2 ⊢
            have e : callerStatus st1 = st1 := by unfold callerStatus; rw [if_neg f1]
            rw [e] at hcalm
            rcases hcalm (by rw [← e]; exact hca) with h | h
            · simpa using h
            · exact absurd h f2
        · refine done (vs := vs0) (p' := []) (.one (.mute (manage := m) hon2 hds2)) (by rw [v1, hw]) v2 rfl (fun h => absurd rfl h) rfl rfl rfl rfl rfl rfl rfl ?_ ?_ ?_
          · show cleared a1.shelf (react retx m (a1.put vs0).flight p.first p.body).callbacks = _
            rw [hfl2]
          · show Represents _ (react retx m (a1.put vs0).flight p.first p.body).state
            rw [hfl2]; exact hre2
          · intro hca _
            exfalso
            have := hcalm hca
            rw [hst1] at this
            revert this
            cases w1.ctx.connectStatus <;> simp_all [notConnectedStatus, callerStatus]
        · have hsm : readPacket (wire es3) = none := by
            cases ha : (react retx m a.flight p.first p.body).ack with
            | none => exact absurd ha hack
            | some x =>
              obtain ⟨ty, id⟩ := x
              rw [ha, ← ackWire_raw] at hpre hne
              exact (ack_small _ _).part hpre hne
          refine done (vs := vs0) (p' := wire es3) (.one (.mute (manage := m) hon2 hds2)) (by rw [v1]) v2 hsm (fun _ => by rw [hst1]; rfl) rfl rfl rfl rfl rfl rfl rfl ?_ ?_ ?_
          · show cleared a1.shelf (react retx m (a1.put vs0).flight p.first p.body).callbacks = _
            rw [hfl2]
          · show Represents _ (react retx m (a1.put vs0).flight p.first p.body).state
            rw [hfl2]; exact hre2
          · intro hca _
            exfalso
            have := hcalm hca
            rw [hst1] at this
            revert this
            simp [callerStatus]
        · rw [hack, ← ackWire_raw] at hw
          have hack2 : (react retx m (a1.put vs0).flight p.first p.body).ack = some (ty, id) := by rw [hfl2]; exact hack
          refine done (vs := vs0 ++ [answerOf ty id]) (p' := []) (.one (.answer hon2 hds2 hack2)) (by rw [v1, hw]; simp [answerOf, ackRaw]) ?_ rfl (fun h => absurd rfl h) ?_ rfl rfl rfl rfl rfl rfl ?_ ?_
            (fun _ ho => ho)
          · intro v hv
            rcases List.mem_append.mp hv with hv | hv
            · exact v2 v hv
            · rw [List.mem_singleton.mp hv]; exact ack_small _ _
          · show ((a1.put vs0).put [answerOf ty id]).up = _
            unfold Proto.put
            cases a1.isOpen <;> simp
          · show cleared a1.shelf (react retx m (a1.put vs0).flight p.first p.body).callbacks = _
            rw [hfl2]
          · show Represents _ (step (react retx m (a1.put vs0).flight p.first p.body).state _).2
            rw [hfl2]; exact hre2

end

end Mqtt
