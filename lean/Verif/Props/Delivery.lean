/-
Delivery guarantees over histories: C35 and C37.

`FromInit g h0 w` is any history from initialisation, `Hist g w h w'` a further stretch of calls that returned, `es` its interactions; the last call
(`callEvents g w' e c`) may or may not return.  `.app type body id _ v` is a call of the application's callback: `v` is the publish, or `none` for other packets.
A new session is reported by `MQTT_Connect` as success without session present: `.connect .success (some false)`.
-/
import Verif.Proof.CallMon
import Verif.Props.Receive

namespace Mqtt
open Spec
set_option linter.unusedSimpArgs false

/-! ### C35 -/

theorem monRun_opened {m m' : Mon} {es : List Event} {id : UInt16} (h : monRun m es = some m') (hi : id ∈ m.opened)
    (hn : ∀ body r, Event.app 0x62 body id r none ∉ es) : id ∈ m'.opened := by
  induction es generalizing m with
  | nil => cases h; exact hi
  | cons e es ih =>
    obtain ⟨m1, h1, h2⟩ := Option.bind_eq_some_iff.mp h
    refine ih h2 ?_ (fun body r hm => hn body r (List.mem_cons_of_mem _ hm))
    have hne : ∀ body r, e ≠ .app 0x62 body id r none := fun body r he => hn body r (he ▸ List.mem_cons_self)
    unfold monStep at h1
    split at h1
    · split at h1
      · split at h1
        · cases h1
        · cases h1; exact List.mem_cons_of_mem _ hi
      · cases h1; exact hi
    · rename_i t b i r
      split at h1
      · rename_i ht
        cases h1
        refine List.mem_filter.mpr ⟨hi, ?_⟩
        have : id ≠ i := fun he => hne b r (by rw [he, ht])
        simpa using this
      · split at h1 <;> (cases h1; exact hi)
    · cases h1; exact hi

theorem monRun_twice {m m' : Mon} {a mid b : List Event} {id : UInt16} {t1 t2 : UInt8} {b1 b2 : List UInt8} {r1 r2 : Status} {v1 v2 : PubView}
    (h : monRun m (a ++ .app t1 b1 id r1 (some v1) :: (mid ++ .app t2 b2 id r2 (some v2) :: b)) = some m')
    (q1 : v1.qos = .qos2) (q2 : v2.qos = .qos2) : ∃ body r, Event.app 0x62 body id r none ∈ mid := by
  refine Classical.byContradiction fun hn => ?_
  have hn' : ∀ body r, Event.app 0x62 body id r none ∉ mid := fun body r hm => hn ⟨body, r, hm⟩
  rw [monRun_append] at h
  obtain ⟨ma, _, h2⟩ := Option.bind_eq_some_iff.mp h
  obtain ⟨mb, h3, h4⟩ := Option.bind_eq_some_iff.mp h2
  rw [monRun_append] at h4
  obtain ⟨mc, h5, h6⟩ := Option.bind_eq_some_iff.mp h4
  obtain ⟨md, h7, _⟩ := Option.bind_eq_some_iff.mp h6
  have hb : id ∈ mb.opened := by
    simp only [monStep, q1, if_true] at h3
    split at h3
    · cases h3
    · cases h3; exact List.mem_cons_self
  have hc := monRun_opened h5 hb hn'
  simp only [monStep, q2, if_true, if_pos hc] at h7
  cases h7

/-- **C35** In a history without a new session, an incoming QoS 2 publish is not presented again (not in the last call either, whatever its outcome) before a
PUBREL with its id has been processed. -/
theorem C35_once {g : Cfg} {h0 h : List (ApiCall × ApiRet)} {w w' : World} (hh : FromInit g h0 w) (hs : Hist g w h w')
    (hr : ∀ x ∈ h, x.2 ≠ .connect .success (some false)) (e : Env) {c : ApiCall} (hv : ValidCall g c) {es : List Event}
    (hes : w'.trace = w.trace ++ es) {id : UInt16} {a mid b : List Event} {t1 t2 : UInt8} {b1 b2 : List UInt8} {r1 r2 : Status} {v1 v2 : PubView}
    (hsplit : es ++ callEvents g w' e c = a ++ .app t1 b1 id r1 (some v1) :: (mid ++ .app t2 b2 id r2 (some v2) :: b))
    (q1 : v1.qos = .qos2) (q2 : v2.qos = .qos2) : ∃ body r, Event.app 0x62 body id r none ∈ mid := by
  obtain ⟨hg, hidx, s, hrep⟩ := hh.good
  have hi : Inv s.outCap s.inCap w.ctx := ⟨hidx, s, hrep, rfl, rfl⟩
  obtain ⟨m1, k1, k2⟩ := hs.mon hg hi hr (m := ⟨[], []⟩) ⟨s, hrep, by simp, by simp⟩ (by simp) hes
  obtain ⟨i1, s1, i2, _⟩ := hs.inv hg hi
  have : ∃ m2, monRun m1 (callEvents g w' e c) = some m2 := by
    rcases call_cases hg i1 i2 e hv with ⟨r, es2, w2, _, h2, _, hd⟩ | ⟨es2, w2, _, h2, hl, hd⟩
    · rw [h2]
      by_cases hf : r = .connect .success (some false)
      · subst hf
        cases hd with
        | connect h =>
          cases h with
          | fresh _ _ _ h1 _ _ _ h3 _ =>
            rw [← List.cons_append, mon_quiet_append (quiet_cons rfl (quiet_send h1)), mon_quiet_append (quiet_recv h3.recv), monRun_append, mon_clears]
            exact ⟨m1, rfl⟩
          | notAccepted _ _ _ _ _ _ _ _ h => exact absurd rfl h
          | badSize h => exact absurd rfl h
          | already _ _ _ h => split at h <;> cases h
      · have k3 : MonOk ⟨m1.opened, []⟩ w'.ctx.tables := by
          obtain ⟨s', a1, a2, _⟩ := k2
          exact ⟨s', a1, a2, by simp⟩
        obtain ⟨m2, j1, _⟩ := Did.mon (m := ⟨m1.opened, []⟩) hd i2 hf k3 (by simp)
        have ho : m1.out = [] := List.eq_nil_iff_forall_not_mem.mpr fun x hx => by cases monRun_out k1 hx
        refine ⟨m2, ?_⟩
        rw [← j1]
        congr 1
        cases m1
        cases ho
        rfl
    · rw [h2]
      exact Halted.mon (m := m1) hd k2 hl
  obtain ⟨m2, k3⟩ := this
  have k4 : monRun ⟨[], []⟩ (es ++ callEvents g w' e c) = some m2 := by
    rw [monRun_append, k1]
    exact k3
  rw [hsplit] at k4
  exact monRun_twice k4 q1 q2

/-! ### C37 -/

theorem monRun_kept {m m' : Mon} {es : List Event} {id : UInt16} (h : monRun m es = some m') (hi : id ∈ m.out)
    (hn : ∀ t body r, (t = 0x40 ∨ t = 0x70) → Event.app t body id r none ∉ es) : id ∈ m'.out := by
  induction es generalizing m with
  | nil => cases h; exact hi
  | cons e es ih =>
    obtain ⟨m1, h1, h2⟩ := Option.bind_eq_some_iff.mp h
    refine ih h2 ?_ (fun t body r ht hm => hn t body r ht (List.mem_cons_of_mem _ hm))
    have hne : ∀ t body r, (t = 0x40 ∨ t = 0x70) → e ≠ .app t body id r none := fun t body r ht he => hn t body r ht (he ▸ List.mem_cons_self)
    unfold monStep at h1
    split at h1
    · split at h1
      · split at h1
        · cases h1
        · cases h1; exact hi
      · cases h1; exact hi
    · rename_i t b i r
      split at h1
      · cases h1; exact hi
      · split at h1
        · rename_i ht
          cases h1
          refine List.mem_filter.mpr ⟨hi, ?_⟩
          have : id ≠ i := fun he => hne t b r ht (by rw [he])
          simpa using this
        · cases h1; exact hi
    · cases h1; exact hi

/-- **C37** An outgoing publish in flight stays in flight in every history without a new session, as long as the application does not cancel it and is not
presented with a PUBACK or PUBCOMP for it. -/
theorem C37_stays {g : Cfg} {h0 h : List (ApiCall × ApiRet)} {w w' : World} (hh : FromInit g h0 w) (hs : Hist g w h w') {id : UInt16}
    (hin : ∃ r ∈ inFlight w.ctx.tables.outgoing, r.packetId = id) (hr : ∀ x ∈ h, x.2 ≠ .connect .success (some false))
    (hcan : (ApiCall.cancelCallback id, ApiRet.status .success) ∉ h) {es : List Event} (hes : w'.trace = w.trace ++ es)
    (hack : ∀ t body r, (t = 0x40 ∨ t = 0x70) → Event.app t body id r none ∉ es) :
    ∃ r ∈ inFlight w'.ctx.tables.outgoing, r.packetId = id := by
  obtain ⟨hg, hidx, s, hrep⟩ := hh.good
  have hi : Inv s.outCap s.inCap w.ctx := ⟨hidx, s, hrep, rfl, rfl⟩
  have hp := (mem_inFlight hrep.1 id).mp hin
  obtain ⟨m', k1, s', k2, _, k3⟩ := hs.mon hg hi hr (m := ⟨[], [id]⟩) ⟨s, hrep, by simp, by simpa using hp⟩
    (by
      intro x hx i e1 e2 hm
      cases List.mem_singleton.mp hm
      exact hcan (by rw [← e1, ← e2]; exact hx)) hes
  exact (mem_inFlight k2.1 id).mpr (k3 id (monRun_kept k1 (List.mem_singleton.mpr rfl) hack))

theorem step_reserve_phase {s : InFlight} {id : UInt16} {q : QoS} (hq : q ≠ .qos0)
    (h : (step s (.reserve id q)).1.1 = .success ∨ (step s (.reserve id q)).1.1 = .stateCollision) :
    (step s (.reserve id q)).2.out.phase id ≠ none := by
  have hins : ∀ p : OutPhase, (s.out.insert s.outCap id p).1 = .success ∨ (s.out.insert s.outCap id p).1 = .stateCollision →
      (s.out.insert s.outCap id p).2.phase id ≠ none := by
    intro p h
    unfold Table.insert at h ⊢
    split
    · rename_i hm
      exact phase_mem.mp (by simpa using hm)
    · rename_i hm
      rw [if_neg hm] at h
      split
      · rename_i hf
        rw [if_pos hf] at h
        simp at h
      · show Table.phase (s.out ++ [(id, p)]) id ≠ none
        rw [phase_append]
        simp
  cases q with
  | qos0 => exact absurd rfl hq
  | _ =>
    simp only [step] at h ⊢
    split
    · rename_i h0
      rw [if_pos h0] at h
      simp at h
    · rename_i h0
      rw [if_neg h0] at h
      exact hins _ h

theorem step_send_phase {s : InFlight} {id i : UInt16} {q : QoS} (h : s.out.phase i ≠ none) :
    (step s (.publish .send id q)).2.out.phase i ≠ none :=
  (step_quiet (c := .publish .send id q) trivial).2 i h

/-- **C37** `MQTT_Publish` with QoS 1 or 2: if it reports success, or that the packet could not be stored or sent, the publish is in flight. -/
theorem C37_reserved {g : Cfg} {h0 : List (ApiCall × ApiRet)} {w w' : World} (hh : FromInit g h0 w) (e : Env) {p : PublishInfo} {id : UInt16}
    (hv : ValidCall g (.publish (some p) id)) (hq : p.qos ≠ .qos0) {st : Status} (hc : callIn g w e (.publish (some p) id) = .done (.status st) w')
    (hst : st ∈ [.success, .sendFailed, .publishStoreFailed]) :
    ∃ r ∈ inFlight w'.ctx.tables.outgoing, r.packetId = id := by
  obtain ⟨hg, hidx, s, hrep⟩ := hh.good
  rcases call_cases hg hidx hrep e hv with ⟨r, es, w1, h1, h2, _, hd⟩ | ⟨es, w1, h1, h2, _, hd⟩
  · rw [hc] at h1
    cases h1
    cases hd with
    | publish _ h =>
      rcases h.cases with ⟨rfl, _⟩ | ⟨_, rfl, _⟩ | ⟨_, _, h3, h4, _⟩ | ⟨_, zs, s1, st0, es0, w0, w1, hres, _, _, _, h3⟩
      · simp at hst
      · unfold notConnectedStatus at hst
        split at hst <;> simp at hst
      · have h5 : (step s (.reserve id p.qos)).1.1 ∈ [Status.success, .sendFailed, .publishStoreFailed] := h4 ▸ hst
        cases hq' : p.qos with
        | qos0 => exact absurd hq' hq
        | _ =>
          rw [hq'] at h5 h4
          simp only [step] at h5 h4
          split at h5
          · simp at h5
          · rename_i h0
            rw [if_neg h0] at h4
            unfold Table.insert at h5 h4
            split at h5
            · simp at h5
            · rename_i h6
              rw [if_neg h6] at h4
              split at h5
              · simp at h5
              · rename_i h7
                rw [if_neg h7] at h4
                exact absurd h4 h3
      · obtain ⟨h4, _⟩ | ⟨_, h4, rfl⟩ := hres
        · exact absurd h4 hq
        · have hp : (step s (.reserve id p.qos)).2.out.phase id ≠ none := step_reserve_phase hq (h4.imp (fun h => h) fun h => h.1)
          rcases h3 with ⟨_, _, h5⟩ | ⟨_, _, h5⟩
          · exact (mem_inFlight h5.1 id).mpr hp
          · refine (mem_inFlight h5.1 id).mpr ?_
            unfold noteSent
            rw [if_neg hq]
            exact step_send_phase hp
  · rw [hc] at h1; cases h1

theorem clearsOk_at {es a b : List Event} {id : UInt16} (h : clearsOk es) (he : es = a ++ .clear id :: b) :
    ∃ t body r rest, b = .app t body id r none :: rest ∧ (t = 0x40 ∨ t = 0x50) := by
  subst he
  induction a with
  | nil => exact h.1
  | cons e a ih =>
    cases e with
    | clear i => exact ih h.2
    | _ => exact ih h

/-- **C37** The stored copy of a publish is cleared only when a PUBACK or PUBREC for it has been processed (the application is presented with it next), or in
`MQTT_Connect` when there is a new session. -/
theorem C37_clear {g : Cfg} {h0 : List (ApiCall × ApiRet)} {w : World} (hh : FromInit g h0 w) (e : Env) {c : ApiCall} (hv : ValidCall g c)
    (hnew : ∀ w', callIn g w e c ≠ .done (.connect .success (some false)) w') {id : UInt16} {a b : List Event}
    (hes : callEvents g w e c = a ++ .clear id :: b) :
    ∃ t body r rest, b = .app t body id r none :: rest ∧ (t = 0x40 ∨ t = 0x50) := by
  obtain ⟨hg, hidx, s, hrep⟩ := hh.good
  rcases call_cases hg hidx hrep e hv with ⟨r, es, w1, h1, h2, _, hd⟩ | ⟨es, w1, h1, h2, hl, hd⟩
  · rw [h2] at hes
    exact clearsOk_at (hd.clears fun hf => hnew w1 (by rw [h1, hf])) hes
  · rw [h2] at hes
    exact clearsOk_at (hd.clears hl) hes

/-! ### Examples -/

/-- After a QoS 2 publish with id 9 was presented, the PUBREC cannot be sent; the client disconnects, resumes the session and receives the publish again, then the
PUBREL, and then a new publish with the same id. -/
def Ex.again : List (Env × ApiCall) :=
  let all : List RecvAns := List.replicate 40 (.deliver 100)
  [({ Ex.env [0x34, 6, 0, 1, 97, 0, 9, 6] with recvs := all, sends := [.fail] }, .receiveLoop), (Ex.env [], .disconnect),
   (Ex.env [0x20, 2, 1, 0], Ex.connectCall), ({ Ex.env [0x3C, 6, 0, 1, 97, 0, 9, 6] with recvs := all }, .receiveLoop),
   ({ Ex.env [0x62, 2, 0, 9] with recvs := all }, .receiveLoop), ({ Ex.env [0x34, 6, 0, 1, 98, 0, 9, 7] with recvs := all }, .receiveLoop)]

def Ex.againPlayed : List (ApiCall × ApiRet) × World := (Ex.play Ex.after Ex.again).getD ([], Ex.after)

/-- Non-vacuity of C35: the second publish is presented after the PUBREL, the duplicate is not. -/
example : (Ex.play Ex.after Ex.again).isSome = true ∧ (∀ x ∈ Ex.againPlayed.1, x.2 ≠ .connect .success (some false)) ∧
    Ex.againPlayed.1.map (·.2) = [.status .sendFailed, .status .success, .connect .success (some true), .status .success, .status .success, .status .success] ∧
    callbacks (Ex.againPlayed.2.trace.drop Ex.after.trace.length) =
      [.app 0x34 [0, 1, 97, 0, 9, 6] 9 .success (some ⟨.qos2, false, false, [97], [6]⟩), .app 0x62 [0, 9] 9 .success none,
       .app 0x34 [0, 1, 98, 0, 9, 7] 9 .success (some ⟨.qos2, false, false, [98], [7]⟩)] := by
  decide +kernel

/-- Non-vacuity of C37: the publish with id 7 is in flight through all of that, until its PUBCOMP; `C37_reserved` with a transport that fails;
`C37_clear` for a PUBACK. -/
example : (∃ r ∈ inFlight Ex.after.ctx.tables.outgoing, r.packetId = 7) ∧ (∃ r ∈ inFlight Ex.againPlayed.2.ctx.tables.outgoing, r.packetId = 7) ∧
    ¬ (∃ r ∈ inFlight (Ex.feed [[0x70, 2, 0, 7]]).2.ctx.tables.outgoing, r.packetId = 7) ∧
    Ex.ret (callIn Ex.g Ex.after Ex.sendError (Ex.publishCall .qos1 8)) = some (.status .sendFailed) ∧
    (∃ r ∈ inFlight (callIn Ex.g Ex.after Ex.sendError (Ex.publishCall .qos1 8)).world.ctx.tables.outgoing, r.packetId = 8) := by
  decide +kernel

example : let w := (callIn Ex.g Ex.after (Ex.env []) (Ex.publishCall .qos1 8)).world
    callbacks (callEvents Ex.g w { Ex.env [0x40, 2, 0, 8] with recvs := [.deliver 100] } .receiveLoop) = [.clear 8, .app 0x40 [0, 8] 8 .success none] := by
  decide +kernel

end Mqtt
