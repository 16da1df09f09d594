/-
Rounds: the packets under way in the course of a round.
-/
import Verif.Proof.RoundsNotes

namespace Mqtt
open Spec
set_option linter.unusedSimpArgs false

variable {strict : Bool}

/-- The packets under way: `us` to the server, `ds` to the client. -/
structure View (s : Sys) (us ds : List Raw) : Prop where
  up : s.net.up = us.flatMap Raw.bytes
  small : ∀ u ∈ us, Small u
  down : s.world.ctx.buffered ++ s.net.down = ds.flatMap Raw.bytes
  valid : ∀ d ∈ ds, d.Valid ∧ d.bytes.length ≤ s.world.ctx.bufSize
  greeted : s.net.greeted = true
  isOpen : s.net.isOpen = true

theorem small_unique {us : List Raw} : ∀ {vs : List Raw}, (∀ u ∈ us, Small u) → (∀ v ∈ vs, Small v) → us.flatMap Raw.bytes = vs.flatMap Raw.bytes → us = vs := by
  induction us with
  | nil =>
    intro vs _ _ h
    cases vs with
    | nil => rfl
    | cons v vs =>
      rw [List.flatMap_nil, List.flatMap_cons] at h
      exact absurd (List.append_eq_nil_iff.mp h.symm).1 (Raw.bytes_ne_nil v)
  | cons u us ih =>
    intro vs h1 h2 h
    rw [List.flatMap_cons] at h
    have h3 := (h1 u List.mem_cons_self).read (us.flatMap Raw.bytes)
    rw [h, ← List.append_nil (vs.flatMap Raw.bytes)] at h3
    obtain ⟨v, vs', rfl, e1, e2, e3⟩ := readPacket_stream h2 rfl h3
    rw [List.append_nil] at e3
    rw [ih (fun x hx => h1 x (List.mem_cons_of_mem _ hx)) (fun x hx => h2 x (List.mem_cons_of_mem _ hx)) e3]
    obtain ⟨f, b⟩ := u
    obtain ⟨f', b'⟩ := v
    replace e1 : f = f' := UInt8.toNat_inj.mp e1
    replace e2 : b = b' := e2
    rw [e1, e2]

theorem valid_unique {ds : List Raw} : ∀ {es : List Raw}, (∀ u ∈ ds, u.Valid) → (∀ v ∈ es, v.Valid) → ds.flatMap Raw.bytes = es.flatMap Raw.bytes → ds = es := by
  induction ds with
  | nil =>
    intro vs _ _ h
    cases vs with
    | nil => rfl
    | cons v vs =>
      rw [List.flatMap_nil, List.flatMap_cons] at h
      exact absurd (List.append_eq_nil_iff.mp h.symm).1 (Raw.bytes_ne_nil v)
  | cons d ds ih =>
    intro vs h1 h2 h
    rw [List.flatMap_cons, ← List.append_nil (d.bytes ++ _)] at h
    obtain ⟨vs', rfl, e⟩ := first_packet (h1 d List.mem_cons_self) h2 h
    rw [List.append_nil] at e
    rw [ih (fun x hx => h1 x (List.mem_cons_of_mem _ hx)) (fun x hx => h2 x (List.mem_cons_of_mem _ hx)) e]

theorem View.unique {s : Sys} {us ds us' ds' : List Raw} (h : View s us ds) (h' : View s us' ds') : us = us' ∧ ds = ds' :=
  ⟨small_unique h.small h'.small (h.up.symm.trans h'.up),
   valid_unique (fun d hd => (h.valid d hd).1) (fun d hd => (h'.valid d hd).1) (h.down.symm.trans h'.down)⟩

theorem View.emptyUp {s : Sys} {us ds : List Raw} (h : View s us ds) (hu : s.net.up = []) : us = [] :=
  small_unique h.small (by simp) (h.up.symm.trans hu)

theorem View.emptyDown {s : Sys} {us ds : List Raw} (h : View s us ds) (hb : s.world.ctx.buffered = []) (hd : s.net.down = []) : ds = [] :=
  valid_unique (fun d hd => (h.valid d hd).1) (by simp) (h.down.symm.trans (by rw [hb, hd]; rfl))

/-! ### The server's part -/

/-- The server answered a packet or, with `own`, sent something of its own accord. -/
def Answered (strict own : Bool) (cap : Nat) (us ds us' ds' : List Raw) : Prop :=
  (∃ u v g' v' outs, us = u :: us' ∧ ds' = ds ++ outs ∧ Reads strict cap true v u g' v' outs) ∨
  (own = true ∧ us' = us ∧ ∃ p, ds' = ds ++ [p] ∧ ∀ i, downNote i p = none)

theorem View.serve {s : Sys} {us ds : List Raw} {n : Net} {own : Bool} (h : View s us ds) (hcap : 4 ≤ s.world.ctx.bufSize)
    (hs : Serves strict s.world.ctx.bufSize s.net n) (ho : own = true ∨ n.up.length < s.net.up.length) :
    ∃ us' ds', View { s with net := n } us' ds' ∧ Answered strict own s.world.ctx.bufSize us ds us' ds' := by
  have ha : Agrees s.world.ctx.bufSize ⟨⟨0, 0, [], []⟩, fun _ => none, .on, true, true, us, ds, s.net.server, [], true⟩ s.net s.world.ctx.buffered [] (fun _ => none) :=
    ⟨by rw [List.append_nil]; exact h.up, rfl, h.small, h.valid, h.down, h.isOpen, h.greeted, rfl, fun _ => rfl, by simp⟩
  obtain ⟨a', h1, h2, h3⟩ := ha.replied hcap hs
  have hup := h3.up
  rw [List.append_nil] at hup
  have hopen : n.isOpen = true := hs.isOpen.trans h.isOpen
  cases h1 with
  | @read u us' outs g v e1 e2 =>
    refine ⟨us', ds ++ outs, ⟨hup, h3.small, h3.down, h3.valid, ?_, hopen⟩, Or.inl ⟨u, s.net.server, g, v, outs, e1, rfl, e2⟩⟩
    rw [show n.greeted = g from h3.greeted]
    replace e2 : Reads strict s.world.ctx.bufSize true s.net.server u g v outs := e2
    generalize hg : true = x at e2
    cases e2 <;> first | rfl | cases hg
  | @offer p out e1 e2 =>
    have hown : own = true := ho.resolve_right (by
      have : n.up = s.net.up := hup.trans h.up.symm
      rw [this]; omega)
    exact ⟨us, ds ++ [p], ⟨hup, h3.small, h3.down, h3.valid, h3.greeted, hopen⟩, Or.inr ⟨hown, rfl, p, rfl, fun i => Unasked.note e2.unasked i⟩⟩
  | @unasked p e1 e2 =>
    have hown : own = true := ho.resolve_right (by
      have : n.up = s.net.up := hup.trans h.up.symm
      rw [this]; omega)
    exact ⟨us, ds ++ [p], ⟨hup, h3.small, h3.down, h3.valid, h3.greeted, hopen⟩, Or.inr ⟨hown, rfl, p, rfl, fun i => Unasked.note e2 i⟩⟩

/-- The server's part of a round keeps every property of the packets under way that its answers keep. -/
theorem Spec.Sys.Serving.view {own : Bool} {s s' : Sys} (h : Sys.Serving strict own s s') {P : List Raw → List Raw → Prop}
    (hP : ∀ us ds us' ds', Answered strict own s.world.ctx.bufSize us ds us' ds' → P us ds → P us' ds') (hcap : 4 ≤ s.world.ctx.bufSize) {us ds : List Raw}
    (hv : View s us ds) (hp : P us ds) : s'.world = s.world ∧ s'.shelf = s.shelf ∧ ∃ ds', View s' [] ds' ∧ P [] ds' := by
  induction h generalizing us ds with
  | done hu =>
    have := hv.emptyUp hu
    subst this
    exact ⟨rfl, rfl, ds, hv, hp⟩
  | step h1 h2 _ ih =>
    obtain ⟨us', ds', hv', ha⟩ := hv.serve hcap h1 h2
    exact ih hP hcap hv' (hP _ _ _ _ ha hp)

theorem Spec.Sys.Serving.run {g : Cfg} {own : Bool} {s0 s s' : Sys} {h0 : List (ApiCall × ApiRet)} (h : Sys.Serving strict own s s') (hr : Sys.Run g strict s0 h0 s) :
    Sys.Run g strict s0 h0 s' := by
  induction h with
  | done => exact hr
  | step h1 _ _ ih => exact ih (.serve hr h1)

/-! ### The client's part -/

theorem validLoop {g : Cfg} {c : ApiCall} (h : c = .processLoop ∨ c = .receiveLoop) : ValidCall g c := by
  rcases h with rfl | rfl <;> trivial

theorem disciplined_loop {c : ApiCall} {r : ApiRet} (h : c = .processLoop ∨ c = .receiveLoop) (i : UInt16) : Disciplined i [(c, r)] := by
  intro x hx
  rw [List.mem_singleton.mp hx]
  rcases h with rfl | rfl <;> exact ⟨fun _ h => (by cases h), fun h => (by cases h)⟩

theorem Spec.Disciplined.join {i : UInt16} {h h' : List (ApiCall × ApiRet)} (hd : Disciplined i h) (hd' : Disciplined i h') : Disciplined i (h ++ h') :=
  fun x hx => (List.mem_append.mp hx).elim (hd x) (hd' x)

theorem steady_more {retx : Bool} {h : List (ApiCall × ApiRet)} {c : ApiCall} {st : Status} (hs : Steady retx h) (hc : c = .processLoop ∨ c = .receiveLoop)
    (hok : st = .success ∨ st = .needMoreBytes) : Steady retx (h ++ [(c, .status st)]) := by
  obtain ⟨h1, ci, will, t, sp0, sp, h2, rfl, h3⟩ := hs
  refine ⟨h1, ci, will, t, sp0, sp, h2 ++ [(c, .status st)], by simp, ?_⟩
  intro x hx
  rw [← List.cons_append] at hx
  rcases List.mem_append.mp hx with hx | hx
  · exact h3 x hx
  · rw [List.mem_singleton.mp hx]
    rcases hc with rfl | rfl <;> exact hok

/-- What is known about the system during the rounds. -/
structure Going (g : Cfg) (strict : Bool) (s0 : Sys) (h : List (ApiCall × ApiRet)) (s : Sys) : Prop where
  run : Sys.Run g strict s0 h s
  disciplined : ∀ i, Disciplined i h
  steady : Steady s0.world.ctx.retransmits h
  connected : s.world.ctx.connectStatus ≠ .notConnected
  isOpen : s.net.isOpen = true

theorem Going.tracked {g : Cfg} {s0 s : Sys} {h : List (ApiCall × ApiRet)} (hini : Sys.Initial g s0) (h : Going g strict s0 h s) :
    ∃ a0 a, a0.Initial ∧ Proto.Run strict s0.world.ctx.retransmits s0.world.ctx.bufSize a0 a ∧
      Tracks s0.world.ctx.retransmits s0.world.ctx.bufSize a s.world.ctx s.net s.shelf ∧ a.ok = true ∧ a.stage = .on ∧ a.isOpen = true ∧
      View s a.up a.down := by
  obtain ⟨oc, ic, h0⟩ := Sys.tracksFirst hini
  obtain ⟨a, h1, h2, h3, h4⟩ := Sys.tracks hini.cfg h.run h0 h.disciplined
  have hi0 : Proto.Initial ⟨⟨oc, ic, [], []⟩, fun _ => none, .idle, false, s0.net.greeted, [], [], s0.net.server, [], false⟩ :=
    ⟨⟨rfl, rfl⟩, fun _ => rfl, rfl, rfl, ⟨rfl, rfl⟩, hini.held, rfl, rfl⟩
  have hon : a.stage = .on := by rw [h2.stage, if_neg h.connected]
  have ⟨buf, part, k1, k2, k3, _⟩ := h2.agrees
  have ho : a.isOpen = true := k1.isOpen.symm.trans h.isOpen
  have hs := (Sound.initial (retx := s0.world.ctx.retransmits) hi0).run h1
  refine ⟨_, a, hi0, h1, h2, h4 h.steady, hon, ho, ⟨?_, k1.small, ?_, ?_, k1.greeted.trans (hs.on hon), h.isOpen⟩⟩
  · rw [k1.up, k3 ho, List.append_nil]
  · rw [← k2 hon]; exact k1.down
  · rw [h2.size]; exact k1.valid

/-- The client's part of a round. -/
theorem Spec.Sys.Listening.view {g : Cfg} {s0 s s' : Sys} {h0 h : List (ApiCall × ApiRet)} (hl : Sys.Listening g s h s') (hini : Sys.Initial g s0)
    (hgo : Going g strict s0 h0 s) {P : List Raw → List Raw → Prop}
    (hP : ∀ us ds us' ds', Handled s0.world.ctx.retransmits us ds us' ds' → P us ds → P us' ds') {us ds : List Raw} (hv : View s us ds) (hp : P us ds) :
    Going g strict s0 (h0 ++ h) s' ∧ s'.net.server = s.net.server ∧ ∃ us', View s' us' [] ∧ P us' [] := by
  induction hl generalizing h0 us ds with
  | done hb hd =>
    have := hv.emptyDown hb hd
    subst this
    rw [List.append_nil]
    exact ⟨hgo, rfl, us, hv, hp⟩
  | @call s s' e c st w rest h hc hcall hok hdown _ ih =>
    obtain ⟨a0, a, _, _, htr, _⟩ := hgo.tracked hini
    obtain ⟨es, hlk, hdid⟩ := callIn_done hini.cfg (validLoop hc) htr.index htr.tables hcall
    have hes : callEvents g s.world e c = es := by
      unfold callEvents
      exact newEvents_done (w := { s.world with env := e }) hcall hlk.trace
    rw [hes] at hdown ih
    have hdn := hv.down
    rw [hdown] at hdn
    have hsz := htr.size
    have hre := htr.retx
    -- the call
    have key : (∀ e ∈ callbacks es, Telling e = true) ∧ w.ctx.bufSize = s.world.ctx.bufSize ∧ (w.ctx.connectStatus = .notConnected ↔ s.world.ctx.connectStatus = .notConnected) ∧
        ∃ us' ds', us.flatMap Raw.bytes ++ wire es = us'.flatMap Raw.bytes ∧ (∀ u ∈ us', Small u) ∧ w.ctx.buffered ++ rest = ds'.flatMap Raw.bytes ∧
          (∀ d ∈ ds', d ∈ ds) ∧ Handled s0.world.ctx.retransmits us ds us' ds' := by
      rcases hc with rfl | rfl
      · cases hdid with
        | processLoop f hd =>
          obtain ⟨k1, k2⟩ := hd.handled (w := World.fresh { s.world with env := e }) hok (us := us) (ds := ds) (rest := rest) hv.valid hdn hv.small
          refine ⟨k1, f.bufSize, by rw [f.status, afterFail_not], ?_⟩
          rw [← hre]; exact k2
      · cases hdid with
        | receiveLoop f hd =>
          obtain ⟨k1, k2⟩ := hd.handled (w := { s.world with env := e }) hok (us := us) (ds := ds) (rest := rest) hv.valid hdn hv.small
          refine ⟨k1, f.bufSize, by rw [f.status, afterFail_not], ?_⟩
          rw [← hre]; exact k2
    obtain ⟨k1, k2, k3, us', ds', e1, e2, e3, e4, e5⟩ := key
    have hcl : closes c (.status st) = false := by
      rcases hc with rfl | rfl <;> (unfold closes; rcases hok with rfl | rfl <;> rfl)
    have hrun := Sys.Run.call (n := { s.net with up := s.net.up ++ wire es, down := rest }) hgo.run (validLoop hc) hcall
      (by rw [hes]; exact NetRun.alone hgo.isOpen hdown) (by rw [hes]; exact Faithful.telling k1 _)
    rw [hcl, hes] at hrun
    have hnet : ({ s.net with up := s.net.up ++ wire es, down := rest, isOpen := s.net.isOpen && !false } : Net) = { s.net with up := s.net.up ++ wire es, down := rest } := by
      simp [hgo.isOpen]
    replace hrun : Sys.Run g strict s0 (h0 ++ [(c, .status st)])
      ⟨w, { s.net with up := s.net.up ++ wire es, down := rest, isOpen := s.net.isOpen && !false }, es.foldl Shelf.note s.shelf⟩ := hrun
    rw [hnet] at hrun
    have hgo' : Going g strict s0 (h0 ++ [(c, .status st)]) ⟨w, { s.net with up := s.net.up ++ wire es, down := rest }, es.foldl Shelf.note s.shelf⟩ :=
      ⟨hrun, fun i => (hgo.disciplined i).join (disciplined_loop hc i), steady_more hgo.steady hc hok, fun hx => hgo.connected (k3.mp hx), hgo.isOpen⟩
    have hv' : View ⟨w, { s.net with up := s.net.up ++ wire es, down := rest }, es.foldl Shelf.note s.shelf⟩ us' ds' :=
      ⟨by show s.net.up ++ wire es = _; rw [hv.up]; exact e1, e2, e3, fun d hd => by show d.Valid ∧ d.bytes.length ≤ w.ctx.bufSize; rw [k2]; exact hv.valid d (e4 d hd),
        hv.greeted, hv.isOpen⟩
    obtain ⟨r1, r2, r3⟩ := ih hgo' hv' (hP _ _ _ _ e5 hp)
    rw [List.append_assoc] at r1
    exact ⟨r1, r2, r3⟩

end Mqtt
