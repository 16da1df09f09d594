/-
Runs of several threads: the packet ids handed out.
-/
import Verif.Spec.Ids
import Verif.Proof.Ids
import Verif.Proof.Calls

namespace Mqtt
open Spec
set_option linter.unusedSimpArgs false

theorem listSet_split {α : Type _} {l : List α} {i : Nat} {a b : α} (h : l[i]? = some a) : ∃ l1 l2, l = l1 ++ a :: l2 ∧ l.set i b = l1 ++ b :: l2 := by
  obtain ⟨hi, rfl⟩ := List.getElem?_eq_some_iff.mp h
  refine ⟨l.take i, l.drop (i + 1), ?_, ?_⟩
  · rw [← List.drop_eq_getElem_cons hi, List.take_append_drop]
  · rw [List.set_eq_take_append_cons_drop, if_pos hi]

/-- A run is an execution of the threads as programs. -/
theorem runSteps_pool {g : Cfg} {r r' : Run} (h : Run.Steps g r r') : Pool.Steps (r.pool g) (r'.pool g) := by
  induction h with
  | refl => exact .refl
  | @step r1 r2 _ hs ih =>
    cases hs with
    | @begin ts w l i c next h =>
      have : Run.pool g ⟨ts.set i (.inside c (callP g c) next), w, l⟩ = Run.pool g ⟨ts, w, l⟩ := by
        obtain ⟨l1, l2, e1, e2⟩ := listSet_split (b := Thread.inside c (callP g c) next) h
        unfold Run.pool
        rw [e2, e1]
        simp [Thread.prog, Client.prog]
      rw [this]; exact ih
    | @step ts w w' l i c next β m k b h hm =>
      refine .step (i := i) ih ?_
      have hp : (Run.pool g ⟨ts, w, l⟩).threads[i]? = some (.step m fun b => (k b).bind fun a => (next a).prog g) := by
        show (ts.map (Thread.prog g))[i]? = _
        rw [List.getElem?_map, h]; rfl
      have := Pool.Step.step hp hm
      have e : Run.pool g ⟨ts.set i (.inside c (k b) next), w', l⟩ =
          ⟨(Run.pool g ⟨ts, w, l⟩).threads.set i ((k b).bind fun a => (next a).prog g), w'⟩ := by
        unfold Run.pool
        rw [List.map_set]; rfl
      rw [e]; exact this
    | @finish ts w l i c next a h =>
      have : Run.pool g ⟨ts.set i (.idle (next a)), w, l ++ [(i, c, a)]⟩ = Run.pool g ⟨ts, w, l⟩ := by
        obtain ⟨l1, l2, e1, e2⟩ := listSet_split (b := Thread.idle (next a)) h
        unfold Run.pool
        rw [e2, e1]
        simp [Thread.prog, Prog.bind]
      rw [this]; exact ih

/-- The id a thread has drawn and not yet returned with. -/
def heldId : Thread → List UInt16
  | .inside .getPacketId (.ret (.packetId id)) _ => [id]
  | _ => []

/-- What is left of a call. -/
def CallOk (g : Cfg) : Thread → Prop
  | .idle _ => True
  | .inside c p _ => (c ≠ .getPacketId → Stills p) ∧ (c = .getPacketId → p = callP g .getPacketId ∨ ∃ id, p = .ret (.packetId id))

/-- Since `n0` was the counter and `l0` had been returned, `ds` were handed out. -/
structure Handed (g : Cfg) (l0 : List (Nat × ApiCall × ApiRet)) (next : Nat → UInt16) (r : Run) (new : List (Nat × ApiCall × ApiRet)) (d : Nat) : Prop where
  ret : r.returned = l0 ++ new
  counter : r.world.ctx.nextPacketId = next d
  perm : ∀ id, (drawnIds (new.map (·.2))).count id + (r.threads.flatMap heldId).count id = ((List.range d).map fun k => (getPacketId (next k)).1).count id
  ok : ∀ t ∈ r.threads, CallOk g t

theorem getPacketId_step (w : World) (b : UInt16) (w' : World) (h : locked (do
    let c ← getCtx
    let (id, next) := getPacketId c.nextPacketId
    modifyCtx fun c => { c with nextPacketId := next }
    pure id) w = .done b w') : b = (getPacketId w.ctx.nextPacketId).1 ∧ w'.ctx.nextPacketId = (getPacketId w.ctx.nextPacketId).2 := by
  cases h
  exact ⟨rfl, rfl⟩

theorem Handed.step {g : Cfg} {l0 new : List (Nat × ApiCall × ApiRet)} {next : Nat → UInt16} (hnext : ∀ k, next (k + 1) = (getPacketId (next k)).2)
    {r r' : Run} {d : Nat} (h : Handed g l0 next r new d) (hs : Run.Step g r r') : ∃ new' d', Handed g l0 next r' new' d' := by
  cases hs with
  | @begin ts w l i c nx ht =>
    obtain ⟨l1, l2, e1, e2⟩ := listSet_split (b := Thread.inside c (callP g c) nx) ht
    refine ⟨new, d, h.ret, h.counter, ?_, ?_⟩
    · intro id
      have hp := h.perm id
      have hh : heldId (.inside c (callP g c) nx) = [] := by
        cases c <;> rfl
      dsimp only at hp ⊢
      rw [e1] at hp
      rw [e2]
      simp only [List.flatMap_append, List.flatMap_cons, hh] at hp ⊢
      exact hp
    · intro t hm
      dsimp only at hm
      rw [e2] at hm
      rcases List.mem_append.mp hm with hm | hm
      · exact h.ok t (by dsimp only; rw [e1]; simp [hm])
      · rcases List.mem_cons.mp hm with rfl | hm
        · exact ⟨stills_call g c, fun e => .inl (by rw [e])⟩
        · exact h.ok t (by dsimp only; rw [e1]; simp [hm])
  | @finish ts w l i c nx a ht =>
    obtain ⟨l1, l2, e1, e2⟩ := listSet_split (b := Thread.idle (nx a)) ht
    have hok : CallOk g (.inside c (.ret a) nx) := h.ok _ (List.mem_of_getElem? ht)
    refine ⟨new ++ [(i, c, a)], d, by dsimp only; rw [← List.append_assoc, ← h.ret], h.counter, ?_, ?_⟩
    · intro id
      have hp := h.perm id
      have hh : heldId (.inside c (.ret a) nx) = (idOf (c, a)).toList := by
        cases c <;> first | rfl | (cases a <;> rfl)
      dsimp only at hp ⊢
      rw [e1] at hp
      rw [e2]
      have hi : drawnIds ((new ++ [(i, c, a)]).map (·.2)) = drawnIds (new.map (·.2)) ++ (idOf (c, a)).toList := by
        unfold drawnIds
        rw [List.map_append, List.filterMap_append]
        simp only [List.map_cons, List.map_nil, List.filterMap_cons, List.filterMap_nil]
        cases idOf (c, a) <;> rfl
      rw [hi]
      simp only [List.flatMap_append, List.flatMap_cons, hh, List.count_append] at hp ⊢
      simp only [heldId, List.count_nil] at hp ⊢
      omega
    · intro t hm
      dsimp only at hm
      rw [e2] at hm
      rcases List.mem_append.mp hm with hm | hm
      · exact h.ok t (by dsimp only; rw [e1]; simp [hm])
      · rcases List.mem_cons.mp hm with rfl | hm
        · trivial
        · exact h.ok t (by dsimp only; rw [e1]; simp [hm])
  | @step ts w w' l i c nx β m k b ht hm =>
    obtain ⟨l1, l2, e1, e2⟩ := listSet_split (b := Thread.inside c (k b) nx) ht
    have hok : CallOk g (.inside c (.step m k) nx) := h.ok _ (List.mem_of_getElem? ht)
    have rest : CallOk g (.inside c (k b) nx) → ∀ t ∈ ts.set i (.inside c (k b) nx), CallOk g t := by
      intro hn t hmem
      rw [e2] at hmem
      rcases List.mem_append.mp hmem with hmem | hmem
      · exact h.ok t (by dsimp only; rw [e1]; simp [hmem])
      · rcases List.mem_cons.mp hmem with rfl | hmem
        · exact hn
        · exact h.ok t (by dsimp only; rw [e1]; simp [hmem])
    by_cases hc : c = .getPacketId
    · subst hc
      rcases hok.2 rfl with hp | ⟨id, hp⟩
      · cases hp
        obtain ⟨hb, hn⟩ := getPacketId_step w b w' hm
        have hnw : w.ctx.nextPacketId = next d := h.counter
        refine ⟨new, d + 1, h.ret, ?_, ?_, rest ⟨fun hx => absurd rfl hx, fun _ => .inr ⟨b, rfl⟩⟩⟩
        · dsimp only; rw [hn, hnext, hnw]
        · intro id
          have hp := h.perm id
          dsimp only at hp ⊢
          rw [e1] at hp
          rw [e2, List.range_succ, List.map_append, List.count_append, ← hp]
          rw [hnw] at hb
          simp only [List.flatMap_append, List.flatMap_cons, List.count_append]
          rw [show heldId (.inside .getPacketId ((fun a => Prog.bind (.ret a) fun x => pure (.packetId x)) b) nx) = [b] from rfl, hb]
          simp only [List.map_cons, List.map_nil]
          have : heldId (.inside .getPacketId (callP g .getPacketId) nx) = [] := rfl
          simp only [heldId, List.count_nil]
          omega
      · cases hp
    · obtain ⟨hs1, hs2⟩ := hok.1 hc
      refine ⟨new, d, h.ret, ?_, ?_, rest ⟨fun _ => hs2 b, fun e => absurd e hc⟩⟩
      · exact (hs1 _ _ _ hm).trans h.counter
      · intro id
        have hp := h.perm id
        have hh : ∀ p, heldId (.inside c p nx) = [] := by
          intro p
          cases c <;> first | rfl | exact absurd rfl hc
        dsimp only at hp ⊢
        rw [e1] at hp
        rw [e2]
        simp only [List.flatMap_append, List.flatMap_cons, hh] at hp ⊢
        exact hp

theorem Handed.steps {g : Cfg} {l0 new : List (Nat × ApiCall × ApiRet)} {next : Nat → UInt16} (hnext : ∀ k, next (k + 1) = (getPacketId (next k)).2)
    {r r' : Run} {d : Nat} (h : Handed g l0 next r new d) (hs : Run.Steps g r r') : ∃ new' d', Handed g l0 next r' new' d' := by
  induction hs with
  | refl => exact ⟨new, d, h⟩
  | step _ hs ih =>
    obtain ⟨_, _, ih⟩ := ih
    exact ih.step hnext hs

/-- The threads' calls are what they were begun as. -/
theorem CallOk.steps {g : Cfg} {r r' : Run} (hs : Run.Steps g r r') (h : ∀ t ∈ r.threads, CallOk g t) : ∀ t ∈ r'.threads, CallOk g t := by
  induction hs with
  | refl => exact h
  | @step r1 r2 _ hs ih =>
    cases hs with
    | @begin ts w l i c nx ht =>
      intro t hm
      rcases List.mem_or_eq_of_mem_set hm with hm | rfl
      · exact ih t hm
      · exact ⟨stills_call g c, fun e => .inl (by rw [e])⟩
    | @finish ts w l i c nx a ht =>
      intro t hm
      rcases List.mem_or_eq_of_mem_set hm with hm | rfl
      · exact ih t hm
      · trivial
    | @step ts w w' l i c nx β m k b ht hmm =>
      intro t hm
      have hok : CallOk g (.inside c (.step m k) nx) := ih _ (List.mem_of_getElem? ht)
      rcases List.mem_or_eq_of_mem_set hm with hm | rfl
      · exact ih t hm
      · refine ⟨fun hc => (hok.1 hc).2 b, fun hc => ?_⟩
        subst hc
        rcases hok.2 rfl with hp | ⟨id, hp⟩
        · cases hp; exact .inr ⟨b, rfl⟩
        · cases hp

theorem drawing_held (ts : List Thread) : (ts.flatMap heldId).length ≤ ts.countP Thread.drawing := by
  induction ts with
  | nil => simp
  | cons t ts ih =>
    rw [List.flatMap_cons, List.length_append, List.countP_cons]
    have : (heldId t).length ≤ if t.drawing = true then 1 else 0 := by
      unfold heldId
      split
      · simp [Thread.drawing]
      · simp
    omega

theorem held_none {ts : List Thread} (h : ts.countP Thread.drawing = 0) : ts.flatMap heldId = [] := by
  have := drawing_held ts
  exact List.length_eq_zero_iff.mp (by omega)

theorem drawnIds_append (a b : List (ApiCall × ApiRet)) : drawnIds (a ++ b) = drawnIds a ++ drawnIds b := by
  unfold drawnIds; rw [List.filterMap_append]

/-- One call after the other. -/
theorem Hist.ids {g : Cfg} {w0 w : World} {h : List (ApiCall × ApiRet)} (hh : Hist g w0 h w) {next : Nat → UInt16}
    (hnext : ∀ k, next (k + 1) = (getPacketId (next k)).2) (h0 : w0.ctx.nextPacketId = next 0) :
    w.ctx.nextPacketId = next (drawnIds h).length ∧ ∀ k id, (drawnIds h)[k]? = some id → id = (getPacketId (next k)).1 := by
  induction hh with
  | start => exact ⟨h0, fun k id hk => by simp [drawnIds] at hk⟩
  | @call w1 w2 h e c r hr hv hc ih =>
    obtain ⟨ih1, ih2⟩ := ih
    by_cases hg : c = .getPacketId
    · subst hg
      have hx : apiCall g .getPacketId { w1 with env := e } = .done r w2 := hc
      cases hx
      have e1 : drawnIds (h ++ [(ApiCall.getPacketId, ApiRet.packetId (getPacketId w1.ctx.nextPacketId).1)]) =
        drawnIds h ++ [(getPacketId w1.ctx.nextPacketId).1] := by rw [drawnIds_append]; rfl
      constructor
      · show (getPacketId w1.ctx.nextPacketId).2 = next (drawnIds (h ++ [(ApiCall.getPacketId, ApiRet.packetId (getPacketId w1.ctx.nextPacketId).1)])).length
        rw [e1, List.length_append, List.length_singleton, hnext, ← ih1]
      · intro k id hk
        change (drawnIds (h ++ [(ApiCall.getPacketId, ApiRet.packetId (getPacketId w1.ctx.nextPacketId).1)]))[k]? = some id at hk
        rw [e1] at hk
        rw [List.getElem?_append] at hk
        split at hk
        · exact ih2 k id hk
        · have hk0 : k - (drawnIds h).length = 0 := by
            cases hkk : k - (drawnIds h).length with
            | zero => rfl
            | succ n => rw [hkk] at hk; simp at hk
          rw [hk0] at hk
          have : k = (drawnIds h).length := by omega
          rw [this, ← ih1]
          simpa using hk.symm
    · have hs := still_apiCall g c hg { w1 with env := e } r w2 hc
      have e1 : drawnIds (h ++ [(c, r)]) = drawnIds h := by
        rw [drawnIds_append]
        have : drawnIds [(c, r)] = [] := by
          cases c <;> first | rfl | exact absurd rfl hg
        rw [this, List.append_nil]
      rw [e1]
      exact ⟨hs.trans ih1, ih2⟩

theorem Initialised.nextId {c : Ctx} (h : Initialised c) : c.nextPacketId = 1 := by
  induction h with
  | init h => unfold mqttInit at h; repeat' split at h
              all_goals first | cases h; done | (cases h; rfl)
  | stateful _ _ _ h ih =>
    unfold mqttInitStatefulQoS at h
    split at h
    · cases h
    · split at h
      · cases h
      · cases h; exact ih
  | retransmits _ h ih =>
    unfold mqttInitRetransmits at h
    split at h
    · cases h
    · cases h; exact ih

end Mqtt
