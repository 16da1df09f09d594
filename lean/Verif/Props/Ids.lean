/-
C16: packet ids over histories and threads; C67: fresh ids do not collide.
-/
import Verif.Proof.IdRuns
import Verif.Props.Acks
import Verif.Props.Outcomes
import Verif.Proof.CallLife
import Verif.Props.Threads
import Verif.Props.Silence

namespace Mqtt
open Spec
set_option linter.unusedSimpArgs false

/-- The counter after `k` more ids. -/
private theorem counter_step (n : UInt16) (k : Nat) : nextAfter n (k + 1) = (getPacketId (nextAfter n k)).2 := rfl

private theorem FromInit.counter {g : Cfg} {h : List (ApiCall × ApiRet)} {w : World} (hh : FromInit g h w) :
    w.ctx.nextPacketId = nextAfter 1 (drawnIds h).length ∧ ∀ k id, (drawnIds h)[k]? = some id → id = idOfCall 1 k := by
  obtain ⟨_, w0, hi, _, hs⟩ := hh
  exact hs.ids (counter_step 1) hi.nextId

/-- **C16** In every history that starts with an initialised context, whatever else is called in between, the `k`-th call of
`MQTT_GetPacketId` (counting from 0) returns `k % 65535 + 1`. -/
theorem C16_history {g : Cfg} {h : List (ApiCall × ApiRet)} {w : World} (hh : FromInit g h w) {k : Nat} {id : UInt16}
    (hk : (drawnIds h)[k]? = some id) : id.toNat = k % 65535 + 1 := by
  rw [hh.counter.2 k id hk]
  have := nextAfter_toNat (next := 1) (by decide) k
  rw [show idOfCall 1 k = nextAfter 1 k from rfl, this]
  simp

/-- **C16** Threads that share a context, each calling what it likes, in any interleaving of their steps.  Consider any moment `r0` at which no thread is
inside `MQTT_GetPacketId`, and any later moment `r`.  If at most 65535 calls of `MQTT_GetPacketId` were begun in between, then the calls that
have returned in between returned pairwise distinct ids. -/
theorem C16_threads {g : Cfg} {h : List (ApiCall × ApiRet)} {w : World} {e : Env} {cls : List Client} {r0 r : Run} (hh : FromInit g h w)
    (h0 : Run.Steps g (Run.start cls { w with env := e }) r0) (hn : r0.drawing = 0) (hs : Run.Steps g r0 r) :
    ∃ new, r.returned = r0.returned ++ new ∧
      ((drawnIds (new.map (·.2))).length + r.drawing ≤ 65535 → (drawnIds (new.map (·.2))).Nodup) := by
  have ok0 : ∀ t ∈ (Run.start cls { w with env := e }).threads, CallOk g t := by
    intro t ht
    obtain ⟨cl, _, rfl⟩ := List.mem_map.mp ht
    trivial
  have hc0 : Handed g [] (nextAfter w.ctx.nextPacketId) (Run.start cls { w with env := e }) [] 0 := by
    refine ⟨rfl, rfl, ?_, ok0⟩
    intro id
    have : (Run.start cls { w with env := e }).threads.flatMap heldId = [] := by
      apply held_none
      unfold Run.start
      rw [List.countP_map]
      exact List.countP_eq_zero.mpr (by simp [Thread.drawing])
    rw [this]
    simp [drawnIds]
  obtain ⟨_, d0, hr0⟩ := hc0.steps (counter_step _) h0
  have hnz : r0.world.ctx.nextPacketId ≠ 0 := by
    rw [hr0.counter]
    intro hz
    have hw : w.ctx.nextPacketId ≠ 0 := by
      rw [hh.counter.1]
      intro hz
      have := nextAfter_toNat (next := 1) (by decide) (drawnIds h).length
      rw [hz] at this
      simp at this
    have := nextAfter_toNat hw d0
    rw [hz] at this
    simp at this
  have h1 : Handed g r0.returned (nextAfter r0.world.ctx.nextPacketId) r0 [] 0 := by
    refine ⟨by simp, rfl, ?_, hr0.ok⟩
    intro id
    rw [held_none hn]
    simp [drawnIds]
  obtain ⟨new, d, hr⟩ := h1.steps (counter_step _) hs
  refine ⟨new, hr.ret, fun hlen => ?_⟩
  have hperm : (drawnIds (new.map (·.2)) ++ r.threads.flatMap heldId).Perm ((List.range d).map (idOfCall r0.world.ctx.nextPacketId)) := by
    rw [List.perm_iff_count]
    intro id
    rw [List.count_append]
    exact hr.perm id
  have hd : d ≤ 65535 := by
    have := hperm.length_eq
    rw [List.length_append, List.length_map, List.length_range] at this
    have := drawing_held r.threads
    unfold Run.drawing at hlen
    omega
  have hnd : ((List.range d).map (idOfCall r0.world.ctx.nextPacketId)).Nodup := by
    rw [List.nodup_iff_pairwise_ne, List.pairwise_map]
    refine List.Pairwise.imp_of_mem ?_ List.nodup_range
    intro a b ha hb hab he
    rw [List.mem_range] at ha hb
    have := ((C16_packet_ids _ hnz).2 a b).mp he
    omega
  exact (List.nodup_append.mp (hperm.nodup_iff.mpr hnd)).1

/-- **C16** No thread ever obtains the id 0. -/
theorem C16_threads_nonzero {g : Cfg} {h : List (ApiCall × ApiRet)} {w : World} {e : Env} {cls : List Client} {r : Run} (hh : FromInit g h w)
    (hs : Run.Steps g (Run.start cls { w with env := e }) r) : 0 ∉ r.ids := by
  have hc0 : Handed g [] (nextAfter w.ctx.nextPacketId) (Run.start cls { w with env := e }) [] 0 := by
    refine ⟨rfl, rfl, ?_, ?_⟩
    · intro id
      have : (Run.start cls { w with env := e }).threads.flatMap heldId = [] := by
        apply held_none
        unfold Run.start
        rw [List.countP_map]
        exact List.countP_eq_zero.mpr (by simp [Thread.drawing])
      rw [this]
      simp [drawnIds]
    · intro t ht
      obtain ⟨cl, _, rfl⟩ := List.mem_map.mp ht
      trivial
  obtain ⟨new, d, hr⟩ := hc0.steps (counter_step _) hs
  intro hz
  have hw : w.ctx.nextPacketId ≠ 0 := by
    rw [hh.counter.1]
    intro hz
    have := nextAfter_toNat (next := 1) (by decide) (drawnIds h).length
    rw [hz] at this
    simp at this
  have hp := hr.perm 0
  have hret : r.returned = new := by rw [hr.ret]; rfl
  unfold Run.ids at hz
  rw [hret] at hz
  have h1 := List.count_pos_iff.mpr hz
  have h2 : 0 < ((List.range d).map fun k => (getPacketId (nextAfter w.ctx.nextPacketId k)).1).count 0 := by omega
  obtain ⟨k, _, hk⟩ := List.mem_map.mp (List.count_pos_iff.mp h2)
  exact (C16_packet_ids _ hw).1 k hk

/-- **C47** The executions considered here are those of the threads as programs, to which the other theorems about threads apply. -/
theorem C47_runs {g : Cfg} {cls : List Client} {w : World} {r : Run} (hs : Run.Steps g (Run.start cls w) r) :
    Pool.Steps ⟨cls.map (Client.prog g), w⟩ ⟨r.threads.map (Thread.prog g), r.world⟩ := by
  have := runSteps_pool hs
  have e : (Run.start cls w).pool g = ⟨cls.map (Client.prog g), w⟩ := by
    unfold Run.pool Run.start
    simp [Function.comp_def, Thread.prog]
  rw [e] at this
  exact this

/-- A packet id is in flight only if a publish with this id was made. -/
private theorem FromInit.taken {g : Cfg} {h : List (ApiCall × ApiRet)} {w : World} (hh : FromInit g h w) (id : UInt16) :
    ∃ s, Represents w.ctx.tables s ∧ (s.out.phase id ≠ none → ∃ x ∈ h, usesId id x.1) := by
  obtain ⟨hg, w0, hi, ht, hs⟩ := hh
  induction hs with
  | start =>
    obtain ⟨oc, ic, _, _, h3⟩ := hi.inv
    exact ⟨⟨oc, ic, [], []⟩, by rw [h3]; exact represents_fresh oc ic, fun h => absurd rfl h⟩
  | @call w1 w2 h e c r hs hv hc ih =>
    obtain ⟨s, hrep, hcr⟩ := ih
    have hf : FromInit g h w1 := ⟨hg, w0, hi, ht, hs⟩
    obtain ⟨es, hl, hd⟩ := callIn_done hg hv hf.good.2.1 hrep hc
    obtain ⟨s', hrep', hm⟩ := Did.moves (w := { w1 with env := e }) hrep hd id
    refine ⟨s', hrep', fun hn => ?_⟩
    have old : (∃ x ∈ h, usesId id x.1) → ∃ x ∈ h ++ [(c, r)], usesId id x.1 := fun ⟨x, h1, h2⟩ => ⟨x, by simp [h1], h2⟩
    by_cases ha : s.out.phase id = none
    · rw [ha] at hm
      have hcp : ∃ p, c = .publish (some p) id := by
        generalize hb : s'.out.phase id = b at hm hn
        generalize ho : (none : Option OutPhase) = a at hm
        cases hm with
        | same _ => exact absurd ho.symm hn
        | reserved _ hcp _ => exact ⟨_, hcp⟩
        | sent _ hcp _ _ _ => exact ⟨_, hcp⟩
        | pubrel => cases ho
        | dropped => exact absurd rfl hn
        | puback => cases ho
        | pubrec => cases ho
        | pubcomp => cases ho
      obtain ⟨p, rfl⟩ := hcp
      by_cases hq : p.qos = .qos0
      · exfalso
        have hsame : Represents w2.ctx.tables s := by
          cases hd with
          | publish _ h =>
            rcases h.cases with ⟨_, _, h1, _⟩ | ⟨_, _, _, h1⟩ | ⟨_, h1, _⟩ | ⟨_, zs, s1, st0, es0, w0, w1, hres, _, _, _, h3⟩
            · rw [h1]; exact hrep
            · rw [h1]; exact hrep
            · exact absurd hq h1
            · have hs1 : s1 = s := by
                rcases hres with ⟨_, h⟩ | ⟨h, _⟩
                · exact h
                · exact absurd hq h
              rcases h3 with ⟨_, _, h⟩ | ⟨_, _, h⟩
              · rw [← hs1]; exact h
              · rw [show (noteSent s1 p id).2 = s1 by unfold noteSent; simp [hq], hs1] at h
                exact h
        have := (mem_inFlight hsame.1 id).mp ((mem_inFlight hrep'.1 id).mpr hn)
        exact this ha
      · exact ⟨(.publish (some p) id, r), by simp, hq, rfl⟩
    · exact old (hcr ha)

/-- **C67** An application that takes the packet ids of its publishes from `MQTT_GetPacketId` never gets a collision: if at most 65535 ids were drawn
in the history, every publish with QoS 1 or 2 made before `id` was drawn used an id that had been drawn before it, and `id` has not been
used since it was drawn, then a publish with `id` does not return MQTTStateCollision. -/
theorem C67_fresh_id {g : Cfg} {h1 h2 : List (ApiCall × ApiRet)} {id : UInt16} {w w' : World}
    (hh : FromInit g (h1 ++ (.getPacketId, .packetId id) :: h2) w) (hfew : (drawnIds (h1 ++ (.getPacketId, .packetId id) :: h2)).length ≤ 65535)
    (hdrawn : ∀ a x b, h1 = a ++ x :: b → ∀ i, usesId i x.1 → i ∈ drawnIds a) (hnew : ∀ x ∈ h2, ¬ usesId id x.1) (e : Env) {p : PublishInfo}
    (hv : ValidCall g (.publish (some p) id)) {st : Status} (hd : callIn g w e (.publish (some p) id) = .done (.status st) w') :
    st ≠ .stateCollision := by
  intro hst
  obtain ⟨_, _, _, htaken, _⟩ := (C54_only hh e hv hd).1 hst
  obtain ⟨s, hrep, hu⟩ := hh.taken id
  obtain ⟨x, hx, hxu⟩ := hu ((mem_inFlight hrep.1 id).mp htaken)
  rcases List.mem_append.mp hx with hx | hx
  · obtain ⟨a, b, hab⟩ := List.append_of_mem hx
    have hin : id ∈ drawnIds h1 := by
      rw [hab, drawnIds_append]
      exact List.mem_append_left _ (hdrawn a x b hab id hxu)
    obtain ⟨j, hj⟩ := List.getElem?_of_mem hin
    have hj' : j < (drawnIds h1).length := (List.getElem?_eq_some_iff.mp hj).1
    have happ : drawnIds (h1 ++ (.getPacketId, .packetId id) :: h2) = drawnIds h1 ++ id :: drawnIds h2 := by
      rw [drawnIds_append]; rfl
    rw [happ] at hfew
    simp only [List.length_append, List.length_cons] at hfew
    have k1 := C16_history hh (k := j) (id := id) (by rw [happ, List.getElem?_append_left hj']; exact hj)
    have k2 := C16_history hh (k := (drawnIds h1).length) (id := id) (by rw [happ, List.getElem?_append_right (Nat.le_refl _)]; simp)
    omega
  · rcases List.mem_cons.mp hx with rfl | hx
    · exact hxu
    · exact hnew x hx hxu

/-- **C67** Without a bound on the number of ids: it suffices that each publish in flight took its id from one of the last 65534 calls of `MQTT_GetPacketId`
before the one that returned `id`. -/
theorem C67_recent_ids {g : Cfg} {h1 h2 : List (ApiCall × ApiRet)} {id : UInt16} {w w' : World}
    (hh : FromInit g (h1 ++ (.getPacketId, .packetId id) :: h2) w)
    (hrecent : ∀ r ∈ inFlight w.ctx.tables.outgoing, ∃ a b, h1 = a ++ (.getPacketId, .packetId r.packetId) :: b ∧ (drawnIds b).length < 65534) (e : Env)
    {p : PublishInfo} (hv : ValidCall g (.publish (some p) id)) {st : Status} (hd : callIn g w e (.publish (some p) id) = .done (.status st) w') :
    st ≠ .stateCollision := by
  intro hst
  obtain ⟨_, _, _, ⟨r, hr, hri⟩, _⟩ := (C54_only hh e hv hd).1 hst
  obtain ⟨a, b, hab, hb⟩ := hrecent r hr
  rw [hri] at hab
  have happ : drawnIds (h1 ++ (.getPacketId, .packetId id) :: h2) = drawnIds a ++ id :: (drawnIds b ++ id :: drawnIds h2) := by
    rw [hab, drawnIds_append, drawnIds_append]
    simp [drawnIds, List.filterMap_cons, idOf]
  have k1 := C16_history hh (k := (drawnIds a).length) (id := id) (by rw [happ, List.getElem?_append_right (Nat.le_refl _)]; simp)
  have k2 := C16_history hh (k := (drawnIds a).length + 1 + (drawnIds b).length) (id := id) (by
    rw [happ, List.getElem?_append_right (by omega)]
    rw [show (drawnIds a).length + 1 + (drawnIds b).length - (drawnIds a).length = (drawnIds b).length + 1 by omega, List.getElem?_cons_succ,
      List.getElem?_append_right (Nat.le_refl _)]
    simp)
  omega

/-! ### Examples -/

namespace Ids
open Ex

/-- Connect, draw an id and publish with it, draw another id. -/
def steps : List (Env × ApiCall) :=
  [(env [0x20, 2, 1, 0], connectCall), (env [], .getPacketId), (env [], publishCall .qos2 1), (env [], .getPacketId)]

theorem stepsValid : ∀ x ∈ steps, ValidCall g x.2 := by
  intro x hx
  simp only [steps, List.mem_cons, List.not_mem_nil, or_false] at hx
  rcases hx with rfl | rfl | rfl | rfl
  · exact connectValid
  · trivial
  · exact publishValid _ _
  · trivial

def before : List (ApiCall × ApiRet) :=
  [(connectCall, .connect .success (some true)), (.getPacketId, .packetId 1), (publishCall .qos2 1, .status .success)]

theorem pairs_ext {l l' : List (ApiCall × ApiRet)} (h1 : l.map (·.1) = l'.map (·.1)) (h2 : l.map (·.2) = l'.map (·.2)) : l = l' := by
  induction l generalizing l' with
  | nil => cases l' with
    | nil => rfl
    | cons => cases h1
  | cons x l ih =>
    cases l' with
    | nil => cases h1
    | cons y l' =>
      rw [List.map_cons, List.map_cons] at h1 h2
      injection h1 with a1 a2
      injection h2 with b1 b2
      rw [ih a2 b2, Prod.ext a1 b1]

theorem play_calls {ss : List (Env × ApiCall)} : ∀ {w w' : World} {h : List (ApiCall × ApiRet)}, play w ss = some (h, w') → h.map (·.1) = ss.map (·.2) := by
  induction ss with
  | nil => intro w w' h hp; cases hp; rfl
  | cons x rest ih =>
    intro w w' h hp
    obtain ⟨e, c⟩ := x
    simp only [play] at hp
    split at hp
    · obtain ⟨y, hy, he⟩ := Option.map_eq_some_iff.mp hp
      cases he
      rw [List.map_cons, List.map_cons, ih hy]
    · cases hp

theorem played_calls {ss : List (Env × ApiCall)} (hp : (play w0 ss).isSome = true) : (played ss).1.map (·.1) = ss.map (·.2) := by
  obtain ⟨⟨h, w'⟩, he⟩ := Option.isSome_iff_exists.mp hp
  rw [played, he]
  exact play_calls he

theorem fromInit : FromInit g (before ++ (.getPacketId, .packetId 2) :: []) (played steps).2 := by
  have := played_fromInit stepsValid (by decide +kernel)
  have e : (played steps).1 = before ++ (.getPacketId, .packetId 2) :: [] :=
    pairs_ext (played_calls (by decide +kernel)) (by decide +kernel)
  rw [e] at this
  exact this

theorem drawn : ∀ a x b, before = a ++ x :: b → ∀ i, usesId i x.1 → i ∈ drawnIds a := by
  intro a x b h i hu
  unfold before at h
  cases a with
  | nil => cases h; exact absurd hu id
  | cons y a =>
    cases h' : a with
    | nil => subst h'; cases h; exact absurd hu id
    | cons z a' =>
      subst h'
      cases a' with
      | nil => cases h; obtain ⟨_, rfl⟩ := hu; decide
      | cons v a'' =>
        cases a'' <;> cases h

/-- The hypotheses of `C67_fresh_id` are met, and the publish succeeds while the publish with the other id is in flight. -/
example : (∃ w', callIn g (played steps).2 (env []) (publishCall .qos1 2) = .done (.status .success) w') ∧
    (played steps).2.ctx.tables.outgoing = [⟨1, .qos2, .pubRecPending⟩, Rec.empty] ∧
    (∀ w' st, callIn g (played steps).2 (env []) (publishCall .qos1 2) = .done (.status st) w' → st ≠ .stateCollision) := by
  refine ⟨⟨_, Ex.ret_done (by decide +kernel)⟩, by decide +kernel, fun w' st h => ?_⟩
  exact C67_fresh_id fromInit (by decide) drawn (by simp) (env []) (publishValid _ _) h

/-- Those of `C67_recent_ids` as well. -/
example : ∀ w' st, callIn g (played steps).2 (env []) (publishCall .qos1 2) = .done (.status st) w' → st ≠ .stateCollision := by
  intro w' st h
  refine C67_recent_ids fromInit ?_ (env []) (publishValid _ _) h
  intro r hr
  have e : inFlight (played steps).2.ctx.tables.outgoing = [⟨1, .qos2, .pubRecPending⟩] := by decide +kernel
  rw [e] at hr
  obtain rfl := List.mem_singleton.mp hr
  exact ⟨[(connectCall, .connect .success (some true))], [(publishCall .qos2 1, .status .success)], rfl, by decide⟩

/-- A publish that uses the id of the publish in flight collides. -/
example : ∃ w', callIn g (played steps).2 (env []) (publishCall .qos1 1) = .done (.status .stateCollision) w' :=
  ⟨_, Ex.ret_done (by decide +kernel)⟩

/-- Thread `i` does the next thing. -/
def next (r : Run) (i : Nat) : Option Run :=
  match r.threads[i]? with
  | some (.idle (.call c nx)) => some ⟨r.threads.set i (.inside c (callP g c) nx), r.world, r.returned⟩
  | some (.inside c (.step m k) nx) =>
    match m r.world with
    | .done b w' => some ⟨r.threads.set i (.inside c (k b) nx), w', r.returned⟩
    | _ => none
  | some (.inside c (.ret a) nx) => some ⟨r.threads.set i (.idle (nx a)), r.world, r.returned ++ [(i, c, a)]⟩
  | _ => none

theorem next_step {r r' : Run} {i : Nat} (h : next r i = some r') : Run.Step g r r' := by
  unfold next at h
  split at h
  · cases h; exact .begin ‹_›
  · split at h
    · cases h; exact .step ‹_› ‹_›
    · cases h
  · cases h; exact .finish ‹_›
  · cases h

def order (r : Run) : List Nat → Option Run
  | [] => some r
  | i :: is => (next r i).bind fun r' => order r' is

theorem order_steps {is : List Nat} : ∀ {r0 r r' : Run}, Run.Steps g r0 r → order r is = some r' → Run.Steps g r0 r' := by
  induction is with
  | nil => intro r0 r r' h he; cases he; exact h
  | cons i is ih =>
    intro r0 r r' h he
    simp only [order] at he
    cases hn : next r i with
    | none => rw [hn] at he; cases he
    | some r1 => rw [hn] at he; exact ih (.step h (next_step hn)) he

/-- A thread that draws ids all the time. -/
def drawer : Nat → Client
  | 0 => .stop
  | n + 1 => .call .getPacketId fun _ => drawer n

/-- Two threads draw two ids each.  The first draws id 1 and is interrupted before it returns; the second draws and returns with 2; the first
returns; the second draws 3. -/
example : ∃ r, Run.Steps g (Run.start [drawer 2, drawer 2] { (played steps).2 with env := env [] }) r ∧ r.drawing = 1 ∧ r.ids = [4, 3] ∧
    (drawnIds ((r.returned).map (·.2))).Nodup := by
  have h : ((order (Run.start [drawer 2, drawer 2] { (played steps).2 with env := env [] }) [0, 0, 1, 1, 1, 0, 1, 1]).map
    fun r => (r.drawing, r.ids)) = some (1, [4, 3]) := by decide +kernel
  obtain ⟨r, hr, he⟩ := Option.map_eq_some_iff.mp h
  cases he' : r.drawing with
  | zero => rw [he'] at he; cases he
  | succ n =>
    have h1 : r.drawing = 1 := (Prod.mk.inj he).1
    have h2 : r.ids = [4, 3] := (Prod.mk.inj he).2
    have hst := order_steps .refl hr
    obtain ⟨new, e1, e2⟩ := C16_threads fromInit .refl (by decide) hst
    have : r.returned = new := by rw [e1]; rfl
    rw [← this] at e2
    refine ⟨r, hst, by omega, h2, e2 ?_⟩
    rw [show drawnIds (r.returned.map (·.2)) = [4, 3] from h2, h1]
    decide

end Ids

end Mqtt
