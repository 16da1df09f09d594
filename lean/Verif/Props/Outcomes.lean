/-
C54: when `MQTT_Publish` refuses a publish because of the publishes in flight.
-/
import Verif.Props.Delivery
import Verif.Props.Send
import Verif.Props.Life

namespace Mqtt
open Spec
set_option linter.unusedSimpArgs false

/-- A publish with this id is in flight. -/
def Spec.Taken (t : Tables) (id : UInt16) : Prop := ∃ r ∈ inFlight t.outgoing, r.packetId = id

/-- Every record for outgoing publishes is in use. -/
def Spec.Full (t : Tables) : Prop := (inFlight t.outgoing).length = t.outgoing.length

theorem reserve_status {t : Tables} {s : InFlight} (hrep : Represents t s) {id : UInt16} (hid : id ≠ 0) {q : QoS} (hq : q ≠ .qos0) :
    ((step s (.reserve id q)).1.1 = .stateCollision ∧ Taken t id) ∨ ((step s (.reserve id q)).1.1 = .noMemory ∧ ¬ Taken t id ∧ Full t) ∨
    ((step s (.reserve id q)).1.1 = .success ∧ ¬ Taken t id ∧ ¬ Full t) := by
  have hm : id ∈ s.out.map (·.1) ↔ Taken t id := by
    unfold Taken inFlight
    rw [hrep.1.entries]
    simp only [List.mem_map]
    constructor
    · rintro ⟨e, he, rfl⟩; exact ⟨_, ⟨e, he, rfl⟩, keepsId_out e⟩
    · rintro ⟨r, ⟨e, he, rfl⟩, h⟩; exact ⟨e, he, by rw [keepsId_out e] at h; exact h⟩
  have hf : s.out.length = s.outCap ↔ Full t := by
    unfold Full inFlight
    rw [hrep.1.entries, List.length_map, hrep.1.size]
  have key : ∀ p, (s.out.insert s.outCap id p).1 = .stateCollision ∧ Taken t id ∨ (s.out.insert s.outCap id p).1 = .noMemory ∧ ¬ Taken t id ∧ Full t ∨
      (s.out.insert s.outCap id p).1 = .success ∧ ¬ Taken t id ∧ ¬ Full t := by
    intro p
    unfold Table.insert
    by_cases h1 : id ∈ s.out.map (·.1)
    · rw [if_pos h1]; exact Or.inl ⟨rfl, hm.mp h1⟩
    · rw [if_neg h1]
      by_cases h2 : s.out.length = s.outCap
      · rw [if_pos h2]; exact Or.inr (Or.inl ⟨rfl, fun h => h1 (hm.mpr h), hf.mp h2⟩)
      · rw [if_neg h2]; exact Or.inr (Or.inr ⟨rfl, fun h => h1 (hm.mpr h), fun h => h2 (hf.mpr h)⟩)
  cases q with
  | qos0 => exact absurd rfl hq
  | qos1 => simp only [step, if_neg hid]; exact key _
  | qos2 => simp only [step, if_neg hid]; exact key _

/-- **C54** A publish with QoS 1 or 2 whose id is in flight and which is not marked as a duplicate is refused with `MQTTStateCollision`; one with a new id is refused with
`MQTTNoMemory` when all records are in use.  Nothing is sent or stored, nothing is changed, no time is read. -/
theorem C54_refused {g : Cfg} {h : List (ApiCall × ApiRet)} {w : World} (hh : FromInit g h w) (e : Env) {p : PublishInfo} {id : UInt16}
    (hv : ValidCall g (.publish (some p) id)) (ha : PublishArgsOk w.ctx p id) (hq : p.qos ≠ .qos0) (hc : w.ctx.connectStatus = .connected) {st : Status}
    (hst : Taken w.ctx.tables id ∧ p.dup = false ∧ st = .stateCollision ∨ ¬ Taken w.ctx.tables id ∧ Full w.ctx.tables ∧ st = .noMemory) :
    ∃ w', callIn g w e (.publish (some p) id) = .done (.status st) w' ∧ callEvents g w e (.publish (some p) id) = [.pre, .post] ∧
      inFlight w'.ctx.tables.outgoing = inFlight w.ctx.tables.outgoing ∧ inFlight w'.ctx.tables.incoming = inFlight w.ctx.tables.incoming ∧
      w'.ctx = { w.ctx with tables := w'.ctx.tables } := by
  obtain ⟨hg, hidx, s, hrep⟩ := hh.good
  have hid := ha.id hq
  obtain ⟨hval, hsz⟩ := (publishArgs_iff hg.size (hv p rfl).2 _ _).mp ha
  have hroom : 1 ≤ s.outCap := by
    rw [← hrep.1.size]
    cases hl : w.ctx.tables.outgoing with
    | nil => exact absurd hl (ha.records hq)
    | cons a b => simp
  obtain ⟨t', e1, e2, _⟩ := stateCall_refines' (c := .reserve id p.qos) hrep hroom (by simp)
  have hne : (step s (.reserve id p.qos)).1.1 = st ∧ (step s (.reserve id p.qos)).1.1 ≠ .success := by
    rcases reserve_status hrep hid hq with ⟨h1, h2⟩ | ⟨h1, h2, h3⟩ | ⟨h1, h2, h3⟩
    · rcases hst with ⟨_, _, h4⟩ | ⟨h4, _⟩
      · rw [h1, h4]; simp
      · exact absurd h2 h4
    · rcases hst with ⟨h4, _⟩ | ⟨_, _, h4⟩
      · exact absurd h4 h2
      · rw [h1, h4]; simp
    · rcases hst with ⟨h4, _⟩ | ⟨_, h4, _⟩
      · exact absurd h4 h2
      · exact absurd h4 h3
  have hw : wp (mqttPublish g (some p) id) (fun r w' => r = st ∧ w'.trace = w.trace ++ [.pre, .post] ∧ Represents w'.ctx.tables s ∧ w'.ctx = { w.ctx with tables := w'.ctx.tables })
      (fun _ => False) (fun _ => True) { w with env := e } := by
    unfold mqttPublish
    rw [wp_bind, wp_getCtx]
    dsimp only
    rw [if_neg (by rw [hval]; simp), if_neg (by rw [hsz]; simp), wp_bind, wp_liftRes]
    cases serializePublishHeaderWithoutTopic p (getPublishPacketSize g.W (some p)).remainingLength (List.replicate 7 0) with
    | ub _ => trivial
    | ok x =>
      dsimp only
      rw [wp_bind]
      refine (wp_emit _).mpr ?_
      rw [wp_bind]
      unfold publishLocked
      rw [wp_bind, wp_getCtx, if_neg (by simp [hc]), wp_bind]
      unfold reservePublish
      rw [if_pos hq, reserve_bind, wp_bind, wp_onTables]
      dsimp only
      rw [e1]
      dsimp only
      have hd : ¬ ((step s (.reserve id p.qos)).1.1 = .stateCollision ∧ p.dup = true) := by
        rintro ⟨h1, h2⟩
        rcases hst with ⟨_, h4, _⟩ | ⟨_, _, h4⟩
        · rw [h4] at h2; cases h2
        · rw [hne.1, h4] at h1; cases h1
      rw [if_neg hd, wp_pure, if_pos hne.2, wp_pure, wp_bind]
      refine (wp_emit _).mpr ?_
      rw [step_reserve_fail hne.2] at e2
      exact ⟨hne.1, by simp, e2, rfl⟩
  have hub := C50_no_undefined_behaviour hh e _ hv
  cases ho : mqttPublish g (some p) id { w with env := e } with
  | stuck w' => exact (wp_stuck hw ho).elim
  | ub er w' =>
    refine absurd ?_ (hub er w')
    show M.bind _ _ _ = _
    simp only [M.bind, ho]
  | done r w' =>
    obtain ⟨rfl, h2, h3, h4⟩ := wp_done hw ho
    have hd : callIn g w e (.publish (some p) id) = .done (.status r) w' := by
      show M.bind _ _ _ = _
      simp only [M.bind, ho]
      rfl
    refine ⟨w', hd, ?_, ?_, ?_, h4⟩
    · unfold callEvents
      exact newEvents_done (m := apiCall g (.publish (some p) id)) (w := { w with env := e }) hd h2
    · unfold inFlight; rw [h3.1.entries, hrep.1.entries]
    · unfold inFlight; rw [h3.2.entries, hrep.2.entries]

/-- **C54** These are the only causes of the two statuses: `MQTT_Publish` reports a collision only for an id that is in flight (and not for a publish marked as a duplicate), and
it reports a lack of memory only if all records are in use by other publishes. -/
theorem C54_only {g : Cfg} {h : List (ApiCall × ApiRet)} {w w' : World} (hh : FromInit g h w) (e : Env) {p : PublishInfo} {id : UInt16}
    (hv : ValidCall g (.publish (some p) id)) {st : Status} (hd : callIn g w e (.publish (some p) id) = .done (.status st) w') :
    (st = .stateCollision → w.ctx.connectStatus = .connected ∧ PublishArgsOk w.ctx p id ∧ p.qos ≠ .qos0 ∧ Taken w.ctx.tables id ∧ p.dup = false) ∧
    (st = .noMemory → w.ctx.connectStatus = .connected ∧ PublishArgsOk w.ctx p id ∧ p.qos ≠ .qos0 ∧ ¬ Taken w.ctx.tables id ∧ Full w.ctx.tables) := by
  obtain ⟨hg, hidx, s, hrep⟩ := hh.good
  rcases call_cases hg hidx hrep e hv with ⟨r, es, w1, h1, h2, _, hdd⟩ | ⟨es, w1, h1, h2, _, hdd⟩
  · rw [hd] at h1
    cases h1
    cases hdd with
    | publish _ h =>
      rcases h.cases with ⟨rfl, _⟩ | ⟨_, rfl, _⟩ | ⟨hc, hq, _, h4, h5, _, h6⟩ | ⟨_, zs, s1, st0, es0, w0, w1, _, _, hsent, _, h3⟩
      · simp
      · unfold notConnectedStatus
        split <;> simp
      · have ha : PublishArgsOk w.ctx p id := h.args (by rw [h5]; simp)
        have hrep' : Represents w.ctx.tables s := hrep
        rcases reserve_status hrep' (ha.id hq) hq with ⟨k1, k2⟩ | ⟨k1, k2⟩ | ⟨k1, _⟩
        · rw [k1] at h4
          subst h4
          refine ⟨fun _ => ⟨hc, ha, hq, k2, ?_⟩, fun h => by cases h⟩
          cases hdp : p.dup with
          | false => rfl
          | true => exact absurd ⟨rfl, hdp⟩ h6
        · rw [k1] at h4
          subst h4
          exact ⟨fun h => (by cases h), fun _ => ⟨hc, ha, hq, k2⟩⟩
        · rw [k1] at h4
          subst h4
          exact ⟨fun h => (by cases h), fun h => (by cases h)⟩
      · have hsend : ∀ {pk : List UInt8} {x : Status} {l : List Event}, SentResult pk x l → x ≠ .stateCollision ∧ x ≠ .noMemory := by
          intro pk x l hx
          rcases hx with ⟨rfl, _⟩ | ⟨rfl, _⟩ <;> simp
        have goal : st ≠ .stateCollision ∧ st ≠ .noMemory := by
          rcases h3 with ⟨_, rfl, _⟩ | ⟨_, rfl, _⟩
          · rcases hsent.2.2 with ⟨_, _, h⟩ | ⟨_, _, _, rfl⟩ | ⟨_, _, _, _, _, h⟩
            · exact hsend h
            · simp
            · exact hsend h
          · unfold noteSent
            split
            · simp
            · cases p.qos <;> simp only [step] <;> (repeat' split) <;> simp
        exact ⟨fun h => absurd h goal.1, fun h => absurd h goal.2⟩
  · rw [hd] at h1; cases h1

/-- Two QoS 2 publishes are in flight, one of them waits for its PUBCOMP; there are two records. -/
def Ex.crowded : List (Env × ApiCall) := Ex.session ++ [(Ex.env [], Ex.publishCall .qos2 9)]

theorem Ex.crowded_fromInit : FromInit Ex.g (Ex.played Ex.crowded).1 (Ex.played Ex.crowded).2 :=
  Ex.played_fromInit (fun x hx => by
    rcases List.mem_append.mp hx with hx | hx
    · exact Ex.sessionValid x hx
    · simp only [List.mem_singleton] at hx
      subst hx
      exact Ex.publishValid _ _) (by decide +kernel)

/-- Non-vacuity of C54: in this session publishing with id 7 or 9 is a collision, publishing with id 8 lacks memory. -/
example : (Ex.played Ex.crowded).2.ctx.connectStatus = .connected ∧ PublishArgsOk (Ex.played Ex.crowded).2.ctx (Ex.pub .qos1) 7 ∧
    Taken (Ex.played Ex.crowded).2.ctx.tables 7 ∧ Taken (Ex.played Ex.crowded).2.ctx.tables 9 ∧ ¬ Taken (Ex.played Ex.crowded).2.ctx.tables 8 ∧
    Full (Ex.played Ex.crowded).2.ctx.tables ∧
    Ex.ret (callIn Ex.g (Ex.played Ex.crowded).2 (Ex.env []) (Ex.publishCall .qos1 7)) = some (.status .stateCollision) ∧
    Ex.ret (callIn Ex.g (Ex.played Ex.crowded).2 (Ex.env []) (Ex.publishCall .qos1 8)) = some (.status .noMemory) := by
  have ht : (Ex.played Ex.crowded).2.ctx.tables.outgoing = [⟨7, .qos2, .pubCompPending⟩, ⟨9, .qos2, .pubRecPending⟩] := by decide +kernel
  refine ⟨by decide +kernel, ⟨by decide, by decide, by decide, fun _ => by rw [ht]; simp, by decide +kernel⟩, ?_, ?_, ?_, ?_, by decide +kernel, by decide +kernel⟩
  · unfold Taken; rw [ht]; exact ⟨⟨7, .qos2, .pubCompPending⟩, by decide, rfl⟩
  · unfold Taken; rw [ht]; exact ⟨⟨9, .qos2, .pubRecPending⟩, by decide, rfl⟩
  · unfold Taken; rw [ht]; decide
  · unfold Full; rw [ht]; rfl

end Mqtt
