/-
Two round trips complete every exchange (C61).
-/
import Verif.Proof.RoundsRead
import Verif.Props.Settled

namespace Mqtt
open Spec

variable {strict : Bool}

theorem pingreq_upNote (i : UInt16) : upNote i ⟨0xC0, []⟩ = none := upNote_other (by decide) (by decide)

theorem pingreq_inUp (i : UInt16) : inUp i ⟨0xC0, []⟩ = none := inUp_other (by decide) (by decide) (by decide)

/-- Handling the first packet: what was under way to the server, a PINGREQ perhaps, and the answer. -/
theorem Handled.ups {retx : Bool} {us ds us' ds' : List Raw} (h : Handled retx us ds us' ds') {Q : Raw → Prop} (hu : ∀ u ∈ us, Q u) (hping : Q ⟨0xC0, []⟩)
    (hans : ∀ d ∈ ds, ∀ manage fl, ∀ v ∈ answers (react retx manage fl d.first d.body).ack, Q v) : (∀ u ∈ us', Q u) ∧ ∀ d ∈ ds', d ∈ ds := by
  obtain ⟨vs, h1, ⟨rfl, rfl⟩ | ⟨d, manage, fl, rfl, rfl, _⟩⟩ := h
  · refine ⟨fun u h => ?_, fun d h => h⟩
    rcases List.mem_append.mp h with h | h
    · exact hu u h
    · rw [h1 u h]; exact hping
  · refine ⟨fun u h => ?_, fun x h => List.mem_cons_of_mem _ h⟩
    rcases List.mem_append.mp h with h | h
    · exact hu u h
    rcases List.mem_append.mp h with h | h
    · rw [h1 u h]; exact hping
    · exact hans d List.mem_cons_self manage fl u h

/-- The answers of the server. -/
theorem Answered.downs {own : Bool} {cap : Nat} {us ds us' ds' : List Raw} (h : Answered strict own cap us ds us' ds') {Q : Raw → Prop} (hd : ∀ d ∈ ds, Q d)
    (hans : ∀ u ∈ us, ∀ v g' v' outs, Reads strict cap true v u g' v' outs → ∀ d ∈ outs, Q d) (hown : own = true → ∀ p, (∀ i, downNote i p = none) → Q p) :
    (∀ d ∈ ds', Q d) ∧ ∀ u ∈ us', u ∈ us := by
  rcases h with ⟨u, v, g', v', outs, rfl, rfl, h⟩ | ⟨ho, rfl, p, rfl, h⟩
  · refine ⟨fun d hd' => ?_, fun x h => List.mem_cons_of_mem _ h⟩
    rcases List.mem_append.mp hd' with h' | h'
    · exact hd d h'
    · exact hans u List.mem_cons_self v g' v' outs h d h'
  · refine ⟨fun d hd' => ?_, fun x h => h⟩
    rcases List.mem_append.mp hd' with h' | h'
    · exact hd d h'
    · rw [List.mem_singleton.mp h']; exact hown ho p h

section
variable {g : Cfg} {s0 s s1 s2 s3 s4 s5 : Sys} {h h1 h3 : List (ApiCall × ApiRet)}

theorem Spec.Sys.Serving.going {own : Bool} (hs : Sys.Serving strict own s s1) (hgo : Going g strict s0 h s) (hcap : 4 ≤ s.world.ctx.bufSize) {us ds : List Raw}
    (hv : View s us ds) : Going g strict s0 h s1 := by
  obtain ⟨e1, _, ds', hv', _⟩ := hs.view (P := fun _ _ => True) (fun _ _ _ _ _ _ => trivial) hcap hv trivial
  exact ⟨hs.run hgo.run, hgo.disciplined, hgo.steady, by rw [e1]; exact hgo.connected, hv'.isOpen⟩

/-- **C61** On an open connection on which, since it was established, every packet was dealt with without error and every message could be stored, two rounds
complete every outgoing publish: the server reads all that the client has sent, the client processes all that the server has sent, and once more.  Whatever else the
server sends meanwhile, after that no publish of the client is in flight. -/
theorem C61_completed (hini : Sys.Initial g s0) (hr : Sys.Run g strict s0 h s) (hd : ∀ i, Disciplined i h) (hst : Steady s0.world.ctx.retransmits h)
    (hconn : s.world.ctx.connectStatus = .connected) (hopen : s.net.isOpen = true) (hu1 : Sys.Serving strict true s s1) (hd1 : Sys.Listening g s1 h1 s2)
    (hu2 : Sys.Serving strict true s2 s3) (hd2 : Sys.Listening g s3 h3 s4) :
    Sys.Run g strict s0 (h ++ h1 ++ h3) s4 ∧ inFlight s4.world.ctx.tables.outgoing = [] := by
  have hgo : Going g strict s0 h s := ⟨hr, hd, hst, by rw [hconn]; simp, hopen⟩
  obtain ⟨a0, a, _, _, htr, _, _, _, hv⟩ := hgo.tracked hini
  -- the server reads all
  obtain ⟨w1, _, ds1, hv1, _⟩ := hu1.view (P := fun _ _ => True) (fun _ _ _ _ _ _ => trivial) (by rw [htr.size]; exact htr.room) hv trivial
  have hgo1 := hu1.going hgo (by rw [htr.size]; exact htr.room) hv
  -- the client processes all: it sends no message
  obtain ⟨hgo2, _, us2, hv2, p2⟩ := hd1.view hini hgo1 (P := fun us _ => ∀ u ∈ us, ∀ i m, upNote i u ≠ some (.pub m))
    (fun us ds us' ds' hh hp => (hh.ups (Q := fun u => ∀ i m, upNote i u ≠ some (.pub m)) hp (fun i m => by rw [pingreq_upNote]; simp)
      (fun d _ manage fl v hv i m => by rcases answer_upNote (i := i) v hv with h | ⟨h, _⟩ <;> rw [h] <;> simp)).1) hv1 (by simp)
  -- the server reads all: it answers with PUBCOMP
  obtain ⟨a0', a', _, _, htr2, _⟩ := hgo2.tracked hini
  have hcap2 : 4 ≤ s2.world.ctx.bufSize := by rw [htr2.size]; exact htr2.room
  obtain ⟨_, _, ds3, hv3, _, p3⟩ := hu2.view
    (P := fun us ds => (∀ u ∈ us, ∀ i m, upNote i u ≠ some (.pub m)) ∧ ∀ d ∈ ds, ∀ i, i ≠ 0 → downNote i d = none ∨ downNote i d = some .pubcomp)
    (fun us ds us' ds' hh hp => by
      obtain ⟨k1, k2⟩ := hh.downs (Q := fun d => ∀ i, i ≠ 0 → downNote i d = none ∨ downNote i d = some .pubcomp) hp.2
        (fun u hu v g' v' outs hrd d hdd i hi => Reads.downNotes hrd hi (hp.1 u hu i) d hdd) (fun _ p hpp i _ => Or.inl (hpp i))
      exact ⟨fun u hu => hp.1 u (k2 u hu), k1⟩) hcap2 hv2 ⟨p2, by simp⟩
  have hgo3 := hu2.going hgo2 hcap2 hv2
  -- the client processes all: there is nothing to answer
  obtain ⟨hgo4, _, us4, hv4, p4, _⟩ := hd2.view hini hgo3
    (P := fun us ds => (∀ u ∈ us, ∀ i, i ≠ 0 → upNote i u = none) ∧ ∀ d ∈ ds, ∀ i, i ≠ 0 → downNote i d = none ∨ downNote i d = some .pubcomp)
    (fun us ds us' ds' hh hp => by
      obtain ⟨k1, k2⟩ := hh.ups (Q := fun u => ∀ i, i ≠ 0 → upNote i u = none) hp.1 (fun i _ => pingreq_upNote i)
        (fun d hdd manage fl v hv i hi => by
          rcases answer_upNote (i := i) v hv with h | ⟨_, h⟩
          · exact h
          · rcases hp.2 d hdd i hi with h' | h' <;> rw [h'] at h <;> cases h)
      exact ⟨k1, fun d hdd => hp.2 d (k2 d hdd)⟩) hv3 ⟨by simp, p3⟩
  refine ⟨hgo4.run, ?_⟩
  obtain ⟨b0, b, q1, q2, q3, q4, q5, q6, q7⟩ := hgo4.tracked hini
  obtain ⟨e1, e2⟩ := q7.unique hv4
  have hs := (Sound.initial (retx := s0.world.ctx.retransmits) q1).run q2
  have hl := OutLive.run q1 q2 q6 q5 q4
  have hnone : ∀ i, b.flight.out.phase i = none := by
    intro i
    by_cases hi : i = 0
    · rw [hi]; exact hs.zero
    · refine Classical.byContradiction fun hp => (hl i hi hp).elim (fun h => h ?_) (fun h => h ?_)
      · rw [e1, List.filterMap_eq_nil_iff]; exact fun u hu => p4 u hu i hi
      · rw [e2]; rfl
  rw [List.eq_nil_iff_forall_not_mem]
  intro r hr'
  exact (mem_inFlight q3.tables.1 r.packetId).mp ⟨r, hr', rfl⟩ (hnone _)

/-- **C61** If the server sends no new messages meanwhile, then after two rounds and the server's part of a third one it has every message that it sent on this
connection acknowledged in full. -/
theorem C61_acknowledged (hini : Sys.Initial g s0) (hr : Sys.Run g true s0 h s) (hd : ∀ i, Disciplined i h) (hst : Steady s0.world.ctx.retransmits h)
    (hconn : s.world.ctx.connectStatus = .connected) (hopen : s.net.isOpen = true) (hu1 : Sys.Serving true false s s1) (hd1 : Sys.Listening g s1 h1 s2)
    (hu2 : Sys.Serving true false s2 s3) (hd2 : Sys.Listening g s3 h3 s4) (hu3 : Sys.Serving true false s4 s5) :
    Sys.Run g true s0 (h ++ h1 ++ h3) s5 ∧ ∀ j x, s5.net.server.out.slot j = some x → x.sent = false := by
  have hgo : Going g true s0 h s := ⟨hr, hd, hst, by rw [hconn]; simp, hopen⟩
  obtain ⟨a0, a, _, _, htr, _, _, _, hv⟩ := hgo.tracked hini
  obtain ⟨w1, _, ds1, hv1, _⟩ := hu1.view (P := fun _ _ => True) (fun _ _ _ _ _ _ => trivial) (by rw [htr.size]; exact htr.room) hv trivial
  have hgo1 := hu1.going hgo (by rw [htr.size]; exact htr.room) hv
  obtain ⟨hgo2, _, us2, hv2, _⟩ := hd1.view hini hgo1 (P := fun _ _ => True) (fun _ _ _ _ _ _ => trivial) hv1 trivial
  -- the server answers with PUBREL
  obtain ⟨a0', a', _, _, htr2, _⟩ := hgo2.tracked hini
  have hcap2 : 4 ≤ s2.world.ctx.bufSize := by rw [htr2.size]; exact htr2.room
  obtain ⟨_, _, ds3, hv3, p3⟩ := hu2.view (P := fun _ ds => ∀ d ∈ ds, ∀ i, i ≠ 0 → ∀ m, inDown i d ≠ some (.pub m))
    (fun us ds us' ds' hh hp => (hh.downs (Q := fun d => ∀ i, i ≠ 0 → ∀ m, inDown i d ≠ some (.pub m)) hp
      (fun u _ v g' v' outs hrd d hdd i hi m => by rcases Reads.inDowns hrd hi d hdd with h | ⟨h, _⟩ <;> rw [h] <;> simp) (fun h => by cases h)).1) hcap2 hv2 (by simp)
  have hgo3 := hu2.going hgo2 hcap2 hv2
  -- the client answers with PUBCOMP
  obtain ⟨hgo4, _, us4, hv4, p4, _⟩ := hd2.view hini hgo3
    (P := fun us ds => (∀ u ∈ us, ∀ i, i ≠ 0 → inUp i u = none ∨ inUp i u = some .pubcomp) ∧ ∀ d ∈ ds, ∀ i, i ≠ 0 → ∀ m, inDown i d ≠ some (.pub m))
    (fun us ds us' ds' hh hp => by
      obtain ⟨k1, k2⟩ := hh.ups (Q := fun u => ∀ i, i ≠ 0 → inUp i u = none ∨ inUp i u = some .pubcomp) hp.1 (fun i _ => Or.inl (pingreq_inUp i))
        (fun d hdd manage fl v hv i hi => by
          rcases answer_inUp (i := i) v hv with h | h | ⟨m, h⟩
          · exact Or.inl h
          · exact Or.inr h
          · exact absurd h (hp.2 d hdd i hi m))
      exact ⟨k1, fun d hdd => hp.2 d (k2 d hdd)⟩) hv3 ⟨by simp, p3⟩
  -- the server has nothing to answer
  obtain ⟨b0', b', _, _, htr4, _⟩ := hgo4.tracked hini
  have hcap4 : 4 ≤ s4.world.ctx.bufSize := by rw [htr4.size]; exact htr4.room
  obtain ⟨_, _, ds5, hv5, _, p5⟩ := hu3.view
    (P := fun us ds => (∀ u ∈ us, ∀ i, i ≠ 0 → inUp i u = none ∨ inUp i u = some .pubcomp) ∧ ∀ d ∈ ds, ∀ i, i ≠ 0 → inDown i d = none)
    (fun us ds us' ds' hh hp => by
      obtain ⟨k1, k2⟩ := hh.downs (Q := fun d => ∀ i, i ≠ 0 → inDown i d = none) hp.2
        (fun u hu v g' v' outs hrd d hdd i hi => by
          rcases Reads.inDowns hrd hi d hdd with h | ⟨_, h⟩
          · exact h
          · rcases hp.1 u hu i hi with h' | h' <;> rw [h'] at h <;> cases h) (fun h => by cases h)
      exact ⟨fun u hu => hp.1 u (k2 u hu), k1⟩) hcap4 hv4 ⟨p4, by simp⟩
  have hgo5 := hu3.going hgo4 hcap4 hv4
  refine ⟨hgo5.run, ?_⟩
  obtain ⟨b0, b, q1, q2, q3, q4, q5, q6, q7⟩ := hgo5.tracked hini
  obtain ⟨e1, e2⟩ := q7.unique hv5
  have hs := (Sound.initial (retx := s0.world.ctx.retransmits) q1).run q2
  have hl := InLive.run q1 q2
  obtain ⟨_, _, k1, _⟩ := q3.agrees
  intro j x hx
  rw [k1.server] at hx
  by_cases hj : j = 0
  · rw [hj, hl.zero] at hx; cases hx
  · cases hsent : x.sent with
    | false => rfl
    | true =>
      exfalso
      have := hl.busy q6 (hs.on q5) (Or.inr ⟨q5, q4⟩) j hj x hx hsent
      rw [e1, e2] at this
      exact this.elim (fun h => h rfl) (fun h => h (List.filterMap_eq_nil_iff.mpr fun d hd => p5 d hd j hj))

/-- **C61** The server can do its part: it can read all that the client has sent. -/
theorem C61_readable (hini : Sys.Initial g s0) (hr : Sys.Run g strict s0 h s) (hd : ∀ i, Disciplined i h) (hst : Steady s0.world.ctx.retransmits h)
    (hconn : s.world.ctx.connectStatus = .connected) (hopen : s.net.isOpen = true) : ∃ s1, Sys.Serving strict false s s1 := by
  have hgo : Going g strict s0 h s := ⟨hr, hd, hst, by rw [hconn]; simp, hopen⟩
  obtain ⟨a0, a, q1, q2, htr, _, _, _, hv⟩ := hgo.tracked hini
  exact serving_some hv (by rw [htr.size]; exact htr.room) (legible_run q1 q2)

end

namespace Ex

/-- `Serving`, computed. -/
def serveRound : Nat → Sys → Option Sys
  | 0, _ => none
  | f + 1, s =>
    if s.net.up = [] then some s
    else match serveOnce s.net with
      | none => none
      | some n => if n.up.length < s.net.up.length then serveRound f { s with net := n } else none

theorem serveRound_serving {own : Bool} {f : Nat} : ∀ {s s' : Sys}, serveRound f s = some s' → Sys.Serving strict own s s' := by
  induction f with
  | zero => intro s s' h; cases h
  | succ f ih =>
    intro s s' h
    unfold serveRound at h
    split at h
    · rename_i hu
      cases h
      exact .done hu
    · split at h
      · cases h
      · rename_i n hn
        split at h
        · rename_i hl
          exact .step (serveOnce_serves hn) (Or.inr hl) (ih h)
        · cases h

/-- `Listening`, computed: the calls of `MQTT_ProcessLoop` with these environments. -/
def listen : Sys → List Env → Option (Sys × List (ApiCall × ApiRet))
  | s, [] => if s.world.ctx.buffered = [] ∧ s.net.down = [] then some (s, []) else none
  | s, e :: es =>
    match callIn g s.world e .processLoop with
    | .done (.status st) w =>
      if (st = .success ∨ st = .needMoreBytes) ∧
          s.net.down = received (callEvents g s.world e .processLoop) ++ s.net.down.drop (received (callEvents g s.world e .processLoop)).length then
        match listen ⟨w, { s.net with up := s.net.up ++ wire (callEvents g s.world e .processLoop),
                                      down := s.net.down.drop (received (callEvents g s.world e .processLoop)).length },
                      (callEvents g s.world e .processLoop).foldl Shelf.note s.shelf⟩ es with
        | some (s', h) => some (s', (.processLoop, .status st) :: h)
        | none => none
      else none
    | _ => none

theorem listen_listening {es : List Env} : ∀ {s s' : Sys} {h : List (ApiCall × ApiRet)}, listen s es = some (s', h) → Sys.Listening g s h s' := by
  induction es with
  | nil =>
    intro s s' h hl
    unfold listen at hl
    split at hl
    · rename_i hx
      cases hl
      exact .done hx.1 hx.2
    · cases hl
  | cons e es ih =>
    intro s s' h hl
    unfold listen at hl
    split at hl
    · rename_i st w hc
      split at hl
      · rename_i hx
        split at hl
        · rename_i s1 h1 hl1
          cases hl
          exact .call (Or.inl rfl) hc hx.1 hx.2 (ih hl1)
        · cases hl
      · cases hl
    · cases hl

/-- Client and server have each sent a QoS 2 message, and neither has arrived. -/
def crossing : List Move := begins ++ [.call (env []) (publishCall .qos2 7), .offer (push false)]

theorem crossingOk : ∀ m ∈ crossing, moveOk m := by
  intro m hm
  rcases List.mem_append.mp hm with hm | hm
  · exact beginsOk m hm
  simp only [List.mem_cons, List.not_mem_nil, or_false] at hm
  rcases hm with rfl | rfl
  · exact publishValid .qos2 7
  · trivial

def crossingRun : Sys × List (ApiCall × ApiRet) := sysAfter sys crossing

theorem crossing_run : Sys.Run g strict sys crossingRun.2 crossingRun.1 := sysAfter_run crossingOk (by decide +kernel)

def round1 : Sys := (serveRound 5 crossingRun.1).getD crossingRun.1
def round2 : Sys × List (ApiCall × ApiRet) := (listen round1 [take (push false), take ⟨0x50, [0, 7]⟩]).getD (round1, [])
def round3 : Sys := (serveRound 5 round2.1).getD round2.1
def round4 : Sys × List (ApiCall × ApiRet) := (listen round3 [take pushRel, take ⟨0x70, [0, 7]⟩]).getD (round3, [])
def round5 : Sys := (serveRound 5 round4.1).getD round4.1

theorem getD_of_isSome {α : Type} {x : Option α} {d : α} (h : x.isSome = true) : x = some (x.getD d) := by
  cases x with
  | none => cases h
  | some x => rfl

theorem serves {own : Bool} {s : Sys} (h : (serveRound 5 s).isSome = true) : Sys.Serving strict own s ((serveRound 5 s).getD s) :=
  serveRound_serving (getD_of_isSome h)

theorem listens {s : Sys} {es : List Env} (h : (listen s es).isSome = true) : Sys.Listening g s ((listen s es).getD (s, [])).2 ((listen s es).getD (s, [])).1 :=
  listen_listening (getD_of_isSome h)

end Ex

/-- The theorems apply to a run in which client and server send each other QoS 2 messages at the same time: at first both are in flight, after the rounds none is. -/
example {own : Bool} : Sys.Initial Ex.g Ex.sys ∧ Sys.Run Ex.g strict Ex.sys Ex.crossingRun.2 Ex.crossingRun.1 ∧ (∀ i, Disciplined i Ex.crossingRun.2) ∧
    Steady Ex.sys.world.ctx.retransmits Ex.crossingRun.2 ∧ Ex.crossingRun.1.world.ctx.connectStatus = .connected ∧ Ex.crossingRun.1.net.isOpen = true ∧
    Sys.Serving strict own Ex.crossingRun.1 Ex.round1 ∧ Sys.Listening Ex.g Ex.round1 Ex.round2.2 Ex.round2.1 ∧ Sys.Serving strict own Ex.round2.1 Ex.round3 ∧
    Sys.Listening Ex.g Ex.round3 Ex.round4.2 Ex.round4.1 ∧ Sys.Serving strict own Ex.round4.1 Ex.round5 ∧
    Taken Ex.crossingRun.1.world.ctx.tables 7 ∧ (Ex.crossingRun.1.net.server.out.slot 7).isSome = true ∧
    Taken Ex.round2.1.world.ctx.tables 7 ∧ (Ex.round4.1.net.server.out.slot 7).isSome = true ∧ (Ex.round5.net.server.out.slot 7).isSome = false :=
  ⟨Ex.sysInitial, Ex.crossing_run, Ex.allDisciplined_ok (by decide +kernel), Ex.steady_ok (by decide +kernel), by decide +kernel, by decide +kernel,
    Ex.serves (by decide +kernel), Ex.listens (by decide +kernel), Ex.serves (by decide +kernel), Ex.listens (by decide +kernel), Ex.serves (by decide +kernel),
    by rw [← Ex.taken_iff]; decide +kernel, by decide +kernel, by rw [← Ex.taken_iff]; decide +kernel, by decide +kernel, by decide +kernel⟩

end Mqtt
