/-
C17-C23, C48 (state engine part): the in-flight publish records.

All theorems range over the arrays reached by an arbitrary history of calls from cleared arrays of arbitrary sizes
`n`, `m` >= 1.  The only call excluded from histories is the removal of packet id 0, which runs into an `assert`
(`C48_remove_zero_asserts`).
-/
import Verif.Proof.Edges

namespace Mqtt
set_option linter.unusedSimpArgs false
open Spec

/-- `(answers, t)` is the outcome of history `cs` on cleared arrays with `n` outgoing and `m` incoming slots. -/
def After (n m : Nat) (cs : List Call) (answers : List Answer) (t : Tables) : Prop :=
  1 ≤ n ∧ 1 ≤ m ∧ (∀ c ∈ cs, c ≠ .cancel 0) ∧ stateRun (freshTables n m) cs = .ok (answers, t)

theorem After.represents {n m cs answers t} (h : After n m cs answers t) :
    answers = (run ⟨n, m, [], []⟩ cs).1 ∧ Represents t (run ⟨n, m, [], []⟩ cs).2 ∧
      (run ⟨n, m, [], []⟩ cs).2.outCap = n ∧ (run ⟨n, m, [], []⟩ cs).2.inCap = m := by
  obtain ⟨hn, hm, hc, hr⟩ := h
  obtain ⟨t', e₁, e₂, e₃, e₄⟩ := stateRun_refines cs (represents_fresh n m) hn hm hc
  rw [hr] at e₁
  simp only [Res.ok.injEq, Prod.mk.injEq] at e₁
  obtain ⟨rfl, rfl⟩ := e₁
  exact ⟨rfl, e₂, e₃, e₄⟩

/-- Tables after `cs`, and one more call `c`. -/
theorem After.step {n m cs answers t} (h : After n m cs answers t) {c : Call} (hc : c ≠ .cancel 0) :
    ∃ t', stateCall t c = .ok ((Spec.step (run ⟨n, m, [], []⟩ cs).2 c).1, t') ∧
      Represents t' (Spec.step (run ⟨n, m, [], []⟩ cs).2 c).2 := by
  obtain ⟨_, h₂, h₃, h₄⟩ := h.represents
  obtain ⟨t', e₁, e₂, _, _⟩ := stateCall_refines h₂ (by rw [h₃]; exact h.1) (by rw [h₄]; exact h.2.1) c hc
  exact ⟨t', e₁, e₂⟩

/-- A history used in the examples: three publishes in a table of three slots, out-of-order acknowledgements, a
cancellation and slot reuse. -/
def demoCalls : List Call :=
  [.reserve 7 .qos1, .reserve 8 .qos2, .reserve 9 .qos2, .publish .send 8 .qos2, .publish .send 9 .qos2, .publish .send 7 .qos1,
   .ack .receive .pubrec 9, .ack .receive .puback 7, .reserve 7 .qos2, .ack .receive .pubrec 8, .ack .send .pubrel 9,
   .publish .receive 5 .qos2, .ack .send .pubrec 5, .cancel 9, .reserve 10 .qos1]

/-- Outcome of a concrete history, for the examples. -/
def outcome (n m : Nat) (cs : List Call) : List Answer × Tables :=
  match stateRun (freshTables n m) cs with
  | .ok x => x
  | .ub _ => ([], freshTables n m)

/-- Arrays after one more call, for the examples. -/
def next (t : Tables) (c : Call) : Tables :=
  match stateCall t c with
  | .ok x => x.2
  | .ub _ => t

/-! ### C17 -/

/-- C17.  Every history is defined (no out-of-bounds access, no failed assertion), returns exactly the answers of the
ordered-list specification `Spec.run`, and leaves arrays that hold exactly the specification's entries in order. -/
theorem C17_ordered_table (n m : Nat) (hn : 1 ≤ n) (hm : 1 ≤ m) (cs : List Call) (hc : ∀ c ∈ cs, c ≠ .cancel 0) :
    ∃ t, stateRun (freshTables n m) cs = .ok ((run ⟨n, m, [], []⟩ cs).1, t) ∧ Represents t (run ⟨n, m, [], []⟩ cs).2 := by
  obtain ⟨t', e₁, e₂, _, _⟩ := stateRun_refines cs (represents_fresh n m) hn hm hc
  exact ⟨t', e₁, e₂⟩

/-- The demo history fills and reuses the table; compaction happens (7, then 10 come after 9 and 8). -/
example : ∃ answers t, After 3 2 demoCalls answers t ∧
    inFlight t.outgoing = [⟨7, .qos2, .publishSend⟩, ⟨8, .qos2, .pubRelSend⟩, ⟨10, .qos1, .publishSend⟩] ∧
    inFlight t.incoming = [⟨5, .qos2, .pubRelPending⟩] :=
  ⟨(outcome 3 2 demoCalls).1, (outcome 3 2 demoCalls).2, ⟨by decide, by decide, by decide, by decide +kernel⟩, by decide +kernel, by decide +kernel⟩

/-! ### C18 -/

/-- C18.  After any history, reserving a nonzero id with QoS 1 or 2: collision exactly when the id is in flight,
otherwise no memory exactly when all `n` slots are in flight, otherwise success; the only effect on the ordered list
of publishes in flight is the new entry at its end on success. -/
theorem C18_reserve {n m cs answers t} (h : After n m cs answers t) (id : UInt16) (hid : id ≠ 0) (q : QoS) (hq : q ≠ .qos0) :
    ∃ st t', reserveState t id q = .ok (st, t') ∧
      (st = .stateCollision ↔ ∃ r ∈ inFlight t.outgoing, r.packetId = id) ∧
      (st = .noMemory ↔ (∀ r ∈ inFlight t.outgoing, r.packetId ≠ id) ∧ (inFlight t.outgoing).length = n) ∧
      (st = .success ↔ (∀ r ∈ inFlight t.outgoing, r.packetId ≠ id) ∧ (inFlight t.outgoing).length < n) ∧
      inFlight t'.outgoing = inFlight t.outgoing ++ (if st = .success then [⟨id, q, .publishSend⟩] else []) ∧
      t'.incoming = t.incoming ∧ t'.outgoing.length = n := by
  obtain ⟨_, ⟨h₂, h₂'⟩, h₃, _⟩ := h.represents
  have hne : t.outgoing ≠ [] := by
    intro e
    have := h₂.size
    rw [e, h₃] at this
    have := h.1
    simp at *; omega
  have hsz : t.outgoing.length = n := by rw [h₂.size, h₃]
  obtain ⟨recs', e₁, e₂, e₃, e₄⟩ := addRecord_spec t.outgoing h₂.clean hne id hid q hq .publishSend
  have hil : inFlight t.outgoing = live t.outgoing := by simp [inFlight, live]
  have hil' : inFlight recs' = live recs' := by simp [inFlight, live]
  have hle := live_length_le t.outgoing
  have hmem : (id ∈ (live t.outgoing).map (·.packetId)) ↔ ∃ r ∈ live t.outgoing, r.packetId = id := by simp
  rw [hsz] at e₁ e₄ e₂ hle
  refine ⟨if id ∈ (live t.outgoing).map (·.packetId) then Status.stateCollision
      else if (live t.outgoing).length = n then Status.noMemory else Status.success, { t with outgoing := recs' },
    by simp only [reserveState, if_neg hq, if_neg hid, e₁, Res.ok_bind, Res.pure_eq], ?_⟩
  rw [hil]
  by_cases c₁ : id ∈ (live t.outgoing).map (·.packetId)
  · have hx := hmem.mp c₁
    have hn : ¬ ∀ r ∈ live t.outgoing, r.packetId ≠ id := by
      intro hall; obtain ⟨r, hr, he⟩ := hx; exact hall r hr he
    rw [if_pos c₁] at e₄
    simp only [if_pos c₁]
    refine ⟨⟨fun _ => hx, fun _ => by trivial⟩, ⟨fun h => by simp at h, fun h => absurd h.1 hn⟩, ⟨fun h => by simp at h, fun h => absurd h.1 hn⟩,
      ?_, by trivial, e₂⟩
    rw [hil', e₄]; rfl
  · have hx : ¬ ∃ r ∈ live t.outgoing, r.packetId = id := fun h => c₁ (hmem.mpr h)
    have hall : ∀ r ∈ live t.outgoing, r.packetId ≠ id := fun r hr he => hx ⟨r, hr, he⟩
    rw [if_neg c₁] at e₄
    simp only [if_neg c₁]
    by_cases c₂ : (live t.outgoing).length = n
    · rw [if_pos c₂] at e₄
      simp only [if_pos c₂]
      refine ⟨⟨fun h => by simp at h, fun h => absurd h hx⟩, ⟨fun _ => ⟨hall, c₂⟩, fun _ => by trivial⟩, ⟨fun h => by simp at h, fun h => by omega⟩,
        ?_, by trivial, e₂⟩
      rw [hil', e₄]; rfl
    · rw [if_neg c₂] at e₄
      simp only [if_neg c₂]
      refine ⟨⟨fun h => by simp at h, fun h => absurd h hx⟩, ⟨fun h => by simp at h, fun h => absurd h.2 c₂⟩,
        ⟨fun _ => ⟨hall, by omega⟩, fun _ => by trivial⟩, ?_, by trivial, e₂⟩
      rw [hil', e₄]; rfl

/-- All three outcomes occur: a collision, a full table, and success into a table with a hole in the middle. -/
example : (∃ answers t, After 2 1 [.reserve 1 .qos1, .reserve 2 .qos1] answers t ∧
      (∃ t', reserveState t 1 .qos2 = .ok (.stateCollision, t')) ∧ (∃ t', reserveState t 3 .qos1 = .ok (.noMemory, t'))) ∧
    (∃ answers t, After 3 1 [.reserve 1 .qos1, .reserve 2 .qos1, .reserve 3 .qos1, .cancel 2] answers t ∧
      t.outgoing = [⟨1, .qos1, .publishSend⟩, Rec.empty, ⟨3, .qos1, .publishSend⟩] ∧
      reserveState t 4 .qos1 = .ok (.success, ⟨[⟨1, .qos1, .publishSend⟩, ⟨3, .qos1, .publishSend⟩, ⟨4, .qos1, .publishSend⟩], t.incoming⟩)) :=
  ⟨⟨_, (outcome 2 1 [.reserve 1 .qos1, .reserve 2 .qos1]).2, ⟨by decide, by decide, by decide, (show _ = Res.ok ((outcome 2 1 [.reserve 1 .qos1, .reserve 2 .qos1]).1, _) by decide +kernel)⟩,
     ⟨(outcome 2 1 [.reserve 1 .qos1, .reserve 2 .qos1]).2, by decide +kernel⟩,
     ⟨(outcome 2 1 [.reserve 1 .qos1, .reserve 2 .qos1]).2, by decide +kernel⟩⟩,
   ⟨_, (outcome 3 1 [.reserve 1 .qos1, .reserve 2 .qos1, .reserve 3 .qos1, .cancel 2]).2,
     ⟨by decide, by decide, by decide, (show _ = Res.ok ((outcome 3 1 [.reserve 1 .qos1, .reserve 2 .qos1, .reserve 3 .qos1, .cancel 2]).1, _) by decide +kernel)⟩, by decide +kernel, by decide +kernel⟩⟩

/-! ### C19 -/

/-- C19.  After any history, one more call either leaves the state of a publish alone or moves it along the edge of the
protocol diagram labelled with that call.  In particular an entry disappears only by its final acknowledgement or by
cancellation, and a call never touches any other packet id. -/
theorem C19_protocol_edges {n m cs answers t} (h : After n m cs answers t) (c : Call) (hc : c ≠ .cancel 0) {a t'}
    (hcall : stateCall t c = .ok (a, t')) (id : UInt16) (hid : id ≠ 0) :
    (stateOf t'.outgoing id = stateOf t.outgoing id ∨
      SenderEdge id c (stateOf t.outgoing id) (stateOf t'.outgoing id)) ∧
    (stateOf t'.incoming id = stateOf t.incoming id ∨
      ReceiverEdge id c (stateOf t.incoming id) (stateOf t'.incoming id)) := by
  obtain ⟨_, ⟨h₁, h₂⟩, _, _⟩ := h.represents
  obtain ⟨t'', e₁, ⟨e₂, e₃⟩⟩ := h.step hc
  rw [hcall] at e₁
  simp only [Res.ok.injEq, Prod.mk.injEq] at e₁
  obtain ⟨rfl, rfl⟩ := e₁
  rw [stateOf_eq keepsId_out h₁ hid, stateOf_eq keepsId_out e₂ hid, stateOf_eq keepsId_in h₂ hid, stateOf_eq keepsId_in e₃ hid]
  constructor
  · rcases sender_edge _ h₁.distinct c id with h | h
    · left; rw [h]
    · right; exact h
  · rcases receiver_edge _ h₂.distinct c id with h | h
    · left; rw [h]
    · right; exact h

/-- The PUBREC edge is really taken for packet 8 in the demo history. -/
example : ∃ answers t t', After 3 2 (demoCalls.take 9) answers t ∧ stateCall t (.ack .receive .pubrec 8) = .ok ((.success, some .pubRelSend), t') ∧
    stateOf t.outgoing 8 = some (.qos2, .pubRecPending) ∧ stateOf t'.outgoing 8 = some (.qos2, .pubRelSend) :=
  ⟨(outcome 3 2 (demoCalls.take 9)).1, (outcome 3 2 (demoCalls.take 9)).2, next (outcome 3 2 (demoCalls.take 9)).2 (.ack .receive .pubrec 8),
    ⟨by decide, by decide, by decide, by decide +kernel⟩, by decide +kernel, by decide +kernel, by decide +kernel⟩

/-! ### C20 -/

/-- C20.  After any history, a call that does not return success leaves both ordered lists of publishes in flight
exactly as they were, and reports no new state. -/
theorem C20_rejected_changes_nothing {n m cs answers t} (h : After n m cs answers t) (c : Call) (hc : c ≠ .cancel 0) {st o t'}
    (hcall : stateCall t c = .ok ((st, o), t')) (hst : st ≠ .success) :
    inFlight t'.outgoing = inFlight t.outgoing ∧ inFlight t'.incoming = inFlight t.incoming ∧ o = none := by
  obtain ⟨_, ⟨h₁, h₂⟩, _, _⟩ := h.represents
  obtain ⟨t'', e₁, ⟨e₂, e₃⟩⟩ := h.step hc
  rw [hcall] at e₁
  simp only [Res.ok.injEq, Prod.mk.injEq] at e₁
  obtain ⟨e₁, rfl⟩ := e₁
  have hst' : (Spec.step (run ⟨n, m, [], []⟩ cs).2 c).1.1 ≠ .success := by rw [← e₁]; exact hst
  have hs := step_rejected _ c hst'
  rw [hs] at e₂ e₃
  refine ⟨e₂.entries.trans h₁.entries.symm, e₃.entries.trans h₂.entries.symm, ?_⟩
  -- no state is reported
  have : o = (Spec.step (run ⟨n, m, [], []⟩ cs).2 c).1.2 := by rw [← e₁]
  rw [this]
  revert hst'
  generalize (run ⟨n, m, [], []⟩ cs).2 = s
  intro hst'
  cases c with
  | reserve i qos =>
    cases qos with
    | qos0 => rfl
    | qos1 | qos2 => by_cases hi : i = 0 <;> simp [Spec.step, hi]
  | publish op i qos =>
    cases qos with
    | qos0 => exact absurd rfl hst'
    | qos1 | qos2 =>
      by_cases hi : i = 0
      · simp [Spec.step, hi]
      · cases op with
        | receive =>
          simp only [Spec.step, if_neg hi] at hst' ⊢
          rw [if_neg hst']
        | send =>
          simp only [Spec.step, if_neg hi] at hst' ⊢
          cases hp : s.out.phase i with
          | none => rfl
          | some p => rw [hp] at hst'; cases p <;> first | rfl | exact absurd rfl hst'
  | ack op type i =>
    have hack : ∀ {φ : Type} rule (l : Table φ) id, (ackTable rule l id).1.1 ≠ .success → (ackTable rule l id).1.2 = none := by
      intro φ rule l id h
      unfold ackTable at *
      split
      · rfl
      · next p hp =>
        simp only [hp] at h
        split
        · rfl
        · next e st hr => simp only [hr] at h; exact absurd rfl h
    by_cases hi : i = 0
    · simp [Spec.step, hi]
    · simp only [Spec.step, if_neg hi] at hst' ⊢
      split
      · next hf => rw [if_pos hf] at hst'; exact hack _ _ _ hst'
      · next hf => rw [if_neg hf] at hst'; exact hack _ _ _ hst'
  | cancel i =>
    simp only [Spec.step] at hst' ⊢
    cases hp : s.out.phase i <;> rfl

/-- A PUBCOMP that arrives before the PUBREC is rejected in a reachable state. -/
example : ∃ answers t t', After 3 2 (demoCalls.take 9) answers t ∧
    stateCall t (.ack .receive .pubcomp 8) = .ok ((.illegalState, none), t') :=
  ⟨(outcome 3 2 (demoCalls.take 9)).1, (outcome 3 2 (demoCalls.take 9)).2, (outcome 3 2 (demoCalls.take 9)).2,
    ⟨by decide, by decide, by decide, by decide +kernel⟩, by decide +kernel⟩

/-! ### C21, C22 -/

/-- The calls of a history paired with the statuses they returned. -/
def log (cs : List Call) (answers : List Answer) : List (Call × Status) := cs.zip (answers.map (·.1))

/-- C21 (publishes).  After any history, calling `MQTT_PublishToResend` `k` times from a fresh cursor returns the ids
of the publishes reserved but neither acknowledged nor cancelled, each once, oldest first, and then 0 forever. -/
theorem C21_publish_enumeration {n m cs answers t} (h : After n m cs answers t) (k : Nat) :
    resendCalls (publishToResend t) k 0 = .ok (firstThenZeros ((log cs answers).foldl unackedStep []) k) := by
  obtain ⟨h₀, ⟨h₁, h₂⟩, _, _⟩ := h.represents
  rw [publishToResend_calls h₁, (history_ids cs (represents_fresh n m) h.1 h.2.1 h.2.2.1).1, h₀]
  rfl

/-- C21 / C22 (PUBRELs).  After any history, calling `MQTT_PubrelToResend` `k` times from a fresh cursor returns the
ids whose PUBREC was accepted and whose PUBCOMP was not, in the order in which the PUBRECs were accepted, and then 0
forever. -/
theorem C22_pubrel_enumeration {n m cs answers t} (h : After n m cs answers t) (k : Nat) :
    resendCalls (fun c => do let (id, c, _) ← pubrelToResend t c; pure (id, c)) k 0 =
      .ok (firstThenZeros ((log cs answers).foldl pubrelStep []) k) := by
  obtain ⟨h₀, ⟨h₁, h₂⟩, _, _⟩ := h.represents
  rw [pubrelToResend_calls h₁, (history_ids cs (represents_fresh n m) h.1 h.2.1 h.2.2.1).2, h₀]
  rfl

/-- C21: the enumerated ids are pairwise distinct and not 0. -/
theorem C21_no_duplicates {n m cs answers t} (h : After n m cs answers t) :
    ((log cs answers).foldl unackedStep []).Pairwise (· ≠ ·) ∧ ((log cs answers).foldl pubrelStep []).Pairwise (· ≠ ·) ∧
    (∀ id ∈ (log cs answers).foldl unackedStep [], id ≠ 0 ∧ id ∉ (log cs answers).foldl pubrelStep []) ∧
    (∀ id ∈ (log cs answers).foldl pubrelStep [], id ≠ 0) := by
  obtain ⟨h₀, ⟨h₁, h₂⟩, _, _⟩ := h.represents
  obtain ⟨e₁, e₂⟩ := history_ids cs (represents_fresh n m) h.1 h.2.1 h.2.2.1
  have e₁' : (log cs answers).foldl unackedStep [] = idsOf isUnacked (run ⟨n, m, [], []⟩ cs).2.out := by rw [h₀, e₁]; rfl
  have e₂' : (log cs answers).foldl pubrelStep [] = idsOf isPubrel (run ⟨n, m, [], []⟩ cs).2.out := by rw [h₀, e₂]; rfl
  rw [e₁', e₂']
  have hd := h₁.distinct
  have hnz := h₁.nonzero keepsId_out
  revert hd hnz
  generalize (run ⟨n, m, [], []⟩ cs).2.out = l
  intro hd hnz
  have hpw : ∀ f, (idsOf f l).Pairwise (· ≠ ·) := by
    intro f
    unfold idsOf
    rw [List.pairwise_map]
    exact hd.filter _
  have hz : ∀ f, ∀ id ∈ idsOf f l, id ≠ 0 := by
    intro f id hid
    obtain ⟨e, he, rfl⟩ := List.mem_map.mp hid
    exact hnz e (List.mem_filter.mp he).1
  refine ⟨hpw _, hpw _, fun id hid => ⟨hz _ id hid, ?_⟩, hz _⟩
  intro hid'
  obtain ⟨⟨i, p⟩, he, rfl⟩ := List.mem_map.mp hid
  obtain ⟨⟨i', p'⟩, he', hi⟩ := List.mem_map.mp hid'
  simp only at hi
  subst hi
  have m₁ := List.mem_filter.mp he
  have m₂ := List.mem_filter.mp he'
  obtain ⟨a, b, rfl⟩ := List.append_of_mem m₁.1
  obtain ⟨d₁, d₂, _⟩ := pairwise_split hd
  rcases List.mem_append.mp m₂.1 with hm | hm
  · exact absurd rfl (d₁ _ hm)
  · rcases List.mem_cons.mp hm with hm | hm
    · simp only [Prod.mk.injEq, true_and] at hm
      subst hm
      have := m₁.2
      have := m₂.2
      simp_all [isPubrel]
    · exact absurd rfl (d₂ _ hm)

/-- In the demo history 9's PUBREC came first, but 9 was cancelled; 7 was reused after its PUBACK. -/
example : ∃ answers t, After 3 2 (demoCalls.take 13) answers t ∧
    resendCalls (fun c => do let (id, c, _) ← pubrelToResend t c; pure (id, c)) 4 0 = .ok [9, 8, 0, 0] ∧
    resendCalls (publishToResend t) 3 0 = .ok [7, 0, 0] :=
  ⟨(outcome 3 2 (demoCalls.take 13)).1, (outcome 3 2 (demoCalls.take 13)).2, ⟨by decide, by decide, by decide, by decide +kernel⟩, by decide +kernel, by decide +kernel⟩

/-! ### C23 -/

/-- C23.  After any history, whatever the layout of the arrays and however full they are: a PUBREC for an outgoing QoS 2
publish that awaits it succeeds, and the publish is then in flight in state `MQTTPubRelSend` behind all others, the
others being unchanged. -/
theorem C23_pubrec_keeps_publish {n m cs answers t} (h : After n m cs answers t) (id : UInt16)
    (hp : stateOf t.outgoing id = some (.qos2, .pubRecPending)) :
    ∃ t', stateCall t (.ack .receive .pubrec id) = .ok ((.success, some .pubRelSend), t') ∧
      inFlight t'.outgoing = (inFlight t.outgoing).filter (fun r => r.packetId ≠ id) ++ [⟨id, .qos2, .pubRelSend⟩] ∧
      inFlight t'.incoming = inFlight t.incoming := by
  obtain ⟨_, ⟨h₁, h₂⟩, _, _⟩ := h.represents
  obtain ⟨t', e₁, ⟨e₂, e₃⟩⟩ := h.step (c := .ack .receive .pubrec id) (by simp)
  have hid : id ≠ 0 := by
    rintro rfl
    unfold stateOf at hp
    cases hf : t.outgoing.find? (fun r => decide (r.packetId = 0)) with
    | none => rw [hf] at hp; cases hp
    | some r =>
      rw [hf] at hp
      have hr := List.find?_some hf
      have hm := List.mem_of_find?_eq_some hf
      have := h₁.unused r hm (by simpa using hr)
      rw [this] at hp
      cases hp
  rw [stateOf_eq keepsId_out h₁ hid] at hp
  revert e₁ e₂ e₃ h₁ h₂ hp
  generalize (run ⟨n, m, [], []⟩ cs).2 = s
  intro hp h₁ h₂ e₁ e₂ e₃
  have hph : s.out.phase id = some .awaitPubrec := by
    cases hph : s.out.phase id with
    | none => rw [hph] at hp; cases hp
    | some p => rw [hph] at hp; cases p <;> first | rfl | (simp [outRec] at hp)
  simp only [Spec.step, if_neg hid, forOutgoing, if_true, ackTable, hph, outAck, Effect.apply] at e₁ e₂ e₃
  refine ⟨t', e₁, ?_, e₃.entries.trans h₂.entries.symm⟩
  unfold inFlight
  rw [e₂.entries, h₁.entries, List.map_append]
  congr 1
  unfold Table.remove
  rw [List.filter_map]
  congr 1
  apply List.filter_congr
  intro e _
  simp [keepsId_out e]

/-- A completely full table. -/
example : ∃ answers t, After 2 1 [.reserve 1 .qos2, .reserve 2 .qos1, .publish .send 1 .qos2] answers t ∧
    (inFlight t.outgoing).length = 2 ∧ stateOf t.outgoing 1 = some (.qos2, .pubRecPending) :=
  ⟨(outcome 2 1 [.reserve 1 .qos2, .reserve 2 .qos1, .publish .send 1 .qos2]).1,
    (outcome 2 1 [.reserve 1 .qos2, .reserve 2 .qos1, .publish .send 1 .qos2]).2, ⟨by decide, by decide, by decide, by decide +kernel⟩, by decide +kernel, by decide +kernel⟩

/-! ### C48 -/

/-- C48 (state engine).  After any history, removing a nonzero packet id that is in flight removes exactly that
outgoing entry; removing an id that is not in flight is a bad parameter and changes nothing. -/
theorem C48_remove {n m cs answers t} (h : After n m cs answers t) (id : UInt16) (hid : id ≠ 0) :
    ∃ st t', removeStateRecord t id = .ok (st, t') ∧
      (st = if (∃ r ∈ inFlight t.outgoing, r.packetId = id) then .success else .badParameter) ∧
      inFlight t'.outgoing = (inFlight t.outgoing).filter (fun r => r.packetId ≠ id) ∧
      inFlight t'.incoming = inFlight t.incoming := by
  obtain ⟨_, ⟨h₁, h₂⟩, _, _⟩ := h.represents
  obtain ⟨t', e₁, ⟨e₂, e₃⟩⟩ := h.step (c := .cancel id) (by simpa using hid)
  have key : ∃ st, removeStateRecord t id = .ok (st, t') ∧ (st, none) = (Spec.step (run ⟨n, m, [], []⟩ cs).2 (.cancel id)).1 := by
    simp only [stateCall] at e₁
    cases hr : removeStateRecord t id with
    | ub e => rw [hr] at e₁; cases e₁
    | ok x =>
      rw [hr] at e₁
      simp only [Res.ok_bind, Res.pure_eq, Res.ok.injEq, Prod.mk.injEq] at e₁
      exact ⟨x.1, by rw [← e₁.2], e₁.1⟩
  obtain ⟨st, k₁, k₂⟩ := key
  revert h₁ h₂ e₂ e₃ k₂
  generalize (run ⟨n, m, [], []⟩ cs).2 = s
  intro h₁ h₂ e₂ e₃ k₂
  refine ⟨st, t', k₁, ?_⟩
  have hmem : (∃ r ∈ inFlight t.outgoing, r.packetId = id) ↔ ∃ p, s.out.phase id = some p := by
    unfold inFlight
    rw [h₁.entries]
    constructor
    · rintro ⟨r, hr, he⟩
      obtain ⟨e, hm, rfl⟩ := List.mem_map.mp hr
      rw [keepsId_out e] at he
      cases hp : s.out.phase id with
      | some p => exact ⟨p, rfl⟩
      | none =>
        unfold Table.phase at hp
        rw [Option.map_eq_none_iff, List.find?_eq_none] at hp
        exact absurd he (by simpa using hp e hm)
    · rintro ⟨p, hp⟩
      obtain ⟨a, b, hl, _, _⟩ := phase_some_split h₁.distinct hp
      exact ⟨outRec (id, p), List.mem_map.mpr ⟨(id, p), by rw [hl]; simp, rfl⟩, keepsId_out _⟩
  have hrem : (s.out.remove id).map outRec = (s.out.map outRec).filter (fun r => r.packetId ≠ id) := by
    unfold Table.remove
    rw [List.filter_map]
    congr 1
    apply List.filter_congr
    intro e _
    simp [keepsId_out e]
  cases hp : s.out.phase id with
  | none =>
    simp only [Spec.step, hp, Prod.mk.injEq, and_true] at k₂ e₂ e₃
    have hn : ¬ ∃ r ∈ inFlight t.outgoing, r.packetId = id := by rw [hmem, hp]; simp
    refine ⟨by rw [if_neg hn, k₂], ?_, e₃.entries.trans h₂.entries.symm⟩
    rw [show inFlight t'.outgoing = inFlight t.outgoing from e₂.entries.trans h₁.entries.symm]
    symm
    rw [List.filter_eq_self]
    intro r hr
    simpa using fun he => hn ⟨r, hr, he⟩
  | some p =>
    simp only [Spec.step, hp, Prod.mk.injEq, and_true] at k₂ e₂ e₃
    have hy : ∃ r ∈ inFlight t.outgoing, r.packetId = id := by rw [hmem, hp]; exact ⟨p, rfl⟩
    refine ⟨by rw [if_pos hy, k₂], ?_, e₃.entries.trans h₂.entries.symm⟩
    unfold inFlight
    rw [e₂.entries, h₁.entries, hrem]

/-- Packet id 0 is not accepted gracefully: the call runs into the assertion of `findInRecord` whatever the state. -/
theorem C48_remove_zero_asserts (t : Tables) (h : t.outgoing ≠ []) : removeStateRecord t 0 = .ub .assertFailed := by
  simp [removeStateRecord, h, findInRecord]

example : ∃ answers t t', After 3 2 (demoCalls.take 13) answers t ∧ removeStateRecord t 9 = .ok (.success, t') :=
  ⟨(outcome 3 2 (demoCalls.take 13)).1, (outcome 3 2 (demoCalls.take 13)).2, next (outcome 3 2 (demoCalls.take 13)).2 (.cancel 9),
    ⟨by decide, by decide, by decide, by decide +kernel⟩, by decide +kernel⟩

end Mqtt
