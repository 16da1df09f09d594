/-
C92: larger arrays for publishes in flight change nothing as long as no call reports that there is no room.
-/
import Verif.Proof.Room
import Verif.Props.Fresh
import Verif.Props.Storage

namespace Mqtt
open Spec

theorem room_arr {a a' : Records} (h : RoomierArray a a') (hc : Clean a) : Room.Arr a a' := ⟨h.same, h.size, h.none, hc, h.clean⟩
theorem arr_room {a a' : Records} (h : Room.Arr a a') : RoomierArray a a' := ⟨h.same, h.size, h.nil, h.clean'⟩

theorem room_tab {t t' : Tables} (h : Roomier t t') {s : InFlight} (hs : Represents t s) : Room.Tab t t' :=
  ⟨room_arr h.1 hs.1.clean, room_arr h.2 hs.2.clean⟩

/-- The larger arrays hold the same publishes. -/
theorem room_represents {t t' : Tables} (h : Roomier t t') {s : InFlight} (hs : Represents t s) :
    Represents t' ⟨t'.outgoing.length, t'.incoming.length, s.out, s.inc⟩ :=
  ⟨⟨rfl, h.1.same.trans hs.1.entries, h.1.clean, hs.1.distinct⟩, ⟨rfl, h.2.same.trans hs.2.entries, h.2.clean, hs.2.distinct⟩⟩

/-- **C92** (one call).  Two clients that differ in the arrays given to `MQTT_InitStatefulQoS` only: those of the second are at least as large (and none where the
first has none) and hold the same publishes in the same order, perhaps at other positions.  If a call of the first returns something other than MQTTNoMemory,
then the same call of the second, with the same answers of the environment, returns the same, has the same interactions, and leaves the clients in the same relation; the
sizes of the arrays stay. -/
theorem C92_call {g : Cfg} {h : List (ApiCall × ApiRet)} {w w1 : World} (hh : FromInit g h w) {t' : Tables} (ht : Roomier w.ctx.tables t') {e : Env} {c : ApiCall}
    (hv : ValidCall g c) {r : ApiRet} (hc : callIn g w e c = .done r w1) (hr : r.code ≠ some .noMemory) :
    ∃ t1', callIn g { w with ctx := { w.ctx with tables := t' } } e c = .done r { w1 with ctx := { w1.ctx with tables := t1' } } ∧
      Roomier w1.ctx.tables t1' ∧ t1'.outgoing.length = t'.outgoing.length ∧ t1'.incoming.length = t'.incoming.length := by
  obtain ⟨hg, hidx, s, hs⟩ := hh.good
  have hw : Room.Rel Room.Tab { w with env := e } { w with env := e, ctx := { w.ctx with tables := t' } } := ⟨rfl, rfl, rfl, room_tab ht hs⟩
  rcases Room.sim_api g c _ _ hw r w1 hc with h1 | ⟨w1', h1, h2⟩
  · exact absurd h1 hr
  · have e1 : w1' = { w1 with ctx := { w1.ctx with tables := w1'.ctx.tables } } := by
      rw [← h2.ctx, ← h2.env, ← h2.trace]
    have hi : Inv t'.outgoing.length t'.incoming.length ({ w.ctx with tables := t' } : Ctx) := ⟨hidx, _, room_represents ht hs, rfl, rfl⟩
    have h3 : callIn g { w with ctx := { w.ctx with tables := t' } } e c = .done r w1' := h1
    obtain ⟨_, s1, k1, k2, k3⟩ := Inv.call hg (w := { w with ctx := { w.ctx with tables := t' } }) hi hv h3
    refine ⟨w1'.ctx.tables, ?_, ⟨arr_room h2.tabs.out, arr_room h2.tabs.inc⟩, k1.1.size.trans k2, k1.2.size.trans k3⟩
    rw [← e1]
    exact h3

/-- Histories from worlds in this relation. -/
theorem room_history {g : Cfg} (hg : CfgOk g) {w0 w : World} {h : List (ApiCall × ApiRet)} (hi : Initialised w0.ctx) (ht : w0.trace = []) (hh : Hist g w0 h w)
    (hr : ∀ x ∈ h, x.2.code ≠ some .noMemory) {t0 : Tables} (h0 : Roomier w0.ctx.tables t0) :
    ∃ t', Hist g { w0 with ctx := { w0.ctx with tables := t0 } } h { w with ctx := { w.ctx with tables := t' } } ∧ Roomier w.ctx.tables t' ∧
      t'.outgoing.length = t0.outgoing.length ∧ t'.incoming.length = t0.incoming.length := by
  induction hh with
  | start => exact ⟨t0, .start _, h0, rfl, rfl⟩
  | @call v1 v2 h e c ret h1 hv hc ih =>
    obtain ⟨t', k1, k2, k3, k4⟩ := ih fun x hx => hr x (List.mem_append_left _ hx)
    obtain ⟨t1', j1, j2, j3, j4⟩ := C92_call ⟨hg, w0, hi, ht, h1⟩ k2 hv hc (hr _ (List.mem_append_right _ List.mem_cons_self))
    exact ⟨t1', .call k1 hv j1, j2, j3.trans k3, j4.trans k4⟩

/-- An initialised context with arrays of other sizes is one as well. -/
theorem initialised_sizes {c : Ctx} (h : Initialised c) (n m : Nat) : Initialised { c with tables := freshTables n m } := by
  have hx : ∀ k, ∃ x : Option Records, decide (k = 0) = x.isNone ∧ (∀ recs, x = some recs → k ≤ recs.length ∧ ∀ r ∈ recs, r = Rec.empty) ∧
      (x.getD []).take k = List.replicate k Rec.empty := by
    intro k
    cases k with
    | zero => exact ⟨none, rfl, fun _ h => (by cases h), rfl⟩
    | succ k =>
      refine ⟨some (List.replicate (k + 1) Rec.empty), by simp, fun recs h => ?_, by simp⟩
      cases h
      exact ⟨by simp, fun r hr => List.eq_of_mem_replicate hr⟩
  obtain ⟨x, x1, x2, x3⟩ := hx n
  obtain ⟨y, y1, y2, y3⟩ := hx m
  refine .stateful (out := x) (outCount := n) (inc := y) (incCount := m) h x2 y2 ?_
  unfold mqttInitStatefulQoS
  rw [if_neg (by rw [x1]; simp), if_neg (by rw [y1]; simp), x3, y3]
  rfl

/-- **C92** (histories).  Every history in which no call returned MQTTNoMemory is, call for call and result for result, a history of a client with arrays of any larger
sizes (none where the first has none), with the same interactions; afterwards the clients differ in the arrays only, and these hold the same publishes in the same order. -/
theorem C92_history {g : Cfg} {h : List (ApiCall × ApiRet)} {w : World} (hh : FromInit g h w) (hr : ∀ x ∈ h, x.2.code ≠ some .noMemory) {n m : Nat}
    (hn : w.ctx.tables.outgoing.length ≤ n) (hn0 : w.ctx.tables.outgoing = [] → n = 0) (hm : w.ctx.tables.incoming.length ≤ m) (hm0 : w.ctx.tables.incoming = [] → m = 0) :
    ∃ t', FromInit g h { w with ctx := { w.ctx with tables := t' } } ∧ t'.outgoing.length = n ∧ t'.incoming.length = m ∧
      inFlight t'.outgoing = inFlight w.ctx.tables.outgoing ∧ inFlight t'.incoming = inFlight w.ctx.tables.incoming := by
  obtain ⟨hg, w0, hi, ht, hh⟩ := hh
  obtain ⟨oc, ic, i1, _, i3⟩ := hi.inv
  obtain ⟨_, s, k1, k2, k3⟩ := hh.inv hg (oc := oc) (ic := ic) ⟨by rw [i1]; exact Nat.zero_le _, ⟨oc, ic, [], []⟩, i3 ▸ represents_fresh oc ic, rfl, rfl⟩
  have l1 : w.ctx.tables.outgoing.length = oc := k1.1.size.trans k2
  have l2 : w.ctx.tables.incoming.length = ic := k1.2.size.trans k3
  have arr : ∀ {a : Records} {k j : Nat}, a.length = k → k ≤ j → (a = [] → j = 0) → RoomierArray (List.replicate k Rec.empty) (List.replicate j Rec.empty) := by
    intro a k j hk hj h0
    refine ⟨by simp [inFlight], by simpa using hj, fun he => ?_, fun r hr _ => List.eq_of_mem_replicate hr⟩
    have : k = 0 := by simpa using he
    rw [h0 (List.eq_nil_of_length_eq_zero (hk.trans this))]
    rfl
  have hT : Roomier w0.ctx.tables (freshTables n m) := by
    rw [i3]
    exact ⟨arr l1 (l1 ▸ hn) hn0, arr l2 (l2 ▸ hm) hm0⟩
  obtain ⟨t', j1, j2, j3, j4⟩ := room_history hg hi ht hh hr hT
  refine ⟨t', ⟨hg, { w0 with ctx := { w0.ctx with tables := freshTables n m } }, initialised_sizes hi n m, ht, j1⟩, ?_, ?_, j2.1.same, j2.2.same⟩
  · rw [j3]; simp [freshTables]
  · rw [j4]; simp [freshTables]

/-! ### Examples -/

/-- The example session has publishes in flight and no call returned MQTTNoMemory, so it is one with room for 70 and 100 publishes as well. -/
example : ∃ t', FromInit Ex.g (Ex.played Ex.oldSteps).1 { Ex.old with ctx := { Ex.old.ctx with tables := t' } } ∧ t'.outgoing.length = 70 ∧ t'.incoming.length = 100 ∧
    inFlight t'.outgoing = inFlight Ex.old.ctx.tables.outgoing ∧ inFlight Ex.old.ctx.tables.outgoing ≠ [] := by
  obtain ⟨t', h1, h2, h3, h4, _⟩ := C92_history Ex.old_fromInit (by decide +kernel) (n := 70) (m := 100) (by decide +kernel) (by decide +kernel) (by decide +kernel) (by decide +kernel)
  exact ⟨t', h1, h2, h3, h4, by decide +kernel⟩

/-- The example session while both records for outgoing publishes are in use. -/
def Ex.twoOut : World := (Ex.played (Ex.session ++ [(Ex.env [], Ex.publishCall .qos1 8)])).2

/-- The condition is needed: with both records in use, a third publish returns MQTTNoMemory; with one more record it is sent. -/
theorem C92_needed : Roomier Ex.twoOut.ctx.tables ⟨Rec.empty :: Ex.twoOut.ctx.tables.outgoing, Ex.twoOut.ctx.tables.incoming⟩ ∧
    Ex.ret (callIn Ex.g Ex.twoOut (Ex.env []) (Ex.publishCall .qos1 9)) = some (.status .noMemory) ∧
    Ex.ret (callIn Ex.g { Ex.twoOut with ctx := { Ex.twoOut.ctx with tables := ⟨Rec.empty :: Ex.twoOut.ctx.tables.outgoing, Ex.twoOut.ctx.tables.incoming⟩ } } (Ex.env [])
      (Ex.publishCall .qos1 9)) = some (.status .success) := by
  refine ⟨⟨⟨rfl, ?_, ?_, ?_⟩, ⟨rfl, ?_, ?_, ?_⟩⟩, ?_, ?_⟩ <;> decide +kernel

/-- And so is that a client without arrays is compared with one without: it rejects the publish as a bad parameter. -/
theorem C92_none :
    Ex.ret (callIn Ex.g { Ex.twoOut with ctx := { Ex.twoOut.ctx with tables := ⟨[], []⟩ } } (Ex.env []) (Ex.publishCall .qos1 9)) = some (.status .badParameter) ∧
    Ex.ret (callIn Ex.g { Ex.twoOut with ctx := { Ex.twoOut.ctx with tables := ⟨[Rec.empty], []⟩ } } (Ex.env []) (Ex.publishCall .qos1 9)) = some (.status .success) := by
  refine ⟨?_, ?_⟩ <;> decide +kernel

end Mqtt
