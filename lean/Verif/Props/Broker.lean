/-
End-to-end delivery of the publishes with QoS 1 and 2: C56.

The system (Spec/Broker): the client (any sequence of API calls, in any environment), the transport connection, which may be lost at any moment together
with everything under way, the server, written from the standard, and the application, which stores packets for retransmission and closes the connection
when a call reports that a packet could not be sent.
-/
import Verif.Proof.BrokerRun
import Verif.Props.Example
import Verif.Props.Outcomes
import Verif.Props.Silence

namespace Mqtt
open Spec
set_option linter.unusedSimpArgs false
variable {strict : Bool}

/-- **C56** Take any run of the system and a moment at which no publish with packet id `i` is in flight, and look at what happened since then, in one
session of the server.  The QoS 1 and 2 messages with packet id `i` that the server took over are the messages that `MQTT_Publish` accepted for this id,
in order, none changed, none missing and none invented, each QoS 2 message exactly once and each QoS 1 message at least once; only the last one may still be
missing, and then it is still in flight.  The application has been presented with at most as many PUBACK and PUBREC as messages have arrived, and with at most
as many PUBCOMP as PUBREC. -/
theorem C56_delivery {g : Cfg} {s00 s0 s : Sys} {h0 h : List (ApiCall × ApiRet)} {i : UInt16} (hi : i ≠ 0) (hini : Sys.Initial g s00)
    (hr0 : Sys.Run g strict s00 h0 s0) (hr : Sys.Run g strict s0 h s) (hd : Disciplined i (h0 ++ h)) (hfree : ¬ Taken s0.world.ctx.tables i)
    (hses : s.net.server.sessions = s0.net.server.sessions) {es : List Event} (hes : s.world.trace = s0.world.trace ++ es) :
    ∃ new sent, s.net.server.taken = s0.net.server.taken ++ new ∧ Arrived sent (takenOver i new) ∧
      (sent = published i h ∨ ∃ m, published i h = sent ++ [m] ∧ Taken s.world.ctx.tables i) ∧
      acknowledged i es ≤ sent.length ∧ completed i es ≤ acknowledged i es := by
  obtain ⟨_, _, h1⟩ := Sys.ready hini.cfg hi hr0 (Sys.first hini i) (fun x hx => hd x (List.mem_append_left _ hx))
  have h1 := h1.again (by
    intro fl hfl
    by_cases hp : fl.out.phase i = none
    · exact hp
    · exact absurd ((mem_inFlight hfl.1 i).mpr hp) hfree)
  obtain ⟨es', h2, fl, h3, _, _, h4⟩ := Sys.ready hini.cfg hi hr h1 (fun x hx => hd x (List.mem_append_right _ hx))
  have : es' = es := List.append_cancel_left (h2.symm.trans hes)
  subst this
  rw [List.nil_append, Nat.zero_add, Nat.zero_add] at h4
  obtain ⟨us, part, ds, buf, q1, _, _⟩ := h4.ties
  obtain ⟨new, q2, q3⟩ := q1.tie
  have hq : true = true ∧ s.net.server.sessions = s0.net.server.sessions := ⟨rfl, hses⟩
  have hin : ∀ {p : OutPhase}, fl.out.phase i = some p → Taken s.world.ctx.tables i := by
    intro p hp
    exact (mem_inFlight h3.1 i).mpr (by rw [hp]; simp)
  generalize fl.out.phase i = ph at q3 hin
  generalize us.filterMap (upNote i) = U at q3
  generalize ds.filterMap (downNote i) = D at q3
  generalize decide (i.toNat ∈ s.net.server.held) = hl at q3
  cases q3 with
  | idle _ k =>
    obtain ⟨k1, k2, k3⟩ := k hq
    exact ⟨new, _, q2, k1, Or.inl rfl, k2, k3⟩
  | one _ _ _ k =>
    obtain ⟨P', k1, k2, k3, k4⟩ := k hq
    rcases k4 with k4 | ⟨_, k4⟩
    · exact ⟨new, _, q2, k4, Or.inl rfl, by rw [k1]; simp; omega, k3⟩
    · exact ⟨new, P', q2, k4, Or.inr ⟨_, k1, hin rfl⟩, k2, k3⟩
  | two _ _ _ k =>
    obtain ⟨P', k1, k2, k3, k4⟩ := k hq
    rcases k4 with ⟨_, k4⟩ | ⟨_, k4⟩
    · exact ⟨new, _, q2, k4, Or.inl rfl, by rw [k1]; simp; omega, k3⟩
    · exact ⟨new, P', q2, k4, Or.inr ⟨_, k1, hin rfl⟩, k2, k3⟩
  | rel _ k =>
    obtain ⟨k1, k2, k3⟩ := k hq
    exact ⟨new, _, q2, k1, Or.inl rfl, k2, by omega⟩
  | comp _ k =>
    obtain ⟨k1, k2, k3⟩ := k hq
    exact ⟨new, _, q2, k1, Or.inl rfl, k2, by omega⟩

/-- **C56** When no publish with packet id `i` is in flight any more, all of them have arrived. -/
theorem C56_at_rest {g : Cfg} {s00 s0 s : Sys} {h0 h : List (ApiCall × ApiRet)} {i : UInt16} (hi : i ≠ 0) (hini : Sys.Initial g s00)
    (hr0 : Sys.Run g strict s00 h0 s0) (hr : Sys.Run g strict s0 h s) (hd : Disciplined i (h0 ++ h)) (hfree : ¬ Taken s0.world.ctx.tables i)
    (hses : s.net.server.sessions = s0.net.server.sessions) (hrest : ¬ Taken s.world.ctx.tables i) {new : List Publish}
    (hnew : s.net.server.taken = s0.net.server.taken ++ new) : Arrived (published i h) (takenOver i new) := by
  obtain ⟨es, hes, _⟩ := Sys.ready hini.cfg hi (b := false) hr (Sys.ready hini.cfg hi hr0 (Sys.first hini i) (fun x hx => hd x (List.mem_append_left _ hx))).choose_spec.2
    (fun x hx => hd x (List.mem_append_right _ hx))
  obtain ⟨new', sent, h1, h2, h3, _⟩ := C56_delivery hi hini hr0 hr hd hfree hses hes
  have : new' = new := List.append_cancel_left (h1.symm.trans hnew)
  subst this
  rcases h3 with rfl | ⟨_, _, h⟩
  · exact h2
  · exact absurd h hrest

/-! ### Reading `Arrived` -/

/-- What arrived is what was sent when every message has QoS 2. -/
theorem Spec.Arrived.exactly {sent got : List Publish} (h : Arrived sent got) (hq : ∀ m ∈ sent, m.qos = 2) : got = sent := by
  induction h with
  | nil => rfl
  | next m _ ih => rw [ih (fun x hx => hq x (List.mem_append_left _ hx))]
  | @repeated sent got m _ h _ =>
    have := hq m (by simp)
    rw [this] at h
    cases h

/-- Every message sent arrived, and every message that arrived was sent. -/
theorem Spec.Arrived.mem {sent got : List Publish} (h : Arrived sent got) (m : Publish) : m ∈ sent ↔ m ∈ got := by
  induction h with
  | nil => simp
  | next m' _ ih => simp [ih]
  | repeated _ _ ih =>
    rw [ih, List.mem_append, List.mem_singleton]
    refine ⟨Or.inl, ?_⟩
    rintro (h | rfl)
    · exact h
    · exact ih.mp (by simp)

/-! ### Example runs -/

namespace Ex

/-- `Settles`, computed. -/
def settle (o : Outbox) (t : Nat) (j : UInt16) : Outbox × List Raw :=
  match o.slot j with
  | some ⟨m, false, _⟩ =>
    if t = 0x40 ∧ m.qos = 1 then (o.put j none, [])
    else if t = 0x50 ∧ m.qos = 2 then (o.put j (some ⟨m, true, true⟩), [⟨0x62, be16 j.toNat⟩])
    else (o, [])
  | some ⟨_, true, _⟩ => if t = 0x70 then (o.put j none, []) else (o, [])
  | none => (o, [])

theorem settle_settles {o : Outbox} {t : Nat} {j : UInt16} (ht : t = 0x40 ∨ t = 0x50 ∨ t = 0x70) : Settles o t j (settle o t j).1 (settle o t j).2 := by
  unfold settle
  cases hs : o.slot j with
  | none => exact .stray ht (fun m s h => by rw [hs] at h; cases h) (fun m s h => by rw [hs] at h; cases h)
  | some x =>
    obtain ⟨m, r, s⟩ := x
    cases r with
    | false =>
      simp only
      split
      · rename_i h
        obtain ⟨rfl, hq⟩ := h
        exact .puback hs hq
      · rename_i h1
        split
        · rename_i h
          obtain ⟨rfl, hq⟩ := h
          exact .pubrec hs hq
        · rename_i h2
          refine .stray ht (fun m s h => ?_) (fun m s h => by rw [hs] at h; cases h)
          rw [hs] at h
          cases h
          exact ⟨h1, h2⟩
    | true =>
      simp only
      split
      · rename_i h
        subst h
        exact .pubcomp hs
      · rename_i h1
        refine .stray ht (fun m s h => by rw [hs] at h; cases h) (fun m s h => h1)

/-- A server that answers the next packet. -/
def serveOnce (n : Net) : Option Net :=
  match readPacket n.up with
  | none => none
  | some (t, body, rest) =>
    if n.greeted = false then
      if t = 0x10 then
        match parseConnect body with
        | none => none
        | some c =>
          if c.clean = false ∧ n.server.session = true then some { n with up := rest, down := n.down ++ packet 0x20 [1, 0], greeted := true, server := { n.server with out := n.server.out.unsent } }
          else some { n with up := rest, down := n.down ++ packet 0x20 [0, 0], greeted := true, server := { n.server with session := !c.clean, held := [], sessions := n.server.sessions + 1, out := n.server.out.dropped } }
      else none
    else if t = 0x62 then
      match read16 body with
      | some (id, []) => some { n with up := rest, down := n.down ++ idPacket 0x70 id, server := { n.server with held := n.server.held.filter fun x => x ≠ id } }
      | _ => none
    else if t = 0x40 ∨ t = 0x50 ∨ t = 0x70 then
      match read16 body with
      | some (id, []) => some { n with up := rest, down := n.down ++ (settle n.server.out t (UInt16.ofNat id)).2.flatMap Raw.bytes, server := { n.server with out := (settle n.server.out t (UInt16.ofNat id)).1 } }
      | _ => none
    else
      match parsePublish t body with
      | none => if t / 16 ≠ 3 then some { n with up := rest } else none
      | some m =>
        if m.qos = 0 then some { n with up := rest, server := { n.server with taken := n.server.taken ++ [m] } }
        else if m.qos = 1 then some { n with up := rest, down := n.down ++ idPacket 0x40 m.id, server := { n.server with taken := n.server.taken ++ [m] } }
        else if m.id ∈ n.server.held then some { n with up := rest, down := n.down ++ idPacket 0x50 m.id }
        else some { n with up := rest, down := n.down ++ idPacket 0x50 m.id, server := { n.server with taken := n.server.taken ++ [m], held := m.id :: n.server.held } }

theorem serveOnce_serves {cap : Nat} {n n' : Net} (h : serveOnce n = some n') : Serves strict cap n n' := by
  unfold serveOnce at h
  split at h
  · cases h
  rename_i t body rest hr
  split at h
  · rename_i hg
    split at h
    · rename_i ht
      subst ht
      split at h
      · cases h
      · rename_i c hc
        split at h
        · rename_i hx
          cases h
          exact .resume hg hr hc hx.1 hx.2
        · cases h
          exact .begin hg hr hc
    · cases h
  · rename_i hg
    have hg : n.greeted = true := by simpa using hg
    split at h
    · rename_i ht
      subst ht
      split at h
      · rename_i id hid
        cases h
        exact .release hg hr hid
      · cases h
    · rename_i ht
      split at h
      · rename_i ha
        split at h
        · rename_i id hid
          cases h
          have hlt := read16_lt hid
          have : (UInt16.ofNat id).toNat = id := by simp; omega
          exact .settle hg hr (by rw [this]; exact hid) (settle_settles ha)
        · cases h
      rename_i ha
      split at h
      · split at h
        · rename_i h3
          cases h
          have := Serves.other (strict := strict) (cap := cap) (outs := []) hg hr h3 ht (fun _ => ⟨fun h => ha (Or.inl h), fun h => ha (Or.inr (Or.inl h)), fun h => ha (Or.inr (Or.inr h))⟩) (by simp)
          simpa using this
        · cases h
      · rename_i m hm
        split at h
        · rename_i hq
          cases h
          exact .qos0 hg hr hm hq
        · split at h
          · rename_i hq
            cases h
            exact .qos1 hg hr hm hq
          · rename_i h0 h1
            have hq : m.qos = 2 := by
              obtain ⟨⟨a, ha⟩, hm'⟩ : ∃ q, m.qos = q := ⟨_, rfl⟩
              rw [hm'] at h0 h1 ⊢
              match a, ha with
              | 0, _ => exact absurd rfl h0
              | 1, _ => exact absurd rfl h1
              | 2, _ => rfl
            split at h
            · rename_i hh
              cases h
              exact .again hg hr hm hq hh
            · rename_i hh
              cases h
              exact .qos2 hg hr hm hq hh

/-- `Offers`, computed. -/
def offerOnce (cap : Nat) (o : Outbox) (p : Raw) : Option Outbox :=
  if ServerFirstByte p.first.toNat ∧ p.body.length ≤ maxRemaining ∧ p.bytes.length ≤ cap then
    match parsePublish p.first.toNat p.body with
    | some m =>
      match o.slot (UInt16.ofNat m.id) with
      | none =>
        if m.qos ≠ 0 ∧ m.topic ≠ [] ∧ m.id = (UInt16.ofNat m.id).toNat then
          some { o.put (UInt16.ofNat m.id) (some ⟨m.message, false, true⟩) with offered := o.offered ++ [m.message] }
        else none
      | some ⟨m', false, false⟩ =>
        if m' = m.message ∧ m.id = (UInt16.ofNat m.id).toNat then some (o.put (UInt16.ofNat m.id) (some ⟨m.message, false, true⟩)) else none
      | some _ => none
    | none =>
      match read16 p.body with
      | some (id, []) =>
        match o.slot (UInt16.ofNat id) with
        | some ⟨m, true, false⟩ => if p = ⟨0x62, be16 (UInt16.ofNat id).toNat⟩ ∧ 4 ≤ cap then some (o.put (UInt16.ofNat id) (some ⟨m, true, true⟩)) else none
        | _ => none
      | _ => none
  else none

theorem offerOnce_offers {cap : Nat} {o o' : Outbox} {p : Raw} (h : offerOnce cap o p = some o') : Offers cap o p o' := by
  unfold offerOnce at h
  split at h
  · rename_i hv
    split at h
    · rename_i m hm
      split at h
      · rename_i hs
        split at h
        · rename_i hx
          cases h
          exact .offer ⟨hv.1, hv.2.1⟩ hv.2.2 hm hx.1 hx.2.1 hx.2.2 hs
        · cases h
      · rename_i m' hs
        split at h
        · rename_i hx
          cases h
          exact .offerAgain ⟨hv.1, hv.2.1⟩ hv.2.2 hm hx.2 (by rw [hs, hx.1])
        · cases h
      · cases h
    · split at h
      · split at h
        · rename_i id _ m hs
          split at h
          · rename_i hx
            cases h
            rw [hx.1]
            exact .releaseAgain hx.2 hs
          · cases h
        · cases h
      · cases h
  · cases h

/-- The server answers what it has got. -/
def serveAll : Nat → Net → Net
  | 0, n => n
  | f + 1, n => match serveOnce n with
    | none => n
    | some n' => serveAll f n'

theorem serveAll_run {cap : Nat} {es : List Event} {n' : Net} : ∀ {f : Nat} {n : Net}, NetRun strict cap (serveAll f n) es n' → NetRun strict cap n es n'
  | 0, _, h => h
  | f + 1, n, h => by
    unfold serveAll at h
    split at h
    · exact h
    · rename_i n1 hs
      exact .serve (serveOnce_serves hs) (serveAll_run h)

/-- The interactions of a call, with a server that answers at once. -/
def netPlay : Net → List Event → Option Net
  | n, [] => some n
  | n, .sent bytes (some k) :: es => netPlay { n with up := if n.isOpen then n.up ++ bytes.take k else n.up } es
  | n, .recvd _ (some bytes) :: es =>
    if (serveAll 8 n).down = bytes ++ (serveAll 8 n).down.drop bytes.length ∧ ((serveAll 8 n).isOpen = true ∨ bytes = []) then
      netPlay { serveAll 8 n with down := (serveAll 8 n).down.drop bytes.length } es
    else none
  | n, .sent _ none :: es => netPlay n es
  | n, .recvd _ none :: es => netPlay n es
  | n, .time _ :: es => netPlay n es
  | n, .pre :: es => netPlay n es
  | n, .post :: es => netPlay n es
  | n, .store .. :: es => netPlay n es
  | n, .retrieve .. :: es => netPlay n es
  | n, .clear _ :: es => netPlay n es
  | n, .app .. :: es => netPlay n es

theorem netPlay_run {cap : Nat} {es : List Event} : ∀ {n n' : Net}, netPlay n es = some n' → NetRun strict cap n es n' := by
  induction es with
  | nil => intro n n' h; cases h; exact .done _
  | cons e es ih =>
    intro n n' h
    cases e with
    | sent bytes r =>
      cases r with
      | none => exact .event (by simp) (by simp) (ih h)
      | some k => exact .send (ih h)
    | recvd k r =>
      cases r with
      | none => exact .event (by simp) (by simp) (ih h)
      | some bytes =>
        simp only [netPlay] at h
        split at h
        · rename_i hx
          exact serveAll_run (f := 8) (.receive hx.1 hx.2 (ih h))
        · cases h
    | _ => exact .event (by simp) (by simp) (ih h)

/-- `Faithful`, computed. -/
def faithful : Shelf → List Event → Bool
  | _, [] => true
  | k, .retrieve id (some bytes) :: es => decide (k id = some bytes) && faithful k es
  | k, e :: es => faithful (k.note e) es

theorem faithful_ok {es : List Event} : ∀ {k : Shelf}, faithful k es = true → Faithful k es := by
  induction es with
  | nil => intro k _; trivial
  | cons e es ih =>
    intro k h
    cases e with
    | retrieve id r =>
      cases r with
      | none => exact ⟨by simp, ih h⟩
      | some bytes =>
        simp only [faithful, Bool.and_eq_true, decide_eq_true_eq] at h
        refine ⟨?_, ih h.2⟩
        intro id' bytes' he
        cases he
        exact h.1
    | _ => exact ⟨by simp, ih h⟩

inductive Move where
  | call (e : Env) (c : ApiCall)
  | serve
  | offer (p : Raw)
  | hangUp
  | dial

/-- Play a run of the system. -/
def sysPlay : Sys × List (ApiCall × ApiRet) → List Move → Option (Sys × List (ApiCall × ApiRet))
  | x, [] => some x
  | (s, h), .call e c :: ms =>
    match callIn g s.world e c with
    | .done r w =>
      match netPlay s.net (callEvents g s.world e c) with
      | none => none
      | some n =>
        if faithful s.shelf (callEvents g s.world e c) = true then
          sysPlay (⟨w, { n with isOpen := n.isOpen && !closes c r }, (callEvents g s.world e c).foldl Shelf.note s.shelf⟩, h ++ [(c, r)]) ms
        else none
    | _ => none
  | (s, h), .serve :: ms => match serveOnce s.net with
    | none => none
    | some n => sysPlay ({ s with net := n }, h) ms
  | (s, h), .offer p :: ms =>
    if s.net.greeted = true then
      match offerOnce s.world.ctx.bufSize s.net.server.out p with
      | none => none
      | some o => sysPlay ({ s with net := { s.net with down := s.net.down ++ p.bytes, server := { s.net.server with out := o } } }, h) ms
    else none
  | (s, h), .hangUp :: ms => sysPlay ({ s with net := { s.net with isOpen := false } }, h) ms
  | (s, h), .dial :: ms =>
    if s.world.ctx.connectStatus = .notConnected then
      sysPlay ({ s with net := { s.net with up := [], down := [], isOpen := true, greeted := false } }, h) ms
    else none

/-- The calls of a run. -/
def moveOk : Move → Prop
  | .call _ c => ValidCall g c
  | _ => True

theorem sysPlay_run {s0 : Sys} {ms : List Move} : ∀ {x y : Sys × List (ApiCall × ApiRet)}, (∀ m ∈ ms, moveOk m) → Sys.Run g strict s0 x.2 x.1 →
    sysPlay x ms = some y → Sys.Run g strict s0 y.2 y.1 := by
  induction ms with
  | nil => intro x y _ hx hp; cases hp; exact hx
  | cons m ms ih =>
    intro x y hv hx hp
    have hv' : ∀ m ∈ ms, moveOk m := fun m hm => hv m (List.mem_cons_of_mem _ hm)
    obtain ⟨s, h⟩ := x
    cases m with
    | call e c =>
      simp only [sysPlay] at hp
      split at hp
      · rename_i r w hc
        split at hp
        · cases hp
        · rename_i n hn
          split at hp
          · rename_i hf
            exact ih hv' (.call hx (hv (.call e c) List.mem_cons_self) hc (netPlay_run hn) (faithful_ok hf)) hp
          · cases hp
      · cases hp
    | serve =>
      simp only [sysPlay] at hp
      split at hp
      · cases hp
      · rename_i n hn
        exact ih hv' (x := ({ s with net := n }, h)) (.serve hx (serveOnce_serves hn)) hp
    | offer p =>
      simp only [sysPlay] at hp
      split at hp
      · rename_i hg
        split at hp
        · cases hp
        · rename_i o ho
          exact ih hv' (x := ({ s with net := { s.net with down := s.net.down ++ p.bytes, server := { s.net.server with out := o } } }, h))
            (.serve hx (.offer hg (offerOnce_offers ho))) hp
      · cases hp
    | hangUp => exact ih hv' (.hangUp hx) hp
    | dial =>
      simp only [sysPlay] at hp
      split at hp
      · rename_i hc
        exact ih hv' (.dial hx hc) hp
      · cases hp

/-- Nothing has happened yet. -/
def sys : Sys := ⟨w0, ⟨[], [], false, false, ⟨false, [], [], 0, ⟨fun _ => none, []⟩⟩⟩, fun _ => none⟩

theorem sysInitial : Sys.Initial g sys := ⟨gOk, ctxInit true, by decide, rfl, rfl, ⟨rfl, rfl⟩, ⟨rfl, fun _ => rfl⟩, fun _ => rfl⟩

/-- Where a run from `s` ends, and the calls that were made. -/
def sysAfter (s : Sys) (ms : List Move) : Sys × List (ApiCall × ApiRet) := (sysPlay (s, []) ms).getD (s, [])

theorem sysAfter_run {s : Sys} {ms : List Move} (hv : ∀ m ∈ ms, moveOk m) (hp : (sysPlay (s, []) ms).isSome = true) :
    Sys.Run g strict s (sysAfter s ms).2 (sysAfter s ms).1 := by
  obtain ⟨y, hy⟩ := Option.isSome_iff_exists.mp hp
  have : sysAfter s ms = y := by rw [sysAfter, hy]; rfl
  rw [this]
  exact sysPlay_run hv (.start s) hy

/-- The stored packet of a publish. -/
def copy (q : QoS) (id : UInt16) : List UInt8 := publishPacket { (pub q).toSpec id with dup := true }

/-- A new session begins. -/
def begins : List Move := [.dial, .call (env [0x20, 2, 0, 0]) connectCall]

/-- A QoS 2 publish; the server takes the message over, but the connection is lost before the PUBREC arrives.  The application connects again; the stored packet is
sent again; then everything goes well. -/
def lossy : List Move :=
  [.call (env []) (publishCall .qos2 7), .serve, .hangUp, .call { env [] with recvs := [.fail] } .processLoop, .call (env []) .disconnect, .dial,
   .call { env [0x20, 2, 1, 0] with retrieves := [some (copy .qos2 7)] } connectCall,
   .call { env (idPacket 0x50 7) with recvs := [.deliver 4] } .processLoop, .call { env (idPacket 0x70 7) with recvs := [.deliver 4] } .processLoop]

/-- Connected in a new session. -/
def sys1 : Sys := (sysAfter sys begins).1

theorem beginsOk : ∀ m ∈ begins, moveOk m := by
  intro m hm
  simp only [begins, List.mem_cons, List.not_mem_nil, or_false] at hm
  rcases hm with rfl | rfl
  · trivial
  · exact connectValid

theorem lossyOk : ∀ m ∈ lossy, moveOk m := by
  intro m hm
  simp only [lossy, List.mem_cons, List.not_mem_nil, or_false] at hm
  rcases hm with rfl | rfl | rfl | rfl | rfl | rfl | rfl | rfl | rfl
  · exact publishValid .qos2 7
  · trivial
  · trivial
  · trivial
  · trivial
  · trivial
  · exact connectValid
  · trivial
  · trivial

theorem begins_run : Sys.Run g strict sys (sysAfter sys begins).2 sys1 := sysAfter_run beginsOk (by decide +kernel)
theorem lossy_run : Sys.Run g strict sys1 (sysAfter sys1 lossy).2 (sysAfter sys1 lossy).1 := sysAfter_run lossyOk (by decide +kernel)

/-- `Disciplined`, computed. -/
def disciplined (i : UInt16) (h : List (ApiCall × ApiRet)) : Bool :=
  h.all fun x => match x.1 with
    | .publish (some p) id => decide (id ≠ i ∨ p.qos = .qos0 ∨ p.dup = false)
    | .cancelCallback id => decide (id ≠ i)
    | _ => true

theorem disciplined_ok {i : UInt16} {h : List (ApiCall × ApiRet)} (hd : disciplined i h = true) : Disciplined i h := by
  intro x hx
  have := List.all_eq_true.mp hd x hx
  obtain ⟨c, r⟩ := x
  constructor
  · rintro p rfl
    simpa using this
  · rintro rfl
    simp at this

def taken (t : Tables) (id : UInt16) : Bool := (inFlight t.outgoing).any fun r => r.packetId = id

theorem taken_iff (t : Tables) (id : UInt16) : taken t id = true ↔ Taken t id := by simp [taken, Taken]

/-- The message. -/
def message (q : QoS) (id : UInt16) : Publish := ((pub q).toSpec id).message

end Ex

/-- The theorem applies to the run with the lost connection: the message was published once and arrived once. -/
example :
    Sys.Initial Ex.g Ex.sys ∧ Sys.Run Ex.g strict Ex.sys (Ex.sysAfter Ex.sys Ex.begins).2 Ex.sys1 ∧
    Sys.Run Ex.g strict Ex.sys1 (Ex.sysAfter Ex.sys1 Ex.lossy).2 (Ex.sysAfter Ex.sys1 Ex.lossy).1 ∧
    Disciplined 7 ((Ex.sysAfter Ex.sys Ex.begins).2 ++ (Ex.sysAfter Ex.sys1 Ex.lossy).2) ∧ ¬ Taken Ex.sys1.world.ctx.tables 7 ∧
    (Ex.sysAfter Ex.sys1 Ex.lossy).1.net.server.sessions = Ex.sys1.net.server.sessions ∧ ¬ Taken (Ex.sysAfter Ex.sys1 Ex.lossy).1.world.ctx.tables 7 ∧
    (Ex.sysAfter Ex.sys1 Ex.lossy).2.map (·.2) = [.status .success, .status .recvFailed, .status .success, .connect .success (some true), .status .success, .status .success] ∧
    published 7 (Ex.sysAfter Ex.sys1 Ex.lossy).2 = [Ex.message .qos2 7] ∧
    takenOver 7 (Ex.sysAfter Ex.sys1 Ex.lossy).1.net.server.taken = [Ex.message .qos2 7] :=
  ⟨Ex.sysInitial, Ex.begins_run, Ex.lossy_run, Ex.disciplined_ok (by decide +kernel), by rw [← Ex.taken_iff]; decide +kernel, by decide +kernel,
    by rw [← Ex.taken_iff]; decide +kernel, by decide +kernel, by decide +kernel, by decide +kernel⟩

/-! ### Why the application has to keep the rules -/

namespace Ex

/-- Another message. -/
def pub2 : PublishInfo := ⟨.qos2, false, false, some [97, 98], 2, some [9], 1⟩

theorem pub2Valid (id : UInt16) : ValidCall g (.publish (some pub2) id) :=
  fun c h => by cases h; exact ⟨⟨fun _ => ⟨_, rfl, by decide⟩, fun _ => ⟨_, rfl, by simp [pub2]⟩⟩, by simp [pub2, g]⟩

/-- A QoS 2 publish is cancelled after the server has taken the message over, and its packet id is used for another message. -/
def cancelled : List Move :=
  [.call (env []) (publishCall .qos2 7), .serve, .call (env []) (.cancelCallback 7), .call (env []) (.publish (some pub2) 7),
   .call { env (idPacket 0x50 7) with recvs := [.deliver 4] } .processLoop, .call { env (idPacket 0x50 7) with recvs := [.deliver 4] } .processLoop,
   .call { env (idPacket 0x70 7) with recvs := [.deliver 4] } .processLoop]

theorem cancelledOk : ∀ m ∈ cancelled, moveOk m := by
  intro m hm
  simp only [cancelled, List.mem_cons, List.not_mem_nil, or_false] at hm
  rcases hm with rfl | rfl | rfl | rfl | rfl | rfl | rfl
  · exact publishValid .qos2 7
  · trivial
  · show (7 : UInt16) ≠ 0; decide
  · exact pub2Valid 7
  · trivial
  · trivial
  · trivial

/-- The transport takes six bytes and then no more, until the time is over. -/
def half : Env :=
  { env [] with sends := .accept 6 :: List.replicate 40 (.accept 0), clock := (List.range 100).map fun i => UInt32.ofNat (i * 10000) }

/-- The world in which a call ends. -/
def worldAfter (w : World) (e : Env) (c : ApiCall) : World := (callIn g w e c).world

def after1 : World := worldAfter sys1.world half (publishCall .qos1 7)

/-- The network after a call, when the server has processed everything. -/
def netThen (n : Net) (w : World) (e : Env) (c : ApiCall) : Net := serveAll 8 ((netPlay n (callEvents g w e c)).getD n)

theorem serveAll_after {cap : Nat} {es : List Event} {n n' : Net} (h : NetRun strict cap n es n') (f : Nat) : NetRun strict cap n es (serveAll f n') := by
  induction h with
  | done n => exact serveAll_run (f := f) (.done _)
  | serve a _ ih => exact .serve a ih
  | send _ ih => exact .send ih
  | receive a b _ ih => exact .receive a b ih
  | event a b _ ih => exact .event a b ih

theorem netThen_run {cap : Nat} {n : Net} {w : World} {e : Env} {c : ApiCall} (h : (netPlay n (callEvents g w e c)).isSome = true) :
    NetRun strict cap n (callEvents g w e c) (netThen n w e c) := by
  obtain ⟨n', hn⟩ := Option.isSome_iff_exists.mp h
  unfold netThen
  rw [hn]
  exact serveAll_after (netPlay_run hn) 8

def net1 : Net := netThen sys1.net sys1.world half (publishCall .qos1 7)
def net2 : Net := netThen net1 after1 (env []) (publishCall .qos1 8)

end Ex

/-- A cancelled QoS 2 publish makes the server drop the next message with the same packet id: both publishes were accepted, none is in flight, PUBREC and PUBCOMP
were presented to the application, but the server has only the first message. -/
theorem C56_cancelled :
    Sys.Run Ex.g strict Ex.sys1 (Ex.sysAfter Ex.sys1 Ex.cancelled).2 (Ex.sysAfter Ex.sys1 Ex.cancelled).1 ∧
    (Ex.sysAfter Ex.sys1 Ex.cancelled).1.net.server.sessions = Ex.sys1.net.server.sessions ∧
    ¬ Taken Ex.sys1.world.ctx.tables 7 ∧ ¬ Taken (Ex.sysAfter Ex.sys1 Ex.cancelled).1.world.ctx.tables 7 ∧
    published 7 (Ex.sysAfter Ex.sys1 Ex.cancelled).2 = [Ex.message .qos2 7, (Ex.pub2.toSpec 7).message] ∧
    acksOf 7 (Ex.sysAfter Ex.sys1 Ex.cancelled).1.world.trace = [0x50, 0x70] ∧
    takenOver 7 (Ex.sysAfter Ex.sys1 Ex.cancelled).1.net.server.taken = [Ex.message .qos2 7] ∧
    ¬ Arrived (published 7 (Ex.sysAfter Ex.sys1 Ex.cancelled).2) (takenOver 7 (Ex.sysAfter Ex.sys1 Ex.cancelled).1.net.server.taken) := by
  have h1 : published 7 (Ex.sysAfter Ex.sys1 Ex.cancelled).2 = [Ex.message .qos2 7, (Ex.pub2.toSpec 7).message] := by decide +kernel
  have h2 : takenOver 7 (Ex.sysAfter Ex.sys1 Ex.cancelled).1.net.server.taken = [Ex.message .qos2 7] := by decide +kernel
  refine ⟨Ex.sysAfter_run Ex.cancelledOk (by decide +kernel), by decide +kernel, by rw [← Ex.taken_iff]; decide +kernel, by rw [← Ex.taken_iff]; decide +kernel, h1,
    by decide +kernel, h2, ?_⟩
  intro h
  rw [h1, h2] at h
  have := h.exactly (by decide)
  revert this
  decide

/-- When the application goes on using a connection on which a publish was sent only in part, the server takes over a message nobody published: `MQTT_Publish`
reports MQTTSendFailed after six bytes, the context is still connected, the next publish succeeds, and the server reads the rest of the first packet from the second. -/
theorem C56_not_closed :
    (∃ w, callIn Ex.g Ex.sys1.world Ex.half (Ex.publishCall .qos1 7) = .done (.status .sendFailed) w ∧ w = Ex.after1) ∧
    Ex.after1.ctx.connectStatus = .connected ∧
    (∃ w, callIn Ex.g Ex.after1 (Ex.env []) (Ex.publishCall .qos1 8) = .done (.status .success) w) ∧
    (∃ n1 n2, NetRun strict 64 Ex.sys1.net (callEvents Ex.g Ex.sys1.world Ex.half (Ex.publishCall .qos1 7)) n1 ∧
      NetRun strict 64 n1 (callEvents Ex.g Ex.after1 (Ex.env []) (Ex.publishCall .qos1 8)) n2 ∧
      n2.server.taken = [⟨false, 1, false, [97, 98], 0x3209, [0, 2, 97]⟩]) := by
  refine ⟨⟨_, Ex.ret_done (by decide +kernel), rfl⟩, by decide +kernel, ⟨_, Ex.ret_done (by decide +kernel)⟩, Ex.net1, Ex.net2, Ex.netThen_run (by decide +kernel),
    Ex.netThen_run (by decide +kernel), by decide +kernel⟩

end Mqtt
