/-
`MQTT_Connect`, seen from the connection.
-/
import Verif.Proof.BrokerLoop

namespace Mqtt
open Spec
set_option linter.unusedSimpArgs false

variable {strict : Bool}

theorem connect_raw {ci : ConnectInfo} {will : Option PublishInfo} (hs : (getConnectPacketSize (some ci) will).status = .success) (hv : ci.Valid will)
    (hw : ∀ w, will = some w → w.pTopicName ≠ none) :
    ∃ u : Raw, u.bytes = connectPacket (ci.toSpec will) ∧ Small u ∧ u.first.toNat = 0x10 ∧ ∀ i, upNote i u = none := by
  have := getConnectPacketSize_ok (r := (getConnectPacketSize (some ci) will).remainingLength) (s := (getConnectPacketSize (some ci) will).packetSize)
    (by rw [← hs]) hv hw
  refine ⟨⟨0x10, connectBody (ci.toSpec will)⟩, rfl, ?_, rfl, fun i => upNote_other ?_ ?_⟩
  · show (connectBody (ci.toSpec will)).length ≤ maxRemaining
    rw [← this.2.2.2.1]
    have := this.2.2.2.2.2.1
    unfold maxRemaining
    omega
  · show (0x10 : UInt8).toNat / 16 ≠ 3
    decide
  · show (0x10 : UInt8).toNat ≠ 0x62
    decide

theorem Spec.Unasked.lax {cap : Nat} {p : Raw} (h : Unasked strict cap p) : Unasked false cap p :=
  ⟨h.1, h.2.1, h.2.2.1, h.2.2.2.1, h.2.2.2.2.1, fun h => by cases h⟩

/-- What a server sends on a connection from which it has not read anything since it accepted it. -/
inductive Pushes (strict : Bool) (cap : Nat) (o : Outbox) : List Raw → Outbox → Prop
  | nil : Pushes strict cap o [] o
  | unasked {ps : List Raw} {o' : Outbox} {p : Raw} : Pushes strict cap o ps o' → Unasked strict cap p → Pushes strict cap o (ps ++ [p]) o'
  | offer {ps : List Raw} {o' o'' : Outbox} {p : Raw} : Pushes strict cap o ps o' → Offers cap o' p o'' → Pushes strict cap o (ps ++ [p]) o''

theorem Pushes.lax {cap : Nat} {o o' : Outbox} {ps : List Raw} (h : Pushes strict cap o ps o') : ∀ p ∈ ps, Unasked false cap p := by
  induction h with
  | nil => simp
  | unasked _ h ih =>
    intro q hq
    rcases List.mem_append.mp hq with hq | hq
    · exact ih q hq
    · rw [List.mem_singleton.mp hq]; exact h.lax
  | offer _ h ih =>
    intro q hq
    rcases List.mem_append.mp hq with hq | hq
    · exact ih q hq
    · rw [List.mem_singleton.mp hq]; exact h.unasked

/-- What can have happened after a CONNECT on a new connection. -/
inductive Greets (strict : Bool) (cap : Nat) (C : List UInt8) (sv : Server) : Net → Prop
  | unread {n : Net} : n.up = C → n.down = [] → n.greeted = false → n.server = sv → Greets strict cap C sv n
  | refused {n : Net} {code : UInt8} : n.up = [] → n.greeted = false → code ≠ 0 → n.down = packet 0x20 [0, code] → Greets strict cap C sv n
  | begun {n : Net} {outs : List Raw} {ses : Bool} : n.up = [] → n.greeted = true → Pushes strict cap sv.out.dropped outs n.server.out → n.down = packet 0x20 [0, 0] ++ outs.flatMap Raw.bytes →
      n.server = { sv with session := ses, held := [], sessions := sv.sessions + 1, out := n.server.out } → Greets strict cap C sv n
  | resumed {n : Net} {outs : List Raw} : n.up = [] → n.greeted = true → Pushes strict cap sv.out.unsent outs n.server.out → n.down = packet 0x20 [1, 0] ++ outs.flatMap Raw.bytes →
      n.server = { sv with out := n.server.out } → Greets strict cap C sv n

theorem Greets.serve {cap : Nat} {u : Raw} {sv : Server} {n n' : Net} (hu : Small u) (h : Greets strict cap u.bytes sv n) (hs : Serves strict cap n n') :
    Greets strict cap u.bytes sv n' := by
  have hread : readPacket u.bytes = some (u.first.toNat, u.body, []) := by
    have := hu.read []
    rwa [List.append_nil] at this
  have eq3 : ∀ {a a' : Nat} {x x' y y' : List UInt8}, some (a, x, y) = some (a', x', y') → a = a' ∧ x = x' ∧ y = y' := by
    intro a a' x x' y y' h
    cases h
    exact ⟨rfl, rfl, rfl⟩
  have none : ∀ {t : Nat} {b r : List UInt8}, n.up = [] → readPacket n.up ≠ some (t, b, r) := by
    intro t b r h h'
    rw [h] at h'
    cases h'
  cases h with
  | unread h1 h2 h3 h4 =>
    cases hs with
    | refuse g e hc =>
      rw [h1, hread] at e
      obtain ⟨_, _, rfl⟩ := eq3 e
      exact .refused rfl h3 hc (by simp only; rw [h2]; rfl)
    | begin g e hc =>
      rw [h1, hread] at e
      obtain ⟨_, _, rfl⟩ := eq3 e
      exact .begun (outs := []) rfl rfl (by simp only [h4]; exact .nil) (by simp only; rw [h2]; simp) (by simp only; rw [h4])
    | resume g e hc =>
      rw [h1, hread] at e
      obtain ⟨_, _, rfl⟩ := eq3 e
      exact .resumed (outs := []) rfl rfl (by simp only [h4]; exact .nil) (by simp only; rw [h2]; simp) (by simp only [h4])
    | qos0 g => rw [h3] at g; cases g
    | qos1 g => rw [h3] at g; cases g
    | qos2 g => rw [h3] at g; cases g
    | again g => rw [h3] at g; cases g
    | release g => rw [h3] at g; cases g
    | other g => rw [h3] at g; cases g
    | settle g => rw [h3] at g; cases g
    | offer g => rw [h3] at g; cases g
    | unasked g => rw [h3] at g; cases g
  | refused h1 h2 h3 h4 =>
    cases hs with
    | refuse g e => exact absurd e (none h1)
    | begin g e => exact absurd e (none h1)
    | resume g e => exact absurd e (none h1)
    | qos0 g => rw [h2] at g; cases g
    | qos1 g => rw [h2] at g; cases g
    | qos2 g => rw [h2] at g; cases g
    | again g => rw [h2] at g; cases g
    | release g => rw [h2] at g; cases g
    | other g => rw [h2] at g; cases g
    | settle g => rw [h2] at g; cases g
    | offer g => rw [h2] at g; cases g
    | unasked g => rw [h2] at g; cases g
  | @begun outs ses h1 h2 h3 h4 h5 =>
    cases hs with
    | refuse g e => exact absurd e (none h1)
    | begin g e => exact absurd e (none h1)
    | resume g e => exact absurd e (none h1)
    | qos0 _ e => exact absurd e (none h1)
    | qos1 _ e => exact absurd e (none h1)
    | qos2 _ e => exact absurd e (none h1)
    | again _ e => exact absurd e (none h1)
    | release _ e => exact absurd e (none h1)
    | other _ e => exact absurd e (none h1)
    | settle _ e => exact absurd e (none h1)
    | @unasked p g hp =>
      exact .begun (outs := outs ++ [p]) h1 h2 (.unasked h3 hp) (by simp only; rw [h4, flatMap_snoc, List.append_assoc]) h5
    | @offer p out g hp =>
      exact .begun (outs := outs ++ [p]) h1 h2 (.offer h3 hp) (by simp only; rw [h4, flatMap_snoc, List.append_assoc]) (by simp only; rw [h5])
  | @resumed outs h1 h2 h3 h4 h5 =>
    cases hs with
    | refuse g e => exact absurd e (none h1)
    | begin g e => exact absurd e (none h1)
    | resume g e => exact absurd e (none h1)
    | qos0 _ e => exact absurd e (none h1)
    | qos1 _ e => exact absurd e (none h1)
    | qos2 _ e => exact absurd e (none h1)
    | again _ e => exact absurd e (none h1)
    | release _ e => exact absurd e (none h1)
    | other _ e => exact absurd e (none h1)
    | settle _ e => exact absurd e (none h1)
    | @unasked p g hp =>
      exact .resumed (outs := outs ++ [p]) h1 h2 (.unasked h3 hp) (by simp only; rw [h4, flatMap_snoc, List.append_assoc]) h5
    | @offer p out g hp =>
      exact .resumed (outs := outs ++ [p]) h1 h2 (.offer h3 hp) (by simp only; rw [h4, flatMap_snoc, List.append_assoc]) (by simp only; rw [h5])

theorem Greets.served {cap : Nat} {u : Raw} {sv : Server} {n n' : Net} (hu : Small u) (h : Greets strict cap u.bytes sv n) (hs : Served strict cap n n') :
    Greets strict cap u.bytes sv n' := by
  induction hs with
  | refl => exact h
  | step h1 _ ih => exact ih (h.serve hu h1)

section
variable {i : UInt16} {cap : Nat} {b : Bool} {n0 : Nat} {t0 P : List Publish} {k c : Nat} {ph ph' : Option OutPhase}
  {buffered : List UInt8} {retx : Bool} {n n' : Net} {shelf shelf' : Shelf} {vs : List Raw} {p' : List UInt8} {ea eb : List Event}

/-- An attempt to connect that fails. -/
theorem Link.lost (h : Link i cap b n0 t0 P k c false ph buffered retx n shelf) (hcap : 4 ≤ cap) (hi : i ≠ 0) (hr : NetRun strict cap n (ea ++ eb) n')
    (ha : Spec.received ea = []) (hw : wire ea = vs.flatMap Raw.bytes ++ p') (hv : ∀ u ∈ vs, Small u) (hp' : readPacket p' = none)
    (hnote : vs.filterMap (upNote i) = []) (hb : noSent eb) :
    Link i cap b n0 t0 P k c false ph buffered retx { n' with isOpen := n'.isOpen && !true } shelf := by
  obtain ⟨us, part, ds, buf, h1, h2, h3⟩ := h.ties
  obtain ⟨n1, r1, r2⟩ := hr.split
  have s1 := r1.sends ha
  rw [hw] at s1
  obtain ⟨us', part', h4, h5⟩ := h1.pushed (vs := vs) (p' := p') (fun ho => (h3 ho).1) hv hp' (Or.inr hnote)
    (fun q L held h => by rw [hnote, List.append_nil]; exact h) (fun _ _ _ h => h)
  obtain ⟨us2, ds2, h6, h7⟩ := h4.served s1 hcap hi
  obtain ⟨us3, ds3, h8, _⟩ := h6.served (r2.receives hb).1 hcap hi
  refine ⟨⟨us3, part', ds3, buf ++ Spec.received eb, ⟨h8.up, h8.stuck, h8.small, h8.valid, ?_, h8.fresh, h8.floor, h8.tie⟩, fun h => (by cases h), ?_⟩,
    h.idle, h.shelves, h.unused⟩
  · have := h8.down
    simp only at this
    rw [← this]; simp
  · intro ho
    simp at ho

/-- The server accepted the connection: it has a new session, or still the old one. -/
theorem Link.greeted (h : Link i cap b n0 t0 P k c false ph buffered retx n shelf) (hr : NetRun strict cap n (ea ++ eb) n') {u : Raw} (hu : Small u)
    (ha : Spec.received ea = []) (hw : wire ea = u.bytes) (hb : noSent eb) (hrc : Spec.received eb = [0x20, 2, 0, 0] ∨ Spec.received eb = [0x20, 2, 1, 0]) :
    n'.greeted = true ∧ n'.isOpen = true ∧ ∃ outs, (Spec.received eb = [0x20, 2, 0, 0] →
        Ties i cap b n0 t0 P k c none none n' [] [] [] outs) ∧ (Spec.received eb = [0x20, 2, 1, 0] → Ties i cap b n0 t0 P k c (shelf i) ph n' [] [] [] outs) ∧
      outs.filterMap (downNote i) = [] := by
  obtain ⟨us, part, ds, buf, h1, h2, h3⟩ := h.ties
  obtain ⟨n1, r1, r2⟩ := hr.split
  obtain ⟨s2, hcl⟩ := r2.receives hb
  have ho1 : n1.isOpen = n.isOpen := r1.isOpen
  have ho2 : n'.isOpen = n1.isOpen := r2.isOpen
  have ho : n.isOpen = true := by
    cases ho : n.isOpen with
    | true => rfl
    | false =>
      have := hcl (by rw [ho1, ho])
      rcases hrc with h | h <;> rw [this] at h <;> cases h
  obtain ⟨rfl, h4⟩ := h3 ho
  obtain ⟨hg, rfl, rfl⟩ := h4 rfl
  have hup : n.up = [] := h1.up
  have hdown : n.down = [] := (List.append_eq_nil_iff.mp h1.down).2
  have s1 := (r1.sends ha).trans s2
  rw [hw, Net.push_open ho, hup, List.nil_append] at s1
  have hgr : Greets strict cap u.bytes n.server { n with up := u.bytes } := .unread rfl hdown hg rfl
  have hgr := hgr.served hu s1
  obtain ⟨new, h5, h6⟩ := h1.tie
  have hun : ∀ {outs : List Raw}, (∀ p ∈ outs, Unasked false cap p) → outs.filterMap (downNote i) = [] ∧ ∀ d ∈ outs, d.Valid ∧ d.bytes.length ≤ cap := by
    intro outs ho
    refine ⟨?_, fun d hd => ⟨(ho d hd).1, (ho d hd).2.1⟩⟩
    rw [List.filterMap_eq_nil_iff]
    exact fun p hp => Unasked.note (ho p hp) i
  have e1 : packet 0x20 [0, 0] = [0x20, 2, 0, 0] := by decide +kernel
  have e2 : packet 0x20 [1, 0] = [0x20, 2, 1, 0] := by decide +kernel
  have e3 : ∀ code : UInt8, packet 0x20 [0, code] = [0x20, 2, 0, code] := by decide +kernel
  cases hgr with
  | unread a1 a2 =>
    simp only at a2
    rcases hrc with h | h <;> rw [h] at a2 <;> cases a2
  | refused a1 a2 a3 a4 =>
    simp only at a4
    rw [e3] at a4
    rcases hrc with h | h <;> rw [h] at a4 <;> simp at a4
    exact absurd a4.1.symm a3
  | @begun outs ses a1 a2 a3 a4 a5 =>
    simp only at a1 a2 a4 a5
    rw [e1] at a4
    rcases hrc with h | h
    · rw [h] at a4
      have a4 : n'.down = outs.flatMap Raw.bytes := by simpa using a4
      refine ⟨a2, by rw [ho2, ho1, ho], outs, fun _ => ?_, fun h' => ?_, (hun a3.lax).1⟩
      · refine ⟨a1, rfl, by simp, (hun a3.lax).2, a4, fun h => (by rw [a2] at h; cases h), ?_, new, by rw [a5]; exact h5, ?_⟩
        · rw [a5]; exact Nat.le_succ_of_le h1.floor
        · rw [a5, (hun a3.lax).1]
          simp only [List.not_mem_nil, decide_false]
          refine .idle rfl fun hq => ?_
          have := h1.floor
          have := hq.2
          omega
      · rw [h] at h'; simp at h'
    · rw [h] at a4; simp at a4
  | @resumed outs a1 a2 a3 a4 a5 =>
    simp only at a1 a2 a4 a5
    rw [e2] at a4
    rcases hrc with h | h
    · rw [h] at a4; simp at a4
    · rw [h] at a4
      have a4 : n'.down = outs.flatMap Raw.bytes := by simpa using a4
      refine ⟨a2, by rw [ho2, ho1, ho], outs, fun h' => ?_, fun _ => ?_, (hun a3.lax).1⟩
      · rw [h] at h'; simp at h'
      · refine ⟨a1, rfl, by simp, (hun a3.lax).2, a4, fun h => (by rw [a2] at h; cases h), by rw [a5]; exact h1.floor, new, by rw [a5]; exact h5, ?_⟩
        rw [a5, (hun a3.lax).1]
        exact h6

end

/-! ### The application's memory during a resumption -/

theorem Spec.Faithful.append {a b : List Event} : ∀ {k : Shelf}, Faithful k (a ++ b) → Faithful k a ∧ Faithful (a.foldl Shelf.note k) b := by
  induction a with
  | nil => exact fun h => ⟨trivial, h⟩
  | cons e a ih => exact fun h => ⟨⟨h.1, (ih h.2).1⟩, (ih h.2).2⟩

theorem shelf_still {es : List Event} (h : ∀ e ∈ es, isQuietEvent e = true) (h' : ∀ e ∈ es, ∀ id vec r, e ≠ .store id vec r) (k : Shelf) :
    es.foldl Shelf.note k = k := by
  induction es with
  | nil => rfl
  | cons e es ih =>
    rw [List.foldl_cons]
    have : k.note e = k := by
      have h1 := h e List.mem_cons_self
      have h2 := h' e List.mem_cons_self
      cases e <;> first | rfl | (simp_all [isQuietEvent])
    rw [this]
    exact ih (fun e he => h e (List.mem_cons_of_mem _ he)) (fun e he => h' e (List.mem_cons_of_mem _ he))

theorem no_store_ack {es : List Event} (h : ∀ e ∈ es, isAckEvent e = true) : ∀ e ∈ es, ∀ id vec r, e ≠ .store id vec r := by
  rintro e he id vec r rfl
  cases h _ he

theorem no_store_resend {es : List Event} (h : ∀ e ∈ es, isResendEvent e = true) : ∀ e ∈ es, ∀ id vec r, e ≠ .store id vec r := by
  rintro e he id vec r rfl
  cases h _ he

theorem Spec.Faithful.mem {es : List Event} (h : ∀ e ∈ es, isResendEvent e = true) {k : Shelf} (hf : Faithful k es) {id : UInt16} {x : List UInt8}
    (hx : (id, some x) ∈ retrieved es) : k id = some x := by
  induction es with
  | nil => simp [retrieved] at hx
  | cons e es ih =>
    have hk : k.note e = k := shelf_still (es := [e]) (quiet_resend fun e' he => h e' (List.mem_cons.mpr (Or.inl (List.mem_singleton.mp he))))
      (no_store_resend fun e' he => h e' (List.mem_cons.mpr (Or.inl (List.mem_singleton.mp he)))) k
    have hf2 : Faithful k es := by have := hf.2; rwa [hk] at this
    have ih := ih (fun e he => h e (List.mem_cons_of_mem _ he)) hf2
    unfold retrieved at hx ih
    rw [List.mem_filterMap] at hx
    obtain ⟨e', he', hx⟩ := hx
    rcases List.mem_cons.mp he' with rfl | he'
    · cases e' <;> simp at hx
      obtain ⟨rfl, rfl⟩ := hx
      exact hf.1 _ _ rfl
    · exact ih (List.mem_filterMap.mpr ⟨e', he', hx⟩)

theorem Small.inj {u v : Raw} (hu : Small u) (hv : Small v) (h : u.bytes = v.bytes) : u = v := by
  have h1 := hu.read []
  have h2 := hv.read []
  rw [h, h2] at h1
  simp only [Option.some.injEq, Prod.mk.injEq, and_true] at h1
  obtain ⟨a, b⟩ := u
  obtain ⟨a', b'⟩ := v
  simp only at h1
  rw [h1.2, UInt8.toNat_inj.mp h1.1]

theorem Copy.unique {i : UInt16} {m m' : Publish} {x : List UInt8} (h : Copy i m x) (h' : Copy i m' x) : m = m' := by
  obtain ⟨u, h1, h2, h3⟩ := h
  obtain ⟨v, h4, h5, h6⟩ := h'
  have := h2.inj h5 (by rw [h1, h4])
  subst this
  have h3 := h3 i
  rw [h6 i, if_pos rfl, if_pos rfl] at h3
  cases h3
  rfl

/-- The copies sent again. -/
theorem copies_raw {shelf : Shelf} (hs : ∀ j x, shelf j = some x → ∃ m, Copy j m x) (i : UInt16) (done : List (UInt16 × List UInt8))
    (hd : (done.map (·.1)).Nodup) (hk : ∀ e ∈ done, shelf e.1 = some e.2) :
    ∃ us : List Raw, us.flatMap Raw.bytes = done.flatMap (·.2) ∧ (∀ u ∈ us, Small u ∧ ∃ j, upNote j u ≠ none) ∧ (i ∉ done.map (·.1) → us.filterMap (upNote i) = []) ∧
      (i ∈ done.map (·.1) → ∃ m x, shelf i = some x ∧ Copy i m x ∧ us.filterMap (upNote i) = [.pub m]) := by
  induction done with
  | nil => exact ⟨[], rfl, by simp, fun _ => rfl, by simp⟩
  | cons e done ih =>
    rw [List.map_cons, List.nodup_cons] at hd
    obtain ⟨us, h1, h2, h3, h4⟩ := ih hd.2 (fun e he => hk e (List.mem_cons_of_mem _ he))
    have hke := hk e List.mem_cons_self
    obtain ⟨m, hm⟩ := hs _ _ hke
    obtain ⟨u, k1, k2, k3⟩ := id hm
    refine ⟨u :: us, by rw [List.flatMap_cons, List.flatMap_cons, h1, k1], ?_, ?_, ?_⟩
    · intro v hv
      rcases List.mem_cons.mp hv with rfl | hv
      · exact ⟨k2, e.1, by rw [k3 e.1, if_pos rfl]; simp⟩
      · exact h2 v hv
    · intro hi
      rw [List.map_cons, List.mem_cons, not_or] at hi
      rw [List.filterMap_cons, k3 i, if_neg hi.1]
      exact h3 hi.2
    · intro hi
      by_cases he : i = e.1
      · subst he
        refine ⟨m, e.2, hke, hm, ?_⟩
        rw [List.filterMap_cons, k3 e.1, if_pos rfl, h3 hd.1]
      · rw [List.map_cons, List.mem_cons] at hi
        rcases hi with hi | hi
        · exact absurd hi he
        · obtain ⟨m', x, h5, h6, h7⟩ := h4 hi
          exact ⟨m', x, h5, h6, by rw [List.filterMap_cons, k3 i, if_neg he]; exact h7⟩

theorem pubrel_raw (j : UInt16) : (ackRaw 0x62 j.toNat).bytes = ackPacket .pubrel j := rfl

theorem pubrels_raw (done : List UInt16) (i : UInt16) (hd : done.Nodup) :
    (done.map fun j => ackRaw 0x62 j.toNat).flatMap Raw.bytes = done.flatMap (ackPacket .pubrel) ∧
      (∀ u ∈ done.map fun j => ackRaw 0x62 j.toNat, Small u ∧ ∃ j, upNote j u ≠ none) ∧
      (done.map fun j => ackRaw 0x62 j.toNat).filterMap (upNote i) = if i ∈ done then [.rel] else [] := by
  induction done with
  | nil => exact ⟨rfl, by simp, rfl⟩
  | cons j done ih =>
    rw [List.nodup_cons] at hd
    obtain ⟨h1, h2, h3⟩ := ih hd.2
    refine ⟨by rw [List.map_cons, List.flatMap_cons, h1, List.flatMap_cons, pubrel_raw], ?_, ?_⟩
    · intro u hu
      rw [List.map_cons, List.mem_cons] at hu
      rcases hu with rfl | hu
      · exact ⟨ack_small _ _, j, by rw [pubrel_note, if_pos rfl]; simp⟩
      · exact h2 u hu
    · rw [List.map_cons, List.filterMap_cons, pubrel_note]
      by_cases hj : j = i
      · subst hj
        rw [if_pos rfl, if_pos List.mem_cons_self, h3, if_neg hd.1]
      · rw [if_neg hj, h3]
        by_cases hi : i ∈ done
        · rw [if_pos hi, if_pos (List.mem_cons_of_mem _ hi)]
        · rw [if_neg hi, if_neg]
          rw [List.mem_cons, not_or]
          exact ⟨fun h => hj h.symm, hi⟩

theorem idsOf_nodup {l : Table OutPhase} (hd : l.Pairwise fun a b => a.1 ≠ b.1) (f : OutPhase → Bool) : (idsOf f l).Nodup := by
  unfold idsOf List.Nodup
  rw [List.pairwise_map]
  exact hd.filter _

theorem idsOf_phase {l : Table OutPhase} (hd : l.Pairwise fun a b => a.1 ≠ b.1) {f : OutPhase → Bool} {i : UInt16} :
    i ∈ idsOf f l ↔ ∃ p, l.phase i = some p ∧ f p = true := by
  constructor
  · intro h
    obtain ⟨x, hx, rfl⟩ := List.mem_map.mp h
    rw [List.mem_filter] at hx
    exact ⟨x.2, phase_of_entry hd hx.1, hx.2⟩
  · rintro ⟨p, h1, h2⟩
    unfold Table.phase at h1
    rw [Option.map_eq_some_iff] at h1
    obtain ⟨x, h3, rfl⟩ := h1
    refine List.mem_map.mpr ⟨x, List.mem_filter.mpr ⟨List.mem_of_find?_eq_some h3, h2⟩, ?_⟩
    simpa using List.find?_some h3

/-- What the resumption sends. -/
theorem resumed_pieces {s : InFlight} {w w' : World} {st : Status} {es : List Event} (hrep : Represents w.ctx.tables s) (h : Resumed s w st es w')
    {shelf : Shelf} (hs : ∀ j x, shelf j = some x → ∃ m, Copy j m x) (hf : Faithful shelf es) (i : UInt16) :
    ∃ (vs : List Raw) (p' : List UInt8) (s' : InFlight), wire es = vs.flatMap Raw.bytes ++ p' ∧ (∀ u ∈ vs, Small u ∧ ∃ j, upNote j u ≠ none) ∧ readPacket p' = none ∧
      (p' ≠ [] → st ≠ .success) ∧ s'.inc = s.inc ∧ Represents w'.ctx.tables s' ∧ received es = [] ∧ (∀ k, es.foldl Shelf.note k = k) ∧ (∀ e ∈ es, isQuietEvent e = true) ∧
      ∀ q P L k c held, Tie i q P L k c (shelf i) (s.out.phase i) [] [] held →
        Tie i q P L k c (shelf i) (s'.out.phase i) (vs.filterMap (upNote i)) [] held ∧ Tie i q P L k c (shelf i) (s'.out.phase i) [] [] held := by
  obtain ⟨a, st1, w1, b, rfl, hp, h⟩ := h
  obtain ⟨done, rest, h1, h2, h3⟩ := hp.cases
  have hd := hrep.1.distinct
  have hnd : (done ++ rest).Nodup := h1 ▸ idsOf_nodup hd isPubrel
  have hnd : done.Nodup := (List.nodup_append.mp hnd).1
  obtain ⟨r1, r2, r3⟩ := pubrels_raw done i hnd
  have hmem : i ∈ done → ∃ p, s.out.phase i = some p ∧ isPubrel p = true := by
    intro hi
    exact (idsOf_phase hd).mp (h1 ▸ List.mem_append_left _ hi)
  have hph : ({ s with out := released done s.out } : InFlight).out.phase i = if i ∈ done then (s.out.phase i).map (fun _ => .awaitPubcomp) else s.out.phase i :=
    phase_released _ _ _
  -- the PUBRELs
  have tie1 : ∀ q P L k c held, Tie i q P L k c (shelf i) (s.out.phase i) [] [] held →
      Tie i q P L k c (shelf i) (({ s with out := released done s.out } : InFlight).out.phase i) (if i ∈ done then [.rel] else []) [] held ∧
      Tie i q P L k c (shelf i) (({ s with out := released done s.out } : InFlight).out.phase i) [] [] held := by
    intro q P L k c held ht
    rw [hph]
    by_cases hi : i ∈ done
    rotate_left
    · rw [if_neg hi, if_neg hi]; exact ⟨ht, ht⟩
    · rw [if_pos hi, if_pos hi]
      obtain ⟨p, hp1, hp2⟩ := hmem hi
      rw [hp1] at ht ⊢
      have key : shelf i = none ∧ (q → Arrived P L ∧ k ≤ P.length ∧ c + 1 ≤ k) := by
        cases ht with
        | one h _ => rcases h with rfl | rfl <;> cases hp2
        | two h _ => rcases h with rfl | rfl <;> cases hp2
        | rel h h' => exact ⟨h, h'⟩
        | comp h h' => exact ⟨h, h'⟩
      exact ⟨.comp key.1 key.2 (Or.inr (Or.inl ⟨rfl, rfl⟩)), .comp key.1 key.2 (Or.inl ⟨rfl, rfl⟩)⟩
  have hqa := quiet_ack hp.kinds
  have hra : received a = [] := received_of_noRecv (noRecv_of_ack hp.kinds)
  have hsa : ∀ k, a.foldl Shelf.note k = k := shelf_still hqa (no_store_ack hp.kinds)
  rcases h with ⟨hno, rfl, rfl, rfl⟩ | ⟨rfl, hr, hq⟩
  · rw [List.append_nil]
    rcases h3 with ⟨_, rfl, _, hw, _⟩ | ⟨hst, id, rest', part, _, h4, h5, hw⟩
    · rw [List.append_nil] at h1
      exact ⟨_, [], { s with out := released done s.out }, by rw [hw, h1, r1, List.append_nil], r2, rfl, fun h => absurd rfl h, rfl, h2, hra, hsa, hqa, fun q P L k c held ht => by rw [r3]; exact tie1 q P L k c held ht⟩
    · refine ⟨_, part, { s with out := released done s.out }, by rw [hw, r1], r2, ?_, fun _ => by rw [hst]; decide, rfl, h2, hra, hsa, hqa, fun q P L k c held ht => by rw [r3]; exact tie1 q P L k c held ht⟩
      exact (ack_small 0x62 id.toNat).part h4 h5
  · rcases h3 with ⟨_, rfl, _, hw, _⟩ | ⟨hst, _⟩
    rotate_left
    · cases hst
    rw [List.append_nil] at h1
    obtain ⟨done2, rest2, h4, h5⟩ := hq.cases
    have hfb : Faithful shelf b := by have := hf.append.2; rwa [hsa] at this
    have hnd2 : (done2.map (·.1) ++ rest2).Nodup := h4 ▸ idsOf_nodup hd isUnacked
    have hnd2 : (done2.map (·.1)).Nodup := (List.nodup_append.mp hnd2).1
    have hret : ∀ e ∈ done2, (e.1, some e.2) ∈ retrieved b := by
      intro e he
      have : (e.1, some e.2) ∈ asRetrieved done2 := List.mem_map.mpr ⟨e, he, rfl⟩
      rcases h5 with ⟨_, _, _, h, _⟩ | ⟨_, _, _, _, _, _, h⟩ | ⟨_, _, _, _, _, _, h, _⟩ <;> rw [h]
      · exact this
      · exact List.mem_append_left _ this
      · exact List.mem_append_left _ this
    obtain ⟨us, c1, c2, c3, c4⟩ := copies_raw hs i done2 hnd2 (fun e he => hfb.mem hq.kinds (hret e he))
    have hqb := quiet_resend hq.kinds
    have htab : w'.ctx.tables = w1.ctx.tables := by
      obtain ⟨t, hc⟩ := hq.ctx
      rw [hc]
    have hcommon : ∀ p', wire b = us.flatMap Raw.bytes ++ p' →
        wire (a ++ b) = (done.map (fun j => ackRaw 0x62 j.toNat) ++ us).flatMap Raw.bytes ++ p' := by
      intro p' h
      rw [wire_append, hw, h, List.flatMap_append, r1, h1, List.append_assoc]
    have hsm : ∀ u ∈ done.map (fun j => ackRaw 0x62 j.toNat) ++ us, Small u ∧ ∃ j, upNote j u ≠ none := by
      intro u hu
      rcases List.mem_append.mp hu with hu | hu
      · exact r2 u hu
      · exact c2 u hu
    have htie : ∀ q P L k c held, Tie i q P L k c (shelf i) (s.out.phase i) [] [] held →
        Tie i q P L k c (shelf i) (({ s with out := released done s.out } : InFlight).out.phase i)
          ((done.map (fun j => ackRaw 0x62 j.toNat) ++ us).filterMap (upNote i)) [] held ∧
        Tie i q P L k c (shelf i) (({ s with out := released done s.out } : InFlight).out.phase i) [] [] held := by
      intro q P L k c held ht
      refine ⟨?_, (tie1 q P L k c held ht).2⟩
      rw [List.filterMap_append, r3]
      by_cases hi2 : i ∈ done2.map (·.1)
      rotate_left
      · rw [c3 hi2, List.append_nil]
        exact (tie1 q P L k c held ht).1
      · obtain ⟨m, x, hk, hm, hn⟩ := c4 hi2
        obtain ⟨p, hp1, hp2⟩ := (idsOf_phase hd).mp (h4 ▸ List.mem_append_left _ hi2 : i ∈ idsOf isUnacked s.out)
        have hi : i ∉ done := by
          intro hi
          obtain ⟨p', hp3, hp4⟩ := hmem hi
          rw [hp1] at hp3
          cases hp3
          unfold isPubrel at hp4
          rw [hp2] at hp4
          cases hp4
        rw [hn, if_neg hi, hph, if_neg hi, List.nil_append, hp1]
        rw [hp1] at ht
        cases ht with
        | one g1 g2 g3 g4 g5 =>
          have := (g3 x hk).unique hm
          subst this
          exact .one g1 g2 g3 g4 (Or.inr (Or.inl ⟨rfl, rfl⟩))
        | two g1 g2 g3 g4 g5 =>
          have := (g3 x hk).unique hm
          subst this
          exact .two g1 g2 g3 g4 (Or.inr (Or.inl ⟨rfl, rfl⟩))
        | rel => cases hp2
        | comp => cases hp2
    have hrest : ∀ k, (a ++ b).foldl Shelf.note k = k := by
      intro k
      rw [List.foldl_append, hsa, shelf_still hqb (no_store_resend hq.kinds)]
    have hrr : received (a ++ b) = [] := by
      rw [received_append, hra, received_of_noRecv (noRecv_of_resend hq.kinds)]
      rfl
    rcases h5 with ⟨_, _, _, _, g⟩ | ⟨gst, _, g, _⟩ | ⟨gst, id, rest', bytes, part, _, gr, g1, g2, g⟩
    · exact ⟨_, [], { s with out := released done s.out }, hcommon [] (by rw [g, c1, List.append_nil]), hsm, rfl, fun h => absurd rfl h, rfl, by rw [htab]; exact h2, hrr, hrest, quiet_append hqa hqb, htie⟩
    · exact ⟨_, [], { s with out := released done s.out }, hcommon [] (by rw [g, c1, List.append_nil]), hsm, rfl, fun h => absurd rfl h, rfl, by rw [htab]; exact h2, hrr, hrest, quiet_append hqa hqb, htie⟩
    · have hk := hfb.mem hq.kinds (id := id) (x := bytes) (by rw [gr]; simp)
      obtain ⟨m, u, k1, k2, _⟩ := hs _ _ hk
      exact ⟨_, part, { s with out := released done s.out }, hcommon part (by rw [g, c1]), hsm, k2.part (by rw [k1]; exact g1) (by rw [k1]; exact g2), fun _ => by rw [gst]; decide, rfl, by rw [htab]; exact h2, hrr, hrest,
        quiet_append hqa hqb, htie⟩

theorem buffered_nil {c : Ctx} (h : c.buffered = []) (h1 : c.index ≤ c.bufSize) : c.index = 0 := by
  unfold Ctx.buffered at h
  unfold Ctx.bufSize at h1
  have := congrArg List.length h
  rw [List.length_take, List.length_nil] at this
  omega

theorem buffered_zero {c : Ctx} (h : c.index = 0) : c.buffered = [] := by
  unfold Ctx.buffered
  rw [h]; rfl

theorem clears_shelf (l : List UInt16) : ∀ k : Shelf, (l.map Event.clear).foldl Shelf.note k = fun j => if j ∈ l then none else k j := by
  induction l with
  | nil => intro k; simp
  | cons x l ih =>
    intro k
    rw [List.map_cons, List.foldl_cons, ih]
    funext j
    show (if j ∈ l then none else if j = x then none else k j) = _
    by_cases h1 : j ∈ l <;> by_cases h2 : j = x <;> simp [h1, h2]

end Mqtt
