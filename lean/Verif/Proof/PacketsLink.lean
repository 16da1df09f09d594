/-
The system of bytes and the protocol of packets: the server and the network.
-/
import Verif.Spec.Packets
import Verif.Proof.InboundConnect

namespace Mqtt
open Spec
set_option linter.unusedSimpArgs false

variable {strict : Bool}

/-- The packets of the protocol are the bytes of the system: `buf` has been received and not processed, `part` is the beginning of a packet. -/
structure Agrees (cap : Nat) (a : Proto) (n : Net) (buf part : List UInt8) (shelf : Shelf) : Prop where
  up : n.up = a.up.flatMap Raw.bytes ++ part
  stuck : readPacket part = none
  small : ∀ u ∈ a.up, Small u
  valid : ∀ d ∈ a.down, d.Valid ∧ d.bytes.length ≤ cap
  down : buf ++ n.down = a.down.flatMap Raw.bytes
  isOpen : n.isOpen = a.isOpen
  greeted : n.greeted = a.greeted
  server : n.server = a.server
  shelf : ∀ j, shelf j = (a.shelf j).map Raw.bytes
  copies : ∀ j c, a.shelf j = some c → Small c

/-- The client and the state of its connection are the same. -/
structure SameClient (a a' : Proto) : Prop where
  flight : a'.flight = a.flight
  shelf : a'.shelf = a.shelf
  stage : a'.stage = a.stage
  isOpen : a'.isOpen = a.isOpen
  sent : a'.sent = a.sent
  ok : a'.ok = a.ok

theorem SameClient.refl (a : Proto) : SameClient a a := ⟨rfl, rfl, rfl, rfl, rfl, rfl⟩

theorem SameClient.trans {a b c : Proto} (h : SameClient a b) (h' : SameClient b c) : SameClient a c :=
  ⟨h'.flight.trans h.flight, h'.shelf.trans h.shelf, h'.stage.trans h.stage, h'.isOpen.trans h.isOpen, h'.sent.trans h.sent, h'.ok.trans h.ok⟩

theorem Spec.Proto.Run.trans {retx : Bool} {cap : Nat} {a b c : Proto} (h : Proto.Run strict retx cap a b) (h' : Proto.Run strict retx cap b c) :
    Proto.Run strict retx cap a c := by
  induction h' with
  | refl => exact h
  | step _ h2 ih => exact .step ih h2

theorem Spec.Proto.Run.one {retx : Bool} {cap : Nat} {a b : Proto} (h : Proto.Step strict retx cap a b) : Proto.Run strict retx cap a b := .step (.refl _) h

/-- A step of the server. -/
inductive Replied (strict : Bool) (cap : Nat) : Proto → Proto → Prop
  | read {a : Proto} {u : Raw} {us outs : List Raw} {g : Bool} {v : Server} : a.up = u :: us → Reads strict cap a.greeted a.server u g v outs →
      Replied strict cap a { a with up := us, down := a.down ++ outs, greeted := g, server := v }
  | offer {a : Proto} {p : Raw} {out : Outbox} : a.greeted = true → Offers cap a.server.out p out →
      Replied strict cap a { a with down := a.down ++ [p], server := { a.server with out := out } }
  | unasked {a : Proto} {p : Raw} : a.greeted = true → Unasked strict cap p → Replied strict cap a { a with down := a.down ++ [p] }

theorem Replied.step {strict retx : Bool} {cap : Nat} {a a' : Proto} (h : Replied strict cap a a') : Proto.Step strict retx cap a a' := by
  cases h with
  | read h1 h2 => exact .read h1 h2
  | offer h1 h2 => exact .offer h1 h2
  | unasked h1 h2 => exact .unasked h1 h2

section
variable {cap : Nat} {retx : Bool} {a : Proto} {n n' : Net} {buf part : List UInt8} {shelf : Shelf}

/-- The server reads a packet. -/
theorem Agrees.reads (h : Agrees cap a n buf part shelf) {t : Nat} {body rest : List UInt8} (hr : readPacket n.up = some (t, body, rest)) :
    ∃ u us, a.up = u :: us ∧ t = u.first.toNat ∧ body = u.body ∧ rest = us.flatMap Raw.bytes ++ part := by
  rw [h.up] at hr
  exact readPacket_stream h.small h.stuck hr

theorem Agrees.read {u : Raw} {us outs : List Raw} {g : Bool} {v : Server} (h : Agrees cap a n buf part shelf) (hu : a.up = u :: us)
    (hr : Reads strict cap a.greeted a.server u g v outs) (ho : ∀ d ∈ outs, d.Valid ∧ d.bytes.length ≤ cap) {x y : List UInt8}
    (hx : x = us.flatMap Raw.bytes ++ part) (hy : y = outs.flatMap Raw.bytes) :
    ∃ a', Replied strict cap a a' ∧ SameClient a a' ∧ Agrees cap a' { n with up := x, down := n.down ++ y, greeted := g, server := v } buf part shelf := by
  refine ⟨_, .read hu hr, ⟨rfl, rfl, rfl, rfl, rfl, rfl⟩, ?_⟩
  subst hx hy
  refine ⟨rfl, h.stuck, fun w hw => h.small w (by rw [hu]; exact List.mem_cons_of_mem _ hw), ?_, ?_, h.isOpen, rfl, rfl, h.shelf, h.copies⟩
  · intro d hd
    rcases List.mem_append.mp hd with hd | hd
    · exact h.valid d hd
    · exact ho d hd
  · simp only
    rw [List.flatMap_append, ← h.down, List.append_assoc]

theorem ackRaw_fits {t : UInt8} (ht : t = 0x40 ∨ t = 0x50 ∨ t = 0x62 ∨ t = 0x70) (id : Nat) (hcap : 4 ≤ cap) :
    ∀ d ∈ [(⟨t, be16 id⟩ : Raw)], d.Valid ∧ d.bytes.length ≤ cap := by
  intro d hd
  rw [List.mem_singleton.mp hd]
  refine ⟨?_, by have := ackRaw_length t id; unfold ackRaw at this; omega⟩
  rcases ht with rfl | rfl | rfl | rfl
  · exact ackRaw_valid (Or.inl rfl) id
  · exact ackRaw_valid (Or.inr (Or.inl rfl)) id
  · exact (rel_unasked (cap := 4) (Nat.le_refl _) 0).1 |>.1 |> fun h => ⟨h, by simp [be16, maxRemaining]⟩
  · exact ackRaw_valid (Or.inr (Or.inr rfl)) id

theorem connack_fits (x y : UInt8) (hcap : 4 ≤ cap) : ∀ d ∈ [(⟨0x20, [x, y]⟩ : Raw)], d.Valid ∧ d.bytes.length ≤ cap := by
  intro d hd
  rw [List.mem_singleton.mp hd]
  exact ⟨connack_valid x y, by have := connack_length x y; omega⟩

theorem unasked_fits {outs : List Raw} (h : ∀ p ∈ outs, Unasked strict cap p) : ∀ d ∈ outs, d.Valid ∧ d.bytes.length ≤ cap :=
  fun d hd => ⟨(h d hd).1, (h d hd).2.1⟩

theorem Settles.fits {o o' : Outbox} {t : Nat} {j : UInt16} {outs : List Raw} (h : Settles o t j o' outs) (hcap : 4 ≤ cap) :
    ∀ d ∈ outs, d.Valid ∧ d.bytes.length ≤ cap := by
  cases h with
  | puback => simp
  | pubrec => exact ackRaw_fits (by decide) _ hcap
  | pubcomp => simp
  | stray => simp

/-- Whatever the server does. -/
theorem Agrees.replied (h : Agrees cap a n buf part shelf) (hcap : 4 ≤ cap) (hs : Serves strict cap n n') :
    ∃ a', Replied strict cap a a' ∧ SameClient a a' ∧ Agrees cap a' n' buf part shelf := by
  have hg := h.greeted
  have hv := h.server
  have one : ∀ p : Raw, p.bytes = [p].flatMap Raw.bytes := by simp
  cases hs with
  | @refuse body rest code g e hc =>
    obtain ⟨u, us, h1, h2, h3, h4⟩ := h.reads e
    have h2 : u.first = 0x10 := UInt8.toNat_inj.mp h2.symm
    have := h.read h1 (by rw [← hg, g]; exact Reads.refuse (strict := strict) h2 hc) (connack_fits 0 code hcap) h4 (one _)
    rw [← g, ← hv] at this
    exact this
  | @begin body rest c g e hc =>
    obtain ⟨u, us, h1, h2, h3, h4⟩ := h.reads e
    have h2 : u.first = 0x10 := UInt8.toNat_inj.mp h2.symm
    rw [h3] at hc
    have := h.read h1 (by rw [← hg, g, ← hv]; exact Reads.begin (strict := strict) h2 hc) (connack_fits 0 0 hcap) h4 (one _)
    exact this
  | @resume body rest c g e hc h5 h6 =>
    obtain ⟨u, us, h1, h2, h3, h4⟩ := h.reads e
    have h2 : u.first = 0x10 := UInt8.toNat_inj.mp h2.symm
    rw [h3] at hc
    have := h.read h1 (by rw [← hg, g, ← hv]; exact Reads.resume (strict := strict) h2 hc h5 h6) (connack_fits 1 0 hcap) h4 (one _)
    exact this
  | @qos0 t body rest m g e hp hq =>
    obtain ⟨u, us, h1, h2, h3, h4⟩ := h.reads e
    rw [h2, h3] at hp
    have := h.read h1 (by rw [← hg, g, ← hv]; exact Reads.qos0 (strict := strict) hp hq) (by simp) h4 rfl
    simp only [List.flatMap_nil, List.append_nil] at this
    rw [← g] at this
    exact this
  | @qos1 t body rest m g e hp hq =>
    obtain ⟨u, us, h1, h2, h3, h4⟩ := h.reads e
    rw [h2, h3] at hp
    have := h.read h1 (by rw [← hg, g, ← hv]; exact Reads.qos1 (strict := strict) hp hq) (ackRaw_fits (by decide) _ hcap) h4 (one _)
    rw [← g] at this
    exact this
  | @qos2 t body rest m g e hp hq hh =>
    obtain ⟨u, us, h1, h2, h3, h4⟩ := h.reads e
    rw [h2, h3] at hp
    have := h.read h1 (by rw [← hg, g, ← hv]; exact Reads.qos2 (strict := strict) hp hq hh) (ackRaw_fits (by decide) _ hcap) h4 (one _)
    rw [← g] at this
    exact this
  | @again t body rest m g e hp hq hh =>
    obtain ⟨u, us, h1, h2, h3, h4⟩ := h.reads e
    rw [h2, h3] at hp
    have := h.read h1 (by rw [← hg, g, ← hv]; exact Reads.again (strict := strict) hp hq hh) (ackRaw_fits (by decide) _ hcap) h4 (one _)
    rw [← g] at this
    exact this
  | @release body rest id g e hp =>
    obtain ⟨u, us, h1, h2, h3, h4⟩ := h.reads e
    have h2 : u.first = 0x62 := UInt8.toNat_inj.mp h2.symm
    rw [h3] at hp
    have := h.read h1 (by rw [← hg, g, ← hv]; exact Reads.release (strict := strict) h2 hp) (ackRaw_fits (by decide) _ hcap) h4 (one _)
    rw [← g] at this
    exact this
  | @other t body rest outs g e h5 h6 h7 h8 =>
    obtain ⟨u, us, h1, h2, h3, h4⟩ := h.reads e
    have ne : ∀ x : UInt8, t ≠ x.toNat → u.first ≠ x := fun x hx hu => hx (by rw [h2, hu])
    have := h.read h1 (by
      rw [← hg, g, ← hv]
      exact Reads.other (strict := strict) (by rw [← h2]; exact h5) (ne _ h6) (fun hs => ⟨ne _ (h7 hs).1, ne _ (h7 hs).2.1, ne _ (h7 hs).2.2⟩) h8) (unasked_fits h8) h4 rfl
    rw [← g] at this
    exact this
  | @settle t body rest j out outs g e h5 h6 =>
    obtain ⟨u, us, h1, h2, h3, h4⟩ := h.reads e
    rw [h3] at h5
    rw [h2] at h6
    have := h.read h1 (by rw [← hg, g, ← hv]; exact Reads.settle (strict := strict) h5 h6) (Settles.fits h6 hcap) h4 rfl
    rw [← g] at this
    exact this
  | @offer p out g ho =>
    rw [hg] at g
    rw [hv] at ho
    refine ⟨_, .offer g ho, ⟨rfl, rfl, rfl, rfl, rfl, rfl⟩, ?_⟩
    have hu := ho.unasked
    refine ⟨h.up, h.stuck, h.small, ?_, ?_, h.isOpen, hg, by simp only [hv], h.shelf, h.copies⟩
    · intro d hd
      rcases List.mem_append.mp hd with hd | hd
      · exact h.valid d hd
      · rw [List.mem_singleton.mp hd]; exact ⟨hu.1, hu.2.1⟩
    · simp only
      rw [flatMap_snoc, ← h.down, List.append_assoc]
  | @unasked p g hu =>
    rw [hg] at g
    refine ⟨_, .unasked g hu, ⟨rfl, rfl, rfl, rfl, rfl, rfl⟩, ?_⟩
    refine ⟨h.up, h.stuck, h.small, ?_, ?_, h.isOpen, hg, hv, h.shelf, h.copies⟩
    · intro d hd
      rcases List.mem_append.mp hd with hd | hd
      · exact h.valid d hd
      · rw [List.mem_singleton.mp hd]; exact ⟨hu.1, hu.2.1⟩
    · simp only
      rw [flatMap_snoc, ← h.down, List.append_assoc]

theorem Agrees.serve (h : Agrees cap a n buf part shelf) (hcap : 4 ≤ cap) (hs : Serves strict cap n n') :
    ∃ a', Proto.Step strict retx cap a a' ∧ SameClient a a' ∧ Agrees cap a' n' buf part shelf := by
  obtain ⟨a', h1, h2, h3⟩ := h.replied hcap hs
  exact ⟨a', h1.step, h2, h3⟩

theorem Agrees.served (h : Agrees cap a n buf part shelf) (hcap : 4 ≤ cap) (hs : Served strict cap n n') :
    ∃ a', Proto.Run strict retx cap a a' ∧ SameClient a a' ∧ Agrees cap a' n' buf part shelf := by
  induction hs generalizing a with
  | refl => exact ⟨a, .refl a, .refl a, h⟩
  | step h1 _ ih =>
    obtain ⟨a1, r1, k1, h2⟩ := h.serve (retx := retx) hcap h1
    obtain ⟨a2, r2, k2, h3⟩ := ih h2
    exact ⟨a2, (Proto.Run.one r1).trans r2, k1.trans k2, h3⟩

/-- The client sends. -/
theorem Agrees.pushed (h : Agrees cap a n buf part shelf) (hp : a.isOpen = true → part = []) {vs : List Raw} {p' : List UInt8} (hv : ∀ u ∈ vs, Small u)
    (hp' : readPacket p' = none) : ∃ part', Agrees cap (a.put vs) (n.push (vs.flatMap Raw.bytes ++ p')) buf part' shelf ∧ (a.isOpen = true → part' = p') := by
  cases ho : a.isOpen with
  | false =>
    rw [Net.push_closed (by rw [h.isOpen, ho])]
    refine ⟨part, ⟨?_, h.stuck, ?_, h.valid, h.down, h.isOpen, h.greeted, h.server, h.shelf, h.copies⟩, fun h => by cases h⟩
    · simp only [Proto.put, ho, Bool.false_eq_true, if_false]; exact h.up
    · simp only [Proto.put, ho, Bool.false_eq_true, if_false]; exact h.small
  | true =>
    rw [Net.push_open (by rw [h.isOpen, ho])]
    have := hp ho
    subst this
    refine ⟨p', ⟨?_, hp', ?_, h.valid, h.down, h.isOpen, h.greeted, h.server, h.shelf, h.copies⟩, fun _ => rfl⟩
    · simp only [Proto.put, ho, if_true]
      rw [h.up, List.append_nil, List.flatMap_append, List.append_assoc]
    · simp only [Proto.put, ho, if_true]
      intro u hu
      rcases List.mem_append.mp hu with hu | hu
      · exact h.small u hu
      · exact hv u hu

theorem Agrees.received (h : Agrees cap a n buf part shelf) {r : List UInt8} {n' : Net} (hn : n = { n' with down := r ++ n'.down }) :
    Agrees cap a n' (buf ++ r) part shelf := by
  subst hn
  exact ⟨h.up, h.stuck, h.small, h.valid, by rw [List.append_assoc]; exact h.down, h.isOpen, h.greeted, h.server, h.shelf, h.copies⟩

theorem Agrees.close (h : Agrees cap a n buf part shelf) (cl : Bool) :
    Agrees cap { a with isOpen := a.isOpen && !cl } { n with isOpen := n.isOpen && !cl } buf part shelf :=
  ⟨h.up, h.stuck, h.small, h.valid, h.down, by simp only [h.isOpen], h.greeted, h.server, h.shelf, h.copies⟩

theorem Agrees.setOpen (h : Agrees cap a n buf part shelf) (o : Bool) : Agrees cap { a with isOpen := o } { n with isOpen := o } buf part shelf :=
  ⟨h.up, h.stuck, h.small, h.valid, h.down, rfl, h.greeted, h.server, h.shelf, h.copies⟩

end

end Mqtt
