/-
Rounds: the server can read whatever the client sends.
-/
import Verif.Proof.RoundsRun

namespace Mqtt
open Spec
set_option linter.unusedSimpArgs false

variable {strict retx : Bool} {cap : Nat}

/-- A message, an acknowledgement or a packet that is not part of an exchange. -/
def Legible (u : Raw) : Prop :=
  (∃ m, parsePublish u.first.toNat u.body = some m) ∨
  ((u.first = 0x62 ∨ u.first = 0x40 ∨ u.first = 0x50 ∨ u.first = 0x70) ∧ ∃ j : UInt16, read16 u.body = some (j.toNat, [])) ∨ PlainPacket u

theorem legible_ack (ty : AckType) (id : UInt16) : Legible (answerOf ty id) := by
  refine Or.inr (Or.inl ⟨?_, id, ?_⟩)
  · cases ty
    · exact Or.inr (Or.inl rfl)
    · exact Or.inr (Or.inr (Or.inl rfl))
    · exact Or.inl rfl
    · exact Or.inr (Or.inr (Or.inr rfl))
  · have := read16_be16 (n := id.toNat) id.toNat_lt []
    rw [List.append_nil] at this
    exact this

theorem put_legible {a : Proto} {vs : List Raw} (h : ∀ u ∈ a.up, Legible u) (hv : ∀ u ∈ vs, Legible u) : ∀ u ∈ (a.put vs).up, Legible u := by
  show ∀ u ∈ (if a.isOpen then a.up ++ vs else a.up), Legible u
  split
  · intro u hu
    exact (List.mem_append.mp hu).elim (h u) (hv u)
  · exact h

theorem legible_step {a b : Proto} (hs : Sound retx a) (h : ∀ u ∈ a.up, Legible u) (st : Proto.Step strict retx cap a b) : ∀ u ∈ b.up, Legible u := by
  have one : ∀ {u : Raw}, Legible u → ∀ v ∈ [u], Legible v := by intro u hu v hv; rw [List.mem_singleton.mp hv]; exact hu
  have rels : ∀ {ids : List UInt16}, ∀ v ∈ ids.map (fun j => (⟨0x62, be16 j.toNat⟩ : Raw)), Legible v := by
    intro ids v hv
    obtain ⟨j, _, rfl⟩ := List.mem_map.mp hv
    exact legible_ack .pubrel j
  have copies : ∀ {l : List (UInt16 × Raw)}, (∀ e ∈ l, a.shelf e.1 = some e.2) → ∀ v ∈ l.map (·.2), Legible v := by
    intro l hl v hv
    obtain ⟨e, he, rfl⟩ := List.mem_map.mp hv
    obtain ⟨m, _, h1, _⟩ := hs.kept e.1 e.2 (hl e he)
    exact Or.inl ⟨m, h1⟩
  cases st with
  | read h1 _ => exact fun u hu => h u (by rw [h1]; exact List.mem_cons_of_mem _ hu)
  | offer => exact h
  | unasked => exact h
  | hangUp => exact h
  | dial => simp
  | ask _ h2 => exact put_legible h (one (Or.inr (Or.inr (by unfold PlainPacket; rw [h2]; decide))))
  | giveUp => exact h
  | welcome => exact h
  | resume _ _ _ h4 =>
    refine put_legible h ?_
    cases h4 with
    | releases => exact rels
    | publishes _ _ h7 => exact fun v hv => (List.mem_append.mp hv).elim (rels v) (copies h7 v)
    | all _ _ h7 => exact fun v hv => (List.mem_append.mp hv).elim (rels v) (copies h7 v)
    | none => exact rels
  | plain _ h2 => exact put_legible h (one (Or.inr (Or.inr h2)))
  | publish0 _ h2 => exact put_legible h (one (Or.inl ⟨_, h2⟩))
  | publish _ h2 => exact put_legible h (one (Or.inl ⟨_, h2⟩))
  | unsaved => exact h
  | unsent => exact h
  | take => exact h
  | answer => exact put_legible h (one (legible_ack _ _))
  | mute => exact h
  | close => exact h

theorem legible_run {a b : Proto} (hi : a.Initial) (hr : Proto.Run strict retx cap a b) : ∀ u ∈ b.up, Legible u := by
  induction hr with
  | refl => rw [hi.quiet.1]; simp
  | step hr' hst ih => exact legible_step ((Sound.initial hi).run hr') ih hst

/-- An acknowledgement has some effect, if only that it is ignored. -/
theorem settles_some (o : Outbox) {t : Nat} (ht : t = 0x40 ∨ t = 0x50 ∨ t = 0x70) (j : UInt16) : ∃ o' outs, Settles o t j o' outs := by
  by_cases h1 : ∃ m s, o.slot j = some ⟨m, false, s⟩ ∧ (t = 0x40 ∧ m.qos = 1 ∨ t = 0x50 ∧ m.qos = 2)
  · obtain ⟨m, s, h, ⟨rfl, hq⟩ | ⟨rfl, hq⟩⟩ := h1
    · exact ⟨_, _, .puback h hq⟩
    · exact ⟨_, _, .pubrec h hq⟩
  by_cases h2 : ∃ m s, o.slot j = some ⟨m, true, s⟩ ∧ t = 0x70
  · obtain ⟨m, s, h, rfl⟩ := h2
    exact ⟨_, _, .pubcomp h⟩
  · exact ⟨o, [], .stray ht (fun m s h => ⟨fun hc => h1 ⟨m, s, h, Or.inl hc⟩, fun hc => h1 ⟨m, s, h, Or.inr hc⟩⟩) (fun m s h hc => h2 ⟨m, s, h, hc⟩)⟩

/-- The server can read a legible packet. -/
theorem serves_some {n : Net} {u : Raw} {rest : List UInt8} (hg : n.greeted = true) (hu : Legible u) (hr : readPacket n.up = some (u.first.toNat, u.body, rest)) :
    ∃ n', Serves strict cap n n' ∧ n'.up = rest := by
  rcases hu with ⟨m, hp⟩ | ⟨hf, j, hj⟩ | hp
  · have hq : m.qos = 0 ∨ m.qos = 1 ∨ m.qos = 2 := by
      generalize m.qos = q
      revert q
      decide
    rcases hq with hq | hq | hq
    · exact ⟨_, .qos0 hg hr hp hq, rfl⟩
    · exact ⟨_, .qos1 hg hr hp hq, rfl⟩
    · by_cases hh : m.id ∈ n.server.held
      · exact ⟨_, .again hg hr hp hq hh, rfl⟩
      · exact ⟨_, .qos2 hg hr hp hq hh, rfl⟩
  · rcases hf with hf | hf
    · rw [hf] at hr
      exact ⟨_, .release hg hr hj, rfl⟩
    · obtain ⟨o', outs, h⟩ := settles_some n.server.out (t := u.first.toNat) (by rcases hf with h | h | h <;> rw [h] <;> decide) j
      exact ⟨_, .settle hg hr hj h, rfl⟩
  · obtain ⟨h1, h2, h3, h4, h5⟩ := hp
    have ne : ∀ x : UInt8, u.first ≠ x → u.first.toNat ≠ x.toNat := fun x hx h => hx (UInt8.toNat_inj.mp h)
    exact ⟨_, .other (outs := []) hg hr h5 (ne _ h3) (fun _ => ⟨ne _ h1, ne _ h2, ne _ h4⟩) (by simp), rfl⟩

theorem readPacket_shorter {x rest : List UInt8} {t : Nat} {b : List UInt8} {us : List Raw} (hs : ∀ u ∈ us, Small u) (hx : x = us.flatMap Raw.bytes)
    (h : readPacket x = some (t, b, rest)) : rest.length < x.length := by
  rw [hx, ← List.append_nil (us.flatMap _)] at h
  obtain ⟨u, us', rfl, _, _, e⟩ := readPacket_stream hs rfl h
  rw [List.append_nil] at e
  rw [hx, e, List.flatMap_cons, List.length_append]
  have := List.length_pos_iff.mpr (Raw.bytes_ne_nil u)
  omega

/-- The server can read all that is under way. -/
theorem serving_some {s : Sys} {us ds : List Raw} (hv : View s us ds) (hcap : 4 ≤ s.world.ctx.bufSize) (hl : ∀ u ∈ us, Legible u) :
    ∃ s', Sys.Serving strict false s s' := by
  induction us generalizing s ds with
  | nil => exact ⟨s, .done (by rw [hv.up]; rfl)⟩
  | cons u us ih =>
    have hr : readPacket s.net.up = some (u.first.toNat, u.body, us.flatMap Raw.bytes) := by
      rw [hv.up, List.flatMap_cons]
      exact (hv.small u List.mem_cons_self).read _
    obtain ⟨n, hn, hup⟩ := serves_some (strict := strict) (cap := s.world.ctx.bufSize) hv.greeted (hl u List.mem_cons_self) hr
    have hlen : n.up.length < s.net.up.length := by rw [hup]; exact readPacket_shorter hv.small hv.up hr
    obtain ⟨us', ds', hv', ha⟩ := hv.serve hcap hn (own := false) (Or.inr hlen)
    have he : us' = us := by
      have h1 : n.up = us'.flatMap Raw.bytes := hv'.up
      exact small_unique hv'.small (fun x hx => hv.small x (List.mem_cons_of_mem _ hx)) (h1.symm.trans hup)
    subst he
    obtain ⟨s', hs'⟩ := ih hv' hcap (fun x hx => hl x (List.mem_cons_of_mem _ hx))
    exact ⟨s', .step hn (Or.inr hlen) hs'⟩

end Mqtt
