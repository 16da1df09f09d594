/-
What holds between client, network and server, and the steps of the client: sending, receiving and taking packets.
-/
import Verif.Proof.BrokerTie

namespace Mqtt
open Spec
set_option linter.unusedSimpArgs false

variable {strict : Bool}

/-- What holds between the calls: `conn` says whether the client is connected, `ph` is the state of its publish with packet id `i`, `buffered` are the bytes it
has received and not processed. -/
structure Link (i : UInt16) (cap : Nat) (b : Bool) (n0 : Nat) (t0 P : List Publish) (k c : Nat) (conn : Bool) (ph : Option OutPhase)
    (buffered : List UInt8) (retx : Bool) (n : Net) (shelf : Shelf) : Prop where
  ties : ∃ us part ds buf, Ties i cap b n0 t0 P k c (shelf i) ph n buf us part ds ∧ (conn = true → n.greeted = true ∧ buf = buffered) ∧
    (n.isOpen = true → part = [] ∧ (conn = false → n.greeted = false ∧ us = [] ∧ ds = []))
  idle : conn = false → buffered = []
  shelves : ∀ j x, shelf j = some x → ∃ m, Copy j m x
  unused : retx = false → ∀ j, shelf j = none

section
variable {i : UInt16} {cap : Nat} {b : Bool} {n0 : Nat} {t0 P P' : List Publish} {k k' c c' : Nat} {conn : Bool} {ph ph' : Option OutPhase}
  {buffered : List UInt8} {retx : Bool} {n n' : Net} {shelf shelf' : Shelf} {kept kept' : Option (List UInt8)} {buf : List UInt8} {us vs ds : List Raw}
  {part p' : List UInt8} {es : List Event}

theorem Ties.setOpen (h : Ties i cap b n0 t0 P k c kept ph n buf us part ds) (o : Bool) :
    Ties i cap b n0 t0 P k c kept ph { n with isOpen := o } buf us part ds :=
  ⟨h.up, h.stuck, h.small, h.valid, h.down, h.fresh, h.floor, h.tie⟩

theorem Ties.map (h : Ties i cap b n0 t0 P k c kept ph n buf us part ds)
    (f : ∀ q L held, Tie i q P L k c kept ph (us.filterMap (upNote i)) (ds.filterMap (downNote i)) held →
      Tie i q P' L k' c' kept' ph' (us.filterMap (upNote i)) (ds.filterMap (downNote i)) held) :
    Ties i cap b n0 t0 P' k' c' kept' ph' n buf us part ds := by
  obtain ⟨new, h1, h2⟩ := h.tie
  exact ⟨h.up, h.stuck, h.small, h.valid, h.down, h.fresh, h.floor, new, h1, f _ _ _ h2⟩

/-- The client sends the packets `vs` and the bytes `p'`, which are lost when the connection is closed. -/
theorem Ties.pushed (h : Ties i cap b n0 t0 P k c kept ph n buf us part ds) (hp : n.isOpen = true → part = []) (hv : ∀ u ∈ vs, Small u)
    (hp' : readPacket p' = none) (hg : n.greeted = true ∨ vs.filterMap (upNote i) = [])
    (f : ∀ q L held, Tie i q P L k c kept ph (us.filterMap (upNote i)) (ds.filterMap (downNote i)) held →
      Tie i q P' L k' c' kept' ph' (us.filterMap (upNote i) ++ vs.filterMap (upNote i)) (ds.filterMap (downNote i)) held)
    (f' : ∀ q L held, Tie i q P L k c kept ph (us.filterMap (upNote i)) (ds.filterMap (downNote i)) held →
      Tie i q P' L k' c' kept' ph' (us.filterMap (upNote i)) (ds.filterMap (downNote i)) held) :
    ∃ us' part', Ties i cap b n0 t0 P' k' c' kept' ph' (n.push (vs.flatMap Raw.bytes ++ p')) buf us' part' ds ∧
      (n.isOpen = true → part' = p') := by
  cases ho : n.isOpen with
  | false =>
    rw [Net.push_closed ho]
    exact ⟨us, part, h.map f', fun h => by cases h⟩
  | true =>
    rw [Net.push_open ho]
    have := hp ho
    subst this
    obtain ⟨new, h1, h2⟩ := h.tie
    refine ⟨us ++ vs, p', ⟨?_, hp', ?_, h.valid, h.down, ?_, h.floor, new, h1, ?_⟩, fun _ => rfl⟩
    · simp only
      rw [h.up, List.append_nil, List.flatMap_append, List.append_assoc]
    · intro u hu
      rcases List.mem_append.mp hu with hu | hu
      · exact h.small u hu
      · exact hv u hu
    · intro hg0
      rcases hg with hg | hg
      · simp only at hg0; rw [hg] at hg0; cases hg0
      · rw [List.filterMap_append, hg, List.append_nil]
        exact h.fresh hg0
    · rw [List.filterMap_append]
      exact f _ _ _ h2

theorem Link.close (h : Link i cap b n0 t0 P k c conn ph buffered retx n shelf) (cl : Bool) :
    Link i cap b n0 t0 P k c conn ph buffered retx { n with isOpen := n.isOpen && !cl } shelf := by
  obtain ⟨us, part, ds, buf, h1, h2, h3⟩ := h.ties
  refine ⟨⟨us, part, ds, buf, h1.setOpen _, h2, fun ho => h3 ?_⟩, h.idle, h.shelves, h.unused⟩
  simp only [Bool.and_eq_true] at ho
  exact ho.1

theorem Link.map (h : Link i cap b n0 t0 P k c conn ph buffered retx n shelf)
    (f : ∀ q L U D held, Tie i q P L k c (shelf i) ph U D held → Tie i q P' L k' c' (shelf' i) ph' U D held)
    (hs : ∀ j x, shelf' j = some x → ∃ m, Copy j m x) (hu : retx = false → ∀ j, shelf' j = none) :
    Link i cap b n0 t0 P' k' c' conn ph' buffered retx n shelf' := by
  obtain ⟨us, part, ds, buf, h1, h2, h3⟩ := h.ties
  exact ⟨⟨us, part, ds, buf, h1.map fun q L held => f q L _ _ held, h2, h3⟩, h.idle, hs, hu⟩

theorem Link.serve (h : Link i cap b n0 t0 P k c conn ph buffered retx n shelf) (hs : Serves strict cap n n') (hcap : 4 ≤ cap) (hi : i ≠ 0) :
    Link i cap b n0 t0 P k c conn ph buffered retx n' shelf := by
  obtain ⟨us, part, ds, buf, h1, h2, h3⟩ := h.ties
  obtain ⟨us', ds', h4, h5⟩ := h1.serve hs hcap hi
  refine ⟨⟨us', part, ds', buf, h4, fun hc => ⟨h5 (h2 hc).1, (h2 hc).2⟩, ?_⟩, h.idle, h.shelves, h.unused⟩
  rw [hs.isOpen]
  intro ho
  obtain ⟨rfl, h6⟩ := h3 ho
  refine ⟨rfl, fun hc => ?_⟩
  obtain ⟨hg, rfl, rfl⟩ := h6 hc
  have hup : n.up = [] := by rw [h1.up]; rfl
  exfalso
  cases hs with
  | refuse _ e _ => rw [hup] at e; cases e
  | begin _ e _ => rw [hup] at e; cases e
  | resume _ e _ => rw [hup] at e; cases e
  | qos0 e => rw [hg] at e; cases e
  | qos1 e => rw [hg] at e; cases e
  | qos2 e => rw [hg] at e; cases e
  | again e => rw [hg] at e; cases e
  | release e => rw [hg] at e; cases e
  | other e => rw [hg] at e; cases e
  | settle e => rw [hg] at e; cases e
  | offer e => rw [hg] at e; cases e
  | unasked e => rw [hg] at e; cases e

theorem Link.served (h : Link i cap b n0 t0 P k c conn ph buffered retx n shelf) (hs : Served strict cap n n') (hcap : 4 ≤ cap) (hi : i ≠ 0) :
    Link i cap b n0 t0 P k c conn ph buffered retx n' shelf := by
  induction hs with
  | refl => exact h
  | step h1 _ ih => exact ih (h.serve h1 hcap hi)

theorem Link.dial (h : Link i cap b n0 t0 P k c false ph buffered retx n shelf) :
    Link i cap b n0 t0 P k c false ph buffered retx { n with up := [], down := [], isOpen := true, greeted := false } shelf := by
  obtain ⟨us, part, ds, buf, h1, h2, h3⟩ := h.ties
  obtain ⟨new, h4, h5⟩ := h1.tie
  refine ⟨⟨[], [], [], [], ⟨rfl, rfl, by simp, by simp, rfl, fun _ => ⟨rfl, rfl⟩, h1.floor, new, h4, h5.dropped⟩, fun h => (by cases h),
    fun _ => ⟨rfl, fun _ => ⟨rfl, rfl, rfl⟩⟩⟩, h.idle, h.shelves, h.unused⟩

/-- The client receives `r`. -/
theorem Link.recv (h : Link i cap b n0 t0 P k c conn ph buffered retx n shelf) {r rest : List UInt8} (hd : n.down = r ++ rest)
    (ho : n.isOpen = true ∨ r = []) : Link i cap b n0 t0 P k c conn ph (buffered ++ r) retx { n with down := rest } shelf := by
  obtain ⟨us, part, ds, buf, h1, h2, h3⟩ := h.ties
  refine ⟨⟨us, part, ds, buf ++ r, ⟨h1.up, h1.stuck, h1.small, h1.valid, ?_, h1.fresh, h1.floor, h1.tie⟩, fun hc => ⟨(h2 hc).1, by rw [(h2 hc).2]⟩, h3⟩, ?_,
    h.shelves, h.unused⟩
  · have := h1.down
    rw [hd, ← List.append_assoc] at this
    exact this
  · intro hc
    rw [h.idle hc, List.nil_append]
    rcases ho with ho | ho
    · obtain ⟨_, h4⟩ := h3 ho
      obtain ⟨_, _, rfl⟩ := h4 hc
      have := h1.down
      rw [hd] at this
      exact (List.append_eq_nil_iff.mp (List.append_eq_nil_iff.mp this).2).1
    · exact ho

/-- The client takes a packet. -/
theorem Link.take (h : Link i cap b n0 t0 P k c conn ph buffered retx n shelf) {p : Raw} {rest : List UInt8} (hp : p.Valid) (hb : buffered = p.bytes ++ rest)
    (f : ∀ q L U D held, Tie i q P L k c (shelf i) ph U ((downNote i p).toList ++ D) held → Tie i q P' L k' c' (shelf' i) ph' U D held)
    (hs : ∀ j x, shelf' j = some x → ∃ m, Copy j m x) (hu : retx = false → ∀ j, shelf' j = none) :
    Link i cap b n0 t0 P' k' c' conn ph' rest retx n shelf' := by
  obtain ⟨us, part, ds, buf, h1, h2, h3⟩ := h.ties
  have hconn : conn = true := by
    cases conn with
    | true => rfl
    | false =>
      have := h.idle rfl
      rw [hb] at this
      exact absurd (List.append_eq_nil_iff.mp this).1 (Raw.bytes_ne_nil p)
  subst hconn
  obtain ⟨hg, rfl⟩ := h2 rfl
  have hd := h1.down
  rw [hb] at hd
  obtain ⟨ds', rfl, hd'⟩ := first_packet hp (fun q hq => (h1.valid q hq).1) hd
  obtain ⟨new, h4, h5⟩ := h1.tie
  refine ⟨⟨us, part, ds', rest, ⟨h1.up, h1.stuck, h1.small, fun d hd => h1.valid d (List.mem_cons_of_mem _ hd), hd', ?_, h1.floor, new, h4, ?_⟩,
    fun _ => ⟨hg, rfl⟩, fun ho => ⟨(h3 ho).1, fun h => (by cases h)⟩⟩, fun h => (by cases h), hs, hu⟩
  · intro h; rw [hg] at h; cases h
  · refine f _ _ _ _ _ ?_
    have : (p :: ds').filterMap (downNote i) = (downNote i p).toList ++ ds'.filterMap (downNote i) := by
      rw [List.filterMap_cons]
      cases downNote i p <;> rfl
    rw [← this]
    exact h5

/-- The client only sends. -/
theorem Link.sends (h : Link i cap b n0 t0 P k c conn ph buffered retx n shelf) (hcap : 4 ≤ cap) (hi : i ≠ 0) (hr : NetRun strict cap n es n')
    (hrecv : received es = []) (hw : wire es = vs.flatMap Raw.bytes ++ p') (hv : ∀ u ∈ vs, Small u) (hp' : readPacket p' = none)
    (hc : conn = false → wire es = [])
    (f : ∀ q L U D held, Tie i q P L k c (shelf i) ph U D held → Tie i q P' L k' c' (shelf' i) ph' (U ++ vs.filterMap (upNote i)) D held)
    (f' : ∀ q L U D held, Tie i q P L k c (shelf i) ph U D held → Tie i q P' L k' c' (shelf' i) ph' U D held)
    (hs : ∀ j x, shelf' j = some x → ∃ m, Copy j m x) (hu : retx = false → ∀ j, shelf' j = none) {closing : Bool} (hcl : p' ≠ [] → closing = true) :
    Link i cap b n0 t0 P' k' c' conn ph' buffered retx { n' with isOpen := n'.isOpen && !closing } shelf' := by
  have hsv := hr.sends hrecv
  have hop : n'.isOpen = n.isOpen := hr.isOpen
  cases conn with
  | false =>
    rw [hc rfl, Net.push_nil] at hsv
    exact ((h.map f' hs hu).served hsv hcap hi).close closing
  | true =>
    obtain ⟨us, part, ds, buf, h1, h2, h3⟩ := h.ties
    obtain ⟨hg, rfl⟩ := h2 rfl
    rw [hw] at hsv
    obtain ⟨us', part', h4, h5⟩ := h1.pushed (fun ho => (h3 ho).1) hv hp' (Or.inl hg) (fun q L held => f q L _ _ held) (fun q L held => f' q L _ _ held)
    obtain ⟨us2, ds2, h6, h7⟩ := h4.served hsv hcap hi
    refine ⟨⟨us2, part', ds2, buf, h6.setOpen _, fun _ => ⟨h7 hg, rfl⟩, fun ho => ⟨?_, fun h => (by cases h)⟩⟩, fun h => (by cases h), hs, hu⟩
    simp only [Bool.and_eq_true] at ho
    rw [h5 (by rw [← hop]; exact ho.1)]
    cases hp : p' with
    | nil => rfl
    | cons a l =>
      rw [hcl (by rw [hp]; simp)] at ho
      exact absurd ho.2 (by simp)

end

end Mqtt
