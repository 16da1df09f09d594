/-
A calculus for the number of interactions: `Fast L K m Q w` says that `m`, run in `w`, makes at most `K` interactions while the clock advances, and fails
to return only when the environment has stopped answering.
-/
import Verif.Spec.Progress
import Verif.Proof.SendCount

namespace Mqtt
open Spec
set_option linter.unusedSimpArgs false

/-- Bookkeeping between two worlds. -/
structure Cost0 (w : World) (es : List Event) (w' : World) : Prop where
  trace : w'.trace = w.trace ++ es
  sends : w'.env.sends.length ≤ w.env.sends.length ∧ w.env.sends.length ≤ w'.env.sends.length + es.length
  recvs : w'.env.recvs.length ≤ w.env.recvs.length ∧ w.env.recvs.length ≤ w'.env.recvs.length + es.length
  clock : w'.env.clock.length ≤ w.env.clock.length ∧ w.env.clock.length ≤ w'.env.clock.length + es.length
  stores : w'.env.stores.length ≤ w.env.stores.length ∧ w.env.stores.length ≤ w'.env.stores.length + es.length
  retrieves : w'.env.retrieves.length ≤ w.env.retrieves.length ∧ w.env.retrieves.length ≤ w'.env.retrieves.length + es.length
  cap : w'.ctx.tables.outgoing.length = w.ctx.tables.outgoing.length
  buf : w'.ctx.bufSize = w.ctx.bufSize

/-- At most `K` interactions.  `L` is the longest time waited for. -/
structure Cost (L K : Nat) (w : World) (es : List Event) (w' : World) : Prop extends Cost0 w es w' where
  time : ∀ gap now low, L + 2 * gap < 2 ^ 32 → 0 < w.ctx.bufSize → liveClock gap now low es → es.length ≤ K

theorem Spec.liveClock.split {gap now low : Nat} (a : List Event) {b : List Event} (h : liveClock gap now low (a ++ b)) :
    liveClock gap now low a ∧ ∃ now' low', liveClock gap now' low' b := by
  induction a generalizing now low with
  | nil => exact ⟨trivial, now, low, h⟩
  | cons e es ih =>
    cases e with
    | time t =>
      obtain ⟨T, h1, h2, h3, h4⟩ := h
      obtain ⟨h5, h6⟩ := ih h4
      exact ⟨⟨T, h1, h2, h3, h5⟩, h6⟩
    | _ => exact ih h

theorem Spec.liveClock.real {gap now low low' : Nat} {es : List Event} (hl : low' ≤ low) (h : liveClock gap now low es) :
    realClock gap now low' es := by
  induction es generalizing now low low' with
  | nil => trivial
  | cons e es ih =>
    cases e with
    | time t =>
      obtain ⟨T, h1, h2, h3, h4⟩ := h
      exact ⟨T, by omega, h2, h3, ih (Nat.le_refl _) h4⟩
    | sent b k => exact ih (low := max low (now + 1)) (low' := max low' (now + 1)) (by omega) h
    | recvd n k => exact ih (low := max low (now + 1)) (low' := low') (by omega) h
    | _ => exact ih hl h

theorem Cost0.refl (w : World) : Cost0 w [] w :=
  ⟨by simp, by simp, by simp, by simp, by simp, by simp, rfl, rfl⟩

theorem Cost.refl (L K : Nat) (w : World) : Cost L K w [] w := ⟨Cost0.refl w, fun _ _ _ _ _ _ => Nat.zero_le _⟩

theorem Cost0.trans {w w1 w2 : World} {a b : List Event} (h : Cost0 w a w1) (h' : Cost0 w1 b w2) : Cost0 w (a ++ b) w2 := by
  have e : (a ++ b).length = a.length + b.length := List.length_append
  refine ⟨by rw [h'.trace, h.trace, List.append_assoc], ?_, ?_, ?_, ?_, ?_, h'.cap.trans h.cap, h'.buf.trans h.buf⟩
  · have := h.sends; have := h'.sends; omega
  · have := h.recvs; have := h'.recvs; omega
  · have := h.clock; have := h'.clock; omega
  · have := h.stores; have := h'.stores; omega
  · have := h.retrieves; have := h'.retrieves; omega

theorem Cost.trans {L K K' : Nat} {w w1 w2 : World} {a b : List Event} (h : Cost L K w a w1) (h' : Cost L K' w1 b w2) :
    Cost L (K + K') w (a ++ b) w2 := by
  have e : (a ++ b).length = a.length + b.length := List.length_append
  refine ⟨h.toCost0.trans h'.toCost0, ?_⟩
  · intro gap now low hg hb hc
    obtain ⟨h1, now', low', h2⟩ := hc.split
    have := h.time gap now low hg hb h1
    have := h'.time gap now' low' hg (by rw [h.buf]; exact hb) h2
    omega

theorem Cost.mono {L K K' : Nat} {w w1 : World} {es : List Event} (h : Cost L K w es w1) (hk : K ≤ K') : Cost L K' w es w1 :=
  { h with time := fun gap now low hg hb hc => Nat.le_trans (h.time gap now low hg hb hc) hk }

def Fast {α : Type} (L K : Nat) (m : M α) (Q : α → World → Prop) (w : World) : Prop :=
  wp m (fun a w' => (∃ es, Cost L K w es w') ∧ Q a w') (fun w' => ∃ es, Cost L K w es w' ∧ Dry w'.env) (fun _ => True) w

/-- What stays the same. -/
def SameSize (w w' : World) : Prop :=
  w'.ctx.tables.outgoing.length = w.ctx.tables.outgoing.length ∧ w'.ctx.bufSize = w.ctx.bufSize ∧ w'.env.clock.length ≤ w.env.clock.length ∧
    w'.env.recvs.length ≤ w.env.recvs.length

section
variable {α β : Type} {L K K1 K2 : Nat} {w : World} {Q : α → World → Prop}

theorem Fast.mono {Q' : α → World → Prop} {m : M α} (h : Fast L K1 m Q w) (hk : K1 ≤ K)
    (hq : ∀ a w', SameSize w w' → Q a w' → Q' a w') : Fast L K m Q' w :=
  wp_mono h (fun a w' ⟨⟨es, hc⟩, hq'⟩ => ⟨⟨es, hc.mono hk⟩, hq a w' ⟨hc.cap, hc.buf, hc.clock.1, hc.recvs.1⟩ hq'⟩)
    (fun _ ⟨es, hc, hd⟩ => ⟨es, hc.mono hk, hd⟩) (fun _ h => h)

theorem Fast.weaken {m : M α} (h : Fast L K1 m Q w) (hk : K1 ≤ K) : Fast L K m (fun _ _ => True) w :=
  h.mono hk (fun _ _ _ _ => trivial)

theorem Fast.bind {m : M β} {f : β → M α} {P : β → World → Prop} (hm : Fast L K1 m P w)
    (hf : ∀ b w', SameSize w w' → P b w' → Fast L K2 (f b) Q w') (hk : K1 + K2 ≤ K) : Fast L K (m >>= f) Q w := by
  unfold Fast
  rw [wp_bind]
  refine wp_mono hm ?_ ?_ (fun _ h => h)
  · rintro b w1 ⟨⟨es, hc⟩, hp⟩
    refine wp_mono (hf b w1 ⟨hc.cap, hc.buf, hc.clock.1, hc.recvs.1⟩ hp) ?_ ?_ (fun _ h => h)
    · rintro a w2 ⟨⟨es2, hc2⟩, hq⟩
      exact ⟨⟨_, (hc.trans hc2).mono hk⟩, hq⟩
    · rintro w2 ⟨es2, hc2, hd⟩
      exact ⟨_, (hc.trans hc2).mono hk, hd⟩
  · rintro w1 ⟨es, hc, hd⟩
    exact ⟨es, hc.mono (by omega), hd⟩

theorem Fast.pure {a : α} (h : Q a w) : Fast L K (pure a) Q w := ⟨⟨[], Cost.refl L K w⟩, h⟩

theorem Fast.ub (e : UB) : Fast L K (ubM e) Q w := trivial

theorem Fast.ite {c : Prop} [Decidable c] {a b : M α} (h1 : c → Fast L K a Q w) (h2 : ¬ c → Fast L K b Q w) :
    Fast L K (if c then a else b) Q w := (wp_ite c a b).mpr ⟨h1, h2⟩

theorem Fast.getCtx {f : Ctx → M α} (h : Fast L K (f w.ctx) Q w) : Fast L K (getCtx >>= f) Q w := h

theorem Fast.liftRes {r : Res β} {f : β → M α} (h : ∀ b, r = .ok b → Fast L K (f b) Q w) : Fast L K (liftRes r >>= f) Q w := by
  cases r with
  | ok b => exact h b rfl
  | ub e => exact trivial

/-- A change of the context that keeps the sizes. -/
theorem Cost.ctx (L K : Nat) (w : World) {c : Ctx} (h1 : c.tables.outgoing.length = w.ctx.tables.outgoing.length) (h2 : c.bufSize = w.ctx.bufSize) :
    Cost L K w [] { w with ctx := c } :=
  ⟨⟨by simp, by simp, by simp, by simp, by simp, by simp, h1, h2⟩, fun _ _ _ _ _ _ => Nat.zero_le _⟩

theorem Fast.modify {f : Ctx → Ctx} {Q : Unit → World → Prop} (h1 : (f w.ctx).tables.outgoing.length = w.ctx.tables.outgoing.length) (h2 : (f w.ctx).bufSize = w.ctx.bufSize)
    (hq : Q () { w with ctx := f w.ctx }) : Fast L K (modifyCtx f) Q w := ⟨⟨[], Cost.ctx L K w h1 h2⟩, hq⟩

theorem Cost.emit (L : Nat) (w : World) (e : Event) : Cost L 1 w [e] { w with trace := w.trace ++ [e] } :=
  ⟨⟨rfl, by simp, by simp, by simp, by simp, by simp, rfl, rfl⟩, fun _ _ _ _ _ _ => by simp⟩

theorem Fast.emit (e : Event) : Fast L 1 (emit e) (fun _ _ => True) w := ⟨⟨[e], Cost.emit L w e⟩, trivial⟩

theorem Fast.pre : Fast L 1 preHook (fun _ _ => True) w := Fast.emit _
theorem Fast.post : Fast L 1 postHook (fun _ _ => True) w := Fast.emit _

theorem Cost.tick (L : Nat) {w : World} {t : UInt32} {rest : List UInt32} (h : w.env.clock = t :: rest) :
    Cost L 1 w [.time t] { w with env := { w.env with clock := rest }, trace := w.trace ++ [.time t] } :=
  ⟨⟨rfl, by simp, by simp, by simp [h], by simp, by simp, rfl, rfl⟩, fun _ _ _ _ _ _ => by simp⟩

theorem Fast.time : Fast L 1 getTime (fun _ w' => w'.env.clock.length < w.env.clock.length) w :=
  wp_getTime' (fun h => ⟨[], Cost.refl L 1 w, Or.inr (Or.inr (Or.inl h))⟩) fun t rest h => ⟨⟨_, Cost.tick L h⟩, by simp [h]⟩

/-- A receive call. -/
theorem Fast.recv (n : Nat) : Fast L 1 (transportRecv n) (fun r w' => (∀ bs, r = some bs → bs.length ≤ n) ∧ w'.env.recvs.length < w.env.recvs.length ∧
    w'.ctx = w.ctx ∧ ∃ e, isRecvd e = true ∧ Cost L 1 w [e] w') w := by
  unfold Fast wp transportRecv
  cases hr : w.env.recvs with
  | nil => exact ⟨[], Cost.refl L 1 w, Or.inr (Or.inl hr)⟩
  | cons a rest =>
    cases a with
    | fail =>
      have : Cost L 1 w [.recvd n none] { w with env := { w.env with recvs := rest }, trace := w.trace ++ [.recvd n none] } :=
        ⟨⟨rfl, by simp, by simp [hr], by simp, by simp, by simp, rfl, rfl⟩, fun _ _ _ _ _ _ => by simp⟩
      exact ⟨⟨_, this⟩, by simp, by simp [hr], rfl, _, rfl, this⟩
    | deliver k =>
      have : Cost L 1 w [.recvd n (some (w.env.input.take (min k n)))] { w with env := { w.env with recvs := rest, input := w.env.input.drop (min k n) }, trace := w.trace ++ [.recvd n (some (w.env.input.take (min k n)))] } :=
        ⟨⟨rfl, by simp, by simp [hr], by simp, by simp, by simp, rfl, rfl⟩, fun _ _ _ _ _ _ => by simp⟩
      exact ⟨⟨_, this⟩, by intro bs hb; cases hb; simp; omega, by simp [hr], rfl, _, rfl, this⟩

theorem Fast.store (id : UInt16) (vec : List IoVec) : Fast L 1 (storeCallback id vec) (fun _ _ => True) w := by
  unfold Fast wp storeCallback
  cases hr : w.env.stores with
  | nil => exact ⟨[], Cost.refl L 1 w, Or.inr (Or.inr (Or.inr (Or.inl hr)))⟩
  | cons a rest => exact ⟨⟨_, ⟨⟨rfl, by simp, by simp, by simp, by simp [hr], by simp, rfl, rfl⟩, fun _ _ _ _ _ _ => by simp⟩⟩, trivial⟩

theorem Fast.retrieve (id : UInt16) : Fast L 1 (retrieveCallback id) (fun _ _ => True) w := by
  unfold Fast wp retrieveCallback
  cases hr : w.env.retrieves with
  | nil => exact ⟨[], Cost.refl L 1 w, Or.inr (Or.inr (Or.inr (Or.inr hr)))⟩
  | cons a rest => exact ⟨⟨_, ⟨⟨rfl, by simp, by simp, by simp, by simp, by simp [hr], rfl, rfl⟩, fun _ _ _ _ _ _ => by simp⟩⟩, trivial⟩

/-- A function of the state engine that keeps the size of the outgoing array. -/
theorem Fast.tables {f : Tables → Res (α × Tables)} (h : ∀ a t, f w.ctx.tables = .ok (a, t) → t.outgoing.length = w.ctx.tables.outgoing.length) :
    Fast L K (onTables f) (fun _ _ => True) w := by
  unfold Fast wp onTables
  cases hr : f w.ctx.tables with
  | ub e => exact trivial
  | ok x => exact ⟨⟨[], Cost.ctx L K w (h x.1 x.2 hr) rfl⟩, trivial⟩

theorem Fast.markPending : Fast L 0 markPending (fun _ _ => True) w := by
  refine Fast.modify ?_ ?_ trivial
  · split <;> rfl
  · split <;> rfl

theorem Fast.markPendingHooked : Fast L 2 markPendingHooked (fun _ _ => True) w :=
  Fast.pre.bind (fun _ _ _ _ => Fast.markPending.bind (fun _ _ _ _ => Fast.post) (Nat.le_refl _)) (Nat.le_refl _)

end

/-! ### Sending -/

theorem length_of_kinds {es : List Event} (h : ∀ e ∈ es, isSendOrTime e = true) : es.length = sendCalls es + clockReads es := by
  induction es with
  | nil => rfl
  | cons e es ih =>
    have h1 := h e List.mem_cons_self
    have h2 := ih (fun x hx => h x (List.mem_cons_of_mem _ hx))
    rw [List.length_cons, sendCalls_cons, clockReads_cons, h2]
    cases e <;> simp [isSendOrTime] at h1 <;> simp [isSent, isTime] <;> omega

theorem Cost.send {L calls todo : Nat} {w w' : World} {es : List Event} (hd : SendDelta w es w') (hu : Used w es w') (hb : OpBounds calls todo es)
    (hL : calls ≤ L) : Cost L (3 * calls + 1) w es w' := by
  obtain ⟨t, hc⟩ := hd.ctx
  obtain ⟨s, c, he⟩ := hd.env
  have hl := length_of_kinds hd.kinds
  have h1 := hu.sends
  have h2 := hu.clock
  refine ⟨⟨hu.trace, by omega, by rw [he]; simp, by omega, by rw [he]; simp, by rw [he]; simp, by rw [hc], by rw [hc]; rfl⟩, ?_⟩
  intro gap now low hg _ hcl
  have := hb.clock gap now low (by omega) (hcl.real (Nat.le_refl _))
  have := hb.reads
  omega

theorem sendBuffer_fast {L : Nat} (g : Cfg) (bytes : List UInt8) (w : World) (hL : g.sendTimeoutMs.toNat + 1 ≤ L) :
    Fast L (sendBound g) (sendBuffer g bytes) (fun _ _ => True) w := by
  refine wp_mono (wp_and (sendBuffer_spec g bytes w) (sendBuffer_count g bytes w)) ?_ ?_ (fun _ _ => trivial)
  · rintro r w' ⟨⟨es, n, hd, _⟩, es', hu, hb⟩
    have : es' = es := List.append_cancel_left (hu.trace.symm.trans hd.trace)
    subst this
    exact ⟨⟨es', (Cost.send hd hu hb (L := L) (by omega)).mono (by unfold sendBound; omega)⟩, trivial⟩
  · rintro w' ⟨⟨es, hd, _⟩, es', hu, hb, hor⟩
    have : es' = es := List.append_cancel_left (hu.trace.symm.trans hd.trace)
    subst this
    refine ⟨es', (Cost.send hd hu hb (L := L) (by omega)).mono (by unfold sendBound; omega), ?_⟩
    rcases hor with h | h
    · exact Or.inl h
    · exact Or.inr (Or.inr (Or.inl h))

theorem sendMessageVector_fast {L : Nat} (g : Cfg) (vec : List IoVec) (w : World) (hL : g.sendTimeoutMs.toNat + 1 ≤ L) :
    Fast L (sendBound g) (sendMessageVector g vec) (fun _ _ => True) w := by
  cases hr : resolveVec vec with
  | ub e =>
    unfold Fast wp sendMessageVector
    rw [hr]
    exact trivial
  | ok vecs =>
    by_cases hne : vec = []
    · subst hne; cases hr; exact trivial
    refine wp_mono (wp_and (sendMessageVector_spec g vec vecs hr hne w) (sendMessageVector_count g vec vecs hr hne w)) ?_ ?_ (fun _ _ => trivial)
    · rintro r w' ⟨⟨es, n, hd, _⟩, es', hu, hb⟩
      have : es' = es := List.append_cancel_left (hu.trace.symm.trans hd.trace)
      subst this
      exact ⟨⟨es', (Cost.send hd hu hb (L := L) (by omega)).mono (by unfold sendBound; omega)⟩, trivial⟩
    · rintro w' ⟨⟨es, hd, _⟩, es', hu, hb, hor⟩
      have : es' = es := List.append_cancel_left (hu.trace.symm.trans hd.trace)
      subst this
      refine ⟨es', (Cost.send hd hu hb (L := L) (by omega)).mono (by unfold sendBound; omega), ?_⟩
      rcases hor with h | h
      · exact Or.inl h
      · exact Or.inr (Or.inr (Or.inl h))

end Mqtt
