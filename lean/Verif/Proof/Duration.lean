/-
A Hoare logic for real time: `H` relates the time and the number of bytes received before and after a piece of the program.
-/
import Verif.Spec.Duration
import Verif.Proof.FastApi

namespace Mqtt.Duration
open Spec

def Inv (K N : Nat) (w : World) : Prop := (0 < w.ctx.bufSize ∧ w.ctx.bufSize = K) ∧ w.ctx.tables.outgoing.length = N

def result {α : Type} : Out α → Option α
  | .done a _ => some a
  | _ => none

/-- `A` holds of the time and the number of bytes received so far when `m` starts; then `R` does when it ends (or waits forever: `none`). -/
def H (K D N : Nat) {α : Type} (A : Nat → Nat → Prop) (m : M α) (R : Option α → Nat → Nat → Prop) : Prop :=
  ∀ w, Inv K N w → ∃ es, (m w).world.trace = w.trace ++ es ∧ Inv K N (m w).world ∧
    ∀ t b t', A t b → Timed D t es t' → R (result (m w)) t' (b + (received es).length)

theorem timed_append {D : Nat} : ∀ {a b : List Event} {t t' : Nat}, Timed D t (a ++ b) t' → ∃ u, Timed D t a u ∧ Timed D u b t'
  | [], _, t, _, h => ⟨t, rfl, h⟩
  | e :: a, b, t, t', h => by
    cases e with
    | time x =>
      obtain ⟨r, u, h1, h2, h3, h4, h5⟩ := h
      obtain ⟨v, h6, h7⟩ := timed_append h5
      exact ⟨v, ⟨r, u, h1, h2, h3, h4, h6⟩, h7⟩
    | _ =>
      obtain ⟨u, h1, h2, h5⟩ := h
      obtain ⟨v, h6, h7⟩ := timed_append h5
      exact ⟨v, ⟨u, h1, h2, h6⟩, h7⟩

section
variable {K D N : Nat} {α β : Type} {A : Nat → Nat → Prop} {R : Option α → Nat → Nat → Prop}

theorem H.bind {m : M β} {f : β → M α} (P : Option β → Nat → Nat → Prop) (hm : H K D N A m P) (hf : ∀ x, H K D N (P (some x)) (f x) R)
    (hn : ∀ t b, P none t b → R none t b) : H K D N A (m >>= f) R := by
  intro w hi
  obtain ⟨es, h1, h2, h3⟩ := hm w hi
  show ∃ es, (M.bind m f w).world.trace = _ ∧ Inv K N (M.bind m f w).world ∧ ∀ t b t', _ → _ → R (result (M.bind m f w)) _ _
  unfold M.bind
  cases he : m w with
  | done a w' =>
    rw [he] at h1 h2 h3
    obtain ⟨es', k1, k2, k3⟩ := hf a w' h2
    refine ⟨es ++ es', by rw [show (f a w').world.trace = _ from k1, show w'.trace = _ from h1, List.append_assoc], k2, fun t b t' ha ht => ?_⟩
    obtain ⟨u, t1, t2⟩ := timed_append ht
    have := k3 u _ t' (h3 t b u ha t1) t2
    rwa [Nat.add_assoc, ← List.length_append, ← received_append] at this
  | stuck w' =>
    rw [he] at h1 h2 h3
    exact ⟨es, h1, h2, fun t b t' ha ht => hn _ _ (h3 t b t' ha ht)⟩
  | ub x w' =>
    rw [he] at h1 h2 h3
    exact ⟨es, h1, h2, fun t b t' ha ht => hn _ _ (h3 t b t' ha ht)⟩

theorem H.mono {A' : Nat → Nat → Prop} {R' : Option α → Nat → Nat → Prop} {m : M α} (h : H K D N A m R) (ha : ∀ t b, A' t b → A t b)
    (hr : ∀ x t b, R x t b → R' x t b) : H K D N A' m R' := by
  intro w hi
  obtain ⟨es, h1, h2, h3⟩ := h w hi
  exact ⟨es, h1, h2, fun t b t' h4 h5 => hr _ _ _ (h3 t b t' (ha _ _ h4) h5)⟩

theorem H.quiet {m : M α} (h : ∀ w, Inv K N w → (m w).world.trace = w.trace ∧ Inv K N (m w).world ∧ ∀ t b, A t b → R (result (m w)) t b) : H K D N A m R := by
  intro w hi
  obtain ⟨h1, h2, h3⟩ := h w hi
  refine ⟨[], by simp [h1], h2, fun t b t' ha ht => ?_⟩
  cases ht
  exact h3 _ _ ha

theorem H.pure {a : α} (h : ∀ t b, A t b → R (some a) t b) : H K D N A (pure a) R := H.quiet fun w hi => ⟨rfl, hi, h⟩
theorem H.stuck (h : ∀ t b, A t b → R none t b) : H K D N A stuckM R := H.quiet fun w hi => ⟨rfl, hi, h⟩
theorem H.ub {e : UB} (h : ∀ t b, A t b → R none t b) : H K D N A (ubM e) R := H.quiet fun w hi => ⟨rfl, hi, h⟩
theorem H.ite {c : Prop} [Decidable c] {x y : M α} (h1 : c → H K D N A x R) (h2 : ¬ c → H K D N A y R) : H K D N A (if c then x else y) R := by
  split
  · exact h1 ‹_›
  · exact h2 ‹_›

theorem H.getCtx {f : Ctx → M α} (h : ∀ c : Ctx, 0 < c.bufSize → c.tables.outgoing.length = N → H K D N A (f c) R) : H K D N A (getCtx >>= f) R := by
  intro w hi
  exact h w.ctx hi.1.1 hi.2 w hi

/-- The buffer has the size `K`. -/
theorem H.getCtxK {f : Ctx → M α} (h : ∀ c : Ctx, 0 < c.bufSize → c.bufSize = K → H K D N A (f c) R) : H K D N A (Mqtt.getCtx >>= f) R := by
  intro w hi
  exact h w.ctx hi.1.1 hi.1.2 w hi

theorem H.lift {r : Res β} {f : β → M α} (h : ∀ x, r = .ok x → H K D N A (f x) R) (hn : ∀ t b, A t b → R none t b) : H K D N A (liftRes r >>= f) R := by
  cases r with
  | ok x => exact h x rfl
  | ub e => exact H.ub hn

theorem H.modify {f : Ctx → Ctx} {k : Unit → M α} (h1 : ∀ c : Ctx, (f c).bufSize = c.bufSize) (h2 : ∀ c : Ctx, (f c).tables.outgoing.length = c.tables.outgoing.length)
    (h : H K D N A (k ()) R) : H K D N A (modifyCtx f >>= k) R := by
  intro w hi
  exact h { w with ctx := f w.ctx } ⟨by rw [h1]; exact hi.1, by rw [h2]; exact hi.2⟩

theorem H.fuelS {f : Nat → M α} (h : ∀ n, H K D N A (f n) R) : H K D N A (sendFuel >>= f) R := fun w hi => h _ w hi
theorem H.fuelR {f : Nat → M α} (h : ∀ n, H K D N A (f n) R) : H K D N A (recvFuel >>= f) R := fun w hi => h _ w hi
theorem H.fuelC {f : Nat → M α} (h : ∀ n, H K D N A (f n) R) : H K D N A (clockFuel >>= f) R := fun w hi => h _ w hi

theorem H.tables {f : Tables → Res (α × Tables)} (h : ∀ t a t', f t = .ok (a, t') → t'.outgoing.length = t.outgoing.length)
    (hr : ∀ x t b, A t b → R x t b) : H K D N A (onTables f) R := by
  refine H.quiet fun w hi => ?_
  unfold onTables
  cases hf : f w.ctx.tables with
  | ub e => exact ⟨rfl, hi, hr none⟩
  | ok x => exact ⟨rfl, ⟨hi.1, (h _ _ _ hf).trans hi.2⟩, hr _⟩

/-- An event that is no reception and no reading of the clock. -/
theorem H.event {m : M α} (h : ∀ w, (m w).world.ctx = w.ctx ∧ ((m w).world.trace = w.trace ∧ result (m w) = none ∨
      ∃ e, (m w).world.trace = w.trace ++ [e] ∧ (match e with | .time _ | .recvd .. => False | _ => True)))
    (hn : ∀ t b, A t b → R none t b) (hr : ∀ x t b u, A t b → t ≤ u → u ≤ t + D → R x u b) : H K D N A m R := by
  intro w hi
  obtain ⟨h1, h2 | ⟨e, h2, h3⟩⟩ := h w
  · refine ⟨[], by simp [h2.1], by unfold Inv; rw [h1]; exact hi, fun t b t' ha ht => ?_⟩
    cases ht
    rw [h2.2]
    exact hn _ _ ha
  · refine ⟨[e], h2, by unfold Inv; rw [h1]; exact hi, fun t b t' ha ht => ?_⟩
    cases e with
    | time x => exact h3.elim
    | recvd n r => exact h3.elim
    | _ =>
      obtain ⟨u, k1, k2, k3⟩ := ht
      cases k3
      exact hr _ _ _ _ ha k1 k2

theorem H.pre {R : Option Unit → Nat → Nat → Prop} (hn : ∀ t b, A t b → R none t b) (hr : ∀ t b u, A t b → t ≤ u → u ≤ t + D → R (some ()) u b) : H K D N A preHook R := by
  intro w hi
  refine ⟨[.pre], rfl, hi, fun t b t' ha ht => ?_⟩
  obtain ⟨u, k1, k2, k3⟩ := ht
  cases k3
  exact hr _ _ _ ha k1 k2

theorem H.time {R : Option UInt32 → Nat → Nat → Prop} (hn : ∀ t b, A t b → R none t b)
    (hr : ∀ t b r u, A t b → t ≤ r → r ≤ u → u ≤ t + D → R (some (UInt32.ofNat r)) u b) : H K D N A getTime R := by
  intro w hi
  unfold getTime
  cases h : w.env.clock with
  | nil =>
    refine ⟨[], by simp [Out.world], hi, fun t b t' ha ht => ?_⟩
    cases ht
    exact hn _ _ ha
  | cons x rest =>
    refine ⟨[.time x], rfl, hi, fun t b t' ha ht => ?_⟩
    obtain ⟨r, u, k1, k2, k3, k4, k5⟩ := ht
    cases k5
    subst k4
    exact hr _ _ _ _ ha k1 k2 k3

theorem H.recv {n : Nat} {R : Option (Option (List UInt8)) → Nat → Nat → Prop} (hn : ∀ t b, A t b → R none t b)
    (h0 : ∀ t b u, A t b → t ≤ u → u ≤ t + D → R (some none) u b)
    (h1 : ∀ t b u bs, A t b → t ≤ u → u ≤ t + D → bs.length ≤ n → R (some (some bs)) u (b + bs.length)) : H K D N A (transportRecv n) R := by
  intro w hi
  unfold transportRecv
  cases h : w.env.recvs with
  | nil =>
    refine ⟨[], by simp [Out.world], hi, fun t b t' ha ht => ?_⟩
    cases ht
    exact hn _ _ ha
  | cons x rest =>
    cases x with
    | fail =>
      refine ⟨[.recvd n none], rfl, hi, fun t b t' ha ht => ?_⟩
      obtain ⟨u, k1, k2, k3⟩ := ht
      cases k3
      exact h0 _ _ _ ha k1 k2
    | deliver m =>
      refine ⟨[.recvd n (some (w.env.input.take (min m n)))], rfl, hi, fun t b t' ha ht => ?_⟩
      obtain ⟨u, k1, k2, k3⟩ := ht
      cases k3
      have := h1 _ _ _ (w.env.input.take (min m n)) ha k1 k2 (by simp; omega)
      simpa [received, result] using this

/-! ### Events of a piece that only emits -/

theorem send_event (bs : List UInt8) (w : World) : (transportSend bs w).world.ctx = w.ctx ∧
    ((transportSend bs w).world.trace = w.trace ∧ result (transportSend bs w) = none ∨
      ∃ e, (transportSend bs w).world.trace = w.trace ++ [e] ∧ (match e with | .time _ | .recvd .. => False | _ => True)) := by
  unfold transportSend
  cases w.env.sends with
  | nil => exact ⟨rfl, .inl ⟨rfl, rfl⟩⟩
  | cons x r => cases x <;> exact ⟨rfl, .inr ⟨_, rfl, trivial⟩⟩

theorem store_event (id : UInt16) (v : List IoVec) (w : World) : (storeCallback id v w).world.ctx = w.ctx ∧
    ((storeCallback id v w).world.trace = w.trace ∧ result (storeCallback id v w) = none ∨
      ∃ e, (storeCallback id v w).world.trace = w.trace ++ [e] ∧ (match e with | .time _ | .recvd .. => False | _ => True)) := by
  unfold storeCallback
  cases w.env.stores with
  | nil => exact ⟨rfl, .inl ⟨rfl, rfl⟩⟩
  | cons x r => exact ⟨rfl, .inr ⟨_, rfl, trivial⟩⟩

theorem retrieve_event (id : UInt16) (w : World) : (retrieveCallback id w).world.ctx = w.ctx ∧
    ((retrieveCallback id w).world.trace = w.trace ∧ result (retrieveCallback id w) = none ∨
      ∃ e, (retrieveCallback id w).world.trace = w.trace ++ [e] ∧ (match e with | .time _ | .recvd .. => False | _ => True)) := by
  unfold retrieveCallback
  cases w.env.retrieves with
  | nil => exact ⟨rfl, .inl ⟨rfl, rfl⟩⟩
  | cons x r => exact ⟨rfl, .inr ⟨_, rfl, trivial⟩⟩

/-! ### Durations -/

/-- `m` takes at most `B` milliseconds, and `P` for each byte received. -/
def Dur (K D N P B : Nat) {α : Type} (m : M α) : Prop :=
  ∀ c x, H K D N (fun t b => t + x ≤ c + b * P) m (fun _ t b => t + x ≤ c + B + b * P)

variable {P B a n : Nat}

theorem Dur.mono {m : M α} (h : Dur K D N P a m) (hle : a ≤ B) : Dur K D N P B m := fun c x => (h c x).mono (fun _ _ h => h) (fun _ t b h => by omega)

theorem Dur.bind {m : M β} {f : β → M α} (hm : Dur K D N P a m) (hle : a ≤ B) (hf : ∀ y, Dur K D N P (B - a) (f y)) : Dur K D N P B (m >>= f) := by
  intro c x
  refine (hm c x).bind _ (fun y => (hf y (c + a) x).mono (fun _ _ h => h) (fun _ t b h => by omega)) (fun t b h => by omega)

theorem Dur.free {m : M α} (h : ∀ w, Inv K N w → (m w).world.trace = w.trace ∧ Inv K N (m w).world) : Dur K D N P B m := fun c x =>
  H.quiet fun w hi => ⟨(h w hi).1, (h w hi).2, fun t b h => by omega⟩

theorem Dur.pure {y : α} : Dur K D N P B (pure y) := Dur.free fun _ hi => ⟨rfl, hi⟩
theorem Dur.stuck : Dur K D N P B (stuckM : M α) := Dur.free fun _ hi => ⟨rfl, hi⟩
theorem Dur.ub {e : UB} : Dur K D N P B (ubM e : M α) := Dur.free fun _ hi => ⟨rfl, hi⟩
theorem Dur.ite {c : Prop} [Decidable c] {x y : M α} (h1 : Dur K D N P B x) (h2 : Dur K D N P B y) : Dur K D N P B (if c then x else y) := by
  split
  · exact h1
  · exact h2
theorem Dur.getCtx {f : Ctx → M α} (h : ∀ c : Ctx, 0 < c.bufSize → c.tables.outgoing.length = N → Dur K D N P B (f c)) : Dur K D N P B (getCtx >>= f) :=
  fun c x => H.getCtx fun ct h1 h2 => h ct h1 h2 c x
theorem Dur.lift {r : Res β} {f : β → M α} (h : ∀ y, r = .ok y → Dur K D N P B (f y)) : Dur K D N P B (liftRes r >>= f) :=
  fun c x => H.lift (fun y hy => h y hy c x) (fun t b h => by omega)
theorem Dur.modify {f : Ctx → Ctx} {k : Unit → M α} (h1 : ∀ c : Ctx, (f c).bufSize = c.bufSize) (h2 : ∀ c : Ctx, (f c).tables.outgoing.length = c.tables.outgoing.length)
    (h : Dur K D N P B (k ())) : Dur K D N P B (modifyCtx f >>= k) := fun c x => H.modify h1 h2 (h c x)
theorem Dur.modify_end {f : Ctx → Ctx} (h1 : ∀ c : Ctx, (f c).bufSize = c.bufSize) (h2 : ∀ c : Ctx, (f c).tables.outgoing.length = c.tables.outgoing.length) :
    Dur K D N P B (modifyCtx f) := Dur.free fun w hi => ⟨rfl, by show 0 < (f w.ctx).bufSize ∧ (f w.ctx).bufSize = K; rw [h1]; exact hi.1, by show (f w.ctx).tables.outgoing.length = N; rw [h2]; exact hi.2⟩

theorem Dur.event {m : M α} (h : ∀ w, (m w).world.ctx = w.ctx ∧ ((m w).world.trace = w.trace ∧ result (m w) = none ∨
      ∃ e, (m w).world.trace = w.trace ++ [e] ∧ (match e with | .time _ | .recvd .. => False | _ => True))) : Dur K D N P D m :=
  fun c x => H.event h (fun t b h => by omega) (fun _ t b u h1 h2 h3 => by omega)

theorem Dur.pre : Dur K D N P D preHook := Dur.event fun _ => ⟨rfl, .inr ⟨.pre, rfl, trivial⟩⟩
theorem Dur.post : Dur K D N P D postHook := Dur.event fun _ => ⟨rfl, .inr ⟨.post, rfl, trivial⟩⟩
theorem Dur.app (pk : PacketInfo) (id : UInt16) (r : Status) (p : Option PublishInfo) : Dur K D N P D (appCallback pk id r p) :=
  Dur.event fun _ => ⟨rfl, .inr ⟨_, rfl, trivial⟩⟩
theorem Dur.clear (id : UInt16) : Dur K D N P D (clearCallback id) := Dur.event fun _ => ⟨rfl, .inr ⟨.clear id, rfl, trivial⟩⟩
theorem Dur.send (bs : List UInt8) : Dur K D N P D (transportSend bs) := Dur.event (send_event bs)
theorem Dur.store (id : UInt16) (v : List IoVec) : Dur K D N P D (storeCallback id v) := Dur.event (store_event id v)
theorem Dur.retrieve (id : UInt16) : Dur K D N P D (retrieveCallback id) := Dur.event (retrieve_event id)
theorem Dur.time : Dur K D N P D getTime := fun c x => H.time (fun t b h => by omega) (fun t b r u h1 h2 h3 h4 => by omega)
theorem Dur.recv (k : Nat) : Dur K D N P D (transportRecv k) := fun c x => H.recv (fun t b h => by omega) (fun t b u h1 h2 h3 => by omega)
  (fun t b u bs h1 h2 h3 h4 => by rw [Nat.add_mul]; omega)
theorem Dur.markPending : Dur K D N P 0 markPending := Dur.free fun w hi => ⟨rfl, by
  show 0 < (if _ then _ else _ : Ctx).bufSize ∧ (if _ then _ else _ : Ctx).bufSize = K; split <;> exact hi.1, by show (if _ then _ else _ : Ctx).tables.outgoing.length = N; split <;> exact hi.2⟩
theorem Dur.marked : Dur K D N P (2 * D) markPendingHooked := by
  unfold markPendingHooked
  exact Dur.pre.bind (by omega) fun _ => Dur.markPending.bind (by omega) fun _ => Dur.post.mono (by omega)

theorem Dur.tables {f : Tables → Res (α × Tables)} (h : ∀ t a t', f t = .ok (a, t') → t'.outgoing.length = t.outgoing.length) : Dur K D N P B (onTables f) :=
  fun c x => H.tables h (fun _ t b h => by omega)

end
end Mqtt.Duration
