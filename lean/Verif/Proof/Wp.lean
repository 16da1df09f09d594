/-
Weakest preconditions for the state transformers of `Verif/Model/World`.
`wp m Q E U w`: running `m` from `w` either returns `a` in a world satisfying `Q a`, or does not return and the world satisfies
`E`, or has undefined behaviour and the world satisfies `U`.
-/
import Verif.Model.Api

namespace Mqtt

def wp {α : Type} (m : M α) (Q : α → World → Prop) (E U : World → Prop) (w : World) : Prop :=
  match m w with
  | .done a w' => Q a w'
  | .stuck w' => E w'
  | .ub _ w' => U w'

section
variable {α β : Type} {Q : α → World → Prop} {E U : World → Prop} {w : World}

theorem wp_pure (a : α) : wp (pure a) Q E U w ↔ Q a w := Iff.rfl

theorem wp_bind (m : M β) (f : β → M α) :
    wp (m >>= f) Q E U w ↔ wp m (fun b w' => wp (f b) Q E U w') E U w := by
  show wp (M.bind m f) Q E U w ↔ _
  unfold wp M.bind
  cases m w <;> exact Iff.rfl

theorem wp_mono {m : M α} {Q' : α → World → Prop} {E' U' : World → Prop} (h : wp m Q E U w)
    (hQ : ∀ a w', Q a w' → Q' a w') (hE : ∀ w', E w' → E' w') (hU : ∀ w', U w' → U' w') : wp m Q' E' U' w := by
  unfold wp at *
  cases hm : m w <;> simp only [hm] at h ⊢
  · exact hQ _ _ h
  · exact hE _ h
  · exact hU _ h

/-- Both postconditions hold. -/
theorem wp_and {m : M α} {Q' : α → World → Prop} {E' U' : World → Prop} (h : wp m Q E U w) (h' : wp m Q' E' U' w) :
    wp m (fun a w' => Q a w' ∧ Q' a w') (fun w' => E w' ∧ E' w') (fun w' => U w' ∧ U' w') w := by
  unfold wp at *
  cases hm : m w <;> simp only [hm] at h h' ⊢ <;> exact ⟨h, h'⟩

theorem wp_stuckM : wp (stuckM : M α) Q E U w ↔ E w := Iff.rfl
theorem wp_ubM (e : UB) : wp (ubM e : M α) Q E U w ↔ U w := Iff.rfl

theorem wp_ite (c : Prop) [Decidable c] (a b : M α) :
    wp (if c then a else b) Q E U w ↔ (c → wp a Q E U w) ∧ (¬ c → wp b Q E U w) := by
  by_cases h : c <;> simp [h]

theorem wp_liftRes (r : Res α) :
    wp (liftRes r) Q E U w ↔ (match r with | .ok a => Q a w | .ub _ => U w) := by
  cases r <;> exact Iff.rfl

theorem wp_liftRes_ok {r : Res α} {a : α} (h : r = .ok a) : wp (liftRes r) Q E U w ↔ Q a w := by
  subst h; exact Iff.rfl

end

section
variable {E U : World → Prop} {w : World}

theorem wp_getCtx {Q : Ctx → World → Prop} : wp getCtx Q E U w ↔ Q w.ctx w := Iff.rfl

theorem wp_modifyCtx {Q : Unit → World → Prop} (f : Ctx → Ctx) :
    wp (modifyCtx f) Q E U w ↔ Q () { w with ctx := f w.ctx } := Iff.rfl

theorem wp_emit {Q : Unit → World → Prop} (e : Event) :
    wp (emit e) Q E U w ↔ Q () { w with trace := w.trace ++ [e] } := Iff.rfl

theorem wp_preHook {Q : Unit → World → Prop} :
    wp preHook Q E U w ↔ Q () { w with trace := w.trace ++ [.pre] } := Iff.rfl

theorem wp_postHook {Q : Unit → World → Prop} :
    wp postHook Q E U w ↔ Q () { w with trace := w.trace ++ [.post] } := Iff.rfl

theorem wp_clearCallback {Q : Unit → World → Prop} (id : UInt16) :
    wp (clearCallback id) Q E U w ↔ Q () { w with trace := w.trace ++ [.clear id] } := Iff.rfl

theorem wp_sendFuel {Q : Nat → World → Prop} : wp sendFuel Q E U w ↔ Q (w.env.sends.length + 1) w := Iff.rfl
theorem wp_recvFuel {Q : Nat → World → Prop} : wp recvFuel Q E U w ↔ Q (w.env.recvs.length + 1) w := Iff.rfl
theorem wp_clockFuel {Q : Nat → World → Prop} : wp clockFuel Q E U w ↔ Q (w.env.clock.length + 1) w := Iff.rfl

theorem wp_getTime {Q : UInt32 → World → Prop} (hE : E w)
    (h : ∀ t rest, w.env.clock = t :: rest →
      Q t { w with env := { w.env with clock := rest }, trace := w.trace ++ [.time t] }) :
    wp getTime Q E U w := by
  unfold wp getTime
  cases hc : w.env.clock with
  | nil => exact hE
  | cons t rest => exact h t rest hc

/-- The same, knowing that the clock did not answer when the call does not return. -/
theorem wp_getTime' {Q : UInt32 → World → Prop} (hE : w.env.clock = [] → E w)
    (h : ∀ t rest, w.env.clock = t :: rest →
      Q t { w with env := { w.env with clock := rest }, trace := w.trace ++ [.time t] }) :
    wp getTime Q E U w := by
  unfold wp getTime
  cases hc : w.env.clock with
  | nil => exact hE hc
  | cons t rest => exact h t rest hc

theorem wp_transportSend {Q : Option Nat → World → Prop} {bytes : List UInt8} (hE : E w)
    (h : ∀ a rest r, w.env.sends = a :: rest → (∀ k, r = some k → k ≤ bytes.length) →
      Q r { w with env := { w.env with sends := rest }, trace := w.trace ++ [.sent bytes r] }) :
    wp (transportSend bytes) Q E U w := by
  unfold wp transportSend
  cases hc : w.env.sends with
  | nil => exact hE
  | cons a rest =>
    cases a with
    | fail => exact h _ rest none hc (by simp)
    | accept k => exact h _ rest (some (min k bytes.length)) hc (by intro j hj; cases hj; exact Nat.min_le_right _ _)

theorem wp_transportRecv {Q : Option (List UInt8) → World → Prop} {n : Nat} (hE : E w)
    (hfail : ∀ rest, w.env.recvs = .fail :: rest →
      Q none { w with env := { w.env with recvs := rest }, trace := w.trace ++ [.recvd n none] })
    (h : ∀ k rest, w.env.recvs = .deliver k :: rest →
      Q (some (w.env.input.take (min k n)))
        { w with env := { w.env with recvs := rest, input := w.env.input.drop (min k n) },
                 trace := w.trace ++ [.recvd n (some (w.env.input.take (min k n)))] }) :
    wp (transportRecv n) Q E U w := by
  unfold wp transportRecv
  cases hc : w.env.recvs with
  | nil => exact hE
  | cons a rest =>
    cases a with
    | fail => exact hfail rest hc
    | deliver k => exact h k rest hc

theorem wp_storeCallback {Q : Bool → World → Prop} {id : UInt16} {vec : List IoVec} (hE : E w)
    (h : ∀ b rest, w.env.stores = b :: rest →
      Q b { w with env := { w.env with stores := rest }, trace := w.trace ++ [.store id vec b] }) :
    wp (storeCallback id vec) Q E U w := by
  unfold wp storeCallback
  cases hc : w.env.stores with
  | nil => exact hE
  | cons t rest => exact h t rest hc

theorem wp_retrieveCallback {Q : Option (List UInt8) → World → Prop} {id : UInt16} (hE : E w)
    (h : ∀ b rest, w.env.retrieves = b :: rest →
      Q b { w with env := { w.env with retrieves := rest }, trace := w.trace ++ [.retrieve id b] }) :
    wp (retrieveCallback id) Q E U w := by
  unfold wp retrieveCallback
  cases hc : w.env.retrieves with
  | nil => exact hE
  | cons t rest => exact h t rest hc

theorem wp_onTables {α : Type} {Q : α → World → Prop} (f : Tables → Res (α × Tables)) :
    wp (onTables f) Q E U w ↔
      (match f w.ctx.tables with
       | .ok (a, t) => Q a { w with ctx := { w.ctx with tables := t } }
       | .ub _ => U w) := by
  unfold wp onTables
  cases f w.ctx.tables with
  | ok p => cases p; exact Iff.rfl
  | ub e => exact Iff.rfl

end

end Mqtt
