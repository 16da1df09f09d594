/-
How many transport calls a send operation makes, and when it can fail to return.
-/
import Verif.Proof.SendLoop

namespace Mqtt
open Spec
set_option linter.unusedSimpArgs false

/-- Bookkeeping between two worlds: the events `es` used up exactly the answers that are gone. -/
structure Used (w : World) (es : List Event) (w' : World) : Prop where
  trace : w'.trace = w.trace ++ es
  sends : w.env.sends.length = w'.env.sends.length + sendCalls es
  clock : w.env.clock.length = w'.env.clock.length + clockReads es

theorem Used.refl (w : World) : Used w [] w := ⟨by simp, by simp [sendCalls_nil], by simp [clockReads_nil]⟩

theorem Used.trans {w w' w'' : World} {a b : List Event} (h : Used w a w') (h' : Used w' b w'') : Used w (a ++ b) w'' :=
  ⟨by rw [h'.trace, h.trace, List.append_assoc], by rw [sendCalls_append]; have := h.sends; have := h'.sends; omega,
   by rw [clockReads_append]; have := h.clock; have := h'.clock; omega⟩

/-- The events of one round: the call, the reading that records the transmission time, the reading for the timeout. -/
def roundEvents (bytes : List UInt8) (r : Option Nat) (t0 t : UInt32) : List Event :=
  .sent bytes r :: ((if r.any (fun k => decide (k > 0)) then [.time t0] else []) ++ [.time t])

/-- One round of either loop up to the reading of the clock. -/
theorem wp_round {Q : Option Nat → UInt32 → World → Prop} {E U : World → Prop} {w : World} (bytes : List UInt8)
    (hE : ∀ es w', Used w es w' → (w'.env.sends = [] ∨ w'.env.clock = []) → sendCalls es ≤ 1 → clockReads es ≤ 2 * sendCalls es → E w')
    (h : ∀ r t0 t w', Used w (roundEvents bytes r t0 t) w' → (∀ k, r = some k → k ≤ bytes.length) → w.ctx.hasWritev = w'.ctx.hasWritev →
      Q r t w') :
    wp (do let r ← transportSend bytes; noteSendResult r; let now ← getTime; pure (r, now)) (fun a => Q a.1 a.2) E U w := by
  rw [wp_bind]
  have hE0 : w.env.sends = [] → E w := fun h0 => hE [] w (Used.refl w) (Or.inl h0) (by simp [sendCalls_nil]) (by simp [clockReads_nil])
  unfold wp transportSend
  cases hs : w.env.sends with
  | nil => exact hE0 hs
  | cons a rest =>
    have gen : ∀ r, (∀ k, r = some k → k ≤ bytes.length) →
        wp (do noteSendResult r; let now ← getTime; pure (r, now)) (fun a => Q a.1 a.2) E U
          { w with env := { w.env with sends := rest }, trace := w.trace ++ [.sent bytes r] } := by
      intro r hk
      have h1 : Used w [.sent bytes r] { w with env := { w.env with sends := rest }, trace := w.trace ++ [.sent bytes r] } :=
        ⟨rfl, by simp [hs, sendCalls_cons, sendCalls_nil, isSent], by simp [clockReads_cons, clockReads_nil, isTime]⟩
      rw [wp_bind]
      have fin : ∀ w1 pre, Used w (.sent bytes r :: pre) w1 → clockReads pre ≤ 1 → sendCalls pre = 0 → w.ctx.hasWritev = w1.ctx.hasWritev →
          (∀ t, ∃ t0, .sent bytes r :: (pre ++ [.time t]) = roundEvents bytes r t0 t) →
          wp (do let now ← getTime; pure (r, now)) (fun a => Q a.1 a.2) E U w1 := by
        intro w1 pre hu hc hsc hww he
        rw [wp_bind]
        refine wp_getTime' (fun hcl => ?_) (fun t rest' hcl => ?_)
        · have h3 : sendCalls (.sent bytes r :: pre) = 1 + sendCalls pre := by simp [sendCalls_cons, isSent]
          have h4 : clockReads (.sent bytes r :: pre) = clockReads pre := by simp [clockReads_cons, isTime]
          exact hE _ _ hu (Or.inr hcl) (by omega) (by omega)
        · obtain ⟨t0, he⟩ := he t
          rw [wp_pure]
          refine h r t0 t _ ?_ hk hww
          rw [← he]
          have h2 : Used w1 [.time t] { w1 with env := { w1.env with clock := rest' }, trace := w1.trace ++ [.time t] } :=
            ⟨rfl, by simp [sendCalls_cons, sendCalls_nil, isSent], by simp [hcl, clockReads_cons, clockReads_nil, isTime]⟩
          exact hu.trans h2
      cases r with
      | none =>
        simp only [noteSendResult, markPending]
        rw [wp_modifyCtx]
        refine fin _ [] ⟨h1.trace, h1.sends, h1.clock⟩ (by simp [clockReads_nil]) (by simp [sendCalls_nil]) ?_ (fun t => ⟨0, by simp [roundEvents]⟩)
        show _ = Ctx.hasWritev (if _ then _ else _)
        split <;> rfl
      | some k =>
        simp only [noteSendResult]
        rw [wp_ite]
        constructor
        · intro hk0
          rw [wp_bind]
          refine wp_getTime' (fun hcl => ?_) (fun t0 rest' hcl => ?_)
          · exact hE _ _ h1 (Or.inr hcl) (by simp [sendCalls_cons, sendCalls_nil, isSent])
              (by simp [clockReads_cons, clockReads_nil, isTime])
          · have hcl' : w.env.clock = t0 :: rest' := hcl
            refine fin _ [.time t0] ⟨by simp, by simp [hs, sendCalls_cons, sendCalls_nil, isSent],
              by simp [hcl', clockReads_cons, clockReads_nil, isTime]⟩
              (by simp [clockReads_cons, clockReads_nil, isTime]) (by simp [sendCalls_cons, sendCalls_nil, isSent]) rfl
              (fun t => ⟨t0, by simp [roundEvents, hk0]⟩)
        · intro hk0
          rw [wp_pure]
          exact fin _ [] h1 (by simp [clockReads_nil]) (by simp [sendCalls_nil]) rfl (fun t => ⟨0, by simp [roundEvents, hk0]⟩)
    cases a with
    | fail => exact gen none (by simp)
    | accept k => exact gen (some (min k bytes.length)) (by intro j hj; cases hj; exact Nat.min_le_right _ _)

theorem roundEvents_calls (bytes : List UInt8) (r : Option Nat) (t0 t : UInt32) : sendCalls (roundEvents bytes r t0 t) = 1 := by
  unfold roundEvents
  split <;> simp [sendCalls_cons, sendCalls_nil, isSent]

theorem roundEvents_reads (bytes : List UInt8) (r : Option Nat) (t0 t : UInt32) : clockReads (roundEvents bytes r t0 t) ≤ 2 := by
  unfold roundEvents
  split <;> simp [clockReads_cons, clockReads_nil, isTime]

/-- After a round the clock has advanced. -/
theorem realClock_round {gap now : Nat} {bytes : List UInt8} {r : Option Nat} {t0 t : UInt32} {es : List Event}
    (h : realClock gap now now (roundEvents bytes r t0 t ++ es)) :
    ∃ T, now + 1 ≤ T ∧ T ≤ now + 2 * gap ∧ t = UInt32.ofNat T ∧ realClock gap T T es := by
  unfold roundEvents at h
  split at h
  · obtain ⟨T0, h1, h2, _, T, h3, h4, h5, h6⟩ := h
    exact ⟨T, by omega, by omega, h5, h6⟩
  · obtain ⟨T, h1, h2, h3, h4⟩ := h
    exact ⟨T, by omega, by omega, h3, h4⟩

theorem elapsed_ofNat {S T : Nat} (h1 : S ≤ T) (h2 : T - S < 2 ^ 32) :
    (calculateElapsedTime (UInt32.ofNat T) (UInt32.ofNat S)).toNat = T - S := by
  unfold calculateElapsedTime
  rw [UInt32.toNat_sub, UInt32.toNat_ofNat', UInt32.toNat_ofNat']
  omega

/-- What is claimed about the events of a send loop: bounds by the clock (`left` milliseconds are left before the timeout), by the
bytes and vectors left (`todo`), and two clock readings per call. -/
structure Bounds (g : Cfg) (S : UInt32) (tmo todo : Nat) (es : List Event) : Prop where
  reads : clockReads es ≤ 2 * sendCalls es
  clock : ∀ gap S' now, S = UInt32.ofNat S' → S' ≤ now → now - S' < tmo → tmo + 2 * gap < 2 ^ 32 →
    realClock gap now now es → sendCalls es ≤ tmo - (now - S')
  bytes : progress es → sendCalls es ≤ todo

theorem Bounds.nil (g : Cfg) (S : UInt32) (tmo todo : Nat) : Bounds g S tmo todo [] :=
  ⟨by simp [clockReads_nil], fun _ _ _ _ _ _ _ _ => by simp [sendCalls_nil], fun _ => by simp [sendCalls_nil]⟩

theorem Bounds.partialRound (g : Cfg) (S : UInt32) (tmo todo : Nat) (ht : 0 < todo) {es : List Event} (h1 : sendCalls es ≤ 1)
    (h2 : clockReads es ≤ 2 * sendCalls es) : Bounds g S tmo todo es :=
  ⟨h2, fun _ _ _ _ _ _ _ _ => by omega, fun _ => by omega⟩

theorem Bounds.round (g : Cfg) (S : UInt32) (tmo todo : Nat) (ht : 0 < todo) {bytes : List UInt8} {r : Option Nat} {t0 t : UInt32} :
    Bounds g S tmo todo (roundEvents bytes r t0 t) :=
  Bounds.partialRound g S tmo todo ht (by rw [roundEvents_calls]; exact Nat.le_refl 1)
    (by rw [roundEvents_calls]; exact roundEvents_reads _ _ _ _)

theorem Bounds.cons (g : Cfg) (S : UInt32) (tmo todo todo' : Nat) {bytes : List UInt8} {k : Nat} {t0 t : UInt32} {es : List Event}
    (ht : (bytes ≠ [] → 1 ≤ k) → todo' + 1 ≤ todo) (hcont : (calculateElapsedTime t S).toNat < tmo)
    (h : Bounds g S tmo todo' es) : Bounds g S tmo todo (roundEvents bytes (some k) t0 t ++ es) := by
  refine ⟨?_, ?_, ?_⟩
  · rw [clockReads_append, sendCalls_append, roundEvents_calls]
    have := roundEvents_reads bytes (some k) t0 t
    have := h.reads
    omega
  · intro gap S' now hS hle hlt hgap hc
    obtain ⟨T, h1, h2, h3, h4⟩ := realClock_round hc
    rw [hS, h3, elapsed_ofNat (by omega) (by omega)] at hcont
    have := h.clock gap S' T hS (by omega) hcont hgap h4
    rw [sendCalls_append, roundEvents_calls]
    omega
  · intro hp
    have hp1 : bytes ≠ [] → 1 ≤ k := hp bytes k (by simp [roundEvents])
    have hp2 : progress es := fun b k hm hb => hp b k (List.mem_append_right _ hm) hb
    have := h.bytes hp2
    have := ht hp1
    rw [sendCalls_append, roundEvents_calls]
    omega

theorem sendBufferLoop_count (g : Cfg) (st : UInt32) (fuel : Nat) (rest : List UInt8) (sent : Nat) (w : World)
    (hfuel : w.env.sends.length < fuel) :
    wp (sendBufferLoop g st fuel rest sent)
      (fun _ w' => ∃ es, Used w es w' ∧ Bounds g st (max 1 g.sendTimeoutMs.toNat) rest.length es)
      (fun w' => ∃ es, Used w es w' ∧ Bounds g st (max 1 g.sendTimeoutMs.toNat) rest.length es ∧ (w'.env.sends = [] ∨ w'.env.clock = []))
      (fun _ => False) w := by
  induction fuel generalizing rest sent w with
  | zero => omega
  | succ fuel ih =>
    unfold sendBufferLoop
    rw [wp_ite]
    constructor
    · intro hpos
      have key := @wp_round
        (fun r now w1 => wp (match r with
          | none => pure none
          | some k =>
            if calculateElapsedTime now st ≥ g.sendTimeoutMs then pure (some (sent + k))
            else sendBufferLoop g st fuel (rest.drop k) (sent + k))
          (fun _ w' => ∃ es, Used w es w' ∧ Bounds g st (max 1 g.sendTimeoutMs.toNat) rest.length es)
          (fun w' => ∃ es, Used w es w' ∧ Bounds g st (max 1 g.sendTimeoutMs.toNat) rest.length es ∧ (w'.env.sends = [] ∨ w'.env.clock = []))
          (fun _ => False) w1)
        (fun w' => ∃ es, Used w es w' ∧ Bounds g st (max 1 g.sendTimeoutMs.toNat) rest.length es ∧ (w'.env.sends = [] ∨ w'.env.clock = []))
        (fun _ => False) w rest ?_ ?_
      · simp only [wp_bind, wp_pure] at key ⊢
        exact key
      · intro es w' hu hor h1 h2
        exact ⟨es, hu, Bounds.partialRound g st _ _ hpos h1 h2, hor⟩
      · intro r t0 t w1 hu hk _
        cases r with
        | none => exact ⟨_, hu, Bounds.round g st _ _ hpos⟩
        | some k =>
          show wp (if _ then _ else _) _ _ _ _
          rw [wp_ite]
          constructor
          · intro _
            exact ⟨_, hu, Bounds.round g st _ _ hpos⟩
          · intro hto
            have hto' : (calculateElapsedTime t st).toNat < g.sendTimeoutMs.toNat := by
              simpa [UInt32.le_iff_toNat_le] using hto
            have hto' : (calculateElapsedTime t st).toNat < max 1 g.sendTimeoutMs.toNat := by omega
            have hs := hu.sends
            rw [roundEvents_calls] at hs
            have hle : ((rest ≠ [] → 1 ≤ k) → (rest.drop k).length + 1 ≤ rest.length) := by
              intro h
              have := h (by intro h0; subst h0; simp at hpos)
              rw [List.length_drop]
              omega
            refine wp_mono (ih (rest.drop k) (sent + k) w1 (by omega)) ?_ ?_ (fun _ h => h)
            · rintro _ w3 ⟨es3, hu3, hb3⟩
              exact ⟨_, hu.trans hu3, Bounds.cons g st _ _ _ hle hto' hb3⟩
            · rintro w3 ⟨es3, hu3, hb3, hor⟩
              exact ⟨_, hu.trans hu3, Bounds.cons g st _ _ _ hle hto' hb3, hor⟩
    · intro _
      exact ⟨[], Used.refl w, Bounds.nil g st _ _⟩

theorem advanceVec_length (k : Nat) (vecs : List (List UInt8)) : (advanceVec k vecs).length ≤ vecs.length := by
  induction vecs generalizing k with
  | nil => simp [advanceVec]
  | cons v vs ih =>
    unfold advanceVec
    split
    · have := ih (k - v.length); simp only [List.length_cons]; omega
    · simp

theorem advanceVec_progress (k : Nat) (vecs : List (List UInt8)) (hv : vecs ≠ []) (hf : vecs.flatten ≠ [])
    (hk : k ≤ vecs.flatten.length) (h : vecs.head hv ≠ [] → 1 ≤ k) :
    (advanceVec k vecs).flatten.length + (advanceVec k vecs).length + 1 ≤ vecs.flatten.length + vecs.length := by
  have h1 := advanceVec_length k vecs
  have h2 : (advanceVec k vecs).flatten.length = vecs.flatten.length - k := by rw [advanceVec_flatten, List.length_drop]
  cases vecs with
  | nil => exact absurd rfl hv
  | cons v vs =>
    by_cases hv0 : v = []
    · subst hv0
      have h3 := advanceVec_length (k - 0) vs
      have : advanceVec k ([] :: vs) = advanceVec (k - 0) vs := by simp [advanceVec]
      rw [this] at h1 h2 ⊢
      simp only [List.length_cons] at h1 ⊢
      omega
    · have := h hv0
      omega

theorem sendVecLoop_count (g : Cfg) (st : UInt32) (total fuel : Nat) (vecs : List (List UInt8)) (sent : Nat) (w : World)
    (hlen : sent + vecs.flatten.length = total) (hfuel : w.env.sends.length < fuel) :
    wp (sendVecLoop g st total fuel vecs sent)
      (fun _ w' => ∃ es, Used w es w' ∧ Bounds g st (g.sendTimeoutMs.toNat + 1) (vecs.flatten.length + vecs.length) es)
      (fun w' => ∃ es, Used w es w' ∧ Bounds g st (g.sendTimeoutMs.toNat + 1) (vecs.flatten.length + vecs.length) es ∧
        (w'.env.sends = [] ∨ w'.env.clock = []))
      (fun _ => False) w := by
  induction fuel generalizing vecs sent w with
  | zero => omega
  | succ fuel ih =>
    unfold sendVecLoop
    rw [wp_ite]
    constructor
    · intro hpos
      have hne : vecs ≠ [] := by intro h; subst h; simp at hlen; omega
      have htodo : 0 < vecs.flatten.length + vecs.length := by omega
      rw [wp_bind, wp_getCtx]
      obtain ⟨bytes, hb, hpre⟩ := offeredBytes_prefix w.ctx.hasWritev vecs hne
      have hhead : bytes = [] → vecs.head hne = [] ∨ vecs.flatten = [] := by
        intro h0
        subst h0
        revert hb
        unfold offeredBytes
        cases w.ctx.hasWritev with
        | true => intro h; exact Or.inr (by simpa using h)
        | false =>
          cases vecs with
          | nil => exact absurd rfl hne
          | cons v vs => intro h; left; simpa using h
      rw [hb, wp_bind, wp_liftRes]
      have hble : bytes.length ≤ vecs.flatten.length := hpre.length_le
      have key := @wp_round
        (fun r now w1 => wp (match r with
          | none => pure none
          | some k =>
            if calculateElapsedTime now st > g.sendTimeoutMs then pure (some (sent + k))
            else sendVecLoop g st total fuel (advanceVec k vecs) (sent + k))
          (fun _ w' => ∃ es, Used w es w' ∧ Bounds g st (g.sendTimeoutMs.toNat + 1) (vecs.flatten.length + vecs.length) es)
          (fun w' => ∃ es, Used w es w' ∧ Bounds g st (g.sendTimeoutMs.toNat + 1) (vecs.flatten.length + vecs.length) es ∧
            (w'.env.sends = [] ∨ w'.env.clock = []))
          (fun _ => False) w1)
        (fun w' => ∃ es, Used w es w' ∧ Bounds g st (g.sendTimeoutMs.toNat + 1) (vecs.flatten.length + vecs.length) es ∧
          (w'.env.sends = [] ∨ w'.env.clock = []))
        (fun _ => False) w bytes ?_ ?_
      · simp only [wp_bind, wp_pure] at key ⊢
        refine wp_mono (wp_and key (wp_transportSend (Q := fun r _ => ∀ k, r = some k → k ≤ bytes.length)
          (E := fun _ => True) (U := fun _ => True) trivial (fun _ _ r _ h => h))) ?_ (fun _ h => h.1) (fun _ h => h.1)
        rintro r w1 ⟨h1, h2⟩
        have : (r.all fun k => decide (k ≤ total - sent)) = true := by
          cases r with
          | none => rfl
          | some k => have := h2 k rfl; simp; omega
        rw [this]
        exact h1
      · intro es w' hu hor h1 h2
        exact ⟨es, hu, Bounds.partialRound g st _ _ htodo h1 h2, hor⟩
      · intro r t0 t w1 hu hk _
        cases r with
        | none => exact ⟨_, hu, Bounds.round g st _ _ htodo⟩
        | some k =>
          have hk' := hk k rfl
          show wp (if _ then _ else _) _ _ _ _
          rw [wp_ite]
          constructor
          · intro _
            exact ⟨_, hu, Bounds.round g st _ _ htodo⟩
          · intro hto
            have hto' : (calculateElapsedTime t st).toNat < g.sendTimeoutMs.toNat + 1 := by
              have : (calculateElapsedTime t st).toNat ≤ g.sendTimeoutMs.toNat := by
                simpa [UInt32.lt_iff_toNat_lt] using hto
              omega
            have hs := hu.sends
            rw [roundEvents_calls] at hs
            have hf : vecs.flatten ≠ [] := by intro h; rw [h] at hlen; simp at hlen; omega
            have hle : ((bytes ≠ [] → 1 ≤ k) →
                ((advanceVec k vecs).flatten.length + (advanceVec k vecs).length) + 1 ≤ vecs.flatten.length + vecs.length) := by
              intro h
              refine advanceVec_progress k vecs hne hf (by omega) ?_
              intro hh
              refine h ?_
              intro h0
              rcases hhead h0 with h0 | h0
              · exact hh h0
              · exact hf h0
            have hadv := advanceVec_flatten k vecs
            refine wp_mono (ih (advanceVec k vecs) (sent + k) w1 (by rw [hadv, List.length_drop]; omega) (by omega)) ?_ ?_ (fun _ h => h)
            · rintro _ w3 ⟨es3, hu3, hb3⟩
              exact ⟨_, hu.trans hu3, Bounds.cons g st _ _ _ hle hto' hb3⟩
            · rintro w3 ⟨es3, hu3, hb3, hor⟩
              exact ⟨_, hu.trans hu3, Bounds.cons g st _ _ _ hle hto' hb3, hor⟩
    · intro _
      exact ⟨[], Used.refl w, Bounds.nil g st _ _⟩

/-- Bounds on the events of a whole send operation. -/
structure OpBounds (calls todo : Nat) (es : List Event) : Prop where
  reads : clockReads es ≤ 2 * sendCalls es + 1
  clock : ∀ gap now low, calls + 2 * gap < 2 ^ 32 → realClock gap now low es → sendCalls es ≤ calls
  bytes : progress es → sendCalls es ≤ todo

theorem OpBounds.of {g : Cfg} {t : UInt32} {tmo todo : Nat} {es : List Event} (ht : 0 < tmo) (h : Bounds g t tmo todo es) :
    OpBounds tmo todo ([.time t] ++ es) := by
  refine ⟨?_, ?_, ?_⟩
  · have := h.reads
    rw [clockReads_append, sendCalls_append]
    simp only [clockReads_cons, clockReads_nil, sendCalls_cons, sendCalls_nil, isSent, isTime]
    simp
    omega
  · rintro gap now low hgap ⟨T, _, _, h3, h4⟩
    have := h.clock gap T T h3 (Nat.le_refl _) (by omega) hgap h4
    rw [sendCalls_append]
    simp only [sendCalls_cons, sendCalls_nil, isSent]
    simp
    omega
  · intro hp
    have := h.bytes (fun b k hm hb => hp b k (List.mem_append_right _ hm) hb)
    rw [sendCalls_append]
    simp only [sendCalls_cons, sendCalls_nil, isSent]
    simp
    omega

theorem sendBuffer_count (g : Cfg) (bytes : List UInt8) (w : World) :
    wp (sendBuffer g bytes)
      (fun _ w' => ∃ es, Used w es w' ∧ OpBounds (max 1 g.sendTimeoutMs.toNat) bytes.length es)
      (fun w' => ∃ es, Used w es w' ∧ OpBounds (max 1 g.sendTimeoutMs.toNat) bytes.length es ∧ (w'.env.sends = [] ∨ w'.env.clock = []))
      (fun _ => False) w := by
  unfold sendBuffer
  rw [wp_bind]
  refine wp_getTime' (fun hc => ⟨[], Used.refl w, ⟨by simp [clockReads_nil], fun _ _ _ _ _ => by simp [sendCalls_nil],
    fun _ => by simp [sendCalls_nil]⟩, Or.inr hc⟩) ?_
  intro t rest hc
  rw [wp_bind, wp_sendFuel]
  have h0 : Used w [.time t] { w with env := { w.env with clock := rest }, trace := w.trace ++ [.time t] } :=
    ⟨rfl, by simp [sendCalls_cons, sendCalls_nil, isSent], by simp [hc, clockReads_cons, clockReads_nil, isTime]⟩
  refine wp_mono (sendBufferLoop_count g t _ bytes 0 _ (Nat.lt_succ_self _)) ?_ ?_ (fun _ h => h)
  · rintro r w3 ⟨es3, hu, hb⟩
    exact ⟨_, h0.trans hu, OpBounds.of (by omega) hb⟩
  · rintro w3 ⟨es3, hu, hb, hor⟩
    exact ⟨_, h0.trans hu, OpBounds.of (by omega) hb, hor⟩

theorem sendMessageVector_count (g : Cfg) (vec : List IoVec) (vecs : List (List UInt8)) (hr : resolveVec vec = .ok vecs)
    (hne : vec ≠ []) (w : World) :
    wp (sendMessageVector g vec)
      (fun _ w' => ∃ es, Used w es w' ∧ OpBounds (g.sendTimeoutMs.toNat + 1) (vecs.flatten.length + vecs.length) es)
      (fun w' => ∃ es, Used w es w' ∧ OpBounds (g.sendTimeoutMs.toNat + 1) (vecs.flatten.length + vecs.length) es ∧
        (w'.env.sends = [] ∨ w'.env.clock = []))
      (fun _ => False) w := by
  unfold sendMessageVector
  rw [wp_bind, hr, wp_liftRes]
  have : vec.isEmpty = false := by simpa using hne
  simp only [this, Bool.false_eq_true, if_false]
  rw [wp_bind]
  refine wp_getTime' (fun hc => ⟨[], Used.refl w, ⟨by simp [clockReads_nil], fun _ _ _ _ _ => by simp [sendCalls_nil],
    fun _ => by simp [sendCalls_nil]⟩, Or.inr hc⟩) ?_
  intro t rest hc
  rw [wp_bind, wp_sendFuel]
  have h0 : Used w [.time t] { w with env := { w.env with clock := rest }, trace := w.trace ++ [.time t] } :=
    ⟨rfl, by simp [sendCalls_cons, sendCalls_nil, isSent], by simp [hc, clockReads_cons, clockReads_nil, isTime]⟩
  refine wp_mono (sendVecLoop_count g t _ _ vecs 0 _ (by simp) (Nat.lt_succ_self _)) ?_ ?_ (fun _ h => h)
  · rintro r w3 ⟨es3, hu, hb⟩
    exact ⟨_, h0.trans hu, OpBounds.of (by omega) hb⟩
  · rintro w3 ⟨es3, hu, hb, hor⟩
    exact ⟨_, h0.trans hu, OpBounds.of (by omega) hb, hor⟩

end Mqtt
