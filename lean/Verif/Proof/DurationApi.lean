/-
The durations of the functions of core_mqtt.c.
-/
import Verif.Proof.Duration

namespace Mqtt.Duration
open Spec

theorem elapsed_real {r S : Nat} (h : S ≤ r) (h2 : r - S < 2 ^ 32) : (calculateElapsedTime (UInt32.ofNat r) (UInt32.ofNat S)).toNat = r - S := by
  unfold calculateElapsedTime
  rw [UInt32.toNat_sub, UInt32.toNat_ofNat', UInt32.toNat_ofNat']
  omega

section
variable {K D N P : Nat} {α β : Type}

/-! ### Sending -/

theorem H.note {A : Nat → Nat → Prop} (r : Option Nat) {R : Option Unit → Nat → Nat → Prop} (hn : ∀ t b, A t b → R none t b)
    (hr : ∀ t b u, A t b → t ≤ u → u ≤ t + D → R (some ()) u b) : H K D N A (noteSendResult r) R := by
  unfold noteSendResult
  cases r with
  | none =>
    dsimp only
    intro w hi
    obtain ⟨es, h1, h2, h3⟩ := (Dur.markPending (D := D) (N := N) (P := 0)) 0 0 w hi
    refine ⟨[], by simp [markPending, modifyCtx, Out.world], h2, fun t b t' ha ht => ?_⟩
    cases ht
    exact hr _ _ _ ha (Nat.le_refl _) (by omega)
  | some k =>
    dsimp only
    refine H.ite (fun _ => ?_) (fun _ => H.pure fun t b h => hr _ _ _ h (Nat.le_refl _) (by omega))
    refine H.bind (fun x u b => match x with | some _ => R (some ()) u b | none => R none u b) (H.time hn fun t b r u h h1 h2 h3 => hr _ _ _ h (by omega) h3) (fun x => ?_) (fun _ _ h => h)
    refine H.quiet fun w hi => ⟨rfl, hi, fun t b h => h⟩

/-- The time `t` is between the start of a transmission, which the reading `s` stands for, and `y` after its timeout. -/
def Sending (g : Cfg) (P : Nat) (c x : Nat) (s : UInt32) (y t b : Nat) : Prop :=
  ∃ S, s = UInt32.ofNat S ∧ S ≤ t ∧ t ≤ S + g.sendTimeoutMs.toNat + y ∧ S + x ≤ c + b * P

/-- One round of a send loop: a send call, possibly a reading, and the reading that decides. -/
theorem round {g : Cfg} {c x : Nat} {s : UInt32} (bs : List UInt8) (pre : Option Nat → Res Unit) {f : Option Nat → UInt32 → M α} {R : Option α → Nat → Nat → Prop}
    (hn : ∀ t b, Sending g P c x s (4 * D) t b → R none t b)
    (hf : ∀ k v, H K D N (fun t b => ∃ S r, s = UInt32.ofNat S ∧ v = UInt32.ofNat r ∧ S ≤ r ∧ r ≤ t ∧ t ≤ r + D ∧ t ≤ S + g.sendTimeoutMs.toNat + 4 * D ∧
      S + x ≤ c + b * P) (f k v) R) :
    H K D N (Sending g P c x s D)
      (transportSend bs >>= fun k => liftRes (pre k) >>= fun _ => noteSendResult k >>= fun _ => getTime >>= fun now => f k now) R := by
  have up : ∀ {y t b u}, Sending g P c x s y t b → t ≤ u → u ≤ t + D → Sending g P c x s (y + D) u b := by
    rintro y t b u ⟨S, h1, h2, h3, h4⟩ h5 h6
    exact ⟨S, h1, by omega, by omega, h4⟩
  have wk : ∀ {y t b}, y ≤ 4 * D → Sending g P c x s y t b → Sending g P c x s (4 * D) t b := by
    rintro y t b hy ⟨S, h1, h2, h3, h4⟩
    exact ⟨S, h1, h2, by omega, h4⟩
  refine H.bind (fun _ t b => Sending g P c x s (D + D) t b) ?_ (fun k => ?_) (fun t b h => hn t b (wk (by omega) h))
  · exact H.event (send_event bs) (fun t b h => up h (Nat.le_refl _) (by omega)) (fun _ t b u h h1 h2 => up h h1 h2)
  · refine H.lift (fun _ _ => ?_) (fun t b h => hn t b (wk (by omega) h))
    refine H.bind (fun _ t b => Sending g P c x s (D + D + D) t b) ?_ (fun _ => ?_) (fun t b h => hn t b (wk (by omega) h))
    · exact H.note k (fun t b h => up h (Nat.le_refl _) (by omega)) (fun t b u h h1 h2 => up h h1 h2)
    · refine H.bind (fun y t b => match y with
        | none => Sending g P c x s (4 * D) t b
        | some v => ∃ S r, s = UInt32.ofNat S ∧ v = UInt32.ofNat r ∧ S ≤ r ∧ r ≤ t ∧ t ≤ r + D ∧ t ≤ S + g.sendTimeoutMs.toNat + 4 * D ∧ S + x ≤ c + b * P) ?_
        (fun v => hf k v) (fun t b h => hn t b h)
      refine H.time (fun t b h => wk (by omega) h) ?_
      rintro t b r u ⟨S, h1, h2, h3, h4⟩ h5 h6 h7
      exact ⟨S, r, h1, rfl, by omega, h6, by omega, by omega, h4⟩

theorem sending_end {g : Cfg} {c x : Nat} {s : UInt32} {t b : Nat} (h : Sending g P c x s (4 * D) t b) : t + x ≤ c + (g.sendTimeoutMs.toNat + 4 * D) + b * P := by
  obtain ⟨S, _, _, h1, h2⟩ := h
  omega

theorem sendVecLoop_dur (g : Cfg) (hw : g.sendTimeoutMs.toNat + 4 * D < 2 ^ 32) (c x : Nat) (s : UInt32) (todo : Nat) : ∀ fuel vecs sent,
    H K D N (Sending g P c x s D) (sendVecLoop g s todo fuel vecs sent) (fun _ t b => t + x ≤ c + (g.sendTimeoutMs.toNat + 4 * D) + b * P) := by
  have fin : ∀ {t b}, Sending g P c x s D t b → t + x ≤ c + (g.sendTimeoutMs.toNat + 4 * D) + b * P := by
    rintro t b ⟨S, h1, h2, h3, h4⟩
    omega
  intro fuel
  induction fuel with
  | zero => exact fun _ _ => H.stuck fun t b h => fin h
  | succ fuel ih =>
    intro vecs sent
    unfold sendVecLoop
    refine H.ite (fun _ => ?_) (fun _ => H.pure fun t b h => fin h)
    refine H.getCtx fun ct _ _ => H.lift (fun bytes _ => ?_) (fun t b h => fin h)
    refine round (g := g) bytes (fun r => cassert (r.all fun k => decide (k ≤ todo - sent))) (fun t b h => sending_end h) ?_
    intro k v
    have out : ∀ t b, (∃ S r, s = UInt32.ofNat S ∧ v = UInt32.ofNat r ∧ S ≤ r ∧ r ≤ t ∧ t ≤ r + D ∧ t ≤ S + g.sendTimeoutMs.toNat + 4 * D ∧
        S + x ≤ c + b * P) → t + x ≤ c + (g.sendTimeoutMs.toNat + 4 * D) + b * P := by
      rintro t b ⟨S, r, h1, h2, h3, h4, h5, h6, h7⟩
      omega
    cases k with
    | none => exact H.pure out
    | some k =>
      dsimp only
      refine H.ite (fun _ => H.pure out) (fun hc => (ih _ _).mono ?_ (fun _ _ _ h => h))
      rintro t b ⟨S, r, rfl, rfl, h3, h4, h5, h6, h7⟩
      have he := elapsed_real h3 (by omega)
      have : ¬ g.sendTimeoutMs.toNat < r - S := by rw [← he]; exact fun hlt => hc (UInt32.lt_iff_toNat_lt.mpr hlt)
      exact ⟨S, rfl, by omega, by omega, h7⟩

theorem sendBufferLoop_dur (g : Cfg) (hw : g.sendTimeoutMs.toNat + 4 * D < 2 ^ 32) (c x : Nat) (s : UInt32) : ∀ fuel rest sent,
    H K D N (Sending g P c x s D) (sendBufferLoop g s fuel rest sent) (fun _ t b => t + x ≤ c + (g.sendTimeoutMs.toNat + 4 * D) + b * P) := by
  have fin : ∀ {t b}, Sending g P c x s D t b → t + x ≤ c + (g.sendTimeoutMs.toNat + 4 * D) + b * P := by
    rintro t b ⟨S, h1, h2, h3, h4⟩
    omega
  intro fuel
  induction fuel with
  | zero => exact fun _ _ => H.stuck fun t b h => fin h
  | succ fuel ih =>
    intro rest sent
    unfold sendBufferLoop
    refine H.ite (fun _ => ?_) (fun _ => H.pure fun t b h => fin h)
    refine round (g := g) rest (fun r => .ok ()) (fun t b h => sending_end h) ?_
    intro k v
    have out : ∀ t b, (∃ S r, s = UInt32.ofNat S ∧ v = UInt32.ofNat r ∧ S ≤ r ∧ r ≤ t ∧ t ≤ r + D ∧ t ≤ S + g.sendTimeoutMs.toNat + 4 * D ∧
        S + x ≤ c + b * P) → t + x ≤ c + (g.sendTimeoutMs.toNat + 4 * D) + b * P := by
      rintro t b ⟨S, r, h1, h2, h3, h4, h5, h6, h7⟩
      omega
    cases k with
    | none => exact H.pure out
    | some k =>
      dsimp only
      refine H.ite (fun _ => H.pure out) (fun hc => (ih _ _).mono ?_ (fun _ _ _ h => h))
      rintro t b ⟨S, r, rfl, rfl, h3, h4, h5, h6, h7⟩
      have he := elapsed_real h3 (by omega)
      have : ¬ g.sendTimeoutMs.toNat ≤ r - S := by rw [← he]; exact fun hlt => hc (UInt32.le_iff_toNat_le.mpr hlt)
      exact ⟨S, rfl, by omega, by omega, h7⟩

theorem started {g : Cfg} {c x : Nat} {f : UInt32 → M α} {R : Option α → Nat → Nat → Prop} (hf : ∀ s, H K D N (Sending g P (c + D) x s D) (f s) R)
    (hn : ∀ t b, t + x ≤ c + b * P → R none t b) : H K D N (fun t b => t + x ≤ c + b * P) (getTime >>= f) R := by
  refine H.bind (fun y t b => match y with | none => t + x ≤ c + b * P | some s => Sending g P (c + D) x s D t b) ?_ hf hn
  exact H.time (fun t b h => h) (fun t b r u h h1 h2 h3 => ⟨r, rfl, h2, by omega, by omega⟩)

theorem sendBuffer_dur (g : Cfg) (hw : g.sendTimeoutMs.toNat + 4 * D < 2 ^ 32) (bs : List UInt8) : Dur K D N P (sendTime g D) (sendBuffer g bs) := by
  intro c x
  unfold sendBuffer
  refine started (g := g) (fun s => H.fuelS fun n => (sendBufferLoop_dur g hw (c + D) x s _ _ _).mono (fun _ _ h => h) (fun _ t b h => ?_)) (fun t b h => by omega)
  unfold sendTime
  omega

theorem sendVec_dur (g : Cfg) (hw : g.sendTimeoutMs.toNat + 4 * D < 2 ^ 32) (v : List IoVec) : Dur K D N P (sendTime g D) (sendMessageVector g v) := by
  unfold sendMessageVector
  refine Dur.lift fun vecs _ => Dur.ite Dur.ub ?_
  intro c x
  refine started (g := g) (fun s => H.fuelS fun n => (sendVecLoop_dur g hw (c + D) x s _ _ _ _).mono (fun _ _ h => h) (fun _ t b h => ?_)) (fun t b h => by omega)
  unfold sendTime
  omega

/-! ### Receiving -/

theorem H.into {A : Nat → Nat → Prop} {p n : Nat} {R : Option (Option Nat) → Nat → Nat → Prop} (hn : ∀ t b, A t b → R none t b)
    (h0 : ∀ t b u, A t b → t ≤ u → u ≤ t + D → R (some none) u b)
    (h1 : ∀ t b u k, A t b → t ≤ u → u ≤ t + D → k ≤ n → R (some (some k)) u (b + k)) : H K D N A (recvInto p n) R := by
  intro w hi
  by_cases hc : p + n ≤ w.ctx.bufSize
  · have := (H.recv (D := D) (N := N) (n := n) (A := A) (R := fun y t b => match y with
      | none => R none t b | some none => R (some none) t b | some (some bs) => R (some (some bs.length)) t b) hn h0 (fun t b u bs h h1' h2 h3 => h1 _ _ _ _ h h1' h2 h3)) w hi
    obtain ⟨es, e1, e2, e3⟩ := this
    have hE : recvInto p n w = M.bind (transportRecv n) (fun r => match r with
        | none => Pure.pure none
        | some bs => do
          modifyCtx fun c => { c with netBuf := writeAt c.netBuf p bs }
          Pure.pure (some bs.length)) w := by
      unfold recvInto
      show (if _ then _ else _ : M (Option Nat)) w = _
      rw [if_pos hc]
      rfl
    rw [hE]
    have hlen : ∀ r w', transportRecv n w = .done r w' → ∀ bs, r = some bs → bs.length ≤ n ∧ w'.ctx = w.ctx := by
      intro r w' h bs hb
      unfold transportRecv at h
      cases hr : w.env.recvs with
      | nil => rw [hr] at h; cases h
      | cons y rest =>
        rw [hr] at h
        cases y with
        | fail => cases h; cases hb
        | deliver m => cases h; cases hb; exact ⟨by simp; omega, rfl⟩
    unfold M.bind
    cases hr : transportRecv n w with
    | done r w' =>
      rw [hr] at e1 e2 e3
      cases r with
      | none => exact ⟨es, e1, e2, e3⟩
      | some bs =>
        obtain ⟨k1, k2⟩ := hlen _ _ hr bs rfl
        refine ⟨es, e1, ⟨?_, e2.2⟩, e3⟩
        have hs : w'.ctx.netBuf.length = w.ctx.bufSize := by rw [k2]; rfl
        have hl : (writeAt w'.ctx.netBuf p bs).length = w.ctx.bufSize := by
          simp only [writeAt, List.length_append, List.length_take, List.length_drop, hs]
          omega
        show 0 < (writeAt w'.ctx.netBuf p bs).length ∧ (writeAt w'.ctx.netBuf p bs).length = K
        rw [hl]
        exact hi.1
    | stuck w' => rw [hr] at e1 e2 e3; exact ⟨es, e1, e2, e3⟩
    | ub y w' => rw [hr] at e1 e2 e3; exact ⟨es, e1, e2, e3⟩
  · have hE : recvInto p n w = ubM .oobWrite w := by
      unfold recvInto
      show (if _ then _ else _ : M (Option Nat)) w = _
      rw [if_neg hc]
    rw [hE]
    exact H.ub hn w hi

theorem Dur.into (p n : Nat) : Dur K D N P D (recvInto p n) := fun c x => H.into (fun t b h => by omega) (fun t b u h h1 h2 => by omega)
  (fun t b u k h h1 h2 h3 => by rw [Nat.add_mul]; omega)

/-- Waiting for the rest of a packet: the reading `l` stands for the time of the last byte. -/
def Waiting (P c x : Nat) (l : UInt32) (y t b : Nat) : Prop := ∃ L, l = UInt32.ofNat L ∧ L ≤ t ∧ t ≤ L + y ∧ L + x ≤ c + b * P

theorem recvExactLoop_dur (g : Cfg) (hw : g.recvPollingTimeoutMs.toNat + 3 * D < 2 ^ 32) (c : Nat) : ∀ fuel p n l x y, y ≤ g.recvPollingTimeoutMs.toNat + D →
    H K D N (Waiting (byteTime g D) c x l y) (recvExactLoop g fuel p n l) (fun r t b => t + x ≤ c + (g.recvPollingTimeoutMs.toNat + 4 * D) + b * byteTime g D ∧
      (r = some (some (p + n)) → n = 0 → t + x ≤ c + y + b * byteTime g D) ∧
      (r = some (some (p + n)) → 0 < n → t + x + 3 * D ≤ c + D + b * byteTime g D)) := by
  intro fuel
  induction fuel with
  | zero =>
    intro p n l x y hy
    refine H.stuck ?_
    rintro t b ⟨L, h1, h2, h3, h4⟩
    exact ⟨by omega, by simp, by simp⟩
  | succ fuel ih =>
    intro p n l x y hy
    unfold recvExactLoop
    refine H.ite (fun hn => ?_) (fun hn => ?_)
    · refine H.bind (fun r t b => match r with
        | none => t + x ≤ c + (g.recvPollingTimeoutMs.toNat + D) + b * byteTime g D
        | some none => t + x ≤ c + (g.recvPollingTimeoutMs.toNat + 2 * D) + b * byteTime g D
        | some (some k) => k ≤ n ∧ ∃ L b0, l = UInt32.ofNat L ∧ L ≤ t ∧ t ≤ L + y + D ∧ b = b0 + k ∧ L + x ≤ c + b0 * byteTime g D) ?_ ?_ ?_
      · refine H.into ?_ ?_ ?_
        · rintro t b ⟨L, h1, h2, h3, h4⟩
          show _ ≤ _
          omega
        · rintro t b u ⟨L, h1, h2, h3, h4⟩ h5 h6
          show _ ≤ _
          omega
        · rintro t b u k ⟨L, h1, h2, h3, h4⟩ h5 h6 h7
          exact ⟨h7, L, b, h1, by omega, by omega, rfl, h4⟩
      · intro r
        cases r with
        | none =>
          dsimp only
          refine H.bind (fun _ t b => t + x ≤ c + (g.recvPollingTimeoutMs.toNat + 4 * D) + b * byteTime g D) ?_ (fun _ => ?_) (fun t b h => ⟨h, by simp, by simp⟩)
          · exact (Dur.marked (c + (g.recvPollingTimeoutMs.toNat + 2 * D)) x).mono (fun _ _ h => h) (fun _ t b h => by omega)
          · exact H.pure fun t b h => ⟨h, by simp, by simp⟩
        | some k =>
          dsimp only
          refine H.ite (fun hk => ?_) (fun hk => ?_)
          · refine H.bind (fun v t b => match v with
              | none => t + x ≤ c + (g.recvPollingTimeoutMs.toNat + 4 * D) + b * byteTime g D
              | some v => Waiting (byteTime g D) c (x + 3 * D) v D t b) ?_ ?_ (fun t b h => ⟨h, by simp, by simp⟩)
            · refine H.time ?_ ?_
              · rintro t b ⟨h0, L, b0, h1, h2, h3, rfl, h5⟩
                rw [Nat.add_mul]
                omega
              · rintro t b r u ⟨h0, L, b0, h1, h2, h3, rfl, h5⟩ h6 h7 h8
                refine ⟨r, rfl, h7, by omega, ?_⟩
                have : byteTime g D ≤ k * byteTime g D := Nat.le_mul_of_pos_left _ hk
                rw [Nat.add_mul]
                have hb : byteTime g D = g.recvPollingTimeoutMs.toNat + 6 * D := rfl
                omega
            · intro v
              refine H.lift (fun _ hkn => ?_) ?_
              · have hkn : k ≤ n := by
                  unfold cassert at hkn
                  split at hkn
                  · exact of_decide_eq_true ‹_›
                  · cases hkn
                refine (ih (p + k) (n - k) v (x + 3 * D) D (by omega)).mono (fun _ _ h => h) ?_
                rintro r t b ⟨h1, h2, h3⟩
                have e : p + k + (n - k) = p + n := by omega
                rw [e] at h2 h3
                refine ⟨by omega, fun hr h0 => by omega, fun hr _ => ?_⟩
                by_cases h0 : n - k = 0
                · have := h2 hr h0
                  omega
                · have := h3 hr (by omega)
                  omega
              · rintro t b ⟨L, h1, h2, h3, h4⟩
                exact ⟨by omega, by simp, by simp⟩
          · have hk : k = 0 := by omega
            subst hk
            refine H.bind (fun v t b => match v with
              | none => t + x ≤ c + (g.recvPollingTimeoutMs.toNat + 4 * D) + b * byteTime g D
              | some v => ∃ L r, l = UInt32.ofNat L ∧ v = UInt32.ofNat r ∧ L ≤ r ∧ r ≤ t ∧ t ≤ r + D ∧ t ≤ L + y + 2 * D ∧ L + x ≤ c + b * byteTime g D) ?_ ?_
              (fun t b h => ⟨h, by simp, by simp⟩)
            · refine H.time ?_ ?_
              · rintro t b ⟨h0, L, b0, h1, h2, h3, rfl, h5⟩
                show _ ≤ _
                omega
              · rintro t b r u ⟨h0, L, b0, h1, h2, h3, rfl, h5⟩ h6 h7 h8
                exact ⟨L, r, h1, rfl, by omega, h7, by omega, by omega, h5⟩
            · intro v
              refine H.ite (fun _ => ?_) (fun hc => ?_)
              · refine H.pure ?_
                rintro t b ⟨L, r, h1, h2, h3, h4, h5, h6, h7⟩
                exact ⟨by omega, fun _ h0 => by omega, fun hr h0 => by simp at hr; omega⟩
              · refine (ih p n l x (g.recvPollingTimeoutMs.toNat + D) (Nat.le_refl _)).mono ?_ ?_
                · rintro t b ⟨L, r, rfl, rfl, h3, h4, h5, h6, h7⟩
                  have he := elapsed_real h3 (by omega)
                  have : ¬ g.recvPollingTimeoutMs.toNat ≤ r - L := by rw [← he]; exact fun hlt => hc (UInt32.le_iff_toNat_le.mpr hlt)
                  exact ⟨L, rfl, by omega, by omega, h7⟩
                · rintro r t b ⟨h1, h2, h3⟩
                  exact ⟨h1, fun _ h0 => by omega, h3⟩
      · exact fun t b h => ⟨by have : t + x ≤ _ := h; omega, by simp, by simp⟩
    · refine H.pure ?_
      rintro t b ⟨L, h1, h2, h3, h4⟩
      exact ⟨by omega, fun _ _ => by omega, fun _ h0 => by omega⟩

theorem recvExact_dur (g : Cfg) (hw : g.recvPollingTimeoutMs.toNat + 3 * D < 2 ^ 32) (n c x : Nat) :
    H K D N (fun t b => t + x ≤ c + b * byteTime g D) (recvExact g n) (fun r t b => t + x ≤ c + (g.recvPollingTimeoutMs.toNat + 5 * D) + b * byteTime g D ∧
      (r = some (some n) → 0 < n → t + x + D ≤ c + b * byteTime g D)) := by
  unfold recvExact
  refine H.getCtx fun ct _ _ => H.lift (fun _ _ => ?_) (fun t b h => ⟨by omega, by simp⟩)
  refine H.bind (fun v t b => match v with
    | none => t + x ≤ c + b * byteTime g D
    | some v => Waiting (byteTime g D) (c + D) x v D t b) ?_ (fun v => H.fuelR fun k => ?_) (fun t b h => ⟨by have : t + x ≤ _ := h; omega, by simp⟩)
  · exact H.time (fun t b h => h) (fun t b r u h h1 h2 h3 => ⟨r, rfl, h2, by omega, by omega⟩)
  · refine (recvExactLoop_dur g hw (c + D) k 0 n v x D (by omega)).mono (fun _ _ h => h) ?_
    rintro r t b ⟨h1, h2, h3⟩
    refine ⟨by omega, fun hr h0 => ?_⟩
    have := h3 (by rw [hr, Nat.zero_add]) h0
    omega

theorem recvExact_whole (g : Cfg) (hw : g.recvPollingTimeoutMs.toNat + 3 * D < 2 ^ 32) (n : Nat) :
    Dur K D N (byteTime g D) (g.recvPollingTimeoutMs.toNat + 5 * D) (recvExact g n) := fun c x => (recvExact_dur g hw n c x).mono (fun _ _ h => h) (fun _ _ _ h => h.1)

theorem discardStoredLoop_dur (g : Cfg) (hw : g.recvPollingTimeoutMs.toNat + 3 * D < 2 ^ 32) : ∀ fuel left k, 0 < k →
    Dur K D N (byteTime g D) (g.recvPollingTimeoutMs.toNat + 5 * D) (discardStoredLoop g fuel left k) := by
  intro fuel
  induction fuel with
  | zero => exact fun _ _ _ => Dur.stuck
  | succ fuel ih =>
    intro left k hk
    unfold discardStoredLoop
    by_cases hl : left > 0
    · simp only [if_pos hl]
      generalize hk' : (if left < k then left else k) = k'
      have hpos : 0 < k' := by rw [← hk']; split <;> omega
      intro c x
      refine (recvExact_dur g hw k' c x).bind _ (fun r => H.ite (fun _ => H.pure fun t b h => h.1) (fun hr => ?_)) (fun t b h => h.1)
      have hr : r = some k' := by simpa using hr
      exact (ih (left - k') k' hpos c x).mono (fun t b h => by have := h.2 (by rw [hr]) hpos; omega) (fun _ _ _ h => h)
    · simp only [if_neg hl]
      exact Dur.pure

theorem discardLoop_dur (g : Cfg) (hw : g.recvPollingTimeoutMs.toNat + 3 * D < 2 ^ 32) (τ E : UInt32) : ∀ fuel left k, 0 < k →
    Dur K D N (byteTime g D) (g.recvPollingTimeoutMs.toNat + 5 * D) (discardLoop g τ E fuel left k) := by
  intro fuel
  induction fuel with
  | zero => exact fun _ _ _ => Dur.stuck
  | succ fuel ih =>
    intro left k hk
    unfold discardLoop
    by_cases hl : left > 0
    · simp only [if_pos hl]
      generalize hk' : (if left < k then left else k) = k'
      have hpos : 0 < k' := by rw [← hk']; split <;> omega
      intro c x
      refine (recvExact_dur g hw k' c x).bind _ (fun r => H.ite (fun _ => H.pure fun t b h => h.1) (fun hr => ?_)) (fun t b h => h.1)
      have hr : r = some k' := by simpa using hr
      refine H.bind (fun _ t b => t + x ≤ c + b * byteTime g D) ?_ (fun v => ?_) (fun t b h => by omega)
      · refine H.time (fun t b h => by have := h.2 (by rw [hr]) hpos; omega) (fun t b r u h h1 h2 h3 => by have := h.2 (by rw [hr]) hpos; omega)
      · exact H.ite (fun _ => H.pure fun t b h => by omega) (fun _ => ih (left - k') k' hpos c x)
    · simp only [if_neg hl]
      exact Dur.pure

theorem discardStored_dur (g : Cfg) (hw : g.recvPollingTimeoutMs.toNat + 3 * D < 2 ^ 32) (n : Nat) :
    Dur K D N (byteTime g D) (g.recvPollingTimeoutMs.toNat + 5 * D) (discardStoredPacket g n) := by
  unfold discardStoredPacket resetBuffer
  refine Dur.getCtx fun c hb _ => Dur.lift fun _ _ => ?_
  refine fun c' x => H.fuelC fun k => ?_
  refine Dur.bind (discardStoredLoop_dur g hw _ _ _ hb) (Nat.le_refl _) (fun left => ?_) c' x
  exact Dur.modify (fun c => by simp [Ctx.bufSize]) (fun _ => rfl) (Dur.ite Dur.pure Dur.pure)

theorem discardPacket_dur (g : Cfg) (hw : g.recvPollingTimeoutMs.toNat + 3 * D < 2 ^ 32) (n : Nat) (t : UInt32) :
    Dur K D N (byteTime g D) (byteTime g D) (discardPacket g n t) := by
  unfold discardPacket
  refine Dur.getCtx fun c hb _ => ?_
  refine Dur.time.bind (by unfold byteTime; omega) fun E => ?_
  refine fun c' x => H.fuelC fun k => ?_
  refine Dur.bind (discardLoop_dur g hw _ _ _ _ _ hb) (by unfold byteTime; omega) (fun left => Dur.ite Dur.pure Dur.pure) c' x

theorem receivePacket_dur (g : Cfg) (hw : g.recvPollingTimeoutMs.toNat + 3 * D < 2 ^ 32) (n : Nat) (t : UInt32) :
    Dur K D N (byteTime g D) (byteTime g D) (receivePacket g n t) := by
  unfold receivePacket
  refine Dur.getCtx fun c hb _ => Dur.ite (discardPacket_dur g hw n t) ?_
  exact (recvExact_whole g hw n).bind (by unfold byteTime; omega) fun _ => Dur.ite Dur.pure Dur.pure

/-! ### The functions that send -/

section
variable {g : Cfg} (hs : g.sendTimeoutMs.toNat + 4 * D < 2 ^ 32)
include hs

theorem sendWhole_dur (v : List IoVec) : Dur K D N P (sendTime g D) (sendWholeVector g v) := by
  unfold sendWholeVector
  exact (sendVec_dur g hs v).bind (Nat.le_refl _) fun _ => Dur.ite Dur.pure Dur.pure

theorem sendFiltersLoop_dur (ty : SubType) : ∀ n vec subs,
    Dur K D N P ((subs.length + if vec = [] then 0 else 1) * sendTime g D) (sendFiltersLoop g ty n vec subs) := by
  intro n
  induction n with
  | zero => exact fun _ _ => Dur.stuck
  | succ n ih =>
    intro vec subs
    unfold sendFiltersLoop
    generalize hB : (subs.length + if vec = [] then 0 else 1) * sendTime g D = B
    by_cases hne : subs = []
    · rw [if_pos (by simp [hne])]
      exact Dur.pure
    rw [if_neg (by simpa using hne)]
    refine Dur.lift fun y hy => ?_
    obtain ⟨vec', rest⟩ := y
    obtain ⟨h1, h2⟩ := fillVectors_le g ty subs hy
    have hlt : rest.length + 1 ≤ subs.length + if vec = [] then 0 else 1 := by
      by_cases hv : vec = []
      · have := h2 hv hne
        rw [if_pos hv]
        omega
      · rw [if_neg hv]
        omega
    have hle : (rest.length + 1) * sendTime g D ≤ (subs.length + if vec = [] then 0 else 1) * sendTime g D := Nat.mul_le_mul_right _ hlt
    rw [hB, Nat.add_mul, Nat.one_mul] at hle
    refine (sendWhole_dur hs vec').bind (by omega) fun st => Dur.ite Dur.pure ?_
    exact (ih [] rest).mono (by rw [if_pos rfl, Nat.add_zero]; omega)

omit hs in
theorem assoc (m : M α) {γ : Type} (f : α → M β) (h : β → M γ) : ((m >>= f) >>= h) = (m >>= fun y => f y >>= h) := by
  funext w
  show M.bind (M.bind m f) h w = M.bind m (fun y => M.bind (f y) h) w
  unfold M.bind
  cases m w <;> rfl

omit hs in
theorem Dur.assoc {B : Nat} {m : M α} {γ : Type} {f : α → M β} {h : β → M γ} (hd : Dur K D N P B (m >>= fun y => f y >>= h)) : Dur K D N P B ((m >>= f) >>= h) := by
  rw [Duration.assoc]
  exact hd
omit hs in
theorem Dur.ite_bind {B : Nat} {c : Prop} [Decidable c] {y z : M α} {f : α → M β} (h1 : Dur K D N P B (y >>= f)) (h2 : Dur K D N P B (z >>= f)) :
    Dur K D N P B ((if c then y else z) >>= f) := by
  split
  · exact h1
  · exact h2
omit hs in
theorem Dur.pure_bind {B : Nat} {y : α} {f : α → M β} (h1 : Dur K D N P B (f y)) : Dur K D N P B ((Pure.pure y : M α) >>= f) := h1
omit hs in
theorem Dur.ub_bind {B : Nat} {e : UB} {f : α → M β} : Dur K D N P B ((ubM e : M α) >>= f) := Dur.ub

end

open Lean in
/-- Solve a bound: the arithmetic of the durations. -/
macro "dsolve" : tactic => `(tactic| first | omega | (simp only [ackTime, byteTime, sendTime] at *; omega))

syntax "durs" "[" term,* "]" : tactic
macro_rules
  | `(tactic| durs [$[$ts],*]) => `(tactic|
      repeat' (with_reducible first
        | exact Dur.pure | exact Dur.stuck | exact Dur.ub | exact Dur.ub_bind
        | (first $[| (refine Dur.mono $ts ?_; dsolve)]*)
        | (first $[| (refine Dur.bind $ts (by dsolve) ?_)]*)
        | (refine Dur.bind Dur.pre (by dsolve) ?_) | (refine Dur.mono Dur.pre ?_; dsolve)
        | (refine Dur.bind Dur.post (by dsolve) ?_) | (refine Dur.mono Dur.post ?_; dsolve)
        | (refine Dur.bind Dur.time (by dsolve) ?_) | (refine Dur.mono Dur.time ?_; dsolve)
        | (refine Dur.bind (Dur.app ..) (by dsolve) ?_) | (refine Dur.mono (Dur.app ..) ?_; dsolve)
        | (refine Dur.bind (Dur.clear _) (by dsolve) ?_) | (refine Dur.mono (Dur.clear _) ?_; dsolve)
        | (refine Dur.bind (Dur.store ..) (by dsolve) ?_)
        | (refine Dur.bind (Dur.retrieve _) (by dsolve) ?_)
        | (refine Dur.bind Dur.marked (by dsolve) ?_) | (refine Dur.mono Dur.marked ?_; dsolve)
        | (refine Dur.getCtx ?_; intro _ _ _) | (refine Dur.lift ?_; intro _ _)
        | (refine Dur.modify (fun _ => rfl) (fun _ => rfl) ?_)
        | (refine Dur.modify (fun c => by simp [Ctx.bufSize]) (fun c => by simp) ?_)
        | exact Dur.modify_end (fun _ => rfl) (fun _ => rfl)
        | (refine Dur.assoc ?_) | (refine Dur.pure_bind ?_) | (refine Dur.ite_bind ?_ ?_) | (refine Dur.ite ?_ ?_)
        | (intro _) | split))

section
variable {g : Cfg} (hs : g.sendTimeoutMs.toNat + 4 * D < 2 ^ 32)

theorem tables_ack (id : UInt16) (ty : AckType) (op : Op) : Dur K D N P 0 (updateStateAckM id ty op) := by
  unfold updateStateAckM
  refine Dur.tables fun t y t' h => ?_
  obtain ⟨⟨st, s, t1⟩, h1, h2⟩ := Res.bind_ok h
  cases h2
  exact updateStateAckApi_len h1

theorem tables_publish (id : UInt16) (op : Op) (q : QoS) : Dur K D N P 0 (updateStatePublishM id op q) := by
  unfold updateStatePublishM
  refine Dur.tables fun t y t' h => ?_
  obtain ⟨⟨st, s, t1⟩, h1, h2⟩ := Res.bind_ok h
  cases h2
  exact updateStatePublishApi_len h1

include hs

theorem sendFilters_dur (ty : SubType) (subs : List SubscribeInfo) (id : UInt16) (n : Nat) :
    Dur K D N P ((subs.length + 1) * sendTime g D) (sendFiltersWithoutCopy g ty subs id n) := by
  unfold sendFiltersWithoutCopy
  refine Dur.lift fun _ _ => Dur.lift fun c _ => ?_
  exact sendFiltersLoop_dur hs ty _ _ _

theorem sub_dur (ty : SubType) (subs : Option (List SubscribeInfo)) (id : UInt16) :
    Dur K D N P (((subs.getD []).length + 1) * sendTime g D + 2 * D) (mqttSubUnsub g ty subs id) := by
  unfold mqttSubUnsub
  durs [sendFilters_dur hs ty _ _ _]

theorem sendPublish_dur (p : PublishInfo) (hd : List UInt8) (n : Nat) (id : UInt16) : Dur K D N P (sendTime g D + D) (sendPublishWithoutCopy g p hd n id) := by
  unfold sendPublishWithoutCopy storePublish
  durs [sendWhole_dur hs _]

omit hs in
theorem reserve_dur (p : PublishInfo) (id : UInt16) : Dur K D N P 0 (reservePublish p id) := by
  have ht : ∀ (q : QoS), Dur K D N P 0 (onTables fun t => reserveState t id q) := fun q => Dur.tables fun t y t' h => reserveState_len h
  unfold reservePublish
  durs [ht _]

omit hs in
theorem noteSent_dur (p : PublishInfo) (id : UInt16) : Dur K D N P 0 (notePublishSent p id) := by
  unfold notePublishSent
  durs [tables_publish _ _ _]

theorem publishLocked_dur (p : PublishInfo) (hd : List UInt8) (n : Nat) (id : UInt16) : Dur K D N P (sendTime g D + D) (publishLocked g p hd n id) := by
  unfold publishLocked
  durs [sendPublish_dur hs _ _ _ _, reserve_dur _ _, noteSent_dur _ _]

theorem publish_dur (p : Option PublishInfo) (id : UInt16) : Dur K D N P (sendTime g D + 3 * D) (mqttPublish g p id) := by
  unfold mqttPublish
  durs [publishLocked_dur hs _ _ _ _]

theorem sendIf_dur (bs : List UInt8) : Dur K D N P (sendTime g D) (sendIfConnected g bs) := by
  unfold sendIfConnected
  durs [sendBuffer_dur g hs _]

theorem ping_dur : Dur K D N P (sendTime g D + 2 * D) (mqttPing g) := by
  unfold mqttPing
  durs [sendIf_dur hs _]

theorem acks_dur (id : UInt16) (st : PubState) : Dur K D N P (ackTime g D) (sendPublishAcks g id st) := by
  unfold sendPublishAcks
  durs [sendIf_dur hs _, tables_ack _ _ _]

theorem disconnect_dur : Dur K D N P (sendTime g D + 2 * D) (mqttDisconnect g) := by
  unfold mqttDisconnect resetBuffer
  durs [sendBuffer_dur g hs _]

omit hs in
theorem cancel_dur (id : UInt16) : Dur K D N P (2 * D) (mqttCancelCallback id) := by
  have ht : Dur K D N P 0 (onTables fun t => removeStateRecord t id) := Dur.tables fun t y t' h => removeStateRecord_len h
  unfold mqttCancelCallback
  durs [ht]

omit hs in
theorem check_dur : Dur K D N P (2 * D) mqttCheckConnectStatus := by
  unfold mqttCheckConnectStatus
  durs [Dur.pre]

omit hs in
theorem getId_dur : Dur K D N P (2 * D) mqttGetPacketId := by
  unfold mqttGetPacketId
  durs [Dur.pre]

theorem keepAlive_dur : Dur K D N P (sendTime g D + 5 * D) (handleKeepAlive g) := by
  unfold handleKeepAlive
  durs [ping_dur hs]

theorem incomingPublish_dur (pk : PacketInfo) : Dur K D N P (ackTime g D + 3 * D) (handleIncomingPublish g pk) := by
  unfold handleIncomingPublish recordIncomingPublish
  durs [acks_dur hs _ _, tables_publish _ _ _]

theorem publishAcks_dur (pk : PacketInfo) : Dur K D N P (ackTime g D + 4 * D) (handlePublishAcks g pk) := by
  unfold handlePublishAcks
  durs [acks_dur hs _ _, tables_ack _ _ _]

theorem incomingAck_dur (pk : PacketInfo) (m : Bool) : Dur K D N P (ackTime g D + 4 * D) (handleIncomingAck g pk m) := by
  unfold handleIncomingAck
  durs [publishAcks_dur hs _]

theorem handlePacket_dur (m : Bool) (h : HeaderRes) : Dur K D N P (ackTime g D + 5 * D) (handlePacket g m h) := by
  have hlen : ∀ (mem : List UInt8) (a b : Nat), (writeAt mem 0 ((mem.drop a).take b)).length = mem.length := by
    intro mem a b
    simp only [writeAt, List.length_append, List.length_take, List.length_drop]
    omega
  unfold handlePacket
  refine Dur.getCtx fun c _ _ => ?_
  dsimp only
  refine Dur.bind (a := ackTime g D + 4 * D) (Dur.ite ((incomingPublish_dur hs _).mono (by omega)) (incomingAck_dur hs _ _)) (by omega) fun st => ?_
  refine Dur.getCtx fun c _ _ => Dur.ite (Dur.modify (fun c => hlen _ _ _) (fun _ => rfl) ?_) Dur.ub
  durs [Dur.time]

omit hs in
theorem complete_dur (hr : g.recvPollingTimeoutMs.toNat + 3 * D < 2 ^ 32) (st : Status) (n : Nat) :
    Dur K D N (byteTime g D) (byteTime g D) (checkComplete g st n) := by
  unfold checkComplete
  durs [discardStored_dur g hr _]

/-- What follows the first receive call of an iteration. -/
def iterRest (g : Cfg) (m : Bool) (c : Ctx) (r : Option Nat) : M Status :=
  (match r with
    | none => markPendingHooked >>= fun _ => pure (none, ⟨.recvFailed, 0, 0, 0⟩)
    | some k =>
      if k = 0 ∧ c.index = 0 then pure (some 0, ⟨.noDataAvailable, 0, 0, 0⟩)
      else (modifyCtx fun c => { c with index := c.index + k }) >>= fun _ => getCtx >>= fun c =>
        liftRes (processIncomingPacketTypeAndLength (some c.netBuf) c.index) >>= fun h => pure (some k, h) : M (Option Nat × HeaderRes)) >>= fun y =>
  keepAliveCheck g y.1 m y.2.status >>= fun st => checkComplete g st (y.2.remainingLength + y.2.headerLength) >>= fun st =>
  (if st = .success then handlePacket g m y.2 else pure st) >>= fun st => if st = .noDataAvailable then pure .success else pure st

omit hs in
theorem iteration_eq (m : Bool) : receiveSingleIteration g m = (getCtx >>= fun c => recvInto c.index (c.bufSize - c.index) >>= iterRest g m c) := by
  unfold receiveSingleIteration receiveHeader iterRest
  rw [Duration.assoc]
  congr 1
  funext c
  rw [Duration.assoc]
  rfl

theorem keepCheck_dur (r : Option Nat) (m : Bool) (st : Status) : Dur K D N P (if m then sendTime g D + 5 * D else 0) (keepAliveCheck g r m st) := by
  unfold keepAliveCheck
  cases m with
  | false =>
    have h : ¬ (r = some 0 ∧ false = true) := fun h => Bool.noConfusion h.2
    simp only [if_neg h]
    exact Dur.pure
  | true => 
    simp only [if_true]
    durs [keepAlive_dur hs]

omit hs in
theorem Dur.fuelC {B : Nat} {f : Nat → M α} (h : ∀ k, Dur K D N P B (f k)) : Dur K D N P B (clockFuel >>= f) := fun c x => H.fuelC fun k => h k c x

theorem iterRest_dur (hr : g.recvPollingTimeoutMs.toNat + 3 * D < 2 ^ 32) (m : Bool) (c : Ctx) (r : Option Nat) :
    Dur K D N (byteTime g D) ((if m then sendTime g D + 5 * D else 0) + max (byteTime g D) (ackTime g D + 5 * D)) (iterRest g m c r) := by
  have tail : ∀ y : Option Nat × HeaderRes, Dur K D N (byteTime g D) ((if m then sendTime g D + 5 * D else 0) + max (byteTime g D) (ackTime g D + 5 * D))
      (keepAliveCheck g y.1 m y.2.status >>= fun st => checkComplete g st (y.2.remainingLength + y.2.headerLength) >>= fun st =>
        (if st = .success then handlePacket g m y.2 else pure st) >>= fun st => if st = .noDataAvailable then pure .success else pure st) := by
    intro y
    refine (keepCheck_dur hs _ _ _).bind (by omega) fun st => ?_
    rw [Nat.add_sub_cancel_left]
    -- dropping a packet and handling one exclude each other
    have hx : ∀ st', Dur K D N (byteTime g D) (max (byteTime g D) (ackTime g D + 5 * D))
        ((if st' = .success then handlePacket g m y.2 else pure st') >>= fun st => if st = .noDataAvailable then pure .success else pure st) := fun st' =>
      (Dur.ite (B := ackTime g D + 5 * D) (handlePacket_dur hs m y.2) Dur.pure).bind (by omega) fun _ => Dur.ite Dur.pure Dur.pure
    unfold checkComplete
    refine Dur.assoc (Dur.getCtx fun c _ _ => ?_)
    refine Dur.ite_bind (Dur.pure_bind (hx _)) (Dur.ite_bind ?_ (Dur.ite_bind (Dur.pure_bind (hx _)) (Dur.pure_bind (hx _))))
    unfold discardStoredPacket resetBuffer
    refine Dur.assoc (Dur.getCtx fun c hb _ => Dur.assoc (Dur.lift fun _ _ => Dur.assoc (Dur.fuelC fun k => Dur.assoc ?_)))
    refine (discardStoredLoop_dur g hr _ _ _ hb).bind (by unfold byteTime; omega) fun left => ?_
    refine Dur.assoc (Dur.modify (fun c => by simp [Ctx.bufSize]) (fun _ => rfl) ?_)
    refine Dur.ite_bind ?_ ?_
    · refine Dur.pure_bind ?_
      rw [if_neg (by decide)]
      exact Dur.pure_bind (Dur.ite Dur.pure Dur.pure)
    · refine Dur.pure_bind ?_
      rw [if_neg (by decide)]
      exact Dur.pure_bind (Dur.ite Dur.pure Dur.pure)
  unfold iterRest
  cases r with
  | none =>
    dsimp only
    have hle : 2 * D ≤ (if m then sendTime g D + 5 * D else 0) + max (byteTime g D) (ackTime g D + 5 * D) := by omega
    generalize (if m then sendTime g D + 5 * D else 0) + max (byteTime g D) (ackTime g D + 5 * D) = B at hle
    refine Dur.assoc (Dur.marked.bind hle fun _ => Dur.pure_bind ?_)
    unfold keepAliveCheck checkComplete
    rw [if_neg (by simp)]
    refine Dur.pure_bind (Dur.assoc (Dur.getCtx fun c _ _ => ?_))
    rw [if_pos (by decide)]
    refine Dur.pure_bind ?_
    rw [if_neg (by decide)]
    exact Dur.pure_bind (Dur.ite Dur.pure Dur.pure)
  | some k =>
    dsimp only
    refine Dur.ite_bind (Dur.pure_bind (tail _)) ?_
    refine Dur.assoc (Dur.modify (fun _ => rfl) (fun _ => rfl) (Dur.assoc (Dur.getCtx fun c _ _ => Dur.assoc (Dur.lift fun h _ => Dur.pure_bind (tail _)))))

/-! ### Connecting -/

omit hs in
/-- What a piece that takes at most `B` does to a statement about the time and the bytes. -/
theorem Dur.frame {B : Nat} {m : M α} (h : Dur K D N 0 B m) {A : Nat → Nat → Prop} {R : Nat → Nat → Prop}
    (hr : ∀ t b t' b', A t b → t ≤ t' → t' ≤ t + B → b ≤ b' → R t' b') : H K D N A m (fun _ => R) := by
  intro w hi
  obtain ⟨es, h1, h2, _⟩ := h 0 0 w hi
  refine ⟨es, h1, h2, fun t b t' ha ht => ?_⟩
  obtain ⟨es', h1', _, h3'⟩ := h t 0 w hi
  have : es' = es := List.append_cancel_left (h1'.symm.trans h1)
  subst this
  have hle := h3' t b t' (by omega) ht
  have mono : ∀ (es : List Event) (t t' : Nat), Timed D t es t' → t ≤ t' := by
    intro es
    induction es with
    | nil => intro t t' h; cases h; exact Nat.le_refl _
    | cons e es ih =>
      intro t t' h
      cases e with
      | time x =>
        obtain ⟨r, u, k1, k2, k3, k4, k5⟩ := h
        have := ih _ _ k5
        omega
      | _ =>
        obtain ⟨u, k1, k2, k5⟩ := h
        have := ih _ _ k5
        omega
  exact hr t b t' _ ha (mono _ _ _ ht) (by omega) (by omega)

omit hs in
theorem recvOne_dur : Dur K D N P D recvOne := by
  unfold recvOne
  refine (Dur.recv 1).bind (Nat.le_refl _) fun r => ?_
  split <;> exact Dur.pure

omit hs in
theorem lengthLoop_dur : ∀ n u v z, Dur K D N P (n * D) (getRemainingLengthLoopM n u v z)
  | 0, _, _, _ => Dur.stuck
  | n + 1, u, v, z => by
    have ih := lengthLoop_dur n
    unfold getRemainingLengthLoopM
    rw [Nat.add_mul, Nat.one_mul]
    refine Dur.ite Dur.pure (recvOne_dur.bind (by omega) fun r => ?_)
    rw [Nat.add_sub_cancel]
    cases r with
    | byte e => exact Dur.ite Dur.pure (Dur.ite (ih _ _ _) Dur.pure)
    | _ => exact Dur.pure

omit hs in
theorem header_dur : Dur K D N P (6 * D) getIncomingPacketTypeAndLengthM := by
  have h5 : Dur K D N P (5 * D) getRemainingLengthM := by
    unfold getRemainingLengthM
    refine (lengthLoop_dur 5 0 1 0).bind (Nat.le_refl _) fun y => ?_
    exact Dur.ite Dur.pure Dur.pure
  unfold getIncomingPacketTypeAndLengthM
  refine recvOne_dur.bind (by omega) fun r => ?_
  cases r with
  | byte e => exact Dur.ite (h5.bind (by omega) fun _ => Dur.ite Dur.pure Dur.pure) Dur.pure
  | _ => exact Dur.pure

omit hs in
theorem connackLoop_count (e : UInt32) : ∀ fuel k, Dur K D N P ((g.connackRetryCount - k + 1) * (6 * D)) (connackLoop g 0 e fuel k) := by
  intro fuel
  induction fuel with
  | zero => exact fun _ => Dur.stuck
  | succ fuel ih =>
    intro k
    unfold connackLoop connackBreak
    rw [if_neg (by decide)]
    refine header_dur.bind (by rw [Nat.add_mul]; omega) fun h => Dur.pure_bind ?_
    rw [Nat.add_mul, Nat.one_mul, Nat.add_sub_cancel]
    by_cases hk : k ≥ g.connackRetryCount
    · rw [decide_eq_true hk]
      rw [if_neg (by simp)]
      exact Dur.pure
    · refine Dur.ite ((ih (k + 1)).mono ?_) Dur.pure
      rw [show g.connackRetryCount - (k + 1) + 1 = g.connackRetryCount - k by omega]
      exact Nat.le_refl _

omit hs in
theorem connackLoop_timed {τ : UInt32} (h0 : τ ≠ 0) (ht : τ.toNat + 8 * D < 2 ^ 32) (c x : Nat) (e : UInt32) : ∀ fuel k,
    H K D N (Waiting P c x e (τ.toNat + D)) (connackLoop g τ e fuel k) (fun _ t b => t + x ≤ c + (τ.toNat + 8 * D) + b * P) := by
  have fin : ∀ {y t b}, y ≤ τ.toNat + 8 * D → Waiting P c x e y t b → t + x ≤ c + (τ.toNat + 8 * D) + b * P := by
    rintro y t b hy ⟨L, h1, h2, h3, h4⟩
    omega
  intro fuel
  induction fuel with
  | zero => exact fun _ => H.stuck fun t b h => fin (by omega) h
  | succ fuel ih =>
    intro k
    unfold connackLoop connackBreak
    have hpos : τ > 0 := UInt32.pos_iff_ne_zero.mpr h0
    rw [if_pos hpos]
    refine H.bind (fun _ => Waiting P c x e (τ.toNat + 7 * D)) ?_ (fun h => ?_) (fun t b h => fin (by omega) h)
    · refine Dur.frame header_dur ?_
      rintro t b t' b' ⟨L, h1, h2, h3, h4⟩ h5 h6 h7
      refine ⟨L, h1, by omega, by omega, ?_⟩
      have := Nat.mul_le_mul_right P h7
      omega
    · rw [Duration.assoc]
      refine H.bind (fun v t b => match v with
        | none => t + x ≤ c + (τ.toNat + 8 * D) + b * P
        | some v => ∃ L r, e = UInt32.ofNat L ∧ v = UInt32.ofNat r ∧ L ≤ r ∧ r ≤ t ∧ t ≤ r + D ∧ t ≤ L + τ.toNat + 8 * D ∧ L + x ≤ c + b * P) ?_ (fun v => ?_) (fun t b h => h)
      · refine H.time (fun t b h => fin (by omega) h) ?_
        rintro t b r u ⟨L, h1, h2, h3, h4⟩ h5 h6 h7
        exact ⟨L, r, h1, rfl, by omega, h6, by omega, by omega, h4⟩
      · show H K D N _ (if _ then _ else _) _
        refine H.ite (fun hc => (ih (k + 1)).mono ?_ (fun _ _ _ h => h)) (fun _ => H.pure ?_)
        · rintro t b ⟨L, r, rfl, rfl, h3, h4, h5, h6, h7⟩
          have he := elapsed_real h3 (by omega)
          have hc := of_decide_eq_false hc.2
          have : ¬ τ.toNat ≤ r - L := by rw [← he]; exact fun hlt => hc (UInt32.le_iff_toNat_le.mpr hlt)
          exact ⟨L, rfl, by omega, by omega, h7⟩
        · rintro t b ⟨L, r, h1, h2, h3, h4, h5, h6, h7⟩
          omega

omit hs in
theorem connackWait_dur (τ : UInt32) (ht : τ.toNat + 8 * D < 2 ^ 32) {f : UInt32 → HeaderRes → M α} {B : Nat} (hf : ∀ e h, Dur K D N P B (f e h)) :
    Dur K D N P (connackTime g D τ + D + B) (getTime >>= fun e => recvFuel >>= fun fuel => connackLoop g τ e fuel 0 >>= fun h => f e h) := by
  unfold connackTime
  by_cases h0 : τ = 0
  · subst h0
    rw [if_pos rfl]
    refine Dur.time.bind (by omega) fun e => ?_
    intro c x
    refine H.fuelR fun k => ?_
    refine Dur.bind (connackLoop_count (g := g) e k 0) (by rw [Nat.sub_zero]; omega) (fun h => (hf e h).mono (by rw [Nat.sub_zero]; omega)) c x
  · rw [if_neg h0]
    intro c x
    refine H.bind (fun v t b => match v with
      | none => t + x ≤ c + b * P
      | some v => Waiting P (c + D) x v (τ.toNat + D) t b) ?_ (fun e => H.fuelR fun k => ?_) (fun t b h => by have : t + x ≤ _ := h; omega)
    · exact H.time (fun t b h => h) (fun t b r u h h1 h2 h3 => ⟨r, rfl, h2, by omega, by omega⟩)
    · refine (connackLoop_timed h0 ht (c + D) x e k 0).bind _ (fun h => ?_) (fun t b h => by omega)
      exact (hf e h (c + D + (τ.toNat + 8 * D)) x).mono (fun _ _ h => h) (fun _ t b h => by omega)

omit hs in
theorem receiveConnack_dur (hr : g.recvPollingTimeoutMs.toNat + 3 * D < 2 ^ 32) (τ : UInt32) (ht : τ.toNat + 8 * D < 2 ^ 32) (u v : Bool) :
    Dur K D N (byteTime g D) (connackTime g D τ + D + (D + byteTime g D)) (receiveConnack g τ u v) := by
  unfold receiveConnack
  refine connackWait_dur τ ht fun e h => ?_
  unfold finishConnack
  durs [receivePacket_dur g hr _ _]

omit hs in
theorem clearStored_dur : ∀ n cur, N < n + cur → Dur K D N P ((N - cur) * D) (clearStored n cur) := by
  intro n
  induction n with
  | zero => exact fun _ _ => Dur.stuck
  | succ n ih =>
    intro cur hn
    unfold clearStored
    refine Dur.getCtx fun c _ hN => Dur.lift fun y hy => ?_
    obtain ⟨id, cur'⟩ := y
    unfold publishToResend at hy
    dsimp only
    by_cases hid : id = 0
    · rw [if_pos hid]; exact Dur.pure
    · rw [if_neg hid]
      obtain ⟨h3, h4⟩ := stateSelect_cursor hy hid
      rw [hN] at h4
      have hst := step_cost (k := D) h3 h4
      exact (Dur.clear id).bind (by omega) fun _ => (ih cur' (by omega)).mono (by omega)

theorem resendPubrels_dur : ∀ n cur, N < n + cur → Dur K D N P ((N - cur) * ackTime g D) (resendPubrels g n cur) := by
  intro n
  induction n with
  | zero => exact fun _ _ => Dur.stuck
  | succ n ih =>
    intro cur hn
    unfold resendPubrels
    refine Dur.getCtx fun c _ hN => Dur.lift fun y hy => ?_
    obtain ⟨id, cur', st⟩ := y
    unfold pubrelToResend at hy
    obtain ⟨⟨id1, c1⟩, h1, h2⟩ := Res.bind_ok hy
    cases h2
    by_cases hid : id = 0
    · simp only [if_pos hid]; exact Dur.pure
    · simp only [if_neg hid]
      obtain ⟨h3, h4⟩ := stateSelect_cursor h1 hid
      rw [hN] at h4
      have hst := step_cost (k := ackTime g D) h3 h4
      exact (acks_dur hs _ _).bind (by omega) fun _ => Dur.ite Dur.pure ((ih cur' (by omega)).mono (by omega))

theorem resendPublishes_dur : ∀ n cur, N < n + cur → Dur K D N P ((N - cur) * (sendTime g D + 3 * D)) (resendPublishes g n cur) := by
  intro n
  induction n with
  | zero => exact fun _ _ => Dur.stuck
  | succ n ih =>
    intro cur hn
    unfold resendPublishes
    refine Dur.getCtx fun c _ hN => Dur.lift fun y hy => ?_
    obtain ⟨id, cur'⟩ := y
    unfold publishToResend at hy
    dsimp only
    by_cases hid : id = 0
    · rw [if_pos hid]; exact Dur.pure
    · rw [if_neg hid]
      obtain ⟨h3, h4⟩ := stateSelect_cursor hy hid
      rw [hN] at h4
      have hst := step_cost (k := sendTime g D + 3 * D) h3 h4
      refine (Dur.retrieve id).bind (by omega) fun r => ?_
      cases r with
      | none => exact Dur.pure
      | some bytes =>
        refine Dur.pre.bind (by omega) fun _ => (sendBuffer_dur g hs bytes).bind (by omega) fun r => Dur.post.bind (by omega) fun _ => ?_
        exact Dur.ite Dur.pure ((ih cur' (by omega)).mono (by omega))

omit hs in
theorem clean_dur : Dur K D N P (N * D) handleCleanSession := by
  unfold handleCleanSession resetBuffer
  refine Dur.modify (fun c => by simp [Ctx.bufSize]) (fun _ => rfl) (Dur.getCtx fun c _ hN => ?_)
  rw [hN]
  have hend : ∀ B, Dur K D N P B (do
      modifyCtx fun c => { c with tables := ⟨List.replicate c.tables.outgoing.length Rec.empty, List.replicate c.tables.incoming.length Rec.empty⟩ }
      pure Status.success) := fun B => Dur.modify (fun _ => rfl) (fun c => by simp) Dur.pure
  refine Dur.ite ?_ (hend _)
  exact (clearStored_dur (N + 1) 0 (by omega)).bind (by rw [Nat.sub_zero]; omega) fun _ => hend _

theorem resume_dur : Dur K D N P (N * ackTime g D + N * (sendTime g D + 3 * D)) (handleUncleanSessionResumption g) := by
  unfold handleUncleanSessionResumption
  refine Dur.getCtx fun c _ hN => ?_
  rw [hN]
  refine (resendPubrels_dur hs (N + 1) 0 (by omega)).bind (by rw [Nat.sub_zero]; omega) fun st => Dur.ite ?_ Dur.pure
  exact (resendPublishes_dur hs (N + 1) 0 (by omega)).mono (by rw [Nat.sub_zero]; omega)

theorem sendConnect_dur (ci : ConnectInfo) (will : Option PublishInfo) (n : Nat) : Dur K D N P (sendTime g D) (sendConnectWithoutCopy g ci will n) := by
  unfold sendConnectWithoutCopy
  durs [sendWhole_dur hs _]

theorem connectLocked_from {B : Nat} {τ : UInt32} (hrc : ∀ u v, Dur K D N P B (receiveConnack g τ u v)) (ci : ConnectInfo) (will : Option PublishInfo) (n : Nat) (sp : Bool) :
    Dur K D N P (sendTime g D + B + N * D) (connectLocked g ci will n τ sp) := by
  unfold connectLocked
  refine Dur.getCtx fun c _ _ => Dur.ite Dur.pure ?_
  refine (sendConnect_dur hs ci will n).bind (by omega) fun st => Dur.ite Dur.pure ?_
  refine (hrc _ _).bind (by omega) fun y => ?_
  refine Dur.ite Dur.pure ?_
  refine Dur.bind (a := N * D) (Dur.ite clean_dur Dur.pure) (by omega) fun st => ?_
  exact Dur.ite (Dur.modify (fun _ => rfl) (fun _ => rfl) Dur.pure) Dur.pure

theorem connect_from {B : Nat} {τ : UInt32} (hrc : ∀ u v, Dur K D N P B (receiveConnack g τ u v)) (ci : Option ConnectInfo) (will : Option PublishInfo) (sp : Option Bool) :
    Dur K D N P (sendTime g D + B + N * D + (N * ackTime g D + N * (sendTime g D + 3 * D)) + 4 * D) (mqttConnect g ci will τ sp) := by
  generalize hB1 : N * ackTime g D + N * (sendTime g D + 3 * D) = B1
  generalize hB2 : N * D = B2
  have hres := hB1 ▸ resume_dur (K := K) (N := N) (P := P) hs
  have hloc := fun ci n sp => hB2 ▸ connectLocked_from hs hrc ci will n sp
  have hfail : ∀ st, Dur K D N P (2 * D) (connectFailed st) := by
    intro st
    unfold connectFailed
    exact Dur.ite Dur.pure Dur.marked
  have hcore : ∀ ci n sp, Dur K D N P (2 * D + (sendTime g D + B + B2) + B1) (connectCore g ci will n τ sp) := by
    intro ci n sp
    unfold connectCore
    refine Dur.pre.bind (by omega) fun _ => (hloc ci n sp).bind (by omega) fun y => ?_
    refine Dur.post.bind (by omega) fun _ => Dur.ite (hres.bind (by omega) fun _ => Dur.pure) Dur.pure
  unfold mqttConnect
  split
  · refine Dur.bind (a := 2 * D + (sendTime g D + B + B2) + B1) (Dur.ite (hcore _ _ _) Dur.pure) (by omega) fun y => ?_
    exact (hfail _).bind (by omega) fun _ => Dur.pure
  · exact (hfail _).bind (by omega) fun _ => Dur.pure

theorem connect_dur (hr : g.recvPollingTimeoutMs.toNat + 3 * D < 2 ^ 32) (ci : Option ConnectInfo) (will : Option PublishInfo) (τ : UInt32)
    (ht : τ.toNat + 8 * D < 2 ^ 32) (sp : Option Bool) :
    Dur K D N (byteTime g D) (callTime g D N (.connect ci will τ sp)) (mqttConnect g ci will τ sp) := by
  refine (connect_from hs (receiveConnack_dur hr τ ht) ci will sp).mono ?_
  simp only [callTime]
  omega

/-! ### The calls -/

omit hs in
/-- A piece that begins with an attempt to receive: the bytes of that attempt do not count. -/
theorem loop_dur {B : Nat} {f : Ctx → Option Nat → M α} (h : ∀ c r, Dur K D N P B (f c r)) (w : World) (hi : Inv K N w) :
    ∃ es, ((getCtx >>= fun c => recvInto c.index (c.bufSize - c.index) >>= f c) w).world.trace = w.trace ++ es ∧
      ∀ t t', Timed D t es t' → t' ≤ t + (B + D) + (received es.tail).length * P := by
  show ∃ es, (M.bind (recvInto w.ctx.index (w.ctx.bufSize - w.ctx.index)) (f w.ctx) w).world.trace = _ ∧ _
  have key : (∃ r w' ev, recvInto w.ctx.index (w.ctx.bufSize - w.ctx.index) w = .done r w' ∧ w'.trace = w.trace ++ [ev] ∧ Inv K N w') ∨
      (M.bind (recvInto w.ctx.index (w.ctx.bufSize - w.ctx.index)) (f w.ctx) w).world.trace = w.trace := by
    obtain ⟨_, _, hinv, _⟩ := H.into (D := D) (A := fun _ _ => True) (p := w.ctx.index) (n := w.ctx.bufSize - w.ctx.index) (R := fun _ _ _ => True)
      (fun _ _ _ => trivial) (fun _ _ _ _ _ _ => trivial) (fun _ _ _ _ _ _ _ _ => trivial) w hi
    unfold M.bind
    have hE : recvInto w.ctx.index (w.ctx.bufSize - w.ctx.index) w = (if w.ctx.index + (w.ctx.bufSize - w.ctx.index) ≤ w.ctx.bufSize then (do
        let r ← transportRecv (w.ctx.bufSize - w.ctx.index)
        match r with
        | none => Pure.pure none
        | some bs => do
          modifyCtx fun c => { c with netBuf := writeAt c.netBuf w.ctx.index bs }
          Pure.pure (some bs.length)) else ubM .oobWrite : M (Option Nat)) w := rfl
    rw [hE] at hinv ⊢
    split at hinv
    · rename_i hc
      rw [if_pos hc]
      simp only [bind, M.bind, transportRecv] at hinv ⊢
      cases hr : w.env.recvs with
      | nil => exact .inr rfl
      | cons y rest =>
        rw [hr] at hinv
        left
        cases y with
        | fail => exact ⟨_, _, _, rfl, rfl, hinv⟩
        | deliver k => exact ⟨_, _, _, rfl, rfl, hinv⟩
    · rename_i hc
      rw [if_neg hc]
      exact .inr rfl
  rcases key with ⟨r, w', ev, h1, h2, h3⟩ | h0
  · unfold M.bind
    rw [h1]
    obtain ⟨es, k1, _, _⟩ := h w.ctx r 0 0 w' h3
    refine ⟨ev :: es, by rw [show (f w.ctx r w').world.trace = _ from k1, h2]; simp, fun t t' ht => ?_⟩
    obtain ⟨u, t1, t2⟩ := timed_append (a := [ev]) (b := es) ht
    have hu : u ≤ t + D := by
      cases ev with
      | time x => obtain ⟨r, v, a1, a2, a3, a4, rfl⟩ := t1; exact a3
      | _ => obtain ⟨v, a1, a2, rfl⟩ := t1; exact a2
    obtain ⟨es', k1', _, k3⟩ := h w.ctx r u 0 w' h3
    have : es' = es := List.append_cancel_left (k1'.symm.trans k1)
    subst this
    have := k3 u 0 t' (by omega) t2
    simp only [Nat.zero_add, Nat.add_zero] at this
    show t' ≤ t + (B + D) + (received es').length * P
    omega
  · exact ⟨[], by simpa using h0, fun t t' ht => by cases ht; omega⟩

omit hs in
theorem Dur.status {B : Nat} {m : M α} {k : α → β} (h : Dur K D N P B m) : Dur K D N P B (m >>= fun y => Pure.pure (k y)) :=
  h.bind (Nat.le_refl _) fun _ => Dur.pure

omit hs in
theorem Dur.run {B : Nat} {m : M α} (h : Dur K D N P B m) (w : World) (hi : Inv K N w) :
    ∃ es, (m w).world.trace = w.trace ++ es ∧ ∀ t t', Timed D t es t' → t' ≤ t + B + (received es).length * P := by
  obtain ⟨es, k1, _, _⟩ := h 0 0 w hi
  refine ⟨es, k1, fun t t' hti => ?_⟩
  obtain ⟨es', k1', _, k3⟩ := h t 0 w hi
  have : es' = es := List.append_cancel_left (k1'.symm.trans k1)
  subst this
  have := k3 t 0 t' (by omega) hti
  simpa using this

theorem loops_dur (hr : g.recvPollingTimeoutMs.toNat + 3 * D < 2 ^ 32) (m : Bool) (w : World) (hi : Inv K N w) :
    ∃ es, ((receiveSingleIteration g m >>= fun st => Pure.pure (ApiRet.status st)) w).world.trace = w.trace ++ es ∧
      ∀ t t', Timed D t es t' → t' ≤ t + ((if m then sendTime g D + 5 * D else 0) + max (byteTime g D) (ackTime g D + 5 * D) + D) + (received es.tail).length * byteTime g D := by
  rw [iteration_eq, Duration.assoc]
  simp only [Duration.assoc]
  exact loop_dur (fun c r => (iterRest_dur hs hr m c r).bind (Nat.le_refl _) fun _ => Dur.pure) w hi

theorem calls_dur (hr : g.recvPollingTimeoutMs.toNat + 3 * D < 2 ^ 32) (f : ApiCall) (ht : ∀ ci will τ sp, f = .connect ci will τ sp → τ.toNat + 8 * D < 2 ^ 32)
    (w : World) (hi : Inv K N w) : ∃ es, (apiCall g f w).world.trace = w.trace ++ es ∧
      ∀ t t', Timed D t es t' → t' ≤ t + callTime g D N f + awaited f es * byteTime g D := by
  have other : ∀ {m : M ApiRet}, Dur K D N 0 (callTime g D N f) m → ∃ es, (m w).world.trace = w.trace ++ es ∧
      ∀ t t', Timed D t es t' → t' ≤ t + callTime g D N f + 0 * byteTime g D := by
    intro m h
    obtain ⟨es, k1, k2⟩ := h.run w hi
    exact ⟨es, k1, fun t t' hti => by have := k2 t t' hti; omega⟩
  cases f with
  | processLoop =>
    obtain ⟨es, k1, k2⟩ := loops_dur hs hr true { w with ctx := { w.ctx with controlPacketSent := false } } hi
    exact ⟨es, k1, k2⟩
  | receiveLoop =>
    obtain ⟨es, k1, k2⟩ := loops_dur hs hr false w hi
    refine ⟨es, k1, fun t t' hti => ?_⟩
    have := k2 t t' hti
    rw [if_neg (by decide)] at this
    simp only [callTime, awaited]
    omega
  | connect ci will τ sp => exact (connect_dur hs hr ci will τ (ht ci will τ sp rfl) sp).status.run w hi
  | subscribe subs id => exact other (sub_dur hs _ subs id).status
  | unsubscribe subs id => exact other (sub_dur hs _ subs id).status
  | publish p id => exact other (publish_dur hs p id).status
  | ping => exact other (ping_dur hs).status
  | disconnect => exact other (disconnect_dur hs).status
  | cancelCallback id => exact other (cancel_dur id).status
  | checkConnectStatus => exact other check_dur.status
  | getPacketId => exact other getId_dur.status

end
end
end Mqtt.Duration
