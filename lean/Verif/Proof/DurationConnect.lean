/-
`MQTT_Connect` does not wait for more than one buffer of bytes after its time is over.
-/
import Verif.Proof.DurationApi

namespace Mqtt.Duration
open Spec

section
variable {K D N P : Nat} {α β : Type}

/-- It is enough to look at each start by itself. -/
theorem H.point {A A' : Nat → Nat → Prop} {m : M α} {R R' : Option α → Nat → Nat → Prop} (h0 : H K D N A' m R')
    (h : ∀ t0 b0, A t0 b0 → H K D N (fun t b => t = t0 ∧ b = b0) m R) : H K D N A m R := by
  intro w hi
  obtain ⟨es, h1, h2, _⟩ := h0 w hi
  refine ⟨es, h1, h2, fun t b t' ha ht => ?_⟩
  obtain ⟨es', h1', _, h3'⟩ := h t b ha w hi
  obtain rfl : es' = es := List.append_cancel_left (h1'.symm.trans h1)
  exact h3' t b t' ⟨rfl, rfl⟩ ht

/-! ### How many bytes are received -/

theorem recvExactLoop_count (g : Cfg) : ∀ fuel p n l k, H K D N (fun _ b => b ≤ k) (recvExactLoop g fuel p n l) (fun _ _ b => b ≤ k + n) := by
  intro fuel
  induction fuel with
  | zero => exact fun p n l k => H.stuck fun t b h => by omega
  | succ fuel ih =>
    intro p n l k
    unfold recvExactLoop
    refine H.ite (fun hn => ?_) (fun _ => H.pure fun t b h => by omega)
    refine H.bind (fun r t b => match r with
      | some (some m) => b ≤ k + m ∧ m ≤ n
      | _ => b ≤ k) ?_ (fun r => ?_) (fun t b h => by have : b ≤ k := h; omega)
    · exact H.into (fun t b h => h) (fun t b u h _ _ => h) (fun t b u m h _ _ h3 => ⟨by omega, h3⟩)
    · cases r with
      | none =>
        dsimp only
        refine H.bind (fun _ _ b => b ≤ k + n) ?_ (fun _ => H.pure fun t b h => h) (fun t b h => h)
        unfold markPendingHooked
        refine H.bind (fun _ _ b => b ≤ k) (H.pre (fun t b h => h) (fun t b u h _ _ => h)) (fun _ => ?_) (fun t b h => by omega)
        unfold markPending
        refine H.modify (fun c => by split <;> rfl) (fun c => by split <;> rfl) ?_
        exact H.event (fun _ => ⟨rfl, .inr ⟨.post, rfl, trivial⟩⟩) (fun t b h => by omega) (fun _ t b u h _ _ => by omega)
      | some m =>
        dsimp only
        refine H.ite (fun _ => ?_) (fun _ => ?_)
        · refine H.bind (fun _ _ b => b ≤ k + m ∧ m ≤ n) (H.time (fun t b h => h) (fun t b r u h _ _ _ => h)) (fun v => ?_) (fun t b h => by omega)
          refine H.lift (fun _ _ => ?_) (fun t b h => by omega)
          refine H.point (ih (p + m) (n - m) v (k + m)) fun t0 b0 h0 => ?_
          exact (ih (p + m) (n - m) v (k + m)).mono (fun t b h => by omega) (fun _ t b h => by omega)
        · refine H.bind (fun _ _ b => b ≤ k + m ∧ m ≤ n) (H.time (fun t b h => h) (fun t b r u h _ _ _ => h)) (fun v => ?_) (fun t b h => by omega)
          refine H.ite (fun _ => H.pure fun t b h => by omega) (fun _ => ?_)
          exact (ih p n l k).mono (fun t b h => by omega) (fun _ _ _ h => h)

theorem recvExact_count (g : Cfg) (n k : Nat) : H K D N (fun _ b => b ≤ k) (recvExact g n) (fun _ _ b => b ≤ k + n) := by
  unfold recvExact
  refine H.getCtx fun ct _ _ => H.lift (fun _ _ => ?_) (fun t b h => by omega)
  refine H.bind (fun _ _ b => b ≤ k) (H.time (fun t b h => h) (fun t b r u h _ _ _ => h)) (fun v => H.fuelR fun f => recvExactLoop_count g f 0 n v k) (fun t b h => by omega)

/-- If only so many bytes are received, then they need not be counted. -/
theorem Dur.bounded {B n : Nat} {m : M α} (h : Dur K D N P B m) (hc : H K D N (fun _ b => b ≤ 0) m (fun _ _ b => b ≤ n)) : Dur K D N 0 (B + n * P) m := by
  intro c x w hi
  obtain ⟨es, h1, h2, _⟩ := h 0 0 w hi
  refine ⟨es, h1, h2, fun t b t' ha ht => ?_⟩
  obtain ⟨es', h1', _, h3'⟩ := h c x w hi
  obtain rfl : es' = es := List.append_cancel_left (h1'.symm.trans h1)
  obtain ⟨es'', h1'', _, h3''⟩ := hc w hi
  obtain rfl : es'' = es' := List.append_cancel_left (h1''.symm.trans h1)
  have k1 := h3' t 0 t' (by omega) ht
  have k2 := h3'' t 0 t' (by omega) ht
  have k3 := Nat.mul_le_mul_right P k2
  rw [Nat.mul_zero]
  omega

/-- The longest wait for one buffer of bytes. -/
def bufferTime (g : Cfg) (D K : Nat) : Nat := (g.recvPollingTimeoutMs.toNat + 5 * D) + K * byteTime g D

theorem recvExact_flat (g : Cfg) (hw : g.recvPollingTimeoutMs.toNat + 3 * D < 2 ^ 32) {n : Nat} (hn : n ≤ K) : Dur K D N 0 (bufferTime g D K) (recvExact g n) := by
  refine (Dur.bounded (recvExact_whole g hw n) ((recvExact_count g n 0).mono (fun _ _ h => h) (fun _ t b h => by rw [Nat.zero_add] at h; exact h))).mono ?_
  have := Nat.mul_le_mul_right (byteTime g D) hn
  unfold bufferTime
  omega

theorem discardLoop_timed (g : Cfg) (hw : g.recvPollingTimeoutMs.toNat + 3 * D < 2 ^ 32) {ρ : UInt32} (hρ : ρ.toNat + bufferTime g D K + 2 * D < 2 ^ 32) (L : Nat) : ∀ fuel left k, k ≤ K →
    H K D N (fun t _ => L ≤ t ∧ t ≤ L + ρ.toNat + D) (discardLoop g ρ (UInt32.ofNat L) fuel left k)
      (fun _ t _ => t ≤ L + ρ.toNat + bufferTime g D K + 2 * D) := by
  intro fuel
  induction fuel with
  | zero => exact fun _ _ _ => H.stuck fun t b h => by omega
  | succ fuel ih =>
    intro left k hk
    unfold discardLoop
    by_cases hl : left > 0
    · simp only [if_pos hl]
      generalize hk' : (if left < k then left else k) = k'
      have hle : k' ≤ K := by rw [← hk']; split <;> omega
      refine H.bind (fun _ t _ => L ≤ t ∧ t ≤ L + ρ.toNat + D + bufferTime g D K) ((recvExact_flat g hw hle).frame fun t b t' b' h h1 h2 h3 => ⟨by omega, by omega⟩) (fun r => ?_)
        (fun t b h => by omega)
      refine H.ite (fun _ => H.pure fun t b h => by omega) (fun _ => ?_)
      refine H.bind (fun v t _ => match v with
        | none => t ≤ L + ρ.toNat + bufferTime g D K + 2 * D
        | some v => ∃ r, v = UInt32.ofNat r ∧ L ≤ r ∧ r ≤ t ∧ t ≤ r + D ∧ t ≤ L + ρ.toNat + bufferTime g D K + 2 * D) ?_ (fun v => ?_) (fun t b h => h)
      · exact H.time (fun t b h => by show _ ≤ _; omega) (fun t b r u h h1 h2 h3 => ⟨r, rfl, by omega, h2, by omega, by omega⟩)
      · refine H.ite (fun _ => H.pure fun t b ⟨r, h⟩ => by omega) (fun hc => (ih (left - k') k' hle).mono ?_ (fun _ _ _ h => h))
        rintro t b ⟨r, rfl, h1, h2, h3, h4⟩
        have he := elapsed_real h1 (by omega)
        have : ¬ ρ.toNat ≤ r - L := by rw [← he]; exact fun hlt => hc (UInt32.le_iff_toNat_le.mpr hlt)
        omega
    · simp only [if_neg hl]
      exact H.pure fun t b h => by omega

theorem receivePacket_flat (g : Cfg) (hw : g.recvPollingTimeoutMs.toNat + 3 * D < 2 ^ 32) (n : Nat) {ρ : UInt32} (hρ : ρ.toNat + bufferTime g D K + 2 * D < 2 ^ 32) :
    Dur K D N 0 (ρ.toNat + bufferTime g D K + 3 * D) (receivePacket g n ρ) := by
  unfold receivePacket
  intro c x
  refine H.getCtxK fun ct _ hK => H.ite (fun _ => ?_) (fun hn => ?_)
  · unfold discardPacket
    refine H.getCtxK fun ct _ hK => ?_
    refine H.bind (fun v t _ => match v with
      | none => t + x ≤ c
      | some v => ∃ L, v = UInt32.ofNat L ∧ L ≤ t ∧ t ≤ L + D ∧ L + x ≤ c + D) ?_ (fun v => ?_) (fun t b h => by have : t + x ≤ c := h; omega)
    · exact H.time (fun t b h => by show _ ≤ _; omega) (fun t b r u h h1 h2 h3 => ⟨r, rfl, h2, by omega, by omega⟩)
    · refine H.fuelC fun k => ?_
      refine H.bind (fun _ t _ => t + x ≤ c + (ρ.toNat + bufferTime g D K + 3 * D)) ?_ (fun _ => ?_) (fun t b h => by omega)
      · refine H.point (discardLoop_dur g hw ρ v k n ct.bufSize (by omega) 0 0) ?_
        rintro t0 b0 ⟨L, rfl, h1, h2, h3⟩
        exact (discardLoop_timed g hw hρ L k n ct.bufSize (by omega)).mono (fun t b h => by omega) (fun _ t b h => by omega)
      · exact H.ite (fun _ => H.pure fun t b h => by omega) (fun _ => H.pure fun t b h => by omega)
  · refine H.bind (fun _ t _ => t + x ≤ c + bufferTime g D K) ((recvExact_flat g hw (by omega) c x).mono (fun _ _ h => h) (fun _ t b h => by omega)) (fun _ => ?_) (fun t b h => by omega)
    exact H.ite (fun _ => H.pure fun t b h => by omega) (fun _ => H.pure fun t b h => by omega)

/-! ### The CONNACK -/

theorem timed_mono : ∀ {es : List Event} {t t' : Nat}, Timed D t es t' → t ≤ t'
  | [], _, _, h => by cases h; exact Nat.le_refl _
  | e :: es, _, _, h => by
    cases e with
    | time x =>
      obtain ⟨r, u, h1, h2, _, _, h3⟩ := h
      have := timed_mono h3
      omega
    | _ =>
      obtain ⟨u, h1, _, h3⟩ := h
      have := timed_mono h3
      omega

theorem H.later {A : Nat → Nat → Prop} {m : M α} {R : Option α → Nat → Nat → Prop} {L : Nat} (h : H K D N A m R) (hA : ∀ t b, A t b → L ≤ t) :
    H K D N A m (fun r t b => R r t b ∧ L ≤ t) := by
  intro w hi
  obtain ⟨es, h1, h2, h3⟩ := h w hi
  exact ⟨es, h1, h2, fun t b t' ha ht => ⟨h3 t b t' ha ht, Nat.le_trans (hA t b ha) (timed_mono ht)⟩⟩

theorem finishRest_flat (g : Cfg) (hr : g.recvPollingTimeoutMs.toNat + 3 * D < 2 ^ 32) {ρ : UInt32} (hρ : ρ.toNat + bufferTime g D K + 2 * D < 2 ^ 32)
    (cs : Bool) (h : HeaderRes) (sp : Bool) : Dur K D N 0 (ρ.toNat + bufferTime g D K + 3 * D) (if h.type = ptCONNACK then do
    let st ← receivePacket g h.remainingLength ρ
    if st ≠ .success then Pure.pure (st, sp)
    else do
      let c ← getCtx
      let (st, _, sp1) ← liftRes (mqttDeserializeAck (some ⟨h.type, some c.netBuf, h.remainingLength, h.headerLength⟩) none (some sp))
      let sp1 := sp1.getD sp
      if st = .success ∧ cs ∧ sp1 then Pure.pure (.badResponse, sp1) else Pure.pure (st, sp1)
  else Pure.pure (.badResponse, sp) : M (Status × Bool)) := by
  refine Dur.ite ?_ Dur.pure
  refine (receivePacket_flat g hr _ hρ).bind (Nat.le_refl _) fun st => Dur.ite Dur.pure ?_
  refine Dur.getCtx fun c _ _ => Dur.lift fun y _ => ?_
  exact Dur.ite Dur.pure Dur.pure

theorem receiveConnack_flat (g : Cfg) (hr : g.recvPollingTimeoutMs.toNat + 3 * D < 2 ^ 32) (τ : UInt32) (ht : τ.toNat + bufferTime g D K + 9 * D < 2 ^ 32) (cs sp : Bool) :
    Dur K D N 0 (connackTime g D τ + bufferTime g D K + 5 * D) (receiveConnack g τ cs sp) := by
  unfold receiveConnack
  by_cases h0 : τ = 0
  · subst h0
    have ht : bufferTime g D K + 9 * D < 2 ^ 32 := by simpa using ht
    refine Dur.mono (a := connackTime g D 0 + D + (D + (bufferTime g D K + 3 * D))) ?_ (by omega)
    refine connackWait_dur 0 (by simp; omega) fun e h => Dur.ite Dur.pure ?_
    unfold finishConnack
    refine Dur.time.bind (by omega) fun v => ?_
    simp only [show ∀ x : UInt32, ¬ x < 0 from fun x => UInt32.not_lt.mpr (UInt32.zero_le), if_false]
    exact (finishRest_flat g hr (ρ := 0) (by simp; omega) cs h sp).mono (by simp)
  · intro c x
    unfold connackTime
    rw [if_neg h0]
    refine H.bind (fun v t _ => match v with
      | none => t + x ≤ c
      | some v => ∃ L, v = UInt32.ofNat L ∧ L ≤ t ∧ t ≤ L + D ∧ L + x ≤ c + D) ?_ (fun e => H.fuelR fun k => ?_) (fun t b h => by have : t + x ≤ c := h; omega)
    · exact H.time (fun t b h => by show _ ≤ _; omega) (fun t b r u h h1 h2 h3 => ⟨r, rfl, h2, by omega, by omega⟩)
    · refine H.point (A' := Waiting 0 0 0 e (τ.toNat + D)) (R' := fun _ _ _ => True) ?_ ?_
      · refine (connackLoop_timed (g := g) (P := 0) h0 (by omega) 0 0 e k 0).bind _ (fun h => ?_) (fun t b h => trivial)
        refine H.ite (fun _ => H.pure fun _ _ _ => trivial) (fun _ => ?_)
        have hd : Dur K D N (byteTime g D) (D + byteTime g D) (finishConnack g τ e cs h sp) := by
          unfold finishConnack
          durs [receivePacket_dur g hr _ _]
        exact (hd (τ.toNat + 8 * D) 0).mono (fun t b h => by omega) (fun _ _ _ _ => trivial)
      · rintro t0 b0 ⟨L, rfl, h1, h2, h3⟩
        refine H.bind (fun _ t _ => t ≤ L + τ.toNat + 8 * D ∧ L ≤ t) ?_ (fun h => ?_) (fun t b h => by omega)
        · refine H.mono (H.later (L := L) ((connackLoop_timed (g := g) (P := 0) h0 (by omega) L 0 (UInt32.ofNat L) k 0).mono (A' := fun t b => t = t0 ∧ b = b0) ?_ (fun _ _ _ h => h)) ?_)
            (fun _ _ h => h) (fun _ t b h => by omega)
          · exact fun t b h => ⟨L, rfl, by omega, by omega, by omega⟩
          · exact fun t b h => by omega
        · refine H.ite (fun _ => H.pure fun t b h => by omega) (fun _ => ?_)
          unfold finishConnack
          refine H.bind (fun v t _ => match v with
            | none => t ≤ L + τ.toNat + 8 * D
            | some v => ∃ r, v = UInt32.ofNat r ∧ L ≤ r ∧ r ≤ t ∧ t ≤ r + D ∧ t ≤ L + τ.toNat + 9 * D) ?_ (fun v => ?_) (fun t b h => by have : t ≤ _ := h; omega)
          · exact H.time (fun t b h => h.1) (fun t b r u h h1 h2 h3 => ⟨r, rfl, by omega, h2, by omega, by omega⟩)
          · refine H.point (A' := fun t b => t + 0 ≤ 0 + b * 0) (R' := fun _ _ _ => True) ?_ ?_
            · refine (finishRest_flat g hr ?_ cs h sp 0 0).mono (fun _ _ h => h) (fun _ _ _ _ => trivial)
              split
              · rename_i hlt
                rw [UInt32.toNat_sub_of_le _ _ (UInt32.le_of_lt hlt)]
                omega
              · simp; omega
            · rintro t1 b1 ⟨r, rfl, k1, k2, k3, k4⟩
              have he := elapsed_real k1 (by omega)
              by_cases hlt : calculateElapsedTime (UInt32.ofNat r) (UInt32.ofNat L) < τ
              · simp only [if_pos hlt]
                have hρ := UInt32.toNat_sub_of_le _ _ (UInt32.le_of_lt hlt)
                rw [he] at hρ
                have hlt' := UInt32.lt_iff_toNat_lt.mp hlt
                rw [he] at hlt'
                exact (finishRest_flat g hr (by omega) cs h sp t1 0).mono (fun t b h => by omega) (fun _ t b h => by omega)
              · simp only [if_neg hlt]
                exact (finishRest_flat g hr (by simp; omega) cs h sp t1 0).mono (fun t b h => by omega) (fun _ t b h => by simp at h; omega)

theorem connect_flat {g : Cfg} (hs : g.sendTimeoutMs.toNat + 4 * D < 2 ^ 32) (hr : g.recvPollingTimeoutMs.toNat + 3 * D < 2 ^ 32) (ci : Option ConnectInfo)
    (will : Option PublishInfo) (τ : UInt32) (ht : τ.toNat + bufferTime g D K + 9 * D < 2 ^ 32) (sp : Option Bool) :
    Dur K D N 0 (callTime g D N (.connect ci will τ sp) + K * byteTime g D + 2 * D) (mqttConnect g ci will τ sp) := by
  refine (connect_from hs (receiveConnack_flat g hr τ ht) ci will sp).mono ?_
  simp only [callTime, bufferTime]
  generalize K * byteTime g D = B0
  unfold byteTime
  omega

end
end Mqtt.Duration
