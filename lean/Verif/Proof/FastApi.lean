/-
The number of interactions of the public functions of core_mqtt.c.
-/
import Verif.Proof.FastRecv

namespace Mqtt
open Spec
set_option linter.unusedSimpArgs false

variable {L : Nat} {w : World}

/-! ### The CONNACK -/

/-- Up to `k` receive calls. -/
def Reads (k : Nat) (w : World) (es : List Event) (w' : World) : Prop := Cost0 w es w' ∧ es.length ≤ k ∧ ∀ e ∈ es, isRecvd e = true

theorem Reads.trans {k k' : Nat} {w w1 w2 : World} {a b : List Event} (h : Reads k w a w1) (h' : Reads k' w1 b w2) : Reads (k + k') w (a ++ b) w2 :=
  ⟨h.1.trans h'.1, by have := h.2.1; have := h'.2.1; simp; omega, fun e he => (List.mem_append.mp he).elim (h.2.2 e) (h'.2.2 e)⟩

theorem Reads.mono {k k' : Nat} {w w1 : World} {a : List Event} (h : Reads k w a w1) (hk : k ≤ k') : Reads k' w a w1 := ⟨h.1, Nat.le_trans h.2.1 hk, h.2.2⟩

theorem recvOne_reads : wp recvOne (fun _ w' => ∃ es, Reads 1 w es w' ∧ es ≠ [] ∧ w'.env.recvs.length < w.env.recvs.length)
    (fun w' => ∃ es, Reads 1 w es w' ∧ Dry w'.env) (fun _ => True) w := by
  unfold recvOne
  rw [wp_bind]
  refine wp_mono (transportRecv_few 1) ?_ ?_ (fun _ h => h)
  · rintro r w1 ⟨_, h2, _, e, he, hc⟩
    have h : ∃ es, Reads 1 w es w1 ∧ es ≠ [] ∧ w1.env.recvs.length < w.env.recvs.length := ⟨[e], ⟨hc, by simp, by simpa using he⟩, by simp, h2⟩
    cases r with
    | none => exact h
    | some bs => cases bs <;> exact h
  · rintro w1 ⟨hc, hd⟩
    exact ⟨[], ⟨hc, by simp, by simp⟩, hd⟩

theorem and127_lt (b : UInt8) : (b &&& 0x7F).toNat < 128 := by
  have : (b &&& 0x7F).toNat = b.toNat &&& 127 := by rw [UInt8.toNat_and]; rfl
  rw [this]
  exact Nat.lt_of_le_of_lt Nat.and_le_right (by omega)

theorem getRemainingLengthLoopM_reads (n rl mult d : Nat) (w : World) (h1 : rl < mult) (h2 : 2097152 < mult * 128 ^ (n - 1)) (h3 : 0 < n) :
    wp (getRemainingLengthLoopM n rl mult d) (fun x w' => (∃ es, Reads n w es w') ∧ x.1 ≤ remainingLengthInvalid)
      (fun w' => ∃ es, Reads n w es w' ∧ Dry w'.env) (fun _ => True) w := by
  induction n generalizing rl mult d w with
  | zero => omega
  | succ n ih =>
    have nil : ∃ es, Reads (n + 1) w es w := ⟨[], Cost0.refl w, by simp, by simp⟩
    unfold getRemainingLengthLoopM
    rw [wp_ite]
    refine ⟨fun _ => ⟨nil, Nat.le_refl _⟩, fun hm => ?_⟩
    rw [wp_bind]
    refine wp_mono recvOne_reads ?_ ?_ (fun _ h => h)
    · rintro r w1 ⟨es, hr, _, _⟩
      have one : ∃ es, Reads (n + 1) w es w1 := ⟨es, hr.mono (by omega)⟩
      cases r with
      | fail => exact ⟨one, Nat.le_refl _⟩
      | none => exact ⟨one, Nat.le_refl _⟩
      | byte b =>
        have hb := and127_lt b
        have hlt : rl + (b &&& 0x7F).toNat * mult < mult * 128 := by
          have : ((b &&& 0x7F).toNat + 1) * mult ≤ 128 * mult := Nat.mul_le_mul_right _ hb
          rw [Nat.succ_mul] at this
          omega
        dsimp only
        rw [wp_ite]
        refine ⟨fun _ => ⟨one, Nat.le_refl _⟩, fun _ => ?_⟩
        rw [wp_ite]
        constructor
        · intro _
          have hn : 0 < n := by
            cases n with
            | zero => simp at h2; omega
            | succ n => omega
          refine wp_mono (ih _ (mult * 128) (d + 1) w1 hlt ?_ hn) ?_ ?_ (fun _ h => h)
          · rw [Nat.mul_assoc, ← Nat.pow_succ', Nat.succ_eq_add_one, Nat.sub_add_cancel hn]
            simpa using h2
          · rintro x w2 ⟨⟨es2, hr2⟩, hx⟩
            exact ⟨⟨_, (hr.trans hr2).mono (by omega)⟩, hx⟩
          · rintro w2 ⟨es2, hr2, hd⟩
            exact ⟨_, (hr.trans hr2).mono (by omega), hd⟩
        · intro _
          refine ⟨one, ?_⟩
          show rl + (b &&& 0x7F).toNat * mult ≤ 268435456
          omega
    · rintro w1 ⟨es, hr, hd⟩
      exact ⟨es, hr.mono (by omega), hd⟩

theorem getRemainingLengthM_reads : wp getRemainingLengthM (fun n w' => (∃ es, Reads 5 w es w') ∧ n ≤ remainingLengthInvalid)
    (fun w' => ∃ es, Reads 5 w es w' ∧ Dry w'.env) (fun _ => True) w := by
  unfold getRemainingLengthM
  rw [wp_bind]
  refine wp_mono (getRemainingLengthLoopM_reads 5 0 1 0 w (by omega) (by decide) (by omega)) ?_ (fun _ h => h) (fun _ h => h)
  rintro ⟨n, d⟩ w1 ⟨h1, h2⟩
  dsimp only
  rw [wp_ite]
  exact ⟨fun _ => ⟨h1, Nat.le_refl _⟩, fun _ => ⟨h1, h2⟩⟩

theorem getHeader_reads : wp getIncomingPacketTypeAndLengthM (fun h w' => (∃ es, Reads 6 w es w' ∧ es ≠ []) ∧ w'.env.recvs.length < w.env.recvs.length ∧
    (h.status = .success → h.remainingLength ≤ 268435455)) (fun w' => ∃ es, Reads 6 w es w' ∧ Dry w'.env) (fun _ => True) w := by
  unfold getIncomingPacketTypeAndLengthM
  rw [wp_bind]
  refine wp_mono recvOne_reads ?_ ?_ (fun _ h => h)
  · rintro r w1 ⟨es, hr, hne, hlt⟩
    have one : ∃ es, Reads 6 w es w1 ∧ es ≠ [] := ⟨es, hr.mono (by omega), hne⟩
    cases r with
    | fail => exact ⟨one, hlt, fun h => by cases h⟩
    | none => exact ⟨one, hlt, fun h => by cases h⟩
    | byte t =>
      dsimp only
      rw [wp_ite]
      refine ⟨fun _ => ?_, fun _ => ⟨one, hlt, fun h => by cases h⟩⟩
      rw [wp_bind]
      refine wp_mono getRemainingLengthM_reads ?_ ?_ (fun _ h => h)
      · rintro n w2 ⟨⟨es2, hr2⟩, hn⟩
        have h2 : ∃ es, Reads 6 w es w2 ∧ es ≠ [] := ⟨es ++ es2, (hr.trans hr2).mono (by omega), by simp [hne]⟩
        have h3 : w2.env.recvs.length < w.env.recvs.length := Nat.lt_of_le_of_lt hr2.1.recvs.1 hlt
        rw [wp_ite]
        refine ⟨fun _ => ⟨h2, h3, fun h => by cases h⟩, fun hx => ⟨h2, h3, fun _ => ?_⟩⟩
        show n ≤ 268435455
        unfold remainingLengthInvalid at hn hx
        omega
      · rintro w2 ⟨es2, hr2, hd⟩
        exact ⟨_, (hr.trans hr2).mono (by omega), hd⟩
  · rintro w1 ⟨es, hr, hd⟩
    exact ⟨es, hr.mono (by omega), hd⟩

/-- The bound for the loop that waits for the CONNACK. -/
def ConnBound (g : Cfg) (t entry : UInt32) (count : Nat) (es : List Event) : Prop :=
  ∀ gap S now low, entry = UInt32.ofNat S → S ≤ now → (0 < t.toNat → now - S < t.toNat) → t.toNat + 2 * gap < 2 ^ 32 → liveClock gap now low es →
    es.length ≤ 7 * ((t.toNat - (now - S)) + (g.connackRetryCount - count) + 1)

theorem ConnBound.short {g : Cfg} {t entry : UInt32} {count : Nat} {es : List Event} (h : es.length ≤ 7) : ConnBound g t entry count es := by
  intro gap S now low _ _ _ _ _
  omega

theorem connackLoop_fast (g : Cfg) (t entry : UInt32) (fuel count : Nat) (w : World) (hf : w.env.recvs.length < fuel) :
    wp (connackLoop g t entry fuel count) (fun h w' => (∃ es, Cost0 w es w' ∧ ConnBound g t entry count es) ∧ (h.status = .success → h.remainingLength ≤ 268435455))
      (fun w' => ∃ es, Cost0 w es w' ∧ ConnBound g t entry count es ∧ Dry w'.env) (fun _ => True) w := by
  induction fuel generalizing count w with
  | zero => omega
  | succ fuel ih =>
    unfold connackLoop
    rw [wp_bind]
    refine wp_mono getHeader_reads ?_ ?_ (fun _ h => h)
    · rintro h w1 ⟨⟨es, hr, hne⟩, hlt, hs⟩
      rw [wp_bind]
      unfold connackBreak
      rw [wp_ite]
      constructor
      · intro ht
        have ht' : 0 < t.toNat := by simpa [UInt32.lt_iff_toNat_lt] using ht
        rw [wp_bind]
        refine wp_getTime' (fun h => ⟨es, hr.1, ConnBound.short (Nat.le_trans hr.2.1 (by omega)), Or.inr (Or.inr (Or.inl h))⟩) ?_
        intro now' rest hcl
        have hc := hr.1.trans (Cost.tick 0 hcl).toCost0
        have hlen : (es ++ [Event.time now']).length ≤ 7 := by have := hr.2.1; simp; omega
        rw [wp_pure, wp_ite]
        refine ⟨fun hb => ?_, fun _ => ⟨⟨_, hc, ConnBound.short hlen⟩, hs⟩⟩
        have hto : (calculateElapsedTime now' entry).toNat < t.toNat := by
          simpa [UInt32.le_iff_toNat_le] using hb.2
        have step : ∀ es2, ConnBound g t entry (count + 1) es2 → ConnBound g t entry count (es ++ [.time now'] ++ es2) := by
          intro es2 hb gap S now low hS hle hw hgap hcl
          rw [List.append_assoc] at hcl
          have h3 := liveClock_recvs hr.2.2 hcl
          rw [if_neg hne] at h3
          obtain ⟨T, t1, t2, t3, t4⟩ := h3
          have := hw ht'
          rw [hS, t3, elapsed_ofNat (by omega) (by omega)] at hto
          have h4 := hb gap S T T hS (by omega) (fun _ => hto) hgap t4
          rw [List.length_append]
          omega
        refine wp_mono (ih (count + 1) _ (by show w1.env.recvs.length < fuel; omega)) ?_ ?_ (fun _ h => h)
        · rintro h2 w3 ⟨⟨es2, hc2, hb2⟩, hs2⟩
          exact ⟨⟨_, hc.trans hc2, step es2 hb2⟩, hs2⟩
        · rintro w3 ⟨es2, hc2, hb2, hd⟩
          exact ⟨_, hc.trans hc2, step es2 hb2, hd⟩
      · intro ht
        have ht' : t.toNat = 0 := by
          have : ¬ (0 < t.toNat) := by simpa [UInt32.lt_iff_toNat_lt] using ht
          omega
        rw [wp_pure, wp_ite]
        refine ⟨fun hb => ?_, fun _ => ⟨⟨_, hr.1, ConnBound.short (Nat.le_trans hr.2.1 (by omega))⟩, hs⟩⟩
        have hcount : count < g.connackRetryCount := by simpa using hb.2
        have step : ∀ es2, ConnBound g t entry (count + 1) es2 → ConnBound g t entry count (es ++ es2) := by
          intro es2 hb gap S now low hS hle hw hgap hcl
          have h4 := hb gap S now _ hS hle hw hgap (liveClock_recvs hr.2.2 hcl)
          have := hr.2.1
          rw [List.length_append]
          omega
        refine wp_mono (ih (count + 1) w1 (by omega)) ?_ ?_ (fun _ h => h)
        · rintro h2 w3 ⟨⟨es2, hc2, hb2⟩, hs2⟩
          exact ⟨⟨_, hr.1.trans hc2, step es2 hb2⟩, hs2⟩
        · rintro w3 ⟨es2, hc2, hb2, hd⟩
          exact ⟨_, hr.1.trans hc2, step es2 hb2, hd⟩
    · rintro w1 ⟨es, hr, hd⟩
      exact ⟨es, hr.1, ConnBound.short (Nat.le_trans hr.2.1 (by omega)), hd⟩

theorem finishConnack_fast (g : Cfg) (t entry : UInt32) (clean : Bool) (h : HeaderRes) (sp0 : Bool) (w : World) (hL : g.recvPollingTimeoutMs.toNat + 1 ≤ L)
    (hn : h.remainingLength ≤ 268435455) {K : Nat} (hK : readBound g 268435455 + dropBound g = K) :
    Fast L (1 + K) (finishConnack g t entry clean h sp0) (fun _ _ => True) w := by
  unfold finishConnack
  refine Fast.time.bind ?_ (Nat.le_refl _)
  intro now w1 _ _
  dsimp only
  refine Fast.ite (fun _ => ?_) (fun _ => Fast.pure trivial)
  have hr := receivePacket_fast g h.remainingLength (if calculateElapsedTime now entry < t then t - calculateElapsedTime now entry else 0) w1 hL hn
  rw [hK] at hr
  refine hr.bind (K2 := 0) ?_ (Nat.le_refl _)
  intro st w2 _ _
  refine Fast.ite (fun _ => Fast.pure trivial) (fun _ => Fast.getCtx (Fast.liftRes fun x _ => ?_))
  obtain ⟨st, _, sp⟩ := x
  exact Fast.ite (fun _ => Fast.pure trivial) (fun _ => Fast.pure trivial)

theorem receiveConnack_fast (g : Cfg) (t : UInt32) (clean sp0 : Bool) (w : World) (hL : g.recvPollingTimeoutMs.toNat + 1 ≤ L) (ht : t.toNat ≤ L) :
    Fast L (connackBound g t) (receiveConnack g t clean sp0) (fun _ _ => True) w := by
  have hB : connackBound g t = 2 + 7 * (t.toNat + g.connackRetryCount + 1) + (readBound g 268435455 + dropBound g) := by unfold connackBound; exact Nat.add_assoc _ _ _
  rw [hB]
  generalize hK : readBound g 268435455 + dropBound g = K
  clear hB
  unfold receiveConnack Fast
  rw [wp_bind]
  refine wp_getTime' (fun h => ⟨[], Cost.refl L _ w, Or.inr (Or.inr (Or.inl h))⟩) ?_
  intro now rest hcl
  rw [wp_bind, wp_recvFuel, wp_bind]
  have key : ∀ {es w'}, Cost0 { w with env := { w.env with clock := rest }, trace := w.trace ++ [.time now] } es w' → ConnBound g t now 0 es →
      Cost L (1 + 7 * (t.toNat + g.connackRetryCount + 1)) w ([.time now] ++ es) w' := by
    intro es w' hc hb
    refine ⟨(Cost.tick L hcl).toCost0.trans hc, ?_⟩
    rintro gap now' low hg _ ⟨T, _, _, h3, h4⟩
    have := hb gap T T T h3 (Nat.le_refl _) (by omega) (by omega) h4
    simp only [List.length_append, List.length_cons, List.length_nil]
    omega
  refine wp_mono (connackLoop_fast g t now _ 0 _ (Nat.lt_succ_self _)) ?_ ?_ (fun _ h => h)
  · rintro h w2 ⟨⟨es, hc, hb⟩, hs⟩
    have hk := key hc hb
    have : Fast L (1 + K) (if h.status ≠ .success then pure (h.status, sp0) else finishConnack g t now clean h sp0) (fun _ _ => True) w2 :=
      Fast.ite (fun _ => Fast.pure trivial) (fun hst => finishConnack_fast g t now clean h sp0 w2 hL (hs (Classical.not_not.mp hst)) hK)
    refine wp_mono this ?_ ?_ (fun _ h => h)
    · rintro a w3 ⟨⟨es3, hc3⟩, _⟩
      exact ⟨⟨_, (hk.trans hc3).mono (by omega)⟩, trivial⟩
    · rintro w3 ⟨es3, hc3, hd⟩
      exact ⟨_, (hk.trans hc3).mono (by omega), hd⟩
  · rintro w2 ⟨es, hc, hb, hd⟩
    exact ⟨_, (key hc hb).mono (by omega), hd⟩

/-! ### Resuming and clearing a session -/

theorem stateSelectLoop_cursor (r : Records) (s : Nat) (k : Nat) : ∀ (c : Nat) {id : UInt16} {c' : Nat}, r.length - c ≤ k →
    stateSelectLoop r s c = .ok (id, c') → id ≠ 0 → c < c' ∧ c' ≤ r.length := by
  induction k with
  | zero =>
    intro c id c' hk h hid
    rw [stateSelectLoop, if_neg (by omega)] at h
    cases h
    exact absurd rfl hid
  | succ k ih =>
    intro c id c' hk h hid
    rw [stateSelectLoop] at h
    split at h
    · obtain ⟨x, _, h⟩ := Res.bind_ok h
      split at h
      · cases h; omega
      · have := ih (c + 1) (by omega) h hid
        omega
    · cases h
      exact absurd rfl hid

theorem stateSelect_cursor {r : Records} {s c : Nat} {id : UInt16} {c' : Nat} (h : stateSelect r s c = .ok (id, c')) (hid : id ≠ 0) :
    c < c' ∧ c' ≤ r.length := by
  unfold stateSelect at h
  obtain ⟨_, _, h⟩ := Res.bind_ok h
  obtain ⟨_, _, h⟩ := Res.bind_ok h
  obtain ⟨_, _, h⟩ := Res.bind_ok h
  exact stateSelectLoop_cursor r s _ c (Nat.le_refl _) h hid

/-- The cost of the records still to be looked at. -/
theorem step_cost {len c c' k : Nat} (h1 : c < c') (h2 : c' ≤ len) : k + (len - c') * k ≤ (len - c) * k := by
  have : (len - c' + 1) * k ≤ (len - c) * k := Nat.mul_le_mul_right _ (by omega)
  rw [Nat.succ_mul] at this
  omega

theorem resendPubrels_fast (g : Cfg) (n c : Nat) (w : World) (hL : g.sendTimeoutMs.toNat + 1 ≤ L) (hn : w.ctx.tables.outgoing.length < n + c) (hp : 0 < n) :
    Fast L ((w.ctx.tables.outgoing.length - c) * ackBound g) (resendPubrels g n c) (fun _ _ => True) w := by
  induction n generalizing c w with
  | zero => omega
  | succ n ih =>
    unfold resendPubrels
    refine Fast.getCtx (Fast.liftRes fun x hx => ?_)
    obtain ⟨id, c', s⟩ := x
    unfold pubrelToResend at hx
    obtain ⟨⟨id1, c1⟩, h1, h2⟩ := Res.bind_ok hx
    cases h2
    refine Fast.ite (fun _ => Fast.pure trivial) (fun hid => ?_)
    obtain ⟨h3, h4⟩ := stateSelect_cursor h1 hid
    refine (sendPublishAcks_fast g _ _ w hL).bind (K2 := (w.ctx.tables.outgoing.length - c') * ackBound g) ?_ (step_cost h3 h4)
    intro st w1 hs _
    refine Fast.ite (fun _ => Fast.pure trivial) (fun _ => ?_)
    rw [← hs.1]
    refine ih c' w1 (by rw [hs.1]; omega) (by omega)

theorem resendPublishes_fast (g : Cfg) (n c : Nat) (w : World) (hL : g.sendTimeoutMs.toNat + 1 ≤ L) (hn : w.ctx.tables.outgoing.length < n + c) (hp : 0 < n) :
    Fast L ((w.ctx.tables.outgoing.length - c) * (sendBound g + 3)) (resendPublishes g n c) (fun _ _ => True) w := by
  induction n generalizing c w with
  | zero => omega
  | succ n ih =>
    unfold resendPublishes
    refine Fast.getCtx (Fast.liftRes fun x hx => ?_)
    obtain ⟨id, c'⟩ := x
    unfold publishToResend at hx
    refine Fast.ite (fun _ => Fast.pure trivial) (fun hid => ?_)
    obtain ⟨h3, h4⟩ := stateSelect_cursor hx hid
    refine Fast.mono (K1 := sendBound g + 3 + (w.ctx.tables.outgoing.length - c') * (sendBound g + 3)) ?_ (step_cost h3 h4) (fun _ _ _ h => h)
    refine (Fast.retrieve _).bind (K2 := sendBound g + 2 + (w.ctx.tables.outgoing.length - c') * (sendBound g + 3)) ?_ (by omega)
    intro r w1 hs1 _
    cases r with
    | none => exact Fast.pure trivial
    | some bytes =>
      refine Fast.pre.bind (K2 := sendBound g + 1 + (w.ctx.tables.outgoing.length - c') * (sendBound g + 3)) ?_ (by omega)
      intro _ w2 hs2 _
      refine (sendBuffer_fast g bytes w2 hL).bind (K2 := 1 + (w.ctx.tables.outgoing.length - c') * (sendBound g + 3)) ?_ (by omega)
      intro st w3 hs3 _
      refine Fast.post.bind (K2 := (w.ctx.tables.outgoing.length - c') * (sendBound g + 3)) ?_ (by omega)
      intro _ w4 hs4 _
      have he : w4.ctx.tables.outgoing.length = w.ctx.tables.outgoing.length := by rw [hs4.1, hs3.1, hs2.1, hs1.1]
      refine Fast.ite (fun _ => Fast.pure trivial) (fun _ => ?_)
      rw [← he]
      exact ih c' w4 (by rw [he]; omega) (by omega)

theorem handleUncleanSessionResumption_fast (g : Cfg) (w : World) (hL : g.sendTimeoutMs.toNat + 1 ≤ L) :
    Fast L (resumeBound g w.ctx.tables.outgoing.length) (handleUncleanSessionResumption g) (fun _ _ => True) w := by
  unfold handleUncleanSessionResumption
  refine Fast.getCtx ?_
  dsimp only
  refine (resendPubrels_fast g _ 0 w hL (by omega) (by omega)).bind (K2 := w.ctx.tables.outgoing.length * (sendBound g + 3)) ?_ (Nat.le_refl _)
  intro st w1 hs _
  refine Fast.ite (fun _ => ?_) (fun _ => Fast.pure trivial)
  rw [← hs.1]
  exact resendPublishes_fast g _ 0 w1 hL (by omega) (by omega)

theorem clearStored_fast (n c : Nat) (w : World) (hn : w.ctx.tables.outgoing.length < n + c) (hp : 0 < n) :
    Fast L (w.ctx.tables.outgoing.length - c) (clearStored n c) (fun _ _ => True) w := by
  induction n generalizing c w with
  | zero => omega
  | succ n ih =>
    unfold clearStored
    refine Fast.getCtx (Fast.liftRes fun x hx => ?_)
    obtain ⟨id, c'⟩ := x
    unfold publishToResend at hx
    refine Fast.ite (fun _ => Fast.pure trivial) (fun hid => ?_)
    obtain ⟨h3, h4⟩ := stateSelect_cursor hx hid
    refine (Fast.emit _).bind (K2 := w.ctx.tables.outgoing.length - c') ?_ (by omega)
    intro _ w1 hs _
    rw [← hs.1]
    exact ih c' w1 (by rw [hs.1]; omega) (by omega)

theorem handleCleanSession_fast (w : World) : Fast L w.ctx.tables.outgoing.length handleCleanSession (fun _ _ => True) w := by
  unfold handleCleanSession
  refine resetBuffer_fast.bind (K2 := w.ctx.tables.outgoing.length) ?_ (by omega)
  intro _ w1 hs _
  refine Fast.getCtx ?_
  have hend : ∀ w, Fast L 0 (do modifyCtx (fun c => { c with tables := ⟨List.replicate c.tables.outgoing.length Rec.empty, List.replicate c.tables.incoming.length Rec.empty⟩ }); pure Status.success)
      (fun _ _ => True) w := fun w => Fast.set (by simp) rfl (Fast.pure trivial)
  refine Fast.ite (fun _ => ?_) (fun _ => (hend w1).weaken (by omega))
  refine (clearStored_fast _ 0 w1 (by omega) (by omega)).bind (K2 := 0) (fun _ w2 _ _ => hend w2) ?_
  have := hs.1
  omega

/-! ### Sending packets -/

theorem sendWholeVector_fast (g : Cfg) (vec : List IoVec) (w : World) (hL : g.sendTimeoutMs.toNat + 1 ≤ L) :
    Fast L (sendBound g) (sendWholeVector g vec) (fun _ _ => True) w :=
  (sendMessageVector_fast g vec w hL).bind (K2 := 0) (fun _ _ _ _ => Fast.ite (fun _ => Fast.pure trivial) (fun _ => Fast.pure trivial)) (Nat.le_refl _)

theorem fillVectors_le (g : Cfg) (ty : SubType) (subs : List SubscribeInfo) : ∀ {vec vec' : List IoVec} {rest : List SubscribeInfo},
    fillVectors g ty vec subs = .ok (vec', rest) → rest.length ≤ subs.length ∧ (vec = [] → subs ≠ [] → rest.length < subs.length) := by
  induction subs with
  | nil => intro vec vec' rest h; cases h; exact ⟨Nat.le_refl _, fun _ h => absurd rfl h⟩
  | cons s subs ih =>
    intro vec vec' rest h
    unfold fillVectors at h
    split at h
    · obtain ⟨v, _, h⟩ := Res.bind_ok h
      split at h
      · have := (ih h).1
        simp only [List.length_cons]
        exact ⟨by omega, fun _ _ => by omega⟩
      · cases h
    · rename_i hn
      cases h
      refine ⟨Nat.le_refl _, fun h _ => ?_⟩
      subst h
      simp at hn

theorem sendFiltersLoop_fast (g : Cfg) (ty : SubType) (n : Nat) (vec : List IoVec) (subs : List SubscribeInfo) (w : World) (hL : g.sendTimeoutMs.toNat + 1 ≤ L)
    (hn : subs.length + 1 + (if vec = [] then 0 else 1) ≤ n) : Fast L (n * sendBound g) (sendFiltersLoop g ty n vec subs) (fun _ _ => True) w := by
  induction n generalizing vec subs w with
  | zero => omega
  | succ n ih =>
    unfold sendFiltersLoop
    refine Fast.ite (fun _ => Fast.pure trivial) (fun hne => Fast.liftRes fun x hx => ?_)
    obtain ⟨vec', rest⟩ := x
    have hne' : subs ≠ [] := by simpa using hne
    obtain ⟨h1, h2⟩ := fillVectors_le g ty subs hx
    refine (sendWholeVector_fast g vec' w hL).bind (K2 := n * sendBound g) ?_ (by rw [Nat.succ_mul]; omega)
    intro st w1 _ _
    refine Fast.ite (fun _ => Fast.pure trivial) (fun _ => ih [] rest w1 ?_)
    rw [if_pos rfl]
    by_cases hv : vec = []
    · have := h2 hv hne'
      rw [if_pos hv] at hn
      omega
    · rw [if_neg hv] at hn
      omega

theorem storePublish_fast (p : PublishInfo) (header : List UInt8) (hs : Nat) (id : UInt16) (w : World) :
    Fast L 1 (storePublish p header hs id) (fun _ _ => True) w := by
  unfold storePublish
  dsimp only
  refine Fast.ite (fun _ => Fast.pure trivial) (fun _ => ?_)
  refine (Fast.store _ _).bind (K2 := 0) ?_ (Nat.le_refl _)
  intro ok w1 _ _
  exact Fast.ite (fun _ => Fast.pure trivial) (fun _ => Fast.ite (fun _ => Fast.pure trivial) (fun _ => Fast.pure trivial))

theorem sendPublishWithoutCopy_fast (g : Cfg) (p : PublishInfo) (header : List UInt8) (hs : Nat) (id : UInt16) (w : World) (hL : g.sendTimeoutMs.toNat + 1 ≤ L) :
    Fast L (1 + sendBound g) (sendPublishWithoutCopy g p header hs id) (fun _ _ => True) w := by
  unfold sendPublishWithoutCopy
  refine Fast.getCtx ?_
  have hend : ∀ (st : Status) hdr w, Fast L (sendBound g) (if st ≠ .success then pure st else sendWholeVector g (publishVectors p hdr hs id)) (fun _ _ => True) w :=
    fun st hdr w => Fast.ite (fun _ => Fast.pure trivial) (fun _ => sendWholeVector_fast g _ w hL)
  refine Fast.bind (P := fun _ _ => True) (K1 := 1) (K2 := sendBound g) ?_ ?_ (Nat.le_refl _)
  · exact Fast.ite (fun _ => storePublish_fast p header hs id w) (fun _ => Fast.pure trivial)
  · rintro ⟨st, hdr⟩ w1 _ _
    exact hend st hdr w1

theorem sendConnectWithoutCopy_fast (g : Cfg) (ci : ConnectInfo) (will : Option PublishInfo) (rl : Nat) (w : World) (hL : g.sendTimeoutMs.toNat + 1 ≤ L) :
    Fast L (sendBound g) (sendConnectWithoutCopy g ci will rl) (fun _ _ => True) w := by
  unfold sendConnectWithoutCopy
  exact Fast.ite (fun _ => Fast.pure trivial) (fun _ => Fast.liftRes fun vec _ => sendWholeVector_fast g vec w hL)

/-! ### The public functions -/

theorem connectLocked_fast (g : Cfg) (ci : ConnectInfo) (will : Option PublishInfo) (rl : Nat) (t : UInt32) (sp0 : Bool) (w : World)
    (hL : g.sendTimeoutMs.toNat + 1 ≤ L) (hL' : g.recvPollingTimeoutMs.toNat + 1 ≤ L) (ht : t.toNat ≤ L) :
    Fast L (sendBound g + connackBound g t + w.ctx.tables.outgoing.length) (connectLocked g ci will rl t sp0) (fun _ _ => True) w := by
  unfold connectLocked
  refine Fast.getCtx (Fast.ite (fun _ => Fast.pure trivial) (fun _ => ?_))
  refine (sendConnectWithoutCopy_fast g ci will rl w hL).bind (K2 := connackBound g t + w.ctx.tables.outgoing.length) ?_ (by omega)
  intro st w1 hs1 _
  refine Fast.ite (fun _ => Fast.pure trivial) (fun _ => ?_)
  refine (receiveConnack_fast g t _ _ w1 hL' ht).bind (K2 := w.ctx.tables.outgoing.length) ?_ (by omega)
  rintro ⟨st, sp⟩ w2 hs2 _
  refine Fast.ite (fun _ => Fast.pure trivial) (fun _ => ?_)
  refine Fast.bind (P := fun _ _ => True) (K1 := w.ctx.tables.outgoing.length) (K2 := 0) ?_ ?_ (by omega)
  · refine Fast.ite (fun _ => ?_) (fun _ => Fast.pure trivial)
    rw [← hs1.1, ← hs2.1]
    exact handleCleanSession_fast w2
  · intro st w3 _ _
    refine Fast.ite (fun _ => ?_) (fun _ => Fast.pure trivial)
    exact Fast.set rfl rfl (Fast.pure trivial)

theorem connectFailed_fast (st : Status) (w : World) : Fast L 2 (connectFailed st) (fun _ _ => True) w := by
  unfold connectFailed
  exact Fast.ite (fun _ => Fast.pure trivial) (fun _ => Fast.markPendingHooked)

theorem connectCore_fast (g : Cfg) (ci : ConnectInfo) (will : Option PublishInfo) (rl : Nat) (t : UInt32) (sp0 : Bool) (w : World)
    (hL : g.sendTimeoutMs.toNat + 1 ≤ L) (hL' : g.recvPollingTimeoutMs.toNat + 1 ≤ L) (ht : t.toNat ≤ L) :
    Fast L (sendBound g + connackBound g t + w.ctx.tables.outgoing.length + resumeBound g w.ctx.tables.outgoing.length + 2) (connectCore g ci will rl t sp0) (fun _ _ => True) w := by
  unfold connectCore
  refine Fast.pre.bind (K2 := sendBound g + connackBound g t + w.ctx.tables.outgoing.length + resumeBound g w.ctx.tables.outgoing.length + 1) ?_ (by omega)
  intro _ w1 hs1 _
  refine (connectLocked_fast g ci will rl t sp0 w1 hL hL' ht).bind (K2 := resumeBound g w.ctx.tables.outgoing.length + 1) ?_ (by rw [hs1.1]; omega)
  rintro ⟨st, sp⟩ w2 hs2 _
  refine Fast.post.bind (K2 := resumeBound g w.ctx.tables.outgoing.length) ?_ (by omega)
  intro _ w3 hs3 _
  refine Fast.ite (fun _ => ?_) (fun _ => Fast.pure trivial)
  have he : w3.ctx.tables.outgoing.length = w.ctx.tables.outgoing.length := by rw [hs3.1, hs2.1, hs1.1]
  rw [← he]
  exact (handleUncleanSessionResumption_fast g w3 hL).bind (K2 := 0) (fun _ _ _ _ => Fast.pure trivial) (Nat.le_refl _)

theorem mqttConnect_fast (g : Cfg) (ci : Option ConnectInfo) (will : Option PublishInfo) (t : UInt32) (sp : Option Bool) (w : World)
    (hL : g.sendTimeoutMs.toNat + 1 ≤ L) (hL' : g.recvPollingTimeoutMs.toNat + 1 ≤ L) (ht : t.toNat ≤ L) :
    Fast L (callBound g w.ctx.tables.outgoing.length (.connect ci will t sp)) (mqttConnect g ci will t sp) (fun _ _ => True) w := by
  have bad : ∀ sp, Fast L (callBound g w.ctx.tables.outgoing.length (.connect ci will t sp)) (do connectFailed .badParameter; pure (Status.badParameter, sp)) (fun _ _ => True) w := fun sp =>
    (connectFailed_fast _ w).bind (K2 := 0) (fun _ _ _ _ => Fast.pure trivial) (by simp only [callBound]; omega)
  unfold mqttConnect
  cases ci with
  | none => exact bad sp
  | some ci =>
    cases sp with
    | none => exact bad none
    | some sp0 =>
      dsimp only
      refine Fast.bind (P := fun _ _ => True) (K1 := sendBound g + connackBound g t + w.ctx.tables.outgoing.length + resumeBound g w.ctx.tables.outgoing.length + 2) (K2 := 2) ?_ ?_
        (by simp only [callBound]; omega)
      · exact Fast.ite (fun _ => connectCore_fast g ci will _ t sp0 w hL hL' ht) (fun _ => Fast.pure trivial)
      · rintro ⟨st, sp1⟩ w1 _ _
        exact (connectFailed_fast st w1).bind (K2 := 0) (fun _ _ _ _ => Fast.pure trivial) (Nat.le_refl _)

theorem mqttSubUnsub_fast (g : Cfg) (ty : SubType) (subs : Option (List SubscribeInfo)) (id : UInt16) (w : World) (hL : g.sendTimeoutMs.toNat + 1 ≤ L) :
    Fast L (((subs.getD []).length + 2) * sendBound g + 2) (mqttSubUnsub g ty subs id) (fun _ _ => True) w := by
  unfold mqttSubUnsub
  refine Fast.getCtx ?_
  dsimp only
  refine Fast.ite (fun _ => Fast.pure trivial) (fun _ => Fast.ite (fun _ => Fast.pure trivial) (fun _ => ?_))
  refine Fast.pre.bind (K2 := ((subs.getD []).length + 2) * sendBound g + 1) ?_ (by omega)
  intro _ w1 _ _
  refine Fast.getCtx ?_
  refine Fast.bind (P := fun _ _ => True) (K1 := ((subs.getD []).length + 2) * sendBound g) (K2 := 1) ?_ ?_ (Nat.le_refl _)
  · refine Fast.ite (fun _ => Fast.pure trivial) (fun _ => ?_)
    unfold sendFiltersWithoutCopy
    refine Fast.liftRes fun _ _ => Fast.liftRes fun c _ => ?_
    exact sendFiltersLoop_fast g ty _ _ _ w1 hL (by rw [if_neg (by simp)]; omega)
  · intro st w2 _ _
    exact Fast.post.bind (K2 := 0) (fun _ _ _ _ => Fast.pure trivial) (Nat.le_refl _)

theorem publishLocked_fast (g : Cfg) (p : PublishInfo) (header : List UInt8) (hs : Nat) (id : UInt16) (w : World) (hL : g.sendTimeoutMs.toNat + 1 ≤ L) :
    Fast L (1 + sendBound g) (publishLocked g p header hs id) (fun _ _ => True) w := by
  unfold publishLocked
  refine Fast.getCtx (Fast.ite (fun _ => Fast.pure trivial) (fun _ => ?_))
  refine Fast.bind (P := fun _ _ => True) (K1 := 0) (K2 := 1 + sendBound g) ?_ ?_ (by omega)
  · unfold reservePublish
    refine Fast.ite (fun _ => ?_) (fun _ => Fast.pure trivial)
    refine (Fast.tables (K := 0) fun a t h => reserveState_len h).bind (K2 := 0) ?_ (Nat.le_refl _)
    intro st w1 _ _
    exact Fast.ite (fun _ => Fast.pure trivial) (fun _ => Fast.pure trivial)
  · intro st w1 _ _
    refine Fast.ite (fun _ => Fast.pure trivial) (fun _ => ?_)
    refine (sendPublishWithoutCopy_fast g p header hs id w1 hL).bind (K2 := 0) ?_ (Nat.le_refl _)
    intro st w2 _ _
    refine Fast.ite (fun _ => Fast.pure trivial) (fun _ => ?_)
    unfold notePublishSent
    refine Fast.ite (fun _ => ?_) (fun _ => Fast.pure trivial)
    refine (updateStatePublishM_fast _ _ _).bind (K2 := 0) ?_ (Nat.le_refl _)
    rintro ⟨st, _⟩ w3 _ _
    exact Fast.pure trivial

theorem mqttPublish_fast (g : Cfg) (p : Option PublishInfo) (id : UInt16) (w : World) (hL : g.sendTimeoutMs.toNat + 1 ≤ L) :
    Fast L (sendBound g + 3) (mqttPublish g p id) (fun _ _ => True) w := by
  unfold mqttPublish
  refine Fast.getCtx ?_
  dsimp only
  refine Fast.ite (fun _ => Fast.pure trivial) (fun _ => ?_)
  cases p with
  | none => exact Fast.ub _
  | some p =>
    dsimp only
    refine Fast.ite (fun _ => Fast.pure trivial) (fun _ => Fast.liftRes fun x _ => ?_)
    obtain ⟨header, hs⟩ := x
    refine Fast.pre.bind (K2 := sendBound g + 2) ?_ (by omega)
    intro _ w1 _ _
    refine (publishLocked_fast g p header hs id w1 hL).bind (K2 := 1) ?_ (by omega)
    intro st w2 _ _
    exact Fast.post.bind (K2 := 0) (fun _ _ _ _ => Fast.pure trivial) (Nat.le_refl _)

theorem mqttDisconnect_fast (g : Cfg) (w : World) (hL : g.sendTimeoutMs.toNat + 1 ≤ L) : Fast L (sendBound g + 2) (mqttDisconnect g) (fun _ _ => True) w := by
  unfold mqttDisconnect
  refine Fast.liftRes fun x _ => ?_
  obtain ⟨st, buf⟩ := x
  refine Fast.ite (fun _ => Fast.pure trivial) (fun _ => ?_)
  refine Fast.pre.bind (K2 := sendBound g + 1) ?_ (by omega)
  intro _ w1 _ _
  refine Fast.getCtx ?_
  refine Fast.bind (P := fun _ _ => True) (K1 := sendBound g) (K2 := 1) ?_ ?_ (Nat.le_refl _)
  · refine Fast.ite (fun _ => Fast.pure trivial) (fun _ => ?_)
    refine Fast.set rfl rfl (resetBuffer_fast.bind (K2 := sendBound g) ?_ (by omega))
    intro _ w2 _ _
    exact (sendBuffer_fast g _ w2 hL).bind (K2 := 0) (fun _ _ _ _ => Fast.ite (fun _ => Fast.pure trivial) (fun _ => Fast.pure trivial)) (Nat.le_refl _)
  · intro st w2 _ _
    exact Fast.post.bind (K2 := 0) (fun _ _ _ _ => Fast.pure trivial) (Nat.le_refl _)

theorem mqttProcessLoop_fast (g : Cfg) (w : World) (hL : g.sendTimeoutMs.toNat + 1 ≤ L) (hL' : g.recvPollingTimeoutMs.toNat + 1 ≤ L) :
    Fast L (loopBound g) (mqttProcessLoop g) (fun _ _ => True) w :=
  Fast.set rfl rfl (receiveSingleIteration_fast g true _ hL hL')

theorem mqttCancelCallback_fast (id : UInt16) (w : World) : Fast L 2 (mqttCancelCallback id) (fun _ _ => True) w := by
  unfold mqttCancelCallback
  refine Fast.getCtx (Fast.ite (fun _ => Fast.pure trivial) (fun _ => ?_))
  refine Fast.pre.bind (K2 := 1) ?_ (Nat.le_refl _)
  intro _ w1 _ _
  refine (Fast.tables (K := 0) fun a t h => removeStateRecord_len h).bind (K2 := 1) ?_ (Nat.le_refl _)
  intro st w2 _ _
  exact Fast.post.bind (K2 := 0) (fun _ _ _ _ => Fast.pure trivial) (Nat.le_refl _)

theorem mqttCheckConnectStatus_fast (w : World) : Fast L 2 mqttCheckConnectStatus (fun _ _ => True) w := by
  unfold mqttCheckConnectStatus
  refine Fast.pre.bind (K2 := 1) ?_ (Nat.le_refl _)
  intro _ w1 _ _
  exact Fast.getCtx (Fast.post.bind (K2 := 0) (fun _ _ _ _ => Fast.pure trivial) (Nat.le_refl _))

theorem mqttGetPacketId_fast (w : World) : Fast L 2 mqttGetPacketId (fun _ _ => True) w := by
  unfold mqttGetPacketId
  refine Fast.pre.bind (K2 := 1) ?_ (Nat.le_refl _)
  intro _ w1 _ _
  exact Fast.getCtx (Fast.set rfl rfl (Fast.post.bind (K2 := 0) (fun _ _ _ _ => Fast.pure trivial) (Nat.le_refl _)))

theorem Fast.map {α β : Type} {K : Nat} {m : M α} {f : α → M β} {Q : α → World → Prop} (h : Fast L K m Q w) (hf : ∀ a, ∃ b, f a = Pure.pure b) :
    Fast L K (m >>= f) (fun _ _ => True) w :=
  h.bind (K2 := 0) (fun a _ _ _ => by obtain ⟨b, hb⟩ := hf a; rw [hb]; exact Fast.pure trivial) (Nat.le_refl _)

theorem longestWait_ge (g : Cfg) (c : ApiCall) : g.sendTimeoutMs.toNat + 1 ≤ longestWait g c ∧ g.recvPollingTimeoutMs.toNat + 1 ≤ longestWait g c := by
  cases c <;> simp only [longestWait] <;> omega

theorem apiCall_fast (g : Cfg) (c : ApiCall) (w : World) :
    Fast (longestWait g c) (callBound g w.ctx.tables.outgoing.length c) (apiCall g c) (fun _ _ => True) w := by
  obtain ⟨h1, h2⟩ := longestWait_ge g c
  cases c with
  | connect ci will t sp =>
    exact (mqttConnect_fast g ci will t sp w h1 h2 (by simp only [longestWait]; omega)).map fun a => ⟨_, rfl⟩
  | subscribe subs id => exact (mqttSubUnsub_fast g .subscribe subs id w h1).map fun a => ⟨_, rfl⟩
  | unsubscribe subs id => exact (mqttSubUnsub_fast g .unsubscribe subs id w h1).map fun a => ⟨_, rfl⟩
  | publish p id => exact (mqttPublish_fast g p id w h1).map fun a => ⟨_, rfl⟩
  | ping => exact (mqttPing_fast g w h1).map fun a => ⟨_, rfl⟩
  | disconnect => exact (mqttDisconnect_fast g w h1).map fun a => ⟨_, rfl⟩
  | processLoop => exact (mqttProcessLoop_fast g w h1 h2).map fun a => ⟨_, rfl⟩
  | receiveLoop => exact (receiveSingleIteration_fast g false w h1 h2).map fun a => ⟨_, rfl⟩
  | cancelCallback id => exact (mqttCancelCallback_fast id w).map fun a => ⟨_, rfl⟩
  | checkConnectStatus => exact (mqttCheckConnectStatus_fast w).map fun a => ⟨_, rfl⟩
  | getPacketId => exact (mqttGetPacketId_fast w).map fun a => ⟨_, rfl⟩

end Mqtt
