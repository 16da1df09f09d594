/-
The number of interactions of the receiving functions of core_mqtt.c.
-/
import Verif.Proof.Fast
import Verif.Proof.EffectsLoop

namespace Mqtt
open Spec
set_option linter.unusedSimpArgs false

variable {L : Nat} {w : World}

/-- One receive call. -/
theorem transportRecv_few (n : Nat) : wp (transportRecv n) (fun r w' => (∀ bs, r = some bs → bs.length ≤ n) ∧ w'.env.recvs.length < w.env.recvs.length ∧
    w'.ctx = w.ctx ∧ ∃ e, isRecvd e = true ∧ Cost0 w [e] w') (fun w' => Cost0 w [] w' ∧ Dry w'.env) (fun _ => True) w := by
  unfold wp transportRecv
  cases hr : w.env.recvs with
  | nil => exact ⟨Cost0.refl w, Or.inr (Or.inl hr)⟩
  | cons a rest =>
    cases a with
    | fail => exact ⟨by simp, by simp [hr], rfl, .recvd n none, rfl, rfl, by simp, by simp [hr], by simp, by simp, by simp, rfl, rfl⟩
    | deliver k =>
      exact ⟨by intro bs hb; cases hb; simp; omega, by simp [hr], rfl, _, rfl, rfl, by simp, by simp [hr], by simp, by simp, by simp, rfl, rfl⟩

/-- A few interactions, whatever the clock. -/
def Few (K : Nat) (w : World) (es : List Event) (w' : World) : Prop := Cost0 w es w' ∧ es.length ≤ K

theorem Few.cost {K L : Nat} {w w' : World} {es : List Event} (h : Few K w es w') : Cost L K w es w' := ⟨h.1, fun _ _ _ _ _ _ => h.2⟩

/-- One receive call into the buffer. -/
theorem recvInto_few (pos n : Nat) : wp (recvInto pos n) (fun r w' => (∀ k, r = some k → k ≤ n ∧ pos + k ≤ w.ctx.bufSize) ∧
    w'.ctx.index = w.ctx.index ∧ w'.env.recvs.length < w.env.recvs.length ∧ ∃ e, isRecvd e = true ∧ Cost0 w [e] w')
    (fun w' => Cost0 w [] w' ∧ Dry w'.env) (fun _ => True) w := by
  unfold recvInto
  rw [wp_bind, wp_getCtx, wp_ite]
  refine ⟨fun hle => ?_, fun _ => trivial⟩
  rw [wp_bind]
  refine wp_mono (transportRecv_few n) ?_ (fun _ h => h) (fun _ h => h)
  rintro r w1 ⟨h1, h2, h3, e, he, hc⟩
  cases r with
  | none => exact ⟨by simp, by rw [h3], h2, e, he, hc⟩
  | some bs =>
    have hb := h1 bs rfl
    have hl : (writeAt w1.ctx.netBuf pos bs).length = w1.ctx.netBuf.length := by
      rw [writeAt_length]
      have : w.ctx.bufSize = w1.ctx.netBuf.length := by rw [h3]; rfl
      omega
    refine ⟨by intro k hk; cases hk; omega, by show w1.ctx.index = _; rw [h3], h2, e, he, ?_⟩
    have := hc.trans (Cost.ctx 0 0 w1 (c := { w1.ctx with netBuf := writeAt w1.ctx.netBuf pos bs }) rfl hl).toCost0
    simpa using this

theorem markPendingHooked_few : wp markPendingHooked (fun _ w' => Cost0 w [.pre, .post] w' ∧ w'.ctx.index = w.ctx.index) (fun _ => False) (fun _ => False) w := by
  show Cost0 w _ { w with ctx := (if _ then _ else _), trace := w.trace ++ [.pre] ++ [.post] } ∧ (if _ then _ else _ : Ctx).index = _
  split <;> exact ⟨⟨by simp, by simp, by simp, by simp, by simp, by simp, rfl, rfl⟩, rfl⟩

theorem liveClock_recvs {gap now low : Nat} {es rest : List Event} (hall : ∀ e ∈ es, isRecvd e = true) (h : liveClock gap now low (es ++ rest)) :
    liveClock gap now (if es = [] then low else max low (now + 1)) rest := by
  induction es generalizing low with
  | nil => exact h
  | cons e es ih =>
    have h1 := hall e List.mem_cons_self
    have h2 : ∀ x ∈ es, isRecvd x = true := fun x hx => hall x (List.mem_cons_of_mem _ hx)
    cases e <;> simp [isRecvd] at h1
    rename_i n got
    have h3 := ih h2 (low := max low (now + 1)) h
    rw [if_neg (List.cons_ne_nil _ _)]
    split at h3
    · exact h3
    · rwa [show max (max low (now + 1)) (now + 1) = max low (now + 1) by omega] at h3

/-- The bound on the events of the loop: `n` bytes are missing, the last one arrived at `S`. -/
def ReadBound (g : Cfg) (n : Nat) (last : UInt32) (es : List Event) : Prop :=
  ∀ gap S now, last = UInt32.ofNat S → S ≤ now → now - S < max 1 g.recvPollingTimeoutMs.toNat →
    g.recvPollingTimeoutMs.toNat + 1 + 2 * gap < 2 ^ 32 → liveClock gap now now es →
    es.length ≤ 3 * (n * max 1 g.recvPollingTimeoutMs.toNat + max 1 g.recvPollingTimeoutMs.toNat - (now - S))

theorem ReadBound.short {g : Cfg} {n : Nat} {last : UInt32} {es : List Event} (h : es.length ≤ 3) : ReadBound g n last es := by
  intro gap S now _ _ h1 _ _
  omega

theorem recvExactLoop_fast (g : Cfg) (fuel pos n : Nat) (last : UInt32) (w : World) (hf : w.env.recvs.length < fuel) :
    wp (recvExactLoop g fuel pos n last) (fun _ w' => ∃ es, Cost0 w es w' ∧ ReadBound g n last es)
      (fun w' => ∃ es, Cost0 w es w' ∧ ReadBound g n last es ∧ Dry w'.env) (fun _ => True) w := by
  induction fuel generalizing pos n last w with
  | zero => omega
  | succ fuel ih =>
    unfold recvExactLoop
    rw [wp_ite]
    constructor
    · intro hn
      rw [wp_bind]
      refine wp_mono (recvInto_few (w := w) pos n) ?_ ?_ (fun _ h => h)
      · rintro r w1 ⟨h1, _, h2, e, he, hc⟩
        cases r with
        | none =>
          dsimp only
          rw [wp_bind]
          refine wp_mono markPendingHooked_few ?_ (fun _ h => h.elim) (fun _ h => h.elim)
          rintro _ w2 ⟨hc2, _⟩
          exact ⟨[e] ++ [.pre, .post], hc.trans hc2, ReadBound.short (by simp)⟩
        | some k =>
          have hk := (h1 k rfl).1
          have tick : ∀ {t : UInt32} {rest : List UInt32}, w1.env.clock = t :: rest →
              Cost0 w ([e] ++ [.time t]) { w1 with env := { w1.env with clock := rest }, trace := w1.trace ++ [.time t] } :=
            fun h => hc.trans (Cost.tick 0 h).toCost0
          dsimp only
          rw [wp_ite]
          constructor
          · intro hk0
            rw [wp_bind]
            refine wp_getTime' (fun h => ⟨[e], hc, ReadBound.short (by simp), Or.inr (Or.inr (Or.inl h))⟩) ?_
            intro t rest ht
            rw [wp_bind, wp_liftRes]
            have : cassert (decide (k ≤ n)) = .ok () := by simp [cassert, hk]
            rw [this]
            have step : ∀ es, ReadBound g (n - k) t es → ReadBound g n last ([e] ++ [.time t] ++ es) := by
              intro es hb gap S now hS hle hlt hgap hcl
              have h3 := liveClock_recvs (es := [e]) (rest := [.time t] ++ es) (by simpa using he) (by simpa using hcl)
              rw [if_neg (by simp)] at h3
              obtain ⟨T, t1, t2, t3, t4⟩ := h3
              have h4 := hb gap T T t3 (Nat.le_refl _) (by omega) hgap t4
              have h5 : (n - k) * max 1 g.recvPollingTimeoutMs.toNat + max 1 g.recvPollingTimeoutMs.toNat ≤ n * max 1 g.recvPollingTimeoutMs.toNat := by
                rw [← Nat.succ_mul]
                exact Nat.mul_le_mul_right _ (by omega)
              simp only [List.length_append, List.length_cons, List.length_nil]
              omega
            refine wp_mono (ih (pos + k) (n - k) t _ (by show w1.env.recvs.length < fuel; omega)) ?_ ?_ (fun _ h => h)
            · rintro _ w3 ⟨es3, hc3, hb3⟩
              exact ⟨_, (tick ht).trans hc3, step es3 hb3⟩
            · rintro w3 ⟨es3, hc3, hb3, hd⟩
              exact ⟨_, (tick ht).trans hc3, step es3 hb3, hd⟩
          · intro hk0
            rw [wp_bind]
            refine wp_getTime' (fun h => ⟨[e], hc, ReadBound.short (by simp), Or.inr (Or.inr (Or.inl h))⟩) ?_
            intro t rest ht
            rw [wp_ite]
            refine ⟨fun _ => ⟨_, tick ht, ReadBound.short (by simp)⟩, fun hto => ?_⟩
            have hto' : (calculateElapsedTime t last).toNat < g.recvPollingTimeoutMs.toNat := by
              simpa [UInt32.le_iff_toNat_le] using hto
            have step : ∀ es, ReadBound g n last es → ReadBound g n last ([e] ++ [.time t] ++ es) := by
              intro es hb gap S now hS hle hlt hgap hcl
              have h3 := liveClock_recvs (es := [e]) (rest := [.time t] ++ es) (by simpa using he) (by simpa using hcl)
              rw [if_neg (by simp)] at h3
              obtain ⟨T, t1, t2, t3, t4⟩ := h3
              rw [hS, t3, elapsed_ofNat (by omega) (by omega)] at hto'
              have h4 := hb gap S T hS (by omega) (by omega) hgap t4
              simp only [List.length_append, List.length_cons, List.length_nil]
              omega
            refine wp_mono (ih pos n last _ (by show w1.env.recvs.length < fuel; omega)) ?_ ?_ (fun _ h => h)
            · rintro _ w3 ⟨es3, hc3, hb3⟩
              exact ⟨_, (tick ht).trans hc3, step es3 hb3⟩
            · rintro w3 ⟨es3, hc3, hb3, hd⟩
              exact ⟨_, (tick ht).trans hc3, step es3 hb3, hd⟩
      · rintro w1 ⟨hc, hd⟩
        exact ⟨[], hc, ReadBound.short (by simp), hd⟩
    · intro _
      exact ⟨[], Cost0.refl w, ReadBound.short (by simp)⟩

theorem recvExact_fast (g : Cfg) (n : Nat) (w : World) (hL : g.recvPollingTimeoutMs.toNat + 1 ≤ L) :
    Fast L (readBound g n) (recvExact g n) (fun _ w' => w'.env.clock.length < w.env.clock.length) w := by
  unfold recvExact
  refine Fast.getCtx (Fast.liftRes fun _ _ => ?_)
  unfold Fast
  rw [wp_bind]
  refine wp_getTime' (fun h => ⟨[], Cost.refl L _ w, Or.inr (Or.inr (Or.inl h))⟩) ?_
  intro t rest ht
  rw [wp_bind, wp_recvFuel]
  have key : ∀ {es w'}, Cost0 { w with env := { w.env with clock := rest }, trace := w.trace ++ [.time t] } es w' → ReadBound g n t es →
      Cost L (readBound g n) w ([.time t] ++ es) w' := by
    intro es w' hc hb
    refine ⟨(Cost.tick L ht).toCost0.trans hc, ?_⟩
    rintro gap now low hg _ ⟨T, _, _, h3, h4⟩
    have := hb gap T T h3 (Nat.le_refl _) (by omega) (by omega) h4
    unfold readBound
    rw [List.length_append, Nat.succ_mul, ← Nat.mul_assoc, Nat.mul_comm n 3, Nat.mul_assoc]
    simp only [List.length_cons, List.length_nil]
    omega
  refine wp_mono (recvExactLoop_fast g _ 0 n t _ (Nat.lt_succ_self _)) ?_ ?_ (fun _ h => h)
  · rintro r w' ⟨es, hc, hb⟩
    refine ⟨⟨_, key hc hb⟩, ?_⟩
    have := hc.clock.1
    simp only [ht, List.length_cons] at this ⊢
    omega
  · rintro w' ⟨es, hc, hb, hd⟩
    exact ⟨_, key hc hb, hd⟩

/-- The cost per byte when dropping a packet. -/
theorem drop_step {P b left : Nat} (hb : 0 < b) (hle : b ≤ left) :
    (1 + (b + 1) * (3 * P)) + 1 + (left - b) * (6 * P + 2) ≤ left * (6 * P + 2) := by
  have h1 : (b + 1) * (3 * P) ≤ b * (6 * P) := by
    rw [show b * (6 * P) = (b + b) * (3 * P) by rw [Nat.add_mul, ← Nat.mul_add]; congr 1; omega]
    exact Nat.mul_le_mul_right _ (by omega)
  have h2 : b * (6 * P + 2) + (left - b) * (6 * P + 2) = left * (6 * P + 2) := by
    rw [← Nat.add_mul]; congr 1; omega
  have h3 : b * (6 * P + 2) = b * (6 * P) + b * 2 := Nat.mul_add _ _ _
  omega

/-- The bounds need a buffer. -/
theorem Fast.free {α : Type} {K K' : Nat} {m : M α} {Q : α → World → Prop} (h : Fast L K' m Q w) (hk : 0 < w.ctx.bufSize → K' ≤ K) : Fast L K m Q w := by
  refine wp_mono h ?_ ?_ (fun _ h => h)
  · rintro a w' ⟨⟨es, hc⟩, hq⟩
    exact ⟨⟨es, hc.toCost0, fun gap now low hg hb hl => Nat.le_trans (hc.time gap now low hg hb hl) (hk hb)⟩, hq⟩
  · rintro w' ⟨es, hc, hd⟩
    exact ⟨es, ⟨hc.toCost0, fun gap now low hg hb hl => Nat.le_trans (hc.time gap now low hg hb hl) (hk hb)⟩, hd⟩

theorem Fast.set {α : Type} {K : Nat} {f : Ctx → Ctx} {k : Unit → M α} {Q : α → World → Prop} (h1 : (f w.ctx).tables.outgoing.length = w.ctx.tables.outgoing.length)
    (h2 : (f w.ctx).bufSize = w.ctx.bufSize) (h : Fast L K (k ()) Q { w with ctx := f w.ctx }) : Fast L K (modifyCtx f >>= k) Q w := by
  refine Fast.bind (P := fun _ w' => w' = { w with ctx := f w.ctx }) (K1 := 0) (K2 := K) (Fast.modify h1 h2 rfl) ?_ (by omega)
  rintro _ w1 _ rfl
  exact h

theorem discardLoop_fast (g : Cfg) (tmo t0 : UInt32) (fuel left b : Nat) (w : World) (hL : g.recvPollingTimeoutMs.toNat + 1 ≤ L)
    (hb : 0 < w.ctx.bufSize → 0 < b) (hf : w.env.clock.length < fuel) :
    Fast L (left * (6 * max 1 g.recvPollingTimeoutMs.toNat + 2)) (discardLoop g tmo t0 fuel left b) (fun _ _ => True) w := by
  induction fuel generalizing left b w with
  | zero => omega
  | succ fuel ih =>
    unfold discardLoop
    refine Fast.ite (fun hl => ?_) (fun _ => Fast.pure trivial)
    dsimp only
    generalize hb' : (if left < b then left else b) = b'
    have h1 : b' ≤ left := by rw [← hb']; split <;> omega
    have h2 : 0 < w.ctx.bufSize → 0 < b' := fun h => by have := hb h; rw [← hb']; split <;> omega
    refine Fast.free (K' := readBound g b' + (1 + (left - b') * (6 * max 1 g.recvPollingTimeoutMs.toNat + 2))) ?_
      (fun h => by have := drop_step (P := max 1 g.recvPollingTimeoutMs.toNat) (h2 h) h1; unfold readBound; omega)
    refine (recvExact_fast g b' w hL).bind ?_ (Nat.le_refl _)
    intro r w1 hs hc
    refine Fast.ite (fun _ => Fast.pure trivial) (fun _ => Fast.time.bind ?_ (Nat.le_refl _))
    intro t w2 hs2 hc2
    refine Fast.ite (fun _ => Fast.pure trivial) (fun _ => ih (left - b') b' w2 (fun h => h2 ?_) (by omega))
    rw [hs2.2.1, hs.2.1] at h; exact h

theorem discardPacket_fast (g : Cfg) (n : Nat) (tmo : UInt32) (w : World) (hL : g.recvPollingTimeoutMs.toNat + 1 ≤ L) (hn : n ≤ 268435460) :
    Fast L (dropBound g) (discardPacket g n tmo) (fun _ _ => True) w := by
  unfold discardPacket
  refine Fast.getCtx (Fast.time.bind (K2 := n * (6 * max 1 g.recvPollingTimeoutMs.toNat + 2)) ?_ ?_)
  · intro t w1 hs hc
    show Fast _ _ (discardLoop g tmo t (w1.env.clock.length + 1) n w.ctx.bufSize >>= _) _ w1
    refine (discardLoop_fast g tmo t _ n w.ctx.bufSize w1 hL (fun h => by rw [← hs.2.1]; exact h) (Nat.lt_succ_self _)).bind (K2 := 0) ?_ (Nat.le_refl _)
    intro left w2 _ _
    exact Fast.ite (fun _ => Fast.pure trivial) (fun _ => Fast.pure trivial)
  · unfold dropBound
    have := Nat.mul_le_mul_right (6 * max 1 g.recvPollingTimeoutMs.toNat + 2) hn
    omega

theorem discardStoredLoop_fast (g : Cfg) (fuel left b : Nat) (w : World) (hL : g.recvPollingTimeoutMs.toNat + 1 ≤ L)
    (hb : 0 < w.ctx.bufSize → 0 < b) (hf : w.env.clock.length < fuel) :
    Fast L (left * (6 * max 1 g.recvPollingTimeoutMs.toNat + 2)) (discardStoredLoop g fuel left b) (fun _ _ => True) w := by
  induction fuel generalizing left b w with
  | zero => omega
  | succ fuel ih =>
    unfold discardStoredLoop
    refine Fast.ite (fun hl => ?_) (fun _ => Fast.pure trivial)
    dsimp only
    generalize hb' : (if left < b then left else b) = b'
    have h1 : b' ≤ left := by rw [← hb']; split <;> omega
    have h2 : 0 < w.ctx.bufSize → 0 < b' := fun h => by have := hb h; rw [← hb']; split <;> omega
    refine Fast.free (K' := readBound g b' + (left - b') * (6 * max 1 g.recvPollingTimeoutMs.toNat + 2)) ?_
      (fun h => by have := drop_step (P := max 1 g.recvPollingTimeoutMs.toNat) (h2 h) h1; unfold readBound; omega)
    refine (recvExact_fast g b' w hL).bind ?_ (Nat.le_refl _)
    intro r w1 hs hc
    refine Fast.ite (fun _ => Fast.pure trivial) (fun _ => ih (left - b') b' w1 (fun h => h2 ?_) (by omega))
    rw [hs.2.1] at h; exact h

theorem resetBuffer_fast : Fast L 0 resetBuffer (fun _ _ => True) w :=
  Fast.modify rfl (by simp [Ctx.bufSize]) trivial

theorem discardStoredPacket_fast (g : Cfg) (n : Nat) (w : World) (hL : g.recvPollingTimeoutMs.toNat + 1 ≤ L) (hn : n ≤ 268435460) :
    Fast L (dropBound g) (discardStoredPacket g n) (fun _ _ => True) w := by
  unfold discardStoredPacket
  refine Fast.getCtx (Fast.liftRes fun _ _ => ?_)
  show Fast _ _ (discardStoredLoop g (w.env.clock.length + 1) (n - w.ctx.index) w.ctx.bufSize >>= _) _ w
  refine (discardStoredLoop_fast g _ (n - w.ctx.index) w.ctx.bufSize w hL (fun h => h) (Nat.lt_succ_self _)).bind (K2 := 0) ?_ ?_
  · intro left w2 _ _
    refine resetBuffer_fast.bind (K2 := 0) ?_ (Nat.le_refl _)
    intro _ _ _ _
    exact Fast.ite (fun _ => Fast.pure trivial) (fun _ => Fast.pure trivial)
  · unfold dropBound
    have hn' : n - w.ctx.index ≤ 268435460 := by omega
    have := Nat.mul_le_mul_right (6 * max 1 g.recvPollingTimeoutMs.toNat + 2) hn'
    generalize (n - w.ctx.index) * _ = a at this ⊢
    generalize 268435460 * _ = b at this ⊢
    omega

theorem receivePacket_fast (g : Cfg) (n : Nat) (tmo : UInt32) (w : World) (hL : g.recvPollingTimeoutMs.toNat + 1 ≤ L) (hn : n ≤ 268435455) :
    Fast L (readBound g 268435455 + dropBound g) (receivePacket g n tmo) (fun _ _ => True) w := by
  unfold receivePacket
  refine Fast.getCtx (Fast.ite (fun _ => (discardPacket_fast g n tmo w hL (by omega)).weaken (by omega)) (fun _ => ?_))
  refine (recvExact_fast g n w hL).bind (K2 := 0) (fun _ _ _ _ => Fast.ite (fun _ => Fast.pure trivial) (fun _ => Fast.pure trivial)) ?_
  have := Nat.mul_le_mul_right (3 * max 1 g.recvPollingTimeoutMs.toNat) (show n + 1 ≤ 268435455 + 1 by omega)
  unfold readBound
  omega

/-! ### Sizes of the record arrays -/

theorem setRec_len {r : Records} {i : Nat} {x : Rec} {r' : Records} (h : setRec r i x = .ok r') : r'.length = r.length := by
  unfold setRec at h
  split at h
  · cases h; simp
  · cases h

theorem Res.bind_ok {α β : Type} {r : Res α} {f : α → Res β} {b : β} (h : r >>= f = .ok b) : ∃ a, r = .ok a ∧ f a = .ok b := by
  cases r with
  | ok a => exact ⟨a, rfl, h⟩
  | ub e => cases h

theorem compactLoop_len (n : Nat) : ∀ {r : Records} {i : Nat} {e : Option Nat} {r' : Records}, compactLoop r i e n = .ok r' → r'.length = r.length := by
  induction n with
  | zero => intro r i e r' h; cases h; rfl
  | succ n ih =>
    intro r i e r' h
    unfold compactLoop at h
    obtain ⟨x, _, h⟩ := Res.bind_ok h
    split at h
    · split at h <;> exact ih h
    · split at h
      · exact ih h
      · obtain ⟨r1, h1, h⟩ := Res.bind_ok h
        obtain ⟨r2, h2, h⟩ := Res.bind_ok h
        rw [ih h, setRec_len h2, setRec_len h1]

theorem addRecord_len {r : Records} {id : UInt16} {q : QoS} {s : PubState} {st : Status} {r' : Records} (h : addRecord r id q s = .ok (st, r')) :
    r'.length = r.length := by
  unfold addRecord at h
  obtain ⟨_, _, h⟩ := Res.bind_ok h
  obtain ⟨_, _, h⟩ := Res.bind_ok h
  split at h
  · cases h
  · obtain ⟨last, _, h⟩ := Res.bind_ok h
    obtain ⟨r1, h1, h⟩ := Res.bind_ok h
    obtain ⟨o, _, h⟩ := Res.bind_ok h
    have hl : r1.length = r.length := by
      split at h1
      · exact compactLoop_len _ h1
      · cases h1; rfl
    split at h
    · cases h; exact hl
    · split at h
      · obtain ⟨r2, h2, h⟩ := Res.bind_ok h
        cases h
        rw [setRec_len h2, hl]
      · cases h; exact hl

theorem updateRecord_len {r : Records} {i : Nat} {s : PubState} {d : Bool} {r' : Records} (h : updateRecord r i s d = .ok r') : r'.length = r.length := by
  unfold updateRecord at h
  split at h
  · exact setRec_len h
  · obtain ⟨x, _, h⟩ := Res.bind_ok h
    exact setRec_len h

theorem updateStateAck_len {r : Records} {i : Nat} {id : UInt16} {c n : PubState} {st : Status} {r' : Records}
    (h : updateStateAck r i id c n = .ok (st, r')) : r'.length = r.length := by
  unfold updateStateAck at h
  dsimp only at h
  split at h
  · split at h
    · obtain ⟨r1, h1, h⟩ := Res.bind_ok h
      split at h
      · rw [addRecord_len h, updateRecord_len h1]
      · cases h; exact updateRecord_len h1
    · cases h; rfl
  · cases h; rfl

theorem updateStatePublish_len {t : Tables} {i : Nat} {id : UInt16} {op : Op} {q : QoS} {c n : PubState} {st : Status} {t' : Tables}
    (h : updateStatePublish t i id op q c n = .ok (st, t')) : t'.outgoing.length = t.outgoing.length := by
  unfold updateStatePublish at h
  obtain ⟨_, _, h⟩ := Res.bind_ok h
  obtain ⟨_, _, h⟩ := Res.bind_ok h
  split at h
  · split at h
    · obtain ⟨x, _, h⟩ := Res.bind_ok h
      cases h; rfl
    · split at h
      · obtain ⟨x, h1, h⟩ := Res.bind_ok h
        cases h; exact updateRecord_len h1
      · cases h; rfl
  · cases h; rfl

theorem reserveState_len {t : Tables} {id : UInt16} {q : QoS} {st : Status} {t' : Tables} (h : reserveState t id q = .ok (st, t')) :
    t'.outgoing.length = t.outgoing.length := by
  unfold reserveState at h
  split at h
  · cases h; rfl
  · split at h
    · cases h; rfl
    · obtain ⟨⟨st1, o⟩, h1, h⟩ := Res.bind_ok h
      cases h
      exact addRecord_len h1

theorem updateStatePublishApi_len {t : Tables} {id : UInt16} {op : Op} {q : QoS} {st : Status} {s : Option PubState} {t' : Tables}
    (h : updateStatePublishApi t id op q = .ok (st, s, t')) : t'.outgoing.length = t.outgoing.length := by
  unfold updateStatePublishApi at h
  split at h
  · cases h; rfl
  · split at h
    · cases h; rfl
    · dsimp only at h
      split at h
      · obtain ⟨o, _, h⟩ := Res.bind_ok h
        split at h
        · cases h; rfl
        · split at h
          · cases h; rfl
          · obtain ⟨⟨st1, t1⟩, h1, h⟩ := Res.bind_ok h
            cases h
            exact updateStatePublish_len h1
      · obtain ⟨⟨st1, t1⟩, h1, h⟩ := Res.bind_ok h
        cases h
        exact updateStatePublish_len h1

theorem removeStateRecord_len {t : Tables} {id : UInt16} {st : Status} {t' : Tables} (h : removeStateRecord t id = .ok (st, t')) :
    t'.outgoing.length = t.outgoing.length := by
  unfold removeStateRecord at h
  split at h
  · cases h; rfl
  · obtain ⟨o, _, h⟩ := Res.bind_ok h
    split at h
    · cases h; rfl
    · split at h
      · cases h; rfl
      · split at h
        · cases h; rfl
        · obtain ⟨r1, h1, h⟩ := Res.bind_ok h
          cases h
          exact updateRecord_len h1

theorem updateStateAckApi_len {t : Tables} {id : UInt16} {a : AckType} {op : Op} {st : Status} {s : Option PubState} {t' : Tables}
    (h : updateStateAckApi t id a op = .ok (st, s, t')) : t'.outgoing.length = t.outgoing.length := by
  unfold updateStateAckApi at h
  split at h
  · cases h; rfl
  · dsimp only at h
    obtain ⟨o, _, h⟩ := Res.bind_ok h
    split at h
    · cases h; rfl
    · obtain ⟨⟨st1, r1⟩, h1, h⟩ := Res.bind_ok h
      have := updateStateAck_len h1
      dsimp only at h
      by_cases ho : isPublishOutgoing a op = true
      · rw [if_pos ho] at h this
        cases h; exact this
      · rw [if_neg ho] at h
        cases h; rfl

theorem updateStateAckM_fast (id : UInt16) (a : AckType) (op : Op) : Fast L 0 (updateStateAckM id a op) (fun _ _ => True) w := by
  refine Fast.tables ?_
  intro x t h
  obtain ⟨⟨st, s, t1⟩, h1, h⟩ := Res.bind_ok h
  cases h
  exact updateStateAckApi_len h1

theorem updateStatePublishM_fast (id : UInt16) (op : Op) (q : QoS) : Fast L 0 (updateStatePublishM id op q) (fun _ _ => True) w := by
  refine Fast.tables ?_
  intro x t h
  obtain ⟨⟨st, s, t1⟩, h1, h⟩ := Res.bind_ok h
  cases h
  exact updateStatePublishApi_len h1

/-! ### One iteration of the receive loop -/

theorem sendIfConnected_fast (g : Cfg) (bytes : List UInt8) (w : World) (hL : g.sendTimeoutMs.toNat + 1 ≤ L) :
    Fast L (sendBound g) (sendIfConnected g bytes) (fun _ _ => True) w := by
  unfold sendIfConnected
  refine Fast.getCtx (Fast.ite (fun _ => Fast.pure trivial) (fun _ => ?_))
  exact (sendBuffer_fast g bytes w hL).bind (K2 := 0) (fun _ _ _ _ => Fast.ite (fun _ => Fast.pure trivial) (fun _ => Fast.pure trivial)) (Nat.le_refl _)

theorem sendPublishAcks_fast (g : Cfg) (id : UInt16) (s : PubState) (w : World) (hL : g.sendTimeoutMs.toNat + 1 ≤ L) :
    Fast L (ackBound g) (sendPublishAcks g id s) (fun _ _ => True) w := by
  unfold sendPublishAcks
  refine Fast.ite (fun _ => Fast.pure trivial) (fun _ => ?_)
  refine Fast.liftRes fun ty _ => Fast.liftRes fun x _ => ?_
  obtain ⟨st, buf⟩ := x
  refine Fast.ite (fun _ => Fast.pure trivial) (fun _ => ?_)
  refine Fast.pre.bind (K2 := sendBound g + 3) ?_ (by unfold ackBound; omega)
  intro _ w1 _ _
  refine (sendIfConnected_fast g _ w1 hL).bind (K2 := 3) ?_ (Nat.le_refl _)
  intro st w2 _ _
  refine Fast.post.bind (K2 := 2) ?_ (Nat.le_refl _)
  intro _ w3 _ _
  refine Fast.ite (fun _ => Fast.pure trivial) (fun _ => ?_)
  refine Fast.set rfl rfl ?_
  refine Fast.pre.bind (K2 := 1) ?_ (Nat.le_refl _)
  intro _ w5 _ _
  refine (updateStateAckM_fast _ _ _).bind (K2 := 1) ?_ (Nat.le_refl _)
  rintro ⟨st, _⟩ w6 _ _
  exact Fast.post.bind (K2 := 0) (fun _ _ _ _ => Fast.pure trivial) (Nat.le_refl _)

theorem mqttPing_fast (g : Cfg) (w : World) (hL : g.sendTimeoutMs.toNat + 1 ≤ L) : Fast L (sendBound g + 2) (mqttPing g) (fun _ _ => True) w := by
  unfold mqttPing
  dsimp only [getPingreqPacketSize]
  refine Fast.ite (fun _ => Fast.pure trivial) (fun _ => ?_)
  refine Fast.liftRes fun _ _ => Fast.liftRes fun x _ => ?_
  obtain ⟨st, buf⟩ := x
  refine Fast.ite (fun _ => Fast.pure trivial) (fun _ => ?_)
  refine Fast.pre.bind (K2 := sendBound g + 1) ?_ (by omega)
  intro _ w1 _ _
  refine (sendIfConnected_fast g _ w1 hL).bind (K2 := 1) ?_ (Nat.le_refl _)
  intro st w2 _ _
  have hend : ∀ w, Fast L 1 (do postHook; pure st) (fun _ _ => True) w := fun w =>
    Fast.post.bind (K2 := 0) (fun _ _ _ _ => Fast.pure trivial) (Nat.le_refl _)
  refine Fast.ite (fun _ => ?_) (fun _ => hend w2)
  exact Fast.set rfl rfl (hend _)

theorem handleKeepAlive_fast (g : Cfg) (w : World) (hL : g.sendTimeoutMs.toNat + 1 ≤ L) : Fast L (sendBound g + 5) (handleKeepAlive g) (fun _ _ => True) w := by
  unfold handleKeepAlive
  refine Fast.time.bind (K2 := sendBound g + 4) ?_ (by omega)
  intro now w1 _ _
  refine Fast.getCtx ?_
  dsimp only
  refine Fast.ite (fun _ => Fast.ite (fun _ => Fast.pure trivial) (fun _ => Fast.pure trivial)) (fun _ => ?_)
  refine Fast.pre.bind (K2 := sendBound g + 3) ?_ (by omega)
  intro _ w2 _ _
  refine Fast.getCtx (Fast.post.bind (K2 := sendBound g + 2) ?_ (by omega))
  intro _ w3 _ _
  refine Fast.ite (fun _ => mqttPing_fast g w3 hL) (fun _ => ?_)
  exact Fast.ite (fun _ => mqttPing_fast g w3 hL) (fun _ => Fast.pure trivial)

theorem appCallback_fast (pk : PacketInfo) (id : UInt16) (st : Status) (p : Option PublishInfo) : Fast L 1 (appCallback pk id st p) (fun _ _ => True) w := Fast.emit _

theorem recordIncomingPublish_fast (id : UInt16) (q : QoS) (w : World) : Fast L 2 (recordIncomingPublish id q) (fun _ _ => True) w := by
  unfold recordIncomingPublish
  refine Fast.pre.bind (K2 := 1) ?_ (Nat.le_refl _)
  intro _ w1 _ _
  refine (updateStatePublishM_fast _ _ _).bind (K2 := 1) ?_ (Nat.le_refl _)
  rintro ⟨st, s⟩ w2 _ _
  refine Fast.post.bind (K2 := 0) ?_ (Nat.le_refl _)
  intro _ w3 _ _
  exact Fast.ite (fun _ => Fast.pure trivial) (fun _ => Fast.ite (fun _ => Fast.pure trivial) (fun _ => Fast.pure trivial))

theorem handleIncomingPublish_fast (g : Cfg) (pk : PacketInfo) (w : World) (hL : g.sendTimeoutMs.toNat + 1 ≤ L) :
    Fast L (ackBound g + 4) (handleIncomingPublish g pk) (fun _ _ => True) w := by
  unfold handleIncomingPublish
  refine Fast.liftRes fun x _ => ?_
  obtain ⟨st, out⟩ := x
  cases out with
  | none => exact Fast.pure trivial
  | some y =>
    obtain ⟨id, p⟩ := y
    refine Fast.getCtx (Fast.ite (fun _ => Fast.pure trivial) (fun _ => Fast.ite (fun _ => Fast.pure trivial) (fun _ => ?_)))
    refine (recordIncomingPublish_fast _ _ w).bind (K2 := ackBound g + 1) ?_ (by omega)
    rintro ⟨st, s, dup⟩ w1 _ _
    refine Fast.ite (fun _ => Fast.pure trivial) (fun _ => ?_)
    refine Fast.ite (fun _ => ?_) (fun _ => (sendPublishAcks_fast g _ _ w1 hL).weaken (by omega))
    refine (appCallback_fast _ _ _ _).bind (K2 := ackBound g) ?_ (by omega)
    intro _ w2 _ _
    exact sendPublishAcks_fast g _ _ w2 hL

theorem handlePublishAcks_fast (g : Cfg) (pk : PacketInfo) (w : World) (hL : g.sendTimeoutMs.toNat + 1 ≤ L) :
    Fast L (ackBound g + 4) (handlePublishAcks g pk) (fun _ _ => True) w := by
  unfold handlePublishAcks
  refine Fast.liftRes fun ty _ => Fast.liftRes fun x _ => ?_
  obtain ⟨st, id, _⟩ := x
  refine Fast.ite (fun _ => Fast.pure trivial) (fun _ => ?_)
  refine Fast.pre.bind (K2 := ackBound g + 3) ?_ (by omega)
  intro _ w1 _ _
  refine (updateStateAckM_fast _ _ _).bind (K2 := ackBound g + 3) ?_ (by omega)
  rintro ⟨st, s⟩ w2 _ _
  refine Fast.post.bind (K2 := ackBound g + 2) ?_ (by omega)
  intro _ w3 _ _
  refine Fast.ite (fun _ => Fast.pure trivial) (fun _ => Fast.getCtx ?_)
  have hend : ∀ w, Fast L (ackBound g + 1) (do appCallback pk (id.getD 0) .success none; sendPublishAcks g (id.getD 0) (s.getD .null)) (fun _ _ => True) w := by
    intro w
    refine (appCallback_fast _ _ _ _).bind (K2 := ackBound g) ?_ (by omega)
    intro _ w5 _ _
    exact sendPublishAcks_fast g _ _ w5 hL
  refine Fast.ite (fun _ => ?_) (fun _ => (hend w3).weaken (by omega))
  exact (Fast.emit _).bind (K2 := ackBound g + 1) (fun _ w4 _ _ => hend w4) (by omega)

theorem handleIncomingAck_fast (g : Cfg) (pk : PacketInfo) (m : Bool) (w : World) (hL : g.sendTimeoutMs.toNat + 1 ≤ L) :
    Fast L (ackBound g + 4) (handleIncomingAck g pk m) (fun _ _ => True) w := by
  unfold handleIncomingAck
  refine Fast.ite (fun _ => handlePublishAcks_fast g pk w hL) (fun _ => Fast.ite (fun _ => ?_) (fun _ => Fast.ite (fun _ => ?_) (fun _ => Fast.pure trivial)))
  · refine Fast.liftRes fun x _ => ?_
    obtain ⟨st, id, _⟩ := x
    refine Fast.ite (fun _ => Fast.pure trivial) (fun _ => Fast.ite (fun _ => ?_) (fun _ => ?_))
    · exact Fast.set rfl rfl (Fast.pure trivial)
    · exact (appCallback_fast _ _ _ _).bind (K2 := 0) (fun _ _ _ _ => Fast.pure trivial) (by omega)
  · refine Fast.liftRes fun x _ => ?_
    obtain ⟨st, id, _⟩ := x
    refine Fast.ite (fun _ => ?_) (fun _ => Fast.pure trivial)
    exact (appCallback_fast _ _ _ _).bind (K2 := 0) (fun _ _ _ _ => Fast.pure trivial) (by omega)

theorem receiveHeader_fast (w : World) :
    Fast L 3 receiveHeader (fun x _ => x.2.status = .success → x.2.remainingLength + x.2.headerLength ≤ 268435460) w := by
  unfold receiveHeader
  refine Fast.getCtx ?_
  refine Fast.bind (P := fun r w' => (∀ k, r = some k → w.ctx.index + k ≤ w.ctx.bufSize) ∧ w'.ctx.index = w.ctx.index) (K1 := 1) (K2 := 2) ?_ ?_ (Nat.le_refl _)
  · refine wp_mono (recvInto_few (w := w) w.ctx.index (w.ctx.bufSize - w.ctx.index)) ?_ ?_ (fun _ h => h)
    · rintro r w1 ⟨h1, h2, _, e, _, hc⟩
      exact ⟨⟨[e], Few.cost ⟨hc, by simp⟩⟩, fun k hk => (h1 k hk).2, h2⟩
    · rintro w1 ⟨hc, hd⟩
      exact ⟨[], Few.cost ⟨hc, by simp⟩, hd⟩
  · rintro r w1 hs ⟨h1, h2⟩
    cases r with
    | none => exact Fast.markPendingHooked.bind (K2 := 0) (fun _ _ _ _ => Fast.pure (fun h => by cases h)) (Nat.le_refl _)
    | some k =>
      refine Fast.ite (fun _ => Fast.pure (fun h => by cases h)) (fun hne => ?_)
      have h3 := h1 k rfl
      refine Fast.set rfl rfl ?_
      generalize hw : ({ w1 with ctx := { w1.ctx with index := w1.ctx.index + k } } : World) = w2
      have h4 : w2.ctx.index = w.ctx.index + k := by rw [← hw, ← h2]
      have h5 : w2.ctx.netBuf = w1.ctx.netBuf := by rw [← hw]
      refine Fast.getCtx (Fast.liftRes fun hr hhr => Fast.pure ?_)
      have hpos : 1 ≤ w2.ctx.index := by rw [h4]; omega
      have hle : w2.ctx.index ≤ w2.ctx.netBuf.length := by
        have : w2.ctx.netBuf.length = w.ctx.bufSize := by rw [h5, ← hs.2.1]; rfl
        omega
      obtain ⟨hr', e1, e2⟩ := parseHeader_eq hpos hle
      rw [e1] at hhr
      cases hhr
      intro hst
      rcases e2 with ⟨_, e⟩ | ⟨_, e⟩ | ⟨t, hl, n, e3, e4⟩
      · rw [hst] at e; cases e
      · rw [hst] at e; cases e
      · obtain ⟨_, h6, h7, _⟩ := readHeader_known e3
        have h8 := varInt_length h6
        have h9 : remainingLengthEncodedSize n ≤ 4 := by unfold remainingLengthEncodedSize; (repeat' split) <;> omega
        rw [e4]
        show n + hl ≤ _
        unfold maxRemaining at h6
        omega

theorem receiveSingleIteration_fast (g : Cfg) (m : Bool) (w : World) (hL : g.sendTimeoutMs.toNat + 1 ≤ L) (hL' : g.recvPollingTimeoutMs.toNat + 1 ≤ L) :
    Fast L (loopBound g) (receiveSingleIteration g m) (fun _ _ => True) w := by
  unfold receiveSingleIteration
  refine (receiveHeader_fast w).bind (K2 := (sendBound g + 5) + (dropBound g + (ackBound g + 5))) ?_ (by unfold loopBound; omega)
  rintro ⟨rb, h⟩ w1 _ hh
  refine Fast.bind (P := fun st _ => st = .success → h.status = .success) (K1 := sendBound g + 5) (K2 := dropBound g + (ackBound g + 5)) ?_ ?_ (Nat.le_refl _)
  · unfold keepAliveCheck
    refine Fast.ite (fun _ => ?_) (fun _ => Fast.pure (fun h => h))
    refine (handleKeepAlive_fast g w1 hL).bind (K2 := 0) ?_ (Nat.le_refl _)
    intro st w2 _ _
    exact Fast.ite (fun _ => Fast.pure (fun h => h)) (fun h => Fast.pure (fun h' => absurd h' h))
  · intro st w2 _ hst
    refine Fast.bind (P := fun _ _ => True) (K1 := dropBound g) (K2 := ackBound g + 5) ?_ ?_ (Nat.le_refl _)
    · unfold checkComplete
      refine Fast.getCtx (Fast.ite (fun _ => Fast.pure trivial) (fun h => Fast.ite (fun _ => ?_) (fun _ => Fast.ite (fun _ => Fast.pure trivial) (fun _ => Fast.pure trivial))))
      exact discardStoredPacket_fast g _ w2 hL' (hh (hst (Classical.not_not.mp h)))
    · intro st w3 _ _
      refine Fast.bind (P := fun _ _ => True) (K1 := ackBound g + 5) (K2 := 0) ?_ (fun _ _ _ _ => Fast.ite (fun _ => Fast.pure trivial) (fun _ => Fast.pure trivial)) (Nat.le_refl _)
      refine Fast.ite (fun _ => ?_) (fun _ => Fast.pure trivial)
      unfold handlePacket
      dsimp only
      refine Fast.getCtx ?_
      refine Fast.bind (P := fun _ _ => True) (K1 := ackBound g + 4) (K2 := 1) (Fast.ite (fun _ => handleIncomingPublish_fast g _ w3 hL)
        (fun _ => handleIncomingAck_fast g _ m w3 hL)) ?_ (by omega)
      intro st w4 _ _
      refine Fast.getCtx (Fast.ite (fun hle => ?_) (fun _ => Fast.ub _))
      have hlen : ∀ total, total ≤ w4.ctx.index → w4.ctx.index ≤ w4.ctx.bufSize →
          (writeAt w4.ctx.netBuf 0 ((w4.ctx.netBuf.drop total).take (w4.ctx.index - total))).length = w4.ctx.netBuf.length := by
        intro total h1 h2
        refine writeAt_length ?_
        unfold Ctx.bufSize at h2
        simp
        omega
      refine Fast.set rfl (hlen _ hle.1 hle.2) ?_
      refine Fast.ite (fun _ => ?_) (fun _ => Fast.pure trivial)
      refine Fast.time.bind (K2 := 0) ?_ (Nat.le_refl _)
      intro t w6 _ _
      exact Fast.set rfl rfl (Fast.pure trivial)

end Mqtt
