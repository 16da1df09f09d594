/-
How the transport divides the outgoing bytes makes no difference: a simulation through every function of core_mqtt.c.
-/
import Verif.Spec.Splits
import Verif.Proof.Anew
import Verif.Proof.SendLoop

namespace Mqtt.Splits
open Spec
open Anew (bind_done)

/-- The worlds differ in how the transport divides the outgoing bytes, and in what happened before (`τ` and `τ'`). -/
structure Alike (θ : UInt32) (τ τ' : List Event) (w w' : World) : Prop where
  ctx : SameButWritev w.ctx w'.ctx
  same : SameIncoming w.env w'.env
  calm : Unhindered θ w.env
  calm' : Unhindered θ w'.env
  trace : ∃ es es', w.trace = τ ++ es ∧ w'.trace = τ' ++ es' ∧ seamless es' = seamless es

/-- If both return, then with related results and in worlds that differ in this only. -/
def Sim (θ : UInt32) (τ τ' : List Event) {α β : Type} (R : α → β → Prop) (m : M α) (m' : M β) : Prop :=
  ∀ w w', Alike θ τ τ' w w' → ∀ a w1 a' w1', m w = .done a w1 → m' w' = .done a' w1' → R a a' ∧ Alike θ τ τ' w1 w1'

/-- Equal results. -/
def SameRes {α : Type} (x x' : α) : Prop := x' = x

abbrev SimE (θ : UInt32) (τ τ' : List Event) {α : Type} (m m' : M α) : Prop := Sim θ τ τ' SameRes m m'

theorem seamless_append (a b : List Event) : seamless (a ++ b) = seamless a ++ seamless b := List.flatMap_append ..

section
variable {θ : UInt32} {τ τ' : List Event} {α β γ ε : Type}

theorem Alike.emit {w w' : World} (h : Alike θ τ τ' w w') {c c' : Ctx} (hc : SameButWritev c c') {e e' : Env} (hs : SameIncoming e e') (k : Unhindered θ e) (k' : Unhindered θ e')
    {es es' : List Event} (he : seamless es' = seamless es) : Alike θ τ τ' ⟨c, e, w.trace ++ es⟩ ⟨c', e', w'.trace ++ es'⟩ := by
  obtain ⟨x, x', h1, h2, h3⟩ := h.trace
  exact ⟨hc, hs, k, k', x ++ es, x' ++ es', by rw [h1, List.append_assoc], by rw [h2, List.append_assoc], by rw [seamless_append, seamless_append, h3, he]⟩

theorem Alike.ctxs {w w' : World} (h : Alike θ τ τ' w w') {c c' : Ctx} (hc : SameButWritev c c') : Alike θ τ τ' { w with ctx := c } { w' with ctx := c' } :=
  ⟨hc, h.same, h.calm, h.calm', h.trace⟩

theorem sim_bind {R : α → β → Prop} {S : γ → ε → Prop} {m : M α} {m' : M β} {f : α → M γ} {f' : β → M ε}
    (hm : Sim θ τ τ' R m m') (hf : ∀ a a', R a a' → Sim θ τ τ' S (f a) (f' a')) : Sim θ τ τ' S (m >>= f) (m' >>= f') := by
  intro w w' h c w2 c' w2' hd hd'
  obtain ⟨a, w1, h1, h2⟩ := bind_done hd
  obtain ⟨a', w1', h1', h2'⟩ := bind_done hd'
  obtain ⟨h3, h4⟩ := hm w w' h a w1 a' w1' h1 h1'
  exact hf a a' h3 w1 w1' h4 c w2 c' w2' h2 h2'

theorem simE_bind {S : γ → ε → Prop} {m m' : M α} {f : α → M γ} {f' : α → M ε}
    (hm : SimE θ τ τ' m m') (hf : ∀ a, Sim θ τ τ' S (f a) (f' a)) : Sim θ τ τ' S (m >>= f) (m' >>= f') :=
  sim_bind hm fun a a' h => by cases h; exact hf _

theorem simE_pure (a : α) : SimE θ τ τ' (pure a) (pure a) := fun w w' h b w1 b' w1' hd hd' => by
  cases hd; cases hd'
  exact ⟨rfl, h⟩
theorem simE_stuck {m : M α} : SimE θ τ τ' (stuckM : M α) m := fun _ _ _ _ _ _ _ hd _ => by cases hd
theorem simE_stuck' {m : M α} : SimE θ τ τ' m (stuckM : M α) := fun _ _ _ _ _ _ _ _ hd => by cases hd
theorem simE_ub (e : UB) : SimE θ τ τ' (ubM e : M α) (ubM e) := fun _ _ _ _ _ _ _ hd _ => by cases hd
theorem simE_lift (x : Res α) : SimE θ τ τ' (liftRes x) (liftRes x) := by
  cases x with
  | ok a => exact simE_pure a
  | ub e => exact simE_ub e

/-- Reading the context. -/
theorem sim_ctx {S : γ → ε → Prop} {f : Ctx → M γ} {f' : Ctx → M ε} (hf : ∀ (c : Ctx) (b : Bool), Sim θ τ τ' S (f c) (f' { c with hasWritev := b })) :
    Sim θ τ τ' S (getCtx >>= f) (getCtx >>= f') := fun w w' h a w1 a' w1' hd hd' => by
  obtain ⟨b, hb⟩ := h.ctx
  have hx := hf w.ctx b w w' h a w1 a' w1' hd
  rw [← hb] at hx
  exact hx hd'

theorem sim_modify {f f' : Ctx → Ctx} (hf : ∀ (c : Ctx) (b : Bool), f' { c with hasWritev := b } = { f c with hasWritev := b }) : SimE θ τ τ' (modifyCtx f) (modifyCtx f') :=
  fun w w' h a w1 a' w1' hd hd' => by
    cases hd; cases hd'
    obtain ⟨b, hb⟩ := h.ctx
    exact ⟨rfl, h.ctxs ⟨b, by rw [hb, hf]⟩⟩

theorem sim_emit (e : Event) : SimE θ τ τ' (emit e) (emit e) := fun w w' h a w1 a' w1' hd hd' => by
  cases hd; cases hd'
  refine ⟨rfl, h.emit h.ctx ?_ ?_ ?_ ?_⟩
  · exact h.same
  · exact h.calm
  · exact h.calm'
  · exact rfl

theorem sim_pre : SimE θ τ τ' preHook preHook := sim_emit _
theorem sim_post : SimE θ τ τ' postHook postHook := sim_emit _
theorem sim_app (pk : PacketInfo) (id : UInt16) (st : Status) (p : Option PublishInfo) :
    SimE θ τ τ' (appCallback pk id st p) (appCallback pk id st p) := sim_emit _
theorem sim_clear (id : UInt16) : SimE θ τ τ' (clearCallback id) (clearCallback id) := sim_emit _

/-- Reading a clock that stands still. -/
theorem getTime_calm {w w1 : World} {u : UInt32} (h : Unhindered θ w.env) (hd : getTime w = .done u w1) :
    u = θ ∧ ∃ rest, w1 = { w with env := { w.env with clock := rest }, trace := w.trace ++ [.time θ] } ∧ Unhindered θ w1.env := by
  unfold getTime at hd
  cases hc : w.env.clock with
  | nil => rw [hc] at hd; cases hd
  | cons x rest =>
    rw [hc] at hd
    cases hd
    have hu : u = θ := h.clock u (by rw [hc]; exact List.mem_cons_self)
    subst hu
    exact ⟨rfl, rest, rfl, h.sends, fun v hv => h.clock v (by rw [hc]; exact List.mem_cons_of_mem _ hv)⟩

theorem sim_getTime : SimE θ τ τ' getTime getTime := fun w w' h a w1 a' w1' hd hd' => by
  obtain ⟨rfl, r, rfl, k⟩ := getTime_calm h.calm hd
  obtain ⟨rfl, r', rfl, k'⟩ := getTime_calm h.calm' hd'
  refine ⟨rfl, h.emit h.ctx ?_ ?_ ?_ ?_⟩
  · exact ⟨h.same.recvs, h.same.input, h.same.stores, h.same.retrieves⟩
  · exact k
  · exact k'
  · exact rfl

theorem sim_time {S : γ → ε → Prop} {f : UInt32 → M γ} {f' : UInt32 → M ε} (hf : ∀ t, Sim θ τ τ' S (f t) (f' t)) :
    Sim θ τ τ' S (getTime >>= f) (getTime >>= f') :=
  simE_bind sim_getTime hf

theorem sim_recv (n : Nat) : SimE θ τ τ' (transportRecv n) (transportRecv n) := fun w w' h a w1 a' w1' hd hd' => by
  unfold transportRecv at hd hd'
  rw [h.same.recvs, h.same.input] at hd'
  cases hc : w.env.recvs with
  | nil => rw [hc] at hd; cases hd
  | cons x rest =>
    rw [hc] at hd hd'
    cases x with
    | fail =>
      cases hd; cases hd'
      refine ⟨rfl, h.emit h.ctx ?_ ?_ ?_ ?_⟩
      · exact ⟨rfl, h.same.input, h.same.stores, h.same.retrieves⟩
      · exact ⟨h.calm.sends, h.calm.clock⟩
      · exact ⟨h.calm'.sends, h.calm'.clock⟩
      · exact rfl
    | deliver m =>
      cases hd; cases hd'
      refine ⟨rfl, h.emit h.ctx ?_ ?_ ?_ ?_⟩
      · exact ⟨rfl, rfl, h.same.stores, h.same.retrieves⟩
      · exact ⟨h.calm.sends, h.calm.clock⟩
      · exact ⟨h.calm'.sends, h.calm'.clock⟩
      · exact rfl

theorem sim_store (id : UInt16) (v : List IoVec) : SimE θ τ τ' (storeCallback id v) (storeCallback id v) := fun w w' h a w1 a' w1' hd hd' => by
  unfold storeCallback at hd hd'
  rw [h.same.stores] at hd'
  cases hc : w.env.stores with
  | nil => rw [hc] at hd; cases hd
  | cons x rest =>
    rw [hc] at hd hd'
    cases hd; cases hd'
    refine ⟨rfl, h.emit h.ctx ?_ ?_ ?_ ?_⟩
    · exact ⟨h.same.recvs, h.same.input, rfl, h.same.retrieves⟩
    · exact ⟨h.calm.sends, h.calm.clock⟩
    · exact ⟨h.calm'.sends, h.calm'.clock⟩
    · exact rfl

theorem sim_retrieve (id : UInt16) : SimE θ τ τ' (retrieveCallback id) (retrieveCallback id) := fun w w' h a w1 a' w1' hd hd' => by
  unfold retrieveCallback at hd hd'
  rw [h.same.retrieves] at hd'
  cases hc : w.env.retrieves with
  | nil => rw [hc] at hd; cases hd
  | cons x rest =>
    rw [hc] at hd hd'
    cases hd; cases hd'
    refine ⟨rfl, h.emit h.ctx ?_ ?_ ?_ ?_⟩
    · exact ⟨h.same.recvs, h.same.input, h.same.stores, rfl⟩
    · exact ⟨h.calm.sends, h.calm.clock⟩
    · exact ⟨h.calm'.sends, h.calm'.clock⟩
    · exact rfl

theorem sim_recvFuel : SimE θ τ τ' recvFuel recvFuel := fun w w' h a w1 a' w1' hd hd' => by
  cases hd; cases hd'
  exact ⟨by rw [h.same.recvs]; rfl, h⟩

/-- The recursion bounds differ. -/
def AnyRes {α : Type} (_ _ : α) : Prop := True

theorem sim_sendFuel : Sim θ τ τ' AnyRes sendFuel sendFuel := fun w w' h a w1 a' w1' hd hd' => by
  cases hd; cases hd'
  exact ⟨trivial, h⟩
theorem sim_clockFuel : Sim θ τ τ' AnyRes clockFuel clockFuel := fun w w' h a w1 a' w1' hd hd' => by
  cases hd; cases hd'
  exact ⟨trivial, h⟩

theorem sim_tables (f : Tables → Res (α × Tables)) : SimE θ τ τ' (onTables f) (onTables f) := fun w w' h a w1 a' w1' hd hd' => by
  unfold onTables at hd hd'
  obtain ⟨b, hb⟩ := h.ctx
  rw [show w'.ctx.tables = w.ctx.tables by rw [hb]] at hd'
  cases hf : f w.ctx.tables with
  | ok x =>
    rw [hf] at hd hd'
    cases hd; cases hd'
    exact ⟨rfl, h.ctxs ⟨b, by rw [hb]⟩⟩
  | ub e => rw [hf] at hd; cases hd

theorem sim_ite {R : α → β → Prop} {c c' : Prop} {d : Decidable c} {d' : Decidable c'} {a b : M α} {a' b' : M β} (hc : c = c')
    (ha : c → Sim θ τ τ' R a a') (hb : ¬ c → Sim θ τ τ' R b b') :
    Sim θ τ τ' R (@ite _ c d a b) (@ite _ c' d' a' b') := by
  subst hc
  by_cases h : c
  · rw [if_pos h, if_pos h]; exact ha h
  · rw [if_neg h, if_neg h]; exact hb h

theorem sim_markPending : SimE θ τ τ' markPending markPending := by
  refine sim_modify fun c b => ?_
  show (if c.connectStatus = _ then _ else _) = _
  split <;> rfl

syntax "splitsims" "[" term,* "]" : tactic
macro_rules
  | `(tactic| splitsims [$[$ts],*]) => `(tactic|
      repeat' (first
        | (with_reducible first
          | (first $[| exact $ts]*)
          | exact simE_pure _ | exact simE_stuck | exact simE_ub _ | exact simE_lift _ | exact sim_pre | exact sim_post
          | exact sim_app .. | exact sim_recv _ | exact sim_clear _ | exact sim_store _ _ | exact sim_retrieve _
          | exact sim_tables _ | exact sim_recvFuel | exact sim_markPending
          | (intro _) | refine sim_ite (by with_reducible rfl) ?_ ?_ | apply sim_ctx | apply sim_time
          | apply simE_bind)
        | refine sim_ite rfl ?_ ?_ | exact simE_lift _ | exact simE_pure _ | (first $[| exact $ts]*)
        | (with_reducible split)))


/-! ### The send loops -/

/-- What a loop that sends `bs` leaves behind when nothing fails and no time passes. -/
structure Sent (θ : UInt32) (bs : List UInt8) (w w1 : World) : Prop where
  ctx : w1.ctx = if bs = [] then w.ctx else { w.ctx with lastPacketTxTime := θ }
  same : SameIncoming w.env w1.env
  calm : Unhindered θ w1.env
  trace : ∃ es, w1.trace = w.trace ++ es ∧ seamless es = bs.map .inl

theorem Sent.refl {w : World} (h : Unhindered θ w.env) : Sent θ [] w w := ⟨rfl, ⟨rfl, rfl, rfl, rfl⟩, h, [], by simp, rfl⟩

theorem Sent.trans {a b : List UInt8} {w w1 w2 : World} (h : Sent θ a w w1) (k : Sent θ b w1 w2) : Sent θ (a ++ b) w w2 := by
  obtain ⟨es, h1, h2⟩ := h.trace
  obtain ⟨es', k1, k2⟩ := k.trace
  refine ⟨?_, ⟨k.same.recvs.trans h.same.recvs, k.same.input.trans h.same.input, k.same.stores.trans h.same.stores, k.same.retrieves.trans h.same.retrieves⟩, k.calm,
    es ++ es', by rw [k1, h1, List.append_assoc], by rw [seamless_append, h2, k2, List.map_append]⟩
  rw [k.ctx, h.ctx]
  by_cases ha : a = [] <;> by_cases hb : b = [] <;> simp [ha, hb]

/-- One call of the transport, and what the loop notes about it. -/
theorem step_sent {bs : List UInt8} {w w1 w2 w3 : World} {r : Option Nat} {u : UInt32} {x : Unit} (h : Unhindered θ w.env) (h1 : transportSend bs w = .done r w1)
    (h2 : noteSendResult r w1 = .done x w2) (h3 : getTime w2 = .done u w3) : u = θ ∧ ∃ k, r = some k ∧ k ≤ bs.length ∧ Sent θ (bs.take k) w w3 := by
  unfold transportSend at h1
  cases hc : w.env.sends with
  | nil => rw [hc] at h1; cases h1
  | cons y rest =>
    rw [hc] at h1
    have hr : ∀ a ∈ rest, a ≠ .fail := fun a ha => h.sends a (by rw [hc]; exact List.mem_cons_of_mem _ ha)
    cases y with
    | fail => exact absurd rfl (h.sends _ (by rw [hc]; exact List.mem_cons_self))
    | accept n =>
      cases h1
      unfold noteSendResult at h2
      dsimp only at h2
      have hk : min n bs.length ≤ bs.length := Nat.min_le_right _ _
      generalize min n bs.length = k at *
      by_cases h0 : k > 0
      · rw [if_pos h0] at h2
        obtain ⟨t, w4, h4, h5⟩ := bind_done h2
        obtain ⟨rfl, r4, rfl, k4⟩ := getTime_calm (θ := θ) (by exact ⟨hr, h.clock⟩) h4
        cases h5
        obtain ⟨rfl, r3, rfl, k3⟩ := getTime_calm (by exact ⟨k4.sends, k4.clock⟩) h3
        refine ⟨rfl, k, rfl, hk, ?_, ⟨rfl, rfl, rfl, rfl⟩, k3, [.sent bs (some k), .time u, .time u], by simp, by simp [seamless, unsplit]⟩
        rw [if_neg (fun e => by have := congrArg List.length e; simp only [List.length_take, List.length_nil] at this; omega)]
      · rw [if_neg h0] at h2
        cases h2
        obtain ⟨rfl, r3, rfl, k3⟩ := getTime_calm (θ := θ) (by exact ⟨hr, h.clock⟩) h3
        have : k = 0 := by omega
        subst this
        exact ⟨rfl, 0, rfl, hk, rfl, ⟨rfl, rfl, rfl, rfl⟩, k3, [.sent bs (some 0), .time u], by simp, by simp [seamless, unsplit]⟩

theorem elapsed_zero (u : UInt32) : calculateElapsedTime u u = 0 := by simp [calculateElapsedTime]

theorem bufferLoop_sent (g : Cfg) (hg : 0 < g.sendTimeoutMs) : ∀ fuel (bs : List UInt8) sent (w w1 : World) (a : Option Nat), Unhindered θ w.env →
    sendBufferLoop g θ fuel bs sent w = .done a w1 → a = some (sent + bs.length) ∧ Sent θ bs w w1
  | 0, _, _, _, _, _, _, hd => by cases hd
  | fuel + 1, bs, sent, w, w1, a, h, hd => by
    unfold sendBufferLoop at hd
    by_cases hb : bs.length > 0
    · rw [if_pos hb] at hd
      obtain ⟨r, v1, k1, hd⟩ := bind_done hd
      obtain ⟨x, v2, k2, hd⟩ := bind_done hd
      obtain ⟨u, v3, k3, hd⟩ := bind_done hd
      obtain ⟨hu, k, rfl, hk, hs⟩ := step_sent h k1 k2 k3
      dsimp only at hd
      rw [hu, elapsed_zero, if_neg (UInt32.not_le.mpr hg)] at hd
      obtain ⟨rfl, hs'⟩ := bufferLoop_sent g hg fuel _ _ _ _ _ hs.calm hd
      refine ⟨by rw [List.length_drop]; congr 1; omega, ?_⟩
      have := hs.trans hs'
      rwa [List.take_append_drop] at this
    · rw [if_neg hb] at hd
      cases hd
      have : bs = [] := List.eq_nil_of_length_eq_zero (by omega)
      subst this
      exact ⟨rfl, Sent.refl h⟩

theorem vecLoop_sent (g : Cfg) (B : Nat) : ∀ fuel (vecs : List (List UInt8)) sent (w w1 : World) (a : Option Nat), Unhindered θ w.env → sent + vecs.flatten.length = B →
    sendVecLoop g θ B fuel vecs sent w = .done a w1 → a = some B ∧ Sent θ vecs.flatten w w1
  | 0, _, _, _, _, _, _, _, hd => by cases hd
  | fuel + 1, vecs, sent, w, w1, a, h, hB, hd => by
    unfold sendVecLoop at hd
    by_cases hb : sent < B
    · rw [if_pos hb] at hd
      have hne : vecs ≠ [] := by rintro rfl; simp at hB; omega
      obtain ⟨c, v0, k0, hd⟩ := bind_done hd
      cases k0
      obtain ⟨bs, ho, hp⟩ := offeredBytes_prefix w.ctx.hasWritev vecs hne
      rw [ho] at hd
      obtain ⟨bs', v0, k0, hd⟩ := bind_done hd
      cases k0
      obtain ⟨r, v1, k1, hd1⟩ := bind_done hd
      clear hd
      obtain ⟨_, v1', k1', hd⟩ := bind_done hd1
      clear hd1
      have : v1' = v1 := by
        unfold liftRes at k1'
        split at k1'
        · cases k1'; rfl
        · cases k1'
      subst this
      obtain ⟨x, v2, k2, hd⟩ := bind_done hd
      obtain ⟨u, v3, k3, hd⟩ := bind_done hd
      obtain ⟨hu, k, rfl, hk, hs⟩ := step_sent h k1 k2 k3
      dsimp only at hd
      rw [hu, elapsed_zero, if_neg (by simp)] at hd
      have hk' : k ≤ vecs.flatten.length := Nat.le_trans hk hp.length_le
      obtain ⟨rfl, hs'⟩ := vecLoop_sent g B fuel _ _ _ _ _ hs.calm (by rw [advanceVec_flatten, List.length_drop]; omega) hd
      refine ⟨rfl, ?_⟩
      have := hs.trans hs'
      rwa [advanceVec_flatten, take_of_prefix hp hk, List.take_append_drop] at this
    · rw [if_neg hb] at hd
      cases hd
      have : vecs.flatten = [] := List.eq_nil_of_length_eq_zero (by omega)
      rw [this]
      exact ⟨by congr 1; omega, Sent.refl h⟩

theorem Alike.sent {w w' w1 w1' : World} {bs : List UInt8} (h : Alike θ τ τ' w w') (k : Sent θ bs w w1) (k' : Sent θ bs w' w1') : Alike θ τ τ' w1 w1' := by
  obtain ⟨es, h1, h2⟩ := k.trace
  obtain ⟨es', h1', h2'⟩ := k'.trace
  obtain ⟨c, e, tr⟩ := w1
  obtain ⟨c', e', tr'⟩ := w1'
  cases h1; cases h1'
  refine h.emit ?_ ?_ k.calm k'.calm (h2'.trans h2.symm)
  · obtain ⟨b, hb⟩ := h.ctx
    refine ⟨b, ?_⟩
    have e1 := k.ctx
    have e2 := k'.ctx
    dsimp only at e1 e2
    rw [e1, e2, hb]
    split <;> rfl
  · exact ⟨k'.same.recvs.trans (h.same.recvs.trans k.same.recvs.symm), k'.same.input.trans (h.same.input.trans k.same.input.symm),
      k'.same.stores.trans (h.same.stores.trans k.same.stores.symm), k'.same.retrieves.trans (h.same.retrieves.trans k.same.retrieves.symm)⟩

theorem sim_sendBuffer {g : Cfg} (hg : 0 < g.sendTimeoutMs) (bs : List UInt8) : SimE θ τ τ' (sendBuffer g bs) (sendBuffer g bs) := by
  unfold sendBuffer
  intro w w' h a w1 a' w1' hd hd'
  obtain ⟨t0, v, k1, hd⟩ := bind_done hd
  obtain ⟨n, v1, k2, hd⟩ := bind_done hd
  cases k2
  obtain ⟨t0', v', k1', hd'⟩ := bind_done hd'
  obtain ⟨n', v1', k2', hd'⟩ := bind_done hd'
  cases k2'
  have h1 := sim_getTime w w' h _ _ _ _ k1 k1'
  obtain ⟨rfl, _⟩ := getTime_calm h.calm k1
  obtain ⟨rfl, _⟩ := getTime_calm h.calm' k1'
  obtain ⟨rfl, s1⟩ := bufferLoop_sent g hg _ _ _ _ _ _ h1.2.calm hd
  obtain ⟨rfl, s2⟩ := bufferLoop_sent g hg _ _ _ _ _ _ h1.2.calm' hd'
  exact ⟨rfl, h1.2.sent s1 s2⟩

theorem sim_sendMessageVector (g : Cfg) (v : List IoVec) : SimE θ τ τ' (sendMessageVector g v) (sendMessageVector g v) := by
  unfold sendMessageVector
  refine simE_bind (simE_lift _) fun vecs => sim_ite rfl (fun _ => simE_ub _) fun _ => ?_
  intro w w' h a w1 a' w1' hd hd'
  obtain ⟨t0, v, k1, hd⟩ := bind_done hd
  obtain ⟨n, v1, k2, hd⟩ := bind_done hd
  cases k2
  obtain ⟨t0', v', k1', hd'⟩ := bind_done hd'
  obtain ⟨n', v1', k2', hd'⟩ := bind_done hd'
  cases k2'
  have h1 := sim_getTime w w' h _ _ _ _ k1 k1'
  obtain ⟨rfl, _⟩ := getTime_calm h.calm k1
  obtain ⟨rfl, _⟩ := getTime_calm h.calm' k1'
  obtain ⟨rfl, s1⟩ := vecLoop_sent g _ _ _ _ _ _ _ h1.2.calm (Nat.zero_add _) hd
  obtain ⟨rfl, s2⟩ := vecLoop_sent g _ _ _ _ _ _ _ h1.2.calm' (Nat.zero_add _) hd'
  exact ⟨rfl, h1.2.sent s1 s2⟩

theorem sim_sendWholeVector {g : Cfg} (hg : 0 < g.sendTimeoutMs) (v : List IoVec) : SimE θ τ τ' (sendWholeVector g v) (sendWholeVector g v) := by
  unfold sendWholeVector
  splitsims [sim_sendMessageVector g v]

theorem sim_sendFiltersLoop {g : Cfg} (hg : 0 < g.sendTimeoutMs) (ty : SubType) : ∀ n vec subs,
    SimE θ τ τ' (sendFiltersLoop g ty n vec subs) (sendFiltersLoop g ty n vec subs)
  | 0, _, _ => simE_stuck
  | n + 1, vec, subs => by
    unfold sendFiltersLoop
    splitsims [sim_sendWholeVector hg _, sim_sendFiltersLoop hg ty n _ _]

theorem sim_sendFilters {g : Cfg} (hg : 0 < g.sendTimeoutMs) (ty : SubType) (subs : List SubscribeInfo) (id : UInt16) (n : Nat) :
    SimE θ τ τ' (sendFiltersWithoutCopy g ty subs id n) (sendFiltersWithoutCopy g ty subs id n) := by
  unfold sendFiltersWithoutCopy
  splitsims [sim_sendFiltersLoop hg ty _ _ _]

theorem sim_storePublish (p : PublishInfo) (hd : List UInt8) (n : Nat) (id : UInt16) : SimE θ τ τ' (storePublish p hd n id) (storePublish p hd n id) := by
  unfold storePublish
  splitsims [simE_pure _]

theorem sim_sendPublish {g : Cfg} (hg : 0 < g.sendTimeoutMs) (p : PublishInfo) (hd : List UInt8) (n : Nat) (id : UInt16) :
    SimE θ τ τ' (sendPublishWithoutCopy g p hd n id) (sendPublishWithoutCopy g p hd n id) := by
  unfold sendPublishWithoutCopy
  splitsims [sim_storePublish .., sim_sendWholeVector hg _]

theorem sim_sendConnect {g : Cfg} (hg : 0 < g.sendTimeoutMs) (ci : ConnectInfo) (will : Option PublishInfo) (n : Nat) :
    SimE θ τ τ' (sendConnectWithoutCopy g ci will n) (sendConnectWithoutCopy g ci will n) := by
  unfold sendConnectWithoutCopy
  splitsims [sim_sendWholeVector hg _]

theorem sim_sendIfConnected {g : Cfg} (hg : 0 < g.sendTimeoutMs) (bs : List UInt8) : SimE θ τ τ' (sendIfConnected g bs) (sendIfConnected g bs) := by
  unfold sendIfConnected
  splitsims [sim_sendBuffer hg bs]

theorem sim_ackM (id : UInt16) (a : AckType) (op : Op) : SimE θ τ τ' (updateStateAckM id a op) (updateStateAckM id a op) := sim_tables _
theorem sim_pubM (id : UInt16) (op : Op) (q : QoS) : SimE θ τ τ' (updateStatePublishM id op q) (updateStatePublishM id op q) := sim_tables _

theorem sim_sendPublishAcks {g : Cfg} (hg : 0 < g.sendTimeoutMs) (id : UInt16) (p : PubState) : SimE θ τ τ' (sendPublishAcks g id p) (sendPublishAcks g id p) := by
  unfold sendPublishAcks
  splitsims [sim_sendIfConnected hg _, sim_ackM ..]
  exact sim_modify fun _ _ => rfl

theorem sim_ping {g : Cfg} (hg : 0 < g.sendTimeoutMs) : SimE θ τ τ' (mqttPing g) (mqttPing g) := by
  unfold mqttPing
  splitsims [sim_sendIfConnected hg _]
  exact sim_modify fun _ _ => rfl

theorem sim_recvInto (pos n : Nat) : SimE θ τ τ' (recvInto pos n) (recvInto pos n) := by
  unfold recvInto
  splitsims [simE_pure _]
  exact sim_modify fun _ _ => rfl

theorem sim_markHooked : SimE θ τ τ' markPendingHooked markPendingHooked := by
  unfold markPendingHooked
  splitsims [sim_pre]

theorem sim_recvExactLoop {g : Cfg} (hg : 0 < g.sendTimeoutMs) : ∀ n pos m (t : UInt32),
    SimE θ τ τ' (recvExactLoop g n pos m t) (recvExactLoop g n pos m t)
  | 0, _, _, _ => simE_stuck
  | n + 1, pos, m, t => by
    unfold recvExactLoop
    splitsims [sim_recvInto _ _, sim_markHooked, sim_recvExactLoop hg n _ _ _]

theorem sim_recvExact {g : Cfg} (hg : 0 < g.sendTimeoutMs) (n : Nat) : SimE θ τ τ' (recvExact g n) (recvExact g n) := by
  unfold recvExact
  splitsims [sim_recvExactLoop hg _ _ _ _]

theorem sim_discardLoop {g : Cfg} (hg : 0 < g.sendTimeoutMs) (T t0 : UInt32) : ∀ n n' left b,
    SimE θ τ τ' (discardLoop g T t0 n left b) (discardLoop g T t0 n' left b)
  | 0, _, _, _ => simE_stuck
  | _ + 1, 0, _, _ => simE_stuck'
  | n + 1, n' + 1, left, b => by
    unfold discardLoop
    splitsims [sim_recvExact hg _, sim_discardLoop hg T t0 n n' _ _]

theorem sim_discardPacket {g : Cfg} (hg : 0 < g.sendTimeoutMs) (n : Nat) (T : UInt32) : SimE θ τ τ' (discardPacket g n T) (discardPacket g n T) := by
  unfold discardPacket
  refine sim_ctx fun c b => sim_time fun t => sim_bind sim_clockFuel fun n n' _ => ?_
  splitsims [sim_discardLoop hg _ _ _ _ _ _]

theorem sim_discardStoredLoop {g : Cfg} (hg : 0 < g.sendTimeoutMs) : ∀ n n' left b, SimE θ τ τ' (discardStoredLoop g n left b) (discardStoredLoop g n' left b)
  | 0, _, _, _ => simE_stuck
  | _ + 1, 0, _, _ => simE_stuck'
  | n + 1, n' + 1, left, b => by
    unfold discardStoredLoop
    splitsims [sim_recvExact hg _, sim_discardStoredLoop hg n n' _ _]

theorem sim_resetBuffer : SimE θ τ τ' resetBuffer resetBuffer := by
  exact sim_modify fun _ _ => rfl

theorem sim_discardStored {g : Cfg} (hg : 0 < g.sendTimeoutMs) (n : Nat) : SimE θ τ τ' (discardStoredPacket g n) (discardStoredPacket g n) := by
  unfold discardStoredPacket
  refine sim_ctx fun c b => simE_bind (simE_lift _) fun _ => sim_bind sim_clockFuel fun n n' _ => ?_
  splitsims [sim_discardStoredLoop hg _ _ _ _, sim_resetBuffer]

theorem sim_receivePacket {g : Cfg} (hg : 0 < g.sendTimeoutMs) (n : Nat) (T : UInt32) : SimE θ τ τ' (receivePacket g n T) (receivePacket g n T) := by
  unfold receivePacket
  splitsims [sim_discardPacket hg _ _, sim_recvExact hg _]

theorem sim_handleKeepAlive {g : Cfg} (hg : 0 < g.sendTimeoutMs) : SimE θ τ τ' (handleKeepAlive g) (handleKeepAlive g) := by
  unfold handleKeepAlive
  splitsims [sim_ping hg]

theorem sim_recordIncoming (id : UInt16) (q : QoS) : SimE θ τ τ' (recordIncomingPublish id q) (recordIncomingPublish id q) := by
  unfold recordIncomingPublish
  splitsims [sim_pubM ..]

theorem sim_handleIncomingPublish {g : Cfg} (hg : 0 < g.sendTimeoutMs) (pk : PacketInfo) : SimE θ τ τ' (handleIncomingPublish g pk) (handleIncomingPublish g pk) := by
  unfold handleIncomingPublish
  splitsims [sim_recordIncoming .., sim_sendPublishAcks hg _ _]

theorem sim_handlePublishAcks {g : Cfg} (hg : 0 < g.sendTimeoutMs) (pk : PacketInfo) : SimE θ τ τ' (handlePublishAcks g pk) (handlePublishAcks g pk) := by
  unfold handlePublishAcks
  splitsims [sim_ackM .., sim_sendPublishAcks hg _ _]

theorem sim_handleIncomingAck {g : Cfg} (hg : 0 < g.sendTimeoutMs) (pk : PacketInfo) (b : Bool) : SimE θ τ τ' (handleIncomingAck g pk b) (handleIncomingAck g pk b) := by
  unfold handleIncomingAck
  splitsims [sim_handlePublishAcks hg pk]
  exact sim_modify fun _ _ => rfl

theorem sim_receiveHeader : SimE θ τ τ' receiveHeader receiveHeader := by
  unfold receiveHeader
  splitsims [sim_recvInto _ _, sim_markHooked]
  exact sim_modify fun _ _ => rfl

theorem sim_keepAliveCheck {g : Cfg} (hg : 0 < g.sendTimeoutMs) (n : Option Nat) (b : Bool) (st : Status) :
    SimE θ τ τ' (keepAliveCheck g n b st) (keepAliveCheck g n b st) := by
  unfold keepAliveCheck
  splitsims [sim_handleKeepAlive hg]

theorem sim_checkComplete {g : Cfg} (hg : 0 < g.sendTimeoutMs) (st : Status) (n : Nat) : SimE θ τ τ' (checkComplete g st n) (checkComplete g st n) := by
  unfold checkComplete
  splitsims [sim_discardStored hg _]

theorem sim_handlePacket {g : Cfg} (hg : 0 < g.sendTimeoutMs) (b : Bool) (h : HeaderRes) : SimE θ τ τ' (handlePacket g b h) (handlePacket g b h) := by
  unfold handlePacket
  splitsims [sim_handleIncomingPublish hg _, sim_handleIncomingAck hg _ _]
  all_goals exact sim_modify fun _ _ => rfl

theorem sim_iteration {g : Cfg} (hg : 0 < g.sendTimeoutMs) (b : Bool) :
    SimE θ τ τ' (receiveSingleIteration g b) (receiveSingleIteration g b) := by
  unfold receiveSingleIteration
  splitsims [sim_receiveHeader, sim_keepAliveCheck hg _ _ _, sim_checkComplete hg _ _, sim_handlePacket hg _ _]

theorem sim_processLoop {g : Cfg} (hg : 0 < g.sendTimeoutMs) : SimE θ τ τ' (mqttProcessLoop g) (mqttProcessLoop g) := by
  unfold mqttProcessLoop
  splitsims [sim_iteration hg _]
  exact sim_modify fun _ _ => rfl

theorem sim_recvOne : SimE θ τ τ' recvOne recvOne := by
  unfold recvOne
  splitsims [simE_pure _]

theorem sim_remainingLoop : ∀ n a b c, SimE θ τ τ' (getRemainingLengthLoopM n a b c) (getRemainingLengthLoopM n a b c)
  | 0, _, _, _ => simE_stuck
  | n + 1, a, b, c => by
    unfold getRemainingLengthLoopM
    splitsims [sim_recvOne, sim_remainingLoop n _ _ _]

theorem sim_remaining : SimE θ τ τ' getRemainingLengthM getRemainingLengthM := by
  unfold getRemainingLengthM
  splitsims [sim_remainingLoop ..]

theorem sim_typeAndLength : SimE θ τ τ' getIncomingPacketTypeAndLengthM getIncomingPacketTypeAndLengthM := by
  unfold getIncomingPacketTypeAndLengthM
  splitsims [sim_recvOne, sim_remaining]

theorem sim_connackBreak {g : Cfg} (hg : 0 < g.sendTimeoutMs) (T t0 : UInt32) (n : Nat) : SimE θ τ τ' (connackBreak g T t0 n) (connackBreak g T t0 n) := by
  unfold connackBreak
  splitsims [simE_pure _]

theorem sim_connackLoop {g : Cfg} (hg : 0 < g.sendTimeoutMs) (T t0 : UInt32) : ∀ n c, SimE θ τ τ' (connackLoop g T t0 n c) (connackLoop g T t0 n c)
  | 0, _ => simE_stuck
  | n + 1, c => by
    unfold connackLoop
    splitsims [sim_typeAndLength, sim_connackBreak hg .., sim_connackLoop hg T t0 n _]

theorem sim_finishConnack {g : Cfg} (hg : 0 < g.sendTimeoutMs) (T t0 : UInt32) (cs : Bool) (h : HeaderRes) (sp : Bool) :
    SimE θ τ τ' (finishConnack g T t0 cs h sp) (finishConnack g T t0 cs h sp) := by
  unfold finishConnack
  splitsims [sim_receivePacket hg _ _]

theorem sim_receiveConnack {g : Cfg} (hg : 0 < g.sendTimeoutMs) (T : UInt32) (cs sp : Bool) : SimE θ τ τ' (receiveConnack g T cs sp) (receiveConnack g T cs sp) := by
  unfold receiveConnack
  splitsims [sim_connackLoop hg .., sim_finishConnack hg ..]

theorem sim_resendPubrels {g : Cfg} (hg : 0 < g.sendTimeoutMs) : ∀ n c, SimE θ τ τ' (resendPubrels g n c) (resendPubrels g n c)
  | 0, _ => simE_stuck
  | n + 1, c => by
    unfold resendPubrels
    splitsims [sim_sendPublishAcks hg _ _, sim_resendPubrels hg n _]

theorem sim_resendPublishes {g : Cfg} (hg : 0 < g.sendTimeoutMs) : ∀ n c, SimE θ τ τ' (resendPublishes g n c) (resendPublishes g n c)
  | 0, _ => simE_stuck
  | n + 1, c => by
    unfold resendPublishes
    splitsims [sim_sendBuffer hg _, sim_resendPublishes hg n _]

theorem sim_resume {g : Cfg} (hg : 0 < g.sendTimeoutMs) : SimE θ τ τ' (handleUncleanSessionResumption g) (handleUncleanSessionResumption g) := by
  unfold handleUncleanSessionResumption
  splitsims [sim_resendPubrels hg _ _, sim_resendPublishes hg _ _]

theorem sim_clearStored : ∀ n c, SimE θ τ τ' (clearStored n c) (clearStored n c)
  | 0, _ => simE_stuck
  | n + 1, c => by
    unfold clearStored
    splitsims [sim_clearStored n _]

theorem sim_cleanSession : SimE θ τ τ' handleCleanSession handleCleanSession := by
  unfold handleCleanSession
  splitsims [sim_resetBuffer, sim_clearStored _ _]
  all_goals exact sim_modify fun _ _ => rfl

theorem sim_connectLocked {g : Cfg} (hg : 0 < g.sendTimeoutMs) (ci : ConnectInfo) (will : Option PublishInfo) (n : Nat) (T : UInt32) (sp : Bool) :
    SimE θ τ τ' (connectLocked g ci will n T sp) (connectLocked g ci will n T sp) := by
  unfold connectLocked
  splitsims [sim_sendConnect hg .., sim_receiveConnack hg .., sim_cleanSession]
  exact sim_modify fun _ _ => rfl

theorem sim_connectFailed (st : Status) : SimE θ τ τ' (connectFailed st) (connectFailed st) := by
  unfold connectFailed
  splitsims [sim_markHooked]

theorem sim_connectCore {g : Cfg} (hg : 0 < g.sendTimeoutMs) (ci : ConnectInfo) (will : Option PublishInfo) (n : Nat) (T : UInt32) (sp : Bool) :
    SimE θ τ τ' (connectCore g ci will n T sp) (connectCore g ci will n T sp) := by
  unfold connectCore
  splitsims [sim_connectLocked hg .., sim_resume hg]

theorem sim_connect {g : Cfg} (hg : 0 < g.sendTimeoutMs) (ci : Option ConnectInfo) (will : Option PublishInfo) (T : UInt32) (sp : Option Bool) :
    SimE θ τ τ' (mqttConnect g ci will T sp) (mqttConnect g ci will T sp) := by
  unfold mqttConnect
  splitsims [sim_connectCore hg .., sim_connectFailed _]

theorem sim_subUnsub {g : Cfg} (hg : 0 < g.sendTimeoutMs) (ty : SubType) (subs : Option (List SubscribeInfo)) (id : UInt16) :
    SimE θ τ τ' (mqttSubUnsub g ty subs id) (mqttSubUnsub g ty subs id) := by
  unfold mqttSubUnsub
  refine sim_ctx fun c b => ?_
  rw [show validateSubscribeUnsubscribeParams ({ c with hasWritev := b }) subs id = validateSubscribeUnsubscribeParams c subs id from rfl]
  splitsims [sim_sendFilters hg ..]

theorem sim_reserve (p : PublishInfo) (id : UInt16) : SimE θ τ τ' (reservePublish p id) (reservePublish p id) := by
  unfold reservePublish
  splitsims [simE_pure _]

theorem sim_notePublish (p : PublishInfo) (id : UInt16) : SimE θ τ τ' (notePublishSent p id) (notePublishSent p id) := by
  unfold notePublishSent
  splitsims [sim_pubM ..]

theorem sim_publishLocked {g : Cfg} (hg : 0 < g.sendTimeoutMs) (p : PublishInfo) (hd : List UInt8) (n : Nat) (id : UInt16) :
    SimE θ τ τ' (publishLocked g p hd n id) (publishLocked g p hd n id) := by
  unfold publishLocked
  splitsims [sim_reserve .., sim_sendPublish hg .., sim_notePublish ..]

theorem sim_publish {g : Cfg} (hg : 0 < g.sendTimeoutMs) (p : Option PublishInfo) (id : UInt16) : SimE θ τ τ' (mqttPublish g p id) (mqttPublish g p id) := by
  unfold mqttPublish
  refine sim_ctx fun c b => ?_
  rw [show validatePublishParams { c with hasWritev := b } p id = validatePublishParams c p id from rfl]
  splitsims [sim_publishLocked hg ..]

theorem sim_disconnect {g : Cfg} (hg : 0 < g.sendTimeoutMs) : SimE θ τ τ' (mqttDisconnect g) (mqttDisconnect g) := by
  unfold mqttDisconnect
  splitsims [sim_resetBuffer, sim_sendBuffer hg _]
  exact sim_modify fun _ _ => rfl

theorem sim_cancel (id : UInt16) : SimE θ τ τ' (mqttCancelCallback id) (mqttCancelCallback id) := by
  unfold mqttCancelCallback
  splitsims [simE_pure _]

theorem sim_check : SimE θ τ τ' mqttCheckConnectStatus mqttCheckConnectStatus := by
  unfold mqttCheckConnectStatus
  splitsims [simE_pure _]

theorem sim_getPacketId : SimE θ τ τ' mqttGetPacketId mqttGetPacketId := by
  unfold mqttGetPacketId
  splitsims [simE_pure _]
  exact sim_modify fun _ _ => rfl

theorem sim_api {g : Cfg} (hg : 0 < g.sendTimeoutMs) (f : ApiCall) : SimE θ τ τ' (apiCall g f) (apiCall g f) := by
  cases f with
  | publish p id =>
    simp only [apiCall]
    splitsims [sim_publish hg p id]
  | _ =>
    simp only [apiCall, mqttSubscribe, mqttUnsubscribe, mqttReceiveLoop]
    splitsims [sim_connect hg .., sim_subUnsub hg .., sim_ping hg, sim_disconnect hg, sim_cancel _, sim_check, sim_getPacketId, sim_processLoop hg, sim_iteration hg _]
end

end Mqtt.Splits
