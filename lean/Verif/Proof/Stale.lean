/-
Bytes of the network buffer that were not received have no influence: a simulation through every function of core_mqtt.c.
-/
import Verif.Spec.Stale

namespace Mqtt.Stale
open Spec

/-- The worlds differ only in bytes of the network buffer behind the first `n` and behind the ones in use. -/
structure St (n : Nat) (w w' : World) : Prop where
  env : w'.env = w.env
  trace : w'.trace = w.trace
  ctx : ∃ buf, w'.ctx = withBuf w.ctx buf ∧ buf.length = w.ctx.netBuf.length ∧ ∀ i, i < n ∨ i < w.ctx.index → buf[i]? = w.ctx.netBuf[i]?

/-- Runs end alike, with results related by `R`, and then the first `q a` bytes agree. -/
def RelOut {α β : Type} (R : α → β → Prop) (q : α → Nat) : Out α → Out β → Prop
  | .done a w, .done a' w' => R a a' ∧ St (q a) w w'
  | .stuck w, .stuck w' => St 0 w w'
  | .ub e w, .ub e' w' => e' = e ∧ St 0 w w'
  | _, _ => False

def Sim (n : Nat) {α β : Type} (R : α → β → Prop) (q : α → Nat) (m : M α) (m' : M β) : Prop :=
  ∀ w w', St n w w' → RelOut R q (m w) (m' w')

/-- Equal results. -/
def SameRes {α : Type} (a a' : α) : Prop := a' = a

/-- Equal results, and no fewer bytes agree than before. -/
abbrev SimE (n : Nat) {α : Type} (m m' : M α) : Prop := Sim n SameRes (fun _ => n) m m'

theorem St.weaken {n m : Nat} {w w' : World} (h : St n w w') (hm : m ≤ n) : St m w w' := by
  obtain ⟨buf, h1, h2, h3⟩ := h.ctx
  exact ⟨h.env, h.trace, buf, h1, h2, fun i hi => h3 i (hi.imp (fun h => by omega) id)⟩

section
variable {n : Nat} {α β γ ε : Type}

theorem sim_weaken {R : α → β → Prop} {q q' : α → Nat} {m : M α} {m' : M β} (h : Sim n R q m m') (hq : ∀ a, q' a ≤ q a) : Sim n R q' m m' := by
  intro w w' hw
  have h1 := h w w' hw
  cases he : m w <;> cases he' : m' w' <;> rw [he, he'] at h1 <;> simp only [RelOut] at h1 ⊢
  · exact ⟨h1.1, h1.2.weaken (hq _)⟩
  · exact h1
  · exact h1

theorem sim_bind {R : α → β → Prop} {S : γ → ε → Prop} {q : α → Nat} {q' : γ → Nat} {m : M α} {m' : M β} {f : α → M γ} {f' : β → M ε}
    (hm : Sim n R q m m') (hf : ∀ a a', R a a' → Sim (q a) S q' (f a) (f' a')) : Sim n S q' (m >>= f) (m' >>= f') := by
  intro w w' h
  have h1 := hm w w' h
  show RelOut S q' (M.bind m f w) (M.bind m' f' w')
  unfold M.bind
  cases he : m w <;> cases he' : m' w' <;> rw [he, he'] at h1 <;> simp only [RelOut] at h1
  · exact hf _ _ h1.1 _ _ h1.2
  · exact h1
  · exact h1

theorem simE_bind {S : γ → ε → Prop} {q' : γ → Nat} {m m' : M α} {f : α → M γ} {f' : α → M ε}
    (hm : SimE n m m') (hf : ∀ a, Sim n S q' (f a) (f' a)) : Sim n S q' (m >>= f) (m' >>= f') :=
  sim_bind hm fun a a' h => by subst h; exact hf _

theorem simE_pure (a : α) : SimE n (pure a) (pure a) := fun _ _ h => ⟨rfl, h⟩
theorem sim_pureQ {q : α → Nat} (a : α) (hq : q a ≤ n) : Sim n SameRes q (pure a) (pure a) := fun _ _ h => ⟨rfl, h.weaken hq⟩
theorem simE_stuck {R : α → β → Prop} {q : α → Nat} : Sim n R q stuckM stuckM := fun _ _ h => h.weaken (Nat.zero_le _)
theorem simE_ub {R : α → β → Prop} {q : α → Nat} (e : UB) : Sim n R q (ubM e : M α) (ubM e) := fun _ _ h => ⟨rfl, h.weaken (Nat.zero_le _)⟩
theorem simE_lift (r : Res α) : SimE n (liftRes r) (liftRes r) := fun w w' h => by
  unfold liftRes; cases r
  · exact ⟨rfl, h⟩
  · exact ⟨rfl, h.weaken (Nat.zero_le _)⟩

/-- Reading the context: what follows sees it with another buffer. -/
theorem sim_ctx {S : γ → ε → Prop} {q : γ → Nat} {f : Ctx → M γ} {f' : Ctx → M ε}
    (hf : ∀ c buf, buf.length = c.netBuf.length → (∀ i, i < n ∨ i < c.index → buf[i]? = c.netBuf[i]?) → Sim n S q (f c) (f' (withBuf c buf))) :
    Sim n S q (getCtx >>= f) (getCtx >>= f') := fun w w' h => by
  obtain ⟨buf, h1, h2, h3⟩ := h.ctx
  have := hf w.ctx buf h2 h3 w w' h
  rw [← h1] at this
  exact this

/-- A change of the context that concerns neither the buffer nor the number of bytes in use. -/
theorem sim_modify_plain {f : Ctx → Ctx} (hf : ∀ c buf, f (withBuf c buf) = withBuf (f c) buf)
    (h1 : ∀ c, (f c).netBuf = c.netBuf) (h2 : ∀ c, (f c).index = c.index) : SimE n (modifyCtx f) (modifyCtx f) := fun w w' h => by
  obtain ⟨buf, h3, h4, h5⟩ := h.ctx
  exact ⟨rfl, h.env, h.trace, buf, by simp only [h3]; exact hf .., by simpa only [h1] using h4, by simpa only [h1, h2] using h5⟩

theorem sim_emit (e : Event) : SimE n (emit e) (emit e) := fun _ _ h => ⟨rfl, h.env, by simp [h.trace], h.ctx⟩
theorem sim_emit' {e e' : Event} (he : e' = e) : SimE n (emit e) (emit e') := by subst he; exact sim_emit _

theorem sim_pre : SimE n preHook preHook := sim_emit _
theorem sim_post : SimE n postHook postHook := sim_emit _
theorem sim_clear (id : UInt16) : SimE n (clearCallback id) (clearCallback id) := sim_emit _

theorem sim_getTime : SimE n getTime getTime := fun w w' h => by
  unfold getTime
  rw [h.env]
  cases hc : w.env.clock with
  | nil => exact h.weaken (Nat.zero_le _)
  | cons t r => exact ⟨rfl, by simp, by simp [h.trace], h.ctx⟩

theorem sim_send (bs : List UInt8) : SimE n (transportSend bs) (transportSend bs) := fun w w' h => by
  unfold transportSend
  rw [h.env]
  cases w.env.sends with
  | nil => exact h.weaken (Nat.zero_le _)
  | cons a r => cases a with
    | fail => exact ⟨rfl, rfl, by simp [h.trace], h.ctx⟩
    | accept n => exact ⟨rfl, rfl, by simp [h.trace], h.ctx⟩

theorem sim_recv (k : Nat) : SimE n (transportRecv k) (transportRecv k) := fun w w' h => by
  unfold transportRecv
  rw [h.env]
  cases w.env.recvs with
  | nil => exact h.weaken (Nat.zero_le _)
  | cons a r => cases a with
    | fail => exact ⟨rfl, rfl, by simp [h.trace], h.ctx⟩
    | deliver m => exact ⟨rfl, rfl, by simp [h.trace], h.ctx⟩

theorem sim_store (id : UInt16) (v : List IoVec) : SimE n (storeCallback id v) (storeCallback id v) := fun w w' h => by
  unfold storeCallback
  rw [h.env]
  cases w.env.stores with
  | nil => exact h.weaken (Nat.zero_le _)
  | cons a r => exact ⟨rfl, rfl, by simp [h.trace], h.ctx⟩

theorem sim_retrieve (id : UInt16) : SimE n (retrieveCallback id) (retrieveCallback id) := fun w w' h => by
  unfold retrieveCallback
  rw [h.env]
  cases w.env.retrieves with
  | nil => exact h.weaken (Nat.zero_le _)
  | cons a r => exact ⟨rfl, rfl, by simp [h.trace], h.ctx⟩

theorem sim_sendFuel : SimE n sendFuel sendFuel := fun w w' h => ⟨by rw [h.env]; rfl, h⟩
theorem sim_recvFuel : SimE n recvFuel recvFuel := fun w w' h => ⟨by rw [h.env]; rfl, h⟩
theorem sim_clockFuel : SimE n clockFuel clockFuel := fun w w' h => ⟨by rw [h.env]; rfl, h⟩

theorem sim_tables (f : Tables → Res (α × Tables)) : SimE n (onTables f) (onTables f) := fun w w' h => by
  obtain ⟨buf, h1, h2, h3⟩ := h.ctx
  unfold onTables
  have ht : w'.ctx.tables = w.ctx.tables := by rw [h1]
  rw [ht]
  cases f w.ctx.tables with
  | ok a => exact ⟨rfl, h.env, h.trace, buf, by rw [h1], h2, h3⟩
  | ub e => exact ⟨rfl, h.weaken (Nat.zero_le _)⟩

theorem sim_ite {R : α → β → Prop} {q : α → Nat} {c c' : Prop} {d : Decidable c} {d' : Decidable c'} {a b : M α} {a' b' : M β} (hc : c = c')
    (ha : c → Sim n R q a a') (hb : ¬ c → Sim n R q b b') :
    Sim n R q (@ite _ c d a b) (@ite _ c' d' a' b') := by
  subst hc
  by_cases h : c
  · rw [if_pos h, if_pos h]; exact ha h
  · rw [if_neg h, if_neg h]; exact hb h

theorem sim_markPending : SimE n markPending markPending := by
  refine sim_modify_plain ?_ ?_ ?_ <;> intro c
  · intro buf
    show (if c.connectStatus = _ then _ else _) = _
    split <;> simp_all [withBuf]
  all_goals (by_cases h : c.connectStatus = .connected <;> simp [h])

syntax "sims" "[" term,* "]" : tactic
macro_rules
  | `(tactic| sims [$[$ts],*]) => `(tactic|
      repeat' (first
        | (with_reducible first
          | (first $[| exact $ts]*)
          | exact simE_pure _ | exact simE_stuck | exact simE_ub _ | exact simE_lift _ | exact sim_pre | exact sim_post
          | exact sim_clear _ | exact sim_store .. | exact sim_retrieve _ | exact sim_send _ | exact sim_recv _ | exact sim_getTime
          | exact sim_tables _ | exact sim_sendFuel | exact sim_recvFuel | exact sim_clockFuel | exact sim_markPending
          | (intro _) | refine sim_ite (by with_reducible rfl) ?_ ?_ | apply sim_ctx
          | apply simE_bind)
        | refine sim_ite rfl ?_ ?_ | exact simE_lift _ | exact simE_pure _ | (first $[| exact $ts]*)
        | (with_reducible split)))

end

section
variable {N : Nat}

macro "plain" : tactic => `(tactic| (refine sim_modify_plain ?_ ?_ ?_ <;> intros <;> rfl))

theorem sim_noteSend (r : Option Nat) : SimE N (noteSendResult r) (noteSendResult r) := by
  unfold noteSendResult
  cases r with
  | none => exact sim_markPending
  | some n =>
    dsimp only
    sims [simE_pure _]
    plain

theorem sim_sendBufferLoop (g : Cfg) (t0 : UInt32) : ∀ n rest sent,
    SimE N (sendBufferLoop g t0 n rest sent) (sendBufferLoop g t0 n rest sent)
  | 0, _, _ => simE_stuck
  | n + 1, rest, sent => by
    unfold sendBufferLoop
    sims [sim_noteSend _, sim_sendBufferLoop g t0 n _ _]

theorem sim_sendBuffer (g : Cfg) (bs : List UInt8) : SimE N (sendBuffer g bs) (sendBuffer g bs) := by
  unfold sendBuffer
  sims [sim_sendBufferLoop g _ _ _ _]

theorem sim_sendVecLoop (g : Cfg) (t0 : UInt32) (b : Nat) : ∀ n vecs sent,
    SimE N (sendVecLoop g t0 b n vecs sent) (sendVecLoop g t0 b n vecs sent)
  | 0, _, _ => simE_stuck
  | n + 1, vecs, sent => by
    unfold sendVecLoop
    sims [sim_noteSend _, sim_sendVecLoop g t0 b n _ _]

theorem sim_sendMessageVector (g : Cfg) (v : List IoVec) : SimE N (sendMessageVector g v) (sendMessageVector g v) := by
  unfold sendMessageVector
  sims [sim_sendVecLoop g _ _ _ _ _]

theorem sim_sendWholeVector (g : Cfg) (v : List IoVec) : SimE N (sendWholeVector g v) (sendWholeVector g v) := by
  unfold sendWholeVector
  sims [sim_sendMessageVector g v]

theorem sim_sendFiltersLoop (g : Cfg) (ty : SubType) : ∀ n vec subs,
    SimE N (sendFiltersLoop g ty n vec subs) (sendFiltersLoop g ty n vec subs)
  | 0, _, _ => simE_stuck
  | n + 1, vec, subs => by
    unfold sendFiltersLoop
    sims [sim_sendWholeVector g _, sim_sendFiltersLoop g ty n _ _]

theorem sim_sendFilters (g : Cfg) (ty : SubType) (subs : List SubscribeInfo) (id : UInt16) (n : Nat) :
    SimE N (sendFiltersWithoutCopy g ty subs id n) (sendFiltersWithoutCopy g ty subs id n) := by
  unfold sendFiltersWithoutCopy
  sims [sim_sendFiltersLoop g ty _ _ _]

theorem sim_storePublish (p : PublishInfo) (hd : List UInt8) (n : Nat) (id : UInt16) :
    SimE N (storePublish p hd n id) (storePublish p hd n id) := by
  unfold storePublish
  sims [simE_pure _]

theorem sim_sendPublish (g : Cfg) (p : PublishInfo) (hd : List UInt8) (n : Nat) (id : UInt16) :
    SimE N (sendPublishWithoutCopy g p hd n id) (sendPublishWithoutCopy g p hd n id) := by
  unfold sendPublishWithoutCopy
  sims [sim_storePublish p hd n id, sim_sendWholeVector g _]

theorem sim_sendConnect (g : Cfg) (ci : ConnectInfo) (will : Option PublishInfo) (n : Nat) :
    SimE N (sendConnectWithoutCopy g ci will n) (sendConnectWithoutCopy g ci will n) := by
  unfold sendConnectWithoutCopy
  sims [sim_sendWholeVector g _]

theorem sim_sendIfConnected (g : Cfg) (bs : List UInt8) : SimE N (sendIfConnected g bs) (sendIfConnected g bs) := by
  unfold sendIfConnected
  sims [sim_sendBuffer g bs]

theorem sim_ackM (id : UInt16) (a : AckType) (op : Op) : SimE N (updateStateAckM id a op) (updateStateAckM id a op) := sim_tables _
theorem sim_pubM (id : UInt16) (op : Op) (q : QoS) : SimE N (updateStatePublishM id op q) (updateStatePublishM id op q) := sim_tables _

theorem sim_sendPublishAcks (g : Cfg) (id : UInt16) (s : PubState) : SimE N (sendPublishAcks g id s) (sendPublishAcks g id s) := by
  unfold sendPublishAcks
  sims [sim_sendIfConnected g _, sim_ackM ..]
  plain

theorem sim_ping (g : Cfg) : SimE N (mqttPing g) (mqttPing g) := by
  unfold mqttPing
  sims [sim_sendIfConnected g _]
  plain

theorem writeAt_get {m : List UInt8} {pos : Nat} (hp : pos ≤ m.length) (bs : List UInt8) (i : Nat) :
    (writeAt m pos bs)[i]? = if i < pos then m[i]? else if i < pos + bs.length then bs[i - pos]? else m[i]? := by
  unfold writeAt
  rw [List.append_assoc, List.getElem?_append, List.length_take, Nat.min_eq_left hp]
  split
  · rw [List.getElem?_take]; simp [*]
  · rw [List.getElem?_append]
    split
    · rw [if_pos (by omega)]
    · rw [if_neg (by omega), List.getElem?_drop]
      congr 1; omega

theorem writeAt_agree {m m' : List UInt8} (hl : m'.length = m.length) {pos n : Nat} (hp : pos ≤ m.length) (bs : List UInt8) (I : Nat)
    (h : ∀ i, i < n ∨ i < I → m'[i]? = m[i]?) :
    ∀ i, i < n ∨ i < I ∨ (pos ≤ n ∧ i < pos + bs.length) ∨ (pos ≤ I ∧ i < pos + bs.length) → (writeAt m' pos bs)[i]? = (writeAt m pos bs)[i]? := by
  intro i hi
  rw [writeAt_get hp, writeAt_get (hl ▸ hp)]
  by_cases h1 : i < pos
  · rw [if_pos h1, if_pos h1]; exact h i (by omega)
  · rw [if_neg h1, if_neg h1]
    by_cases h2 : i < pos + bs.length
    · rw [if_pos h2, if_pos h2]
    · rw [if_neg h2, if_neg h2]; exact h i (by omega)

theorem writeAt_len {m : List UInt8} {pos : Nat} {bs : List UInt8} (hp : pos + bs.length ≤ m.length) : (writeAt m pos bs).length = m.length := by
  unfold writeAt; simp; omega

/-- How many bytes agree after a read of at most `k` bytes to `pos`. -/
def after (n pos : Nat) : Option Nat → Nat
  | none => n
  | some c => max n (pos + c)

theorem sim_recvInto {pos : Nat} (hp : pos ≤ N) (k : Nat) : Sim N SameRes (after N pos) (recvInto pos k) (recvInto pos k) := by
  intro w w' h
  obtain ⟨buf, h1, h2, h3⟩ := h.ctx
  show RelOut _ _ ((if pos + k ≤ w.ctx.bufSize then _ else _ : M _) w) ((if pos + k ≤ w'.ctx.bufSize then _ else _ : M _) w')
  have hb : w'.ctx.bufSize = w.ctx.bufSize := by rw [h1]; exact h2
  rw [hb]
  by_cases hk : pos + k ≤ w.ctx.bufSize
  · rw [if_pos hk]
    have hk' : pos + k ≤ w.ctx.netBuf.length := hk
    show RelOut _ _ (M.bind (transportRecv k) _ w) (M.bind (transportRecv k) _ w')
    unfold M.bind transportRecv
    rw [h.env]
    cases hr : w.env.recvs with
    | nil => exact h.weaken (Nat.zero_le _)
    | cons a r => cases a with
      | fail => exact ⟨rfl, rfl, by simp [h.trace], h.ctx⟩
      | deliver j =>
        have hlen : (w.env.input.take (min j k)).length ≤ k := by rw [List.length_take]; omega
        refine ⟨rfl, rfl, by simp [h.trace], writeAt buf pos (w.env.input.take (min j k)), by simp only [h1], ?_, ?_⟩
        · show (writeAt _ _ _).length = (writeAt _ _ _).length
          rw [writeAt_len (by rw [h2]; omega), writeAt_len (m := w.ctx.netBuf) (by omega), h2]
        · intro i hi
          refine writeAt_agree h2 (by omega) _ _ h3 i ?_
          simp only [after] at hi
          show i < N ∨ i < w.ctx.index ∨ _
          rcases hi with hi | hi
          · omega
          · exact .inr (.inl hi)
  · rw [if_neg hk]
    exact simE_ub _ w w' h

theorem sim_markHooked : SimE N markPendingHooked markPendingHooked := by
  unfold markPendingHooked
  sims [sim_pre]

theorem sim_recvExactLoop (g : Cfg) (N : Nat) : ∀ n pos m (t : UInt32) (M : Nat), N ≤ M → pos ≤ M →
    Sim M SameRes (after N 0) (recvExactLoop g n pos m t) (recvExactLoop g n pos m t)
  | 0, _, _, _, _, _, _ => simE_stuck
  | n + 1, pos, m, t, M, hN, hp => by
    unfold recvExactLoop
    refine sim_ite rfl (fun _ => ?_) (fun _ => sim_pureQ _ (by simp only [after]; omega))
    refine sim_bind (sim_recvInto hp m) fun r r' hr => ?_
    subst hr
    cases r' with
    | none => exact simE_bind sim_markHooked fun _ => sim_pureQ _ hN
    | some c =>
      dsimp only
      refine sim_ite rfl (fun _ => ?_) fun _ => ?_
      · refine simE_bind sim_getTime fun _ => simE_bind (simE_lift _) fun _ => ?_
        exact sim_recvExactLoop g N n _ _ _ _ (by simp only [after]; omega) (by simp only [after]; omega)
      · refine simE_bind sim_getTime fun _ => sim_ite rfl (fun _ => ?_) fun _ => ?_
        · exact sim_pureQ _ (by simp only [after]; omega)
        · exact sim_recvExactLoop g N n _ _ _ _ (by simp only [after]; omega) (by simp only [after]; omega)

theorem bufSize_eq {c : Ctx} {buf : List UInt8} (h : buf.length = c.netBuf.length) : (withBuf c buf).bufSize = c.bufSize := h

theorem sim_recvExact (g : Cfg) (n : Nat) : Sim N SameRes (after N 0) (recvExact g n) (recvExact g n) := by
  unfold recvExact
  refine sim_ctx fun c buf hl ha => ?_
  rw [bufSize_eq hl]
  refine simE_bind (simE_lift _) fun _ => simE_bind sim_getTime fun _ => simE_bind sim_recvFuel fun _ => ?_
  exact sim_recvExactLoop g N _ _ _ _ _ (Nat.le_refl _) (Nat.zero_le _)

theorem sim_recvExact' (g : Cfg) (n : Nat) : SimE N (recvExact g n) (recvExact g n) :=
  sim_weaken (sim_recvExact g n) fun a => by cases a <;> simp only [after] <;> omega

theorem sim_discardLoop (g : Cfg) (T t0 : UInt32) : ∀ n left b,
    SimE N (discardLoop g T t0 n left b) (discardLoop g T t0 n left b)
  | 0, _, _ => simE_stuck
  | n + 1, left, b => by
    unfold discardLoop
    sims [sim_recvExact' g _, sim_discardLoop g T t0 n _ _]

theorem sim_discardPacket (g : Cfg) (n : Nat) (T : UInt32) : SimE N (discardPacket g n T) (discardPacket g n T) := by
  unfold discardPacket
  refine sim_ctx fun c buf hl ha => ?_
  rw [bufSize_eq hl]
  sims [sim_discardLoop g _ _ _ _ _]

theorem sim_discardStoredLoop (g : Cfg) : ∀ n left b, SimE N (discardStoredLoop g n left b) (discardStoredLoop g n left b)
  | 0, _, _ => simE_stuck
  | n + 1, left, b => by
    unfold discardStoredLoop
    sims [sim_recvExact' g _, sim_discardStoredLoop g n _ _]

theorem sim_resetBuffer : SimE N resetBuffer resetBuffer := fun w w' h => by
  obtain ⟨buf, h1, h2, h3⟩ := h.ctx
  refine ⟨rfl, h.env, h.trace, List.replicate w.ctx.bufSize 0, ?_, rfl, fun _ _ => rfl⟩
  simp only [h1, bufSize_eq h2]

theorem sim_discardStored (g : Cfg) (n : Nat) : SimE N (discardStoredPacket g n) (discardStoredPacket g n) := by
  unfold discardStoredPacket
  refine sim_ctx fun c buf hl ha => ?_
  rw [bufSize_eq hl]
  sims [sim_discardStoredLoop g _ _ _, sim_resetBuffer]

/-- After a packet was received, its bytes agree. -/
def afterPacket (N n : Nat) (st : Status) : Nat := if st = .success then max N n else N

theorem sim_receivePacket (g : Cfg) (n : Nat) (T : UInt32) :
    Sim N SameRes (afterPacket N n) (receivePacket g n T) (receivePacket g n T) := by
  unfold receivePacket
  refine sim_ctx fun c buf hl ha => ?_
  rw [bufSize_eq hl]
  refine sim_ite rfl (fun _ => ?_) fun _ => ?_
  · unfold discardPacket
    refine sim_ctx fun c buf hl ha => ?_
    rw [bufSize_eq hl]
    refine simE_bind sim_getTime fun _ => simE_bind sim_clockFuel fun _ => simE_bind (sim_discardLoop g _ _ _ _ _) fun _ => ?_
    exact sim_ite rfl (fun _ => sim_pureQ _ (Nat.le_refl _)) fun _ => sim_pureQ _ (Nat.le_refl _)
  · refine sim_bind (sim_recvExact g n) fun r r' hr => ?_
    subst hr
    refine sim_ite rfl (fun hr => ?_) fun hr => sim_pureQ _ (by cases r' <;> simp [afterPacket, after] <;> omega)
    subst hr
    exact sim_pureQ _ (by simp [afterPacket, after])

/-- Keep-alive does not look at the buffer. -/
theorem sim_handleKeepAlive (g : Cfg) : SimE N (handleKeepAlive g) (handleKeepAlive g) := by
  unfold handleKeepAlive
  sims [sim_ping g]

theorem sim_recordIncoming (id : UInt16) (q : QoS) : SimE N (recordIncomingPublish id q) (recordIncomingPublish id q) := by
  unfold recordIncomingPublish
  sims [sim_pubM ..]

/-- The same packet, but for memory behind its body. -/
structure SamePacket (pk pk' : PacketInfo) : Prop where
  type : pk'.type = pk.type
  len : pk'.remainingLength = pk.remainingLength
  header : pk'.headerLength = pk.headerLength
  mem : ∃ m m', pk.pRemainingData = some m ∧ pk'.pRemainingData = some m' ∧ ∀ i, i < pk.remainingLength → m'[i]? = m[i]?

theorem readByte_eq {m m' : List UInt8} {i : Nat} (h : m'[i]? = m[i]?) : readByte m' i = readByte m i := by
  unfold readByte; rw [h]

theorem simpleAck_eq {pk pk' : PacketInfo} (h : SamePacket pk pk') (id : UInt16) : deserializeSimpleAck pk' id = deserializeSimpleAck pk id := by
  obtain ⟨m, m', h1, h2, h3⟩ := h.mem
  unfold deserializeSimpleAck
  rw [h.len, h1, h2]
  by_cases hn : pk.remainingLength = 2
  · simp only [readPtr, readByte_eq (h3 0 (by omega)), readByte_eq (h3 1 (by omega))]
  · simp only [ne_eq, hn, not_false_eq_true, if_true]

theorem connack_eq {pk pk' : PacketInfo} (h : SamePacket pk pk') (sp : Bool) : deserializeConnack pk' sp = deserializeConnack pk sp := by
  obtain ⟨m, m', h1, h2, h3⟩ := h.mem
  unfold deserializeConnack
  rw [h.len, h1, h2]
  by_cases hn : pk.remainingLength = 2
  · simp only [readPtr, readByte_eq (h3 0 (by omega)), readByte_eq (h3 1 (by omega))]
  · simp only [ne_eq, hn, not_false_eq_true, if_true]

theorem subackLoop_eq {m m' : List UInt8} : ∀ n i st, (∀ j, i ≤ j → j < i + n → m'[j]? = m[j]?) →
    readSubackStatusLoop m' n i st = readSubackStatusLoop m n i st
  | 0, _, _, _ => rfl
  | n + 1, i, st, h => by
    unfold readSubackStatusLoop
    rw [readByte_eq (h i (Nat.le_refl _) (by omega))]
    congr 1
    funext b
    dsimp only
    rw [subackLoop_eq n (i + 1) _ fun j h1 h2 => h j (by omega) (by omega)]

theorem suback_eq {pk pk' : PacketInfo} (h : SamePacket pk pk') (id : UInt16) : deserializeSuback pk' id = deserializeSuback pk id := by
  obtain ⟨m, m', h1, h2, h3⟩ := h.mem
  unfold deserializeSuback
  rw [h.len, h1, h2]
  by_cases hn : pk.remainingLength < 3
  · simp only [hn, if_true]
  · simp only [readPtr, readByte_eq (h3 0 (by omega)), readByte_eq (h3 1 (by omega)), readSubackStatus]
    rw [subackLoop_eq (m := m.drop 2) (m' := m'.drop 2) _ _ _ fun j _ hj => by
      rw [List.getElem?_drop, List.getElem?_drop]; exact h3 _ (by omega)]

theorem ack_eq {pk pk' : PacketInfo} (h : SamePacket pk pk') (id : Option UInt16) (sp : Option Bool) :
    mqttDeserializeAck (some pk') id sp = mqttDeserializeAck (some pk) id sp := by
  obtain ⟨m, m', h1, h2, h3⟩ := h.mem
  unfold mqttDeserializeAck
  simp only [h.type, h1, h2, connack_eq h, suback_eq h, simpleAck_eq h, deserializePingresp, h.len]
  rfl

/-- What the application can see of a publish. -/
def viewOf (p : PublishInfo) : PubView :=
  ⟨p.qos, p.retain, p.dup, (p.pTopicName.getD []).take p.topicNameLength.toNat, (p.pPayload.getD []).take p.payloadLength⟩

/-- The same results of reading a PUBLISH, but for memory behind topic and payload. -/
def SamePublish : Option (UInt16 × PublishInfo) → Option (UInt16 × PublishInfo) → Prop
  | none, none => True
  | some (id, p), some (id', p') => id' = id ∧ viewOf p' = viewOf p
  | _, _ => False

theorem take_drop_eq {m m' : List UInt8} {n a k : Nat} (h : ∀ i, i < n → m'[i]? = m[i]?) (hk : a + k ≤ n) :
    (m'.drop a).take k = (m.drop a).take k := by
  apply List.ext_getElem?
  intro i
  rw [List.getElem?_take, List.getElem?_take]
  split
  · rw [List.getElem?_drop, List.getElem?_drop]; exact h _ (by omega)
  · rfl

theorem sizeSub_mod {W a c : Nat} (h : c ≤ a) (hc : c ≤ W) : sizeSub W (a % W) c = (a - c) % W := by
  unfold sizeSub
  rw [show a % W + W - c = a % W + (W - c) by omega, Nat.mod_add_mod, show a + (W - c) = a - c + W by omega, Nat.add_mod_right]

theorem sizeSub_eq {W a c : Nat} (h : c ≤ a) : sizeSub W a c = (a - c) % W := by
  unfold sizeSub
  rw [show a + W - c = a - c + W by omega, Nat.add_mod_right]

/-- Reading a PUBLISH depends on its body only. -/
def RelRes {α β : Type} (R : α → β → Prop) : Res α → Res β → Prop
  | .ok a, .ok b => R a b
  | .ub e, .ub e' => e' = e
  | _, _ => False

theorem publish_eq {pk pk' : PacketInfo} (h : SamePacket pk pk') {W : Nat} (hW : 2 ≤ W) (id : UInt16) :
    RelRes (fun a a' => a'.1 = a.1 ∧ SamePublish a.2 a'.2) (mqttDeserializePublish W (some pk) id) (mqttDeserializePublish W (some pk') id) := by
  obtain ⟨m, m', h1, h2, h3⟩ := h.mem
  unfold mqttDeserializePublish deserializePublish
  simp only [h.type, h1, h2, h.len]
  by_cases hty : (pk.type &&& 0xF0) ≠ ptPUBLISH
  · rw [if_pos hty, if_pos hty]; exact ⟨rfl, trivial⟩
  · rw [if_neg hty, if_neg hty, if_neg (by simp), if_neg (by simp)]
    cases processPublishFlags (pk.type &&& 0x0F) with
    | none => exact ⟨rfl, trivial⟩
    | some f =>
      obtain ⟨qos, retain, dup⟩ := f
      dsimp only
      by_cases hc : checkPublishRemainingLength pk.remainingLength qos 3 ≠ .success
      · rw [if_pos hc, if_pos hc]; exact ⟨rfl, trivial⟩
      · rw [if_neg hc, if_neg hc]
        have h4 : 3 ≤ pk.remainingLength := by
          unfold checkPublishRemainingLength at hc
          by_cases hq : qos = .qos0 <;> simp [hq] at hc <;> omega
        rw [readByte_eq (h3 0 (by omega)), readByte_eq (h3 1 (by omega))]
        cases readByte m 0 with
        | ub e => exact rfl
        | ok hi =>
          cases readByte m 1 with
          | ub e => exact rfl
          | ok lo =>
            simp only [Res.ok_bind]
            by_cases hc2 : checkPublishRemainingLength pk.remainingLength qos ((decode16 hi lo).toNat + 2) ≠ .success
            · rw [if_pos hc2, if_pos hc2]; exact ⟨rfl, trivial⟩
            · rw [if_neg hc2, if_neg hc2]
              generalize (decode16 hi lo) = n at *
              by_cases hq : qos = .qos0
              · have h5 : n.toNat + 2 ≤ pk.remainingLength := by
                  simpa [checkPublishRemainingLength, hq] using hc2
                simp only [hq, ne_eq, not_true_eq_false, if_false, Res.pure_eq, Res.ok_bind, Bool.false_eq_true]
                refine ⟨rfl, rfl, ?_⟩
                rw [sizeSub_eq (a := pk.remainingLength) (by omega), sizeSub_mod (by omega) hW]
                have h6 := Nat.mod_le (pk.remainingLength - n.toNat - 2) W
                simp only [viewOf, Option.getD_some]
                rw [take_drop_eq h3 (a := 2) (by omega)]
                by_cases hz : (pk.remainingLength - n.toNat - 2) % W = 0
                · simp [hz]
                · simp only [hz, not_false_eq_true, if_true, Option.getD_some]
                  rw [take_drop_eq h3 (by omega)]
              · have h5 : n.toNat + 2 + 2 ≤ pk.remainingLength := by
                  simpa [checkPublishRemainingLength, hq] using hc2
                simp only [hq, ne_eq, not_false_eq_true, if_true, Res.pure_eq]
                rw [readByte_eq (h3 (2 + n.toNat) (by omega)), readByte_eq (h3 (2 + n.toNat + 1) (by omega))]
                cases readByte m (2 + n.toNat) with
                | ub e => exact rfl
                | ok a =>
                  cases readByte m (2 + n.toNat + 1) with
                  | ub e => exact rfl
                  | ok b =>
                    simp only [Res.ok_bind]
                    by_cases hb : decide (decode16 a b = 0) = true
                    · rw [if_pos hb, if_pos hb]; exact ⟨rfl, trivial⟩
                    · rw [if_neg hb, if_neg hb]
                      refine ⟨rfl, rfl, ?_⟩
                      rw [sizeSub_eq (a := pk.remainingLength) (by omega), sizeSub_mod (by omega) hW, sizeSub_mod (by omega) hW]
                      have h6 := Nat.mod_le (pk.remainingLength - n.toNat - 2 - 2) W
                      simp only [viewOf, Option.getD_some]
                      rw [take_drop_eq h3 (a := 2) (by omega)]
                      by_cases hz : (pk.remainingLength - n.toNat - 2 - 2) % W = 0
                      · simp [hz]
                      · simp only [hz, not_false_eq_true, if_true, Option.getD_some]
                        rw [take_drop_eq h3 (by omega)]

theorem sim_lift {α β : Type} {R : α → β → Prop} {r : Res α} {r' : Res β} (h : RelRes R r r') : Sim N R (fun _ => N) (liftRes r) (liftRes r') := by
  intro w w' hw
  unfold liftRes
  cases r <;> cases r' <;> simp only [RelRes] at h
  · exact ⟨h, hw⟩
  · exact ⟨h, hw.weaken (Nat.zero_le _)⟩

theorem sim_app {pk pk' : PacketInfo} (h : SamePacket pk pk') (id : UInt16) (st : Status) {p p' : Option PublishInfo}
    (hp : p'.map viewOf = p.map viewOf) : SimE N (appCallback pk id st p) (appCallback pk' id st p') := by
  obtain ⟨m, m', h1, h2, h3⟩ := h.mem
  unfold appCallback
  refine sim_emit' ?_
  have hv : ∀ q : Option PublishInfo, (q.map fun p => (⟨p.qos, p.retain, p.dup, (p.pTopicName.getD []).take p.topicNameLength.toNat,
      (p.pPayload.getD []).take p.payloadLength⟩ : PubView)) = q.map viewOf := fun q => rfl
  rw [hv, hv, hp, h.type, h.len, h1, h2]
  have := take_drop_eq (a := 0) (k := pk.remainingLength) h3 (by omega)
  simp only [List.drop_zero] at this
  simp only [Option.getD_some, this]

theorem sim_handleIncomingPublish {g : Cfg} (hW : 2 ≤ g.W) {pk pk' : PacketInfo} (h : SamePacket pk pk') :
    SimE N (handleIncomingPublish g pk) (handleIncomingPublish g pk') := by
  unfold handleIncomingPublish
  refine sim_bind (sim_lift (publish_eq h hW 0)) fun a a' ha => ?_
  obtain ⟨st, o⟩ := a
  obtain ⟨st', o'⟩ := a'
  obtain ⟨rfl, ho⟩ := ha
  dsimp only at ho ⊢
  match o, o', ho with
  | none, none, _ => exact simE_pure _
  | some (id, p), some (id', p'), ho =>
    obtain ⟨rfl, hv⟩ := ho
    have hq : p'.qos = p.qos := congrArg PubView.qos hv
    dsimp only
    rw [hq]
    sims [sim_recordIncoming .., sim_sendPublishAcks g _ _, sim_app h _ _ (congrArg some hv)]

theorem sim_handlePublishAcks (g : Cfg) {pk pk' : PacketInfo} (h : SamePacket pk pk') :
    SimE N (handlePublishAcks g pk) (handlePublishAcks g pk') := by
  unfold handlePublishAcks
  rw [h.type, ack_eq h]
  sims [sim_ackM .., sim_sendPublishAcks g _ _, sim_app h _ _ rfl]

theorem sim_handleIncomingAck (g : Cfg) {pk pk' : PacketInfo} (h : SamePacket pk pk') (b : Bool) :
    SimE N (handleIncomingAck g pk b) (handleIncomingAck g pk' b) := by
  unfold handleIncomingAck
  rw [h.type, ack_eq h]
  sims [sim_handlePublishAcks g h, sim_app h _ _ rfl]
  plain

theorem sim_keepAliveCheck (g : Cfg) (r : Option Nat) (b : Bool) (st : Status) :
    SimE N (keepAliveCheck g r b st) (keepAliveCheck g r b st) := by
  unfold keepAliveCheck
  sims [sim_handleKeepAlive g]

theorem sim_checkComplete (g : Cfg) (st : Status) (n : Nat) : SimE N (checkComplete g st n) (checkComplete g st n) := by
  unfold checkComplete
  refine sim_ctx fun c buf hl ha => ?_
  rw [bufSize_eq hl]
  sims [sim_discardStored g _]

theorem processLoop_eq {m m' : List UInt8} {index : Nat} (h : ∀ i, i < index → m'[i]? = m[i]?) : ∀ a b k,
    processRemainingLengthLoop m' index a b k = processRemainingLengthLoop m index a b k := by
  intro a b k
  induction hn : index - k using Nat.strongRecOn generalizing a b k with
  | ind n ih =>
    unfold processRemainingLengthLoop
    split
    · rfl
    · by_cases hk : index > k + 1
      · rw [dif_pos hk, dif_pos hk, readByte_eq (h _ hk)]
        congr 1
        funext e
        dsimp only
        split
        · rfl
        · split
          · exact ih (index - (k + 1)) (by omega) _ _ _ rfl
          · rfl
      · rw [dif_neg hk, dif_neg hk]

theorem header_eq {m m' : List UInt8} {index : Nat} (h : ∀ i, i < index → m'[i]? = m[i]?) :
    processIncomingPacketTypeAndLength (some m') index = processIncomingPacketTypeAndLength (some m) index := by
  unfold processIncomingPacketTypeAndLength processRemainingLength
  dsimp only
  by_cases hi : index < 1
  · rw [if_pos hi, if_pos hi]
  · rw [if_neg hi, if_neg hi, readByte_eq (h 0 (by omega)), processLoop_eq h]

theorem sim_receiveHeader : SimE N receiveHeader receiveHeader := by
  intro w w' h
  obtain ⟨buf, h1, h2, h3⟩ := h.ctx
  show RelOut _ _ (M.bind (recvInto w.ctx.index (w.ctx.bufSize - w.ctx.index)) _ w) (M.bind (recvInto w'.ctx.index (w'.ctx.bufSize - w'.ctx.index)) _ w')
  have hb : w'.ctx.bufSize = w.ctx.bufSize := by rw [h1]; exact h2
  have hi : w'.ctx.index = w.ctx.index := by rw [h1]
  rw [hb, hi]
  show RelOut _ _ (M.bind (M.bind getCtx fun c => (if w.ctx.index + (w.ctx.bufSize - w.ctx.index) ≤ c.bufSize then _ else _)) _ w)
    (M.bind (M.bind getCtx fun c => (if w.ctx.index + (w.ctx.bufSize - w.ctx.index) ≤ c.bufSize then _ else _)) _ w')
  show RelOut _ _ (M.bind (if w.ctx.index + (w.ctx.bufSize - w.ctx.index) ≤ w.ctx.bufSize then _ else _) _ w)
    (M.bind (if w.ctx.index + (w.ctx.bufSize - w.ctx.index) ≤ w'.ctx.bufSize then _ else _) _ w')
  rw [hb]
  by_cases hk : w.ctx.index + (w.ctx.bufSize - w.ctx.index) ≤ w.ctx.bufSize
  · rw [if_pos hk]
    show RelOut _ _ (M.bind (M.bind (transportRecv _) _) _ w) (M.bind (M.bind (transportRecv _) _) _ w')
    simp only [M.bind, transportRecv]
    rw [h.env]
    cases hr : w.env.recvs with
    | nil => exact h.weaken (Nat.zero_le _)
    | cons a r => cases a with
      | fail =>
        refine (simE_bind sim_markHooked fun _ => simE_pure _ : SimE N _ _) _ _ ⟨rfl, ?_, h.ctx⟩
        simp [h.trace]
      | deliver j =>
        have hlen : (w.env.input.take (min j (w.ctx.bufSize - w.ctx.index))).length ≤ w.ctx.bufSize - w.ctx.index := by
          rw [List.length_take]; omega
        dsimp only
        generalize hbs : w.env.input.take (min j (w.ctx.bufSize - w.ctx.index)) = bs at *
        have hle : w.ctx.index + bs.length ≤ w.ctx.netBuf.length := by unfold Ctx.bufSize at *; omega
        have hag : ∀ i, i < N ∨ i < w.ctx.index + bs.length → (writeAt buf w.ctx.index bs)[i]? = (writeAt w.ctx.netBuf w.ctx.index bs)[i]? :=
          fun i hi => writeAt_agree h2 (by omega) bs w.ctx.index h3 i (by omega)
        show RelOut _ _ ((if bs.length = 0 ∧ w.ctx.index = 0 then _ else _ : M _) _) ((if bs.length = 0 ∧ w.ctx.index = 0 then _ else _ : M _) _)
        by_cases h0 : bs.length = 0 ∧ w.ctx.index = 0
        · rw [if_pos h0]
          refine ⟨rfl, rfl, by simp [h.trace], writeAt buf w.ctx.index bs, by simp only [h1], ?_, fun i hi => hag i ?_⟩
          · show _ = (writeAt _ _ _).length
            rw [writeAt_len (by omega), writeAt_len (by omega), h2]
          · exact hi.imp id fun h => by have h : i < w.ctx.index := h; omega
        · rw [if_neg h0]
          have hs : St N
              { ctx := { w.ctx with netBuf := writeAt w.ctx.netBuf w.ctx.index bs, index := w.ctx.index + bs.length },
                env := { w.env with recvs := r, input := w.env.input.drop (min j (w.ctx.bufSize - w.ctx.index)) },
                trace := w.trace ++ [.recvd (w.ctx.bufSize - w.ctx.index) (some bs)] }
              { ctx := { w'.ctx with netBuf := writeAt w'.ctx.netBuf w.ctx.index bs, index := w'.ctx.index + bs.length },
                env := { w.env with recvs := r, input := w.env.input.drop (min j (w.ctx.bufSize - w.ctx.index)) },
                trace := w'.trace ++ [.recvd (w.ctx.bufSize - w.ctx.index) (some bs)] } := by
            refine ⟨rfl, by simp [h.trace], writeAt buf w.ctx.index bs, by simp only [h1], ?_, hag⟩
            show _ = (writeAt _ _ _).length
            rw [writeAt_len (by omega), writeAt_len (by omega), h2]
          have hsim : SimE N (getCtx >>= fun c => liftRes (processIncomingPacketTypeAndLength (some c.netBuf) c.index) >>= fun h =>
                (pure (some bs.length, h) : M (Option Nat × HeaderRes)))
              (getCtx >>= fun c => liftRes (processIncomingPacketTypeAndLength (some c.netBuf) c.index) >>= fun h =>
                (pure (some bs.length, h) : M (Option Nat × HeaderRes))) := by
            refine sim_ctx fun c buf hl ha => ?_
            rw [header_eq fun i hi => ha i (.inr hi)]
            sims [simE_pure _]
          exact hsim _ _ hs
  · rw [if_neg hk]
    exact ⟨rfl, h.weaken (Nat.zero_le _)⟩

/-- Discarding a packet never reports success. -/
theorem discardStored_fails (g : Cfg) (n : Nat) (w w1 : World) : discardStoredPacket g n w ≠ .done .success w1 := by
  intro h
  unfold discardStoredPacket at h
  have : ∀ (m : M Nat) (w w1 : World), (m >>= fun left => do
      resetBuffer
      if left = 0 then pure .noDataAvailable else pure .recvFailed : M Status) w ≠ .done .success w1 := by
    intro m w w1 h
    replace h : M.bind m _ w = _ := h
    unfold M.bind at h
    cases hm : m w with
    | done a w2 =>
      rw [hm] at h
      by_cases ha : a = 0
      · subst ha; cases h
      · replace h : (if a = 0 then (pure .noDataAvailable : M Status) else pure .recvFailed) _ = _ := h
        rw [if_neg ha] at h; cases h
    | stuck => rw [hm] at h; cases h
    | ub => rw [hm] at h; cases h
  replace h : M.bind (liftRes (cassert (decide (n > w.ctx.bufSize)))) _ w = _ := h
  unfold M.bind liftRes at h
  cases hc : cassert (decide (n > w.ctx.bufSize)) with
  | ok a => rw [hc] at h; exact this _ _ _ h
  | ub e => rw [hc] at h; cases h

theorem sim_checkComplete' (g : Cfg) (st : Status) (n : Nat) :
    Sim N SameRes (afterPacket N n) (checkComplete g st n) (checkComplete g st n) := by
  intro w w' h
  obtain ⟨buf, h1, h2, h3⟩ := h.ctx
  have hs := sim_checkComplete g st n w w' h
  cases he : checkComplete g st n w <;> cases he' : checkComplete g st n w' <;> rw [he, he'] at hs <;> simp only [RelOut] at hs ⊢
  · refine ⟨hs.1, ?_⟩
    rename_i st1 w1 st1' w1'
    unfold afterPacket
    split
    · rename_i hst
      subst hst
      have key : w1 = w ∧ n ≤ w.ctx.index := by
        have he2 : (if st ≠ .success then (pure st : M Status) else if n > w.ctx.bufSize then discardStoredPacket g n
          else if n > w.ctx.index then pure .needMoreBytes else pure .success) w = .done .success w1 := he
        split at he2
        · cases he2; contradiction
        split at he2
        · exact absurd he2 (discardStored_fails g n w w1)
        split at he2
        · cases he2
        · cases he2; exact ⟨rfl, by omega⟩
      obtain ⟨rfl, hn⟩ := key
      have hw1 : St N w1 w1' := hs.2
      obtain ⟨buf1, h4, h5, h6⟩ := hw1.ctx
      exact ⟨hw1.env, hw1.trace, buf1, h4, h5, fun i hi => h6 i (by omega)⟩
    · exact hs.2
  · exact hs
  · exact hs

theorem sim_compact (total : Nat) : Sim N SameRes (fun _ => 0)
    (modifyCtx fun c => { c with index := c.index - total, netBuf := writeAt c.netBuf 0 ((c.netBuf.drop total).take (c.index - total)) })
    (modifyCtx fun c => { c with index := c.index - total, netBuf := writeAt c.netBuf 0 ((c.netBuf.drop total).take (c.index - total)) }) := by
  intro w w' h
  obtain ⟨buf, h1, h2, h3⟩ := h.ctx
  refine ⟨rfl, h.env, h.trace, writeAt buf 0 ((buf.drop total).take (w.ctx.index - total)), by simp only [h1], ?_, ?_⟩
  · show _ = (writeAt _ _ _).length
    rw [writeAt_len (by simp; omega), writeAt_len (by simp; omega), h2]
  · intro i hi
    have hi : i < w.ctx.index - total := by
      rcases hi with hi | hi
      · exact absurd hi (Nat.not_lt_zero _)
      · exact hi
    have hd : (buf.drop total).take (w.ctx.index - total) = (w.ctx.netBuf.drop total).take (w.ctx.index - total) :=
      take_drop_eq (n := w.ctx.index) (fun i hi => h3 i (.inr hi)) (by omega)
    rw [hd]
    exact writeAt_agree h2 (Nat.zero_le _) _ w.ctx.index h3 i (by omega)

theorem sim_handlePacket {g : Cfg} (hW : 2 ≤ g.W) (b : Bool) (h : HeaderRes) (hN : h.remainingLength + h.headerLength ≤ N) :
    Sim N SameRes (fun _ => 0) (handlePacket g b h) (handlePacket g b h) := by
  unfold handlePacket
  refine sim_ctx fun c buf hl ha => ?_
  have hp : SamePacket ⟨h.type, some (c.netBuf.drop h.headerLength), h.remainingLength, h.headerLength⟩
      ⟨h.type, some (buf.drop h.headerLength), h.remainingLength, h.headerLength⟩ :=
    ⟨rfl, rfl, rfl, _, _, rfl, rfl, fun i hi => by
      have hi : i < h.remainingLength := hi
      rw [List.getElem?_drop, List.getElem?_drop]; exact ha _ (by omega)⟩
  dsimp only
  refine simE_bind (sim_ite rfl (fun _ => sim_handleIncomingPublish hW hp) fun _ => sim_handleIncomingAck g hp b) fun st => ?_
  refine sim_ctx fun c buf hl ha => ?_
  rw [bufSize_eq hl]
  refine sim_ite rfl (fun _ => ?_) fun _ => simE_ub _
  refine sim_bind (sim_compact _) fun _ _ _ => ?_
  sims [simE_pure _]
  plain

theorem sim_iteration {g : Cfg} (hW : 2 ≤ g.W) (b : Bool) : SimE 0 (receiveSingleIteration g b) (receiveSingleIteration g b) := by
  unfold receiveSingleIteration
  refine simE_bind sim_receiveHeader fun a => ?_
  obtain ⟨r, h⟩ := a
  dsimp only
  refine simE_bind (sim_keepAliveCheck g _ _ _) fun st => ?_
  refine sim_bind (sim_checkComplete' g _ _) fun st st' hst => ?_
  subst hst
  refine sim_bind (R := SameRes) (q := fun _ => 0) ?_ fun a a' ha => by subst ha; sims [simE_pure _]
  refine sim_ite rfl (fun hs => ?_) fun _ => sim_pureQ _ (Nat.zero_le _)
  refine sim_handlePacket hW b h ?_
  subst hs
  simp only [afterPacket, if_true]; omega

theorem sim_processLoop {g : Cfg} (hW : 2 ≤ g.W) : SimE 0 (mqttProcessLoop g) (mqttProcessLoop g) := by
  unfold mqttProcessLoop
  sims [sim_iteration hW _]
  plain

theorem sim_recvOne : SimE N recvOne recvOne := by
  unfold recvOne
  sims [simE_pure _]

theorem sim_remainingLoop : ∀ n a b c, SimE N (getRemainingLengthLoopM n a b c) (getRemainingLengthLoopM n a b c)
  | 0, _, _, _ => simE_stuck
  | n + 1, a, b, c => by
    unfold getRemainingLengthLoopM
    sims [sim_recvOne, sim_remainingLoop n _ _ _]

theorem sim_remaining : SimE N getRemainingLengthM getRemainingLengthM := by
  unfold getRemainingLengthM
  sims [sim_remainingLoop ..]

theorem sim_typeAndLength : SimE N getIncomingPacketTypeAndLengthM getIncomingPacketTypeAndLengthM := by
  unfold getIncomingPacketTypeAndLengthM
  sims [sim_recvOne, sim_remaining]

theorem sim_connackBreak (g : Cfg) (T t0 : UInt32) (n : Nat) : SimE N (connackBreak g T t0 n) (connackBreak g T t0 n) := by
  unfold connackBreak
  sims [simE_pure _]

theorem sim_connackLoop (g : Cfg) (T t0 : UInt32) : ∀ n c, SimE N (connackLoop g T t0 n c) (connackLoop g T t0 n c)
  | 0, _ => simE_stuck
  | n + 1, c => by
    unfold connackLoop
    sims [sim_typeAndLength, sim_connackBreak .., sim_connackLoop g T t0 n _]

theorem sim_finishConnack (g : Cfg) (T t0 : UInt32) (cs : Bool) (h : HeaderRes) (sp : Bool) :
    SimE N (finishConnack g T t0 cs h sp) (finishConnack g T t0 cs h sp) := by
  unfold finishConnack
  refine simE_bind sim_getTime fun t => ?_
  dsimp only
  refine sim_ite rfl (fun _ => ?_) fun _ => simE_pure _
  refine sim_bind (sim_receivePacket g _ _) fun st st' hst => ?_
  subst hst
  by_cases hs : st' = .success
  · subst hs
    simp only [afterPacket, if_true, ne_eq, not_true_eq_false, if_false]
    refine sim_ctx fun c buf hl ha => ?_
    have hp : SamePacket ⟨h.type, some c.netBuf, h.remainingLength, h.headerLength⟩ ⟨h.type, some buf, h.remainingLength, h.headerLength⟩ :=
      ⟨rfl, rfl, rfl, _, _, rfl, rfl, fun i hi => by
        have hi : i < h.remainingLength := hi
        exact ha _ (by omega)⟩
    rw [ack_eq hp]
    refine sim_weaken (q := fun _ => max N h.remainingLength) ?_ (fun _ => by omega)
    sims [simE_pure _]
  · simp only [afterPacket, hs, if_false, ne_eq, not_false_eq_true, if_true]
    exact simE_pure _

theorem sim_receiveConnack (g : Cfg) (T : UInt32) (cs sp : Bool) : SimE N (receiveConnack g T cs sp) (receiveConnack g T cs sp) := by
  unfold receiveConnack
  sims [sim_connackLoop .., sim_finishConnack ..]

theorem sim_resendPubrels (g : Cfg) : ∀ n c, SimE N (resendPubrels g n c) (resendPubrels g n c)
  | 0, _ => simE_stuck
  | n + 1, c => by
    unfold resendPubrels
    sims [sim_sendPublishAcks g _ _, sim_resendPubrels g n _]

theorem sim_resendPublishes (g : Cfg) : ∀ n c, SimE N (resendPublishes g n c) (resendPublishes g n c)
  | 0, _ => simE_stuck
  | n + 1, c => by
    unfold resendPublishes
    sims [sim_sendBuffer g _, sim_resendPublishes g n _]

theorem sim_resume (g : Cfg) : SimE N (handleUncleanSessionResumption g) (handleUncleanSessionResumption g) := by
  unfold handleUncleanSessionResumption
  sims [sim_resendPubrels g _ _, sim_resendPublishes g _ _]

theorem sim_clearStored : ∀ n c, SimE N (clearStored n c) (clearStored n c)
  | 0, _ => simE_stuck
  | n + 1, c => by
    unfold clearStored
    sims [sim_clearStored n _]

theorem sim_cleanSession : SimE N handleCleanSession handleCleanSession := by
  unfold handleCleanSession
  sims [sim_resetBuffer, sim_clearStored _ _]
  all_goals plain

theorem sim_connectLocked (g : Cfg) (ci : ConnectInfo) (will : Option PublishInfo) (n : Nat) (T : UInt32) (sp : Bool) :
    SimE N (connectLocked g ci will n T sp) (connectLocked g ci will n T sp) := by
  unfold connectLocked
  sims [sim_sendConnect .., sim_receiveConnack .., sim_cleanSession]
  plain

theorem sim_connectFailed (st : Status) : SimE N (connectFailed st) (connectFailed st) := by
  unfold connectFailed
  sims [sim_markHooked]

theorem sim_connectCore (g : Cfg) (ci : ConnectInfo) (will : Option PublishInfo) (n : Nat) (T : UInt32) (sp : Bool) :
    SimE N (connectCore g ci will n T sp) (connectCore g ci will n T sp) := by
  unfold connectCore
  sims [sim_connectLocked .., sim_resume g]

theorem sim_connect (g : Cfg) (ci : Option ConnectInfo) (will : Option PublishInfo) (T : UInt32) (sp : Option Bool) :
    SimE N (mqttConnect g ci will T sp) (mqttConnect g ci will T sp) := by
  unfold mqttConnect
  sims [sim_connectCore .., sim_connectFailed _]

theorem validateSub_buf (c : Ctx) (buf : List UInt8) (subs : Option (List SubscribeInfo)) (id : UInt16) :
    validateSubscribeUnsubscribeParams (withBuf c buf) subs id = validateSubscribeUnsubscribeParams c subs id := rfl
theorem validatePub_buf (c : Ctx) (buf : List UInt8) (p : Option PublishInfo) (id : UInt16) :
    validatePublishParams (withBuf c buf) p id = validatePublishParams c p id := rfl

theorem sim_subUnsub (g : Cfg) (ty : SubType) (subs : Option (List SubscribeInfo)) (id : UInt16) :
    SimE N (mqttSubUnsub g ty subs id) (mqttSubUnsub g ty subs id) := by
  unfold mqttSubUnsub
  refine sim_ctx fun c buf _ _ => ?_
  rw [validateSub_buf]
  sims [sim_sendFilters ..]

theorem sim_reserve (p : PublishInfo) (id : UInt16) : SimE N (reservePublish p id) (reservePublish p id) := by
  unfold reservePublish
  sims [simE_pure _]

theorem sim_notePublish (p : PublishInfo) (id : UInt16) : SimE N (notePublishSent p id) (notePublishSent p id) := by
  unfold notePublishSent
  sims [sim_pubM ..]

theorem sim_publishLocked (g : Cfg) (p : PublishInfo) (hd : List UInt8) (n : Nat) (id : UInt16) :
    SimE N (publishLocked g p hd n id) (publishLocked g p hd n id) := by
  unfold publishLocked
  sims [sim_reserve .., sim_sendPublish .., sim_notePublish ..]

theorem sim_publish (g : Cfg) (p : Option PublishInfo) (id : UInt16) : SimE N (mqttPublish g p id) (mqttPublish g p id) := by
  unfold mqttPublish
  refine sim_ctx fun c buf _ _ => ?_
  rw [validatePub_buf]
  sims [sim_publishLocked ..]

theorem sim_disconnect (g : Cfg) : SimE N (mqttDisconnect g) (mqttDisconnect g) := by
  unfold mqttDisconnect
  sims [sim_resetBuffer, sim_sendBuffer g _]
  plain

theorem sim_cancel (id : UInt16) : SimE N (mqttCancelCallback id) (mqttCancelCallback id) := by
  unfold mqttCancelCallback
  sims [simE_pure _]

theorem sim_check : SimE N mqttCheckConnectStatus mqttCheckConnectStatus := by
  unfold mqttCheckConnectStatus
  sims [simE_pure _]

theorem sim_getPacketId : SimE N mqttGetPacketId mqttGetPacketId := by
  unfold mqttGetPacketId
  sims [simE_pure _]
  plain

theorem sim_api {g : Cfg} (hW : 2 ≤ g.W) (f : ApiCall) : SimE 0 (apiCall g f) (apiCall g f) := by
  cases f <;> simp only [apiCall, mqttSubscribe, mqttUnsubscribe, mqttReceiveLoop]
  all_goals sims [sim_connect .., sim_subUnsub .., sim_publish .., sim_ping g, sim_disconnect g, sim_cancel _, sim_check, sim_getPacketId,
    sim_processLoop hW, sim_iteration hW _]

end
end Mqtt.Stale
