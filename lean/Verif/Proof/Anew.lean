/-
`MQTT_Connect` up to the answer of the server: it goes the same way for a client with a history as for a freshly initialised one.
-/
import Verif.Spec.Fresh
import Verif.Proof.Stale
import Verif.Proof.EffectsResume

namespace Mqtt.Anew
open Spec
open Stale (SameRes after writeAt_get writeAt_len SamePacket ack_eq afterPacket)

/-- The context with another buffer and another time of the last transmission. -/
abbrev mk (c : Ctx) (buf : List UInt8) (tx : UInt32) : Ctx := { c with netBuf := buf, lastPacketTxTime := tx }

/-- Where the two runs start. -/
structure Base where
  c : Ctx
  c' : Ctx
  a : List Event
  a' : List Event
  s : c.connectStatus = .notConnected
  s' : c'.connectStatus = .notConnected
  buf : c'.netBuf.length = c.netBuf.length
  writev : c'.hasWritev = c.hasWritev

/-- The worlds have come the same way from the starting points, and the first `n` bytes of the buffers agree. -/
structure Cn (B : Base) (n : Nat) (w w' : World) : Prop where
  env : w'.env = w.env
  trace : ∃ es, noClear es = es ∧ w.trace = B.a ++ es ∧ w'.trace = B.a' ++ es
  ctx : ∃ buf tx buf' tx', w.ctx = mk B.c buf tx ∧ w'.ctx = mk B.c' buf' tx' ∧ buf.length = B.c.netBuf.length ∧
    buf'.length = buf.length ∧ ∀ i, i < n → buf'[i]? = buf[i]?

def RelOut (B : Base) {α β : Type} (R : α → β → Prop) (q : α → Nat) : Out α → Out β → Prop
  | .done a w, .done a' w' => R a a' ∧ Cn B (q a) w w'
  | .stuck w, .stuck w' => Cn B 0 w w'
  | .ub e w, .ub e' w' => e' = e ∧ Cn B 0 w w'
  | _, _ => False

def Sim (B : Base) (n : Nat) {α β : Type} (R : α → β → Prop) (q : α → Nat) (m : M α) (m' : M β) : Prop :=
  ∀ w w', Cn B n w w' → RelOut B R q (m w) (m' w')

abbrev SimE (B : Base) (n : Nat) {α : Type} (m m' : M α) : Prop := Sim B n SameRes (fun _ => n) m m'

theorem Cn.weaken {B : Base} {n m : Nat} {w w' : World} (h : Cn B n w w') (hm : m ≤ n) : Cn B m w w' := by
  obtain ⟨buf, tx, buf', tx', h1, h2, h3, h4, h5⟩ := h.ctx
  exact ⟨h.env, h.trace, buf, tx, buf', tx', h1, h2, h3, h4, fun i hi => h5 i (by omega)⟩

theorem Cn.grow {B : Base} {n : Nat} {w w' : World} (h : Cn B n w w') (env : Env) (e : Event) (he : isClear e = false := by rfl) :
    Cn B n { w with env := env, trace := w.trace ++ [e] } { w' with env := env, trace := w'.trace ++ [e] } := by
  obtain ⟨es, h0, h1, h2⟩ := h.trace
  refine ⟨rfl, ⟨es ++ [e], ?_, by simp [h1], by simp [h2]⟩, h.ctx⟩
  unfold noClear at h0 ⊢
  rw [List.filter_append, h0, List.filter_cons]
  simp [he]

section
variable {B : Base} {n : Nat} {α β γ ε : Type}

theorem sim_weaken {R : α → β → Prop} {q q' : α → Nat} {m : M α} {m' : M β} (h : Sim B n R q m m') (hq : ∀ a, q' a ≤ q a) : Sim B n R q' m m' := by
  intro w w' hw
  have h1 := h w w' hw
  cases he : m w <;> cases he' : m' w' <;> rw [he, he'] at h1 <;> simp only [RelOut] at h1 ⊢
  · exact ⟨h1.1, h1.2.weaken (hq _)⟩
  · exact h1
  · exact h1

theorem sim_bind {R : α → β → Prop} {S : γ → ε → Prop} {q : α → Nat} {q' : γ → Nat} {m : M α} {m' : M β} {f : α → M γ} {f' : β → M ε}
    (hm : Sim B n R q m m') (hf : ∀ a a', R a a' → Sim B (q a) S q' (f a) (f' a')) : Sim B n S q' (m >>= f) (m' >>= f') := by
  intro w w' h
  have h1 := hm w w' h
  show RelOut B S q' (M.bind m f w) (M.bind m' f' w')
  unfold M.bind
  cases he : m w <;> cases he' : m' w' <;> rw [he, he'] at h1 <;> simp only [RelOut] at h1
  · exact hf _ _ h1.1 _ _ h1.2
  · exact h1
  · exact h1

theorem simE_bind {S : γ → ε → Prop} {q' : γ → Nat} {m m' : M α} {f : α → M γ} {f' : α → M ε}
    (hm : SimE B n m m') (hf : ∀ a, Sim B n S q' (f a) (f' a)) : Sim B n S q' (m >>= f) (m' >>= f') :=
  sim_bind hm fun a a' h => by subst h; exact hf _

theorem simE_pure (a : α) : SimE B n (pure a) (pure a) := fun _ _ h => ⟨rfl, h⟩
theorem sim_pureQ {q : α → Nat} (a : α) (hq : q a ≤ n) : Sim B n SameRes q (pure a) (pure a) := fun _ _ h => ⟨rfl, h.weaken hq⟩
theorem simE_stuck {R : α → β → Prop} {q : α → Nat} : Sim B n R q stuckM stuckM := fun _ _ h => h.weaken (Nat.zero_le _)
theorem simE_ub {R : α → β → Prop} {q : α → Nat} (e : UB) : Sim B n R q (ubM e : M α) (ubM e) := fun _ _ h => ⟨rfl, h.weaken (Nat.zero_le _)⟩
theorem simE_lift (r : Res α) : SimE B n (liftRes r) (liftRes r) := fun w w' h => by
  unfold liftRes; cases r
  · exact ⟨rfl, h⟩
  · exact ⟨rfl, h.weaken (Nat.zero_le _)⟩

/-- Reading the context. -/
theorem sim_ctx {S : γ → ε → Prop} {q : γ → Nat} {f : Ctx → M γ} {f' : Ctx → M ε}
    (hf : ∀ buf tx buf' tx', buf.length = B.c.netBuf.length → buf'.length = buf.length → (∀ i, i < n → buf'[i]? = buf[i]?) →
      Sim B n S q (f (mk B.c buf tx)) (f' (mk B.c' buf' tx'))) :
    Sim B n S q (getCtx >>= f) (getCtx >>= f') := fun w w' h => by
  obtain ⟨buf, tx, buf', tx', h1, h2, h3, h4, h5⟩ := h.ctx
  have := hf buf tx buf' tx' h3 h4 h5 w w' h
  rw [← h1, ← h2] at this
  exact this

theorem sim_emit (e : Event) (he : isClear e = false := by rfl) : SimE B n (emit e) (emit e) := fun w w' h => by
  have := h.grow w.env e he
  refine ⟨rfl, h.env, this.trace, this.ctx⟩

theorem sim_pre : SimE B n preHook preHook := sim_emit _
theorem sim_post : SimE B n postHook postHook := sim_emit _
theorem sim_getTime : SimE B n getTime getTime := fun w w' h => by
  unfold getTime
  rw [h.env]
  cases hc : w.env.clock with
  | nil => exact h.weaken (Nat.zero_le _)
  | cons t r => exact ⟨rfl, h.grow _ _⟩

theorem sim_send (bs : List UInt8) : SimE B n (transportSend bs) (transportSend bs) := fun w w' h => by
  unfold transportSend
  rw [h.env]
  cases w.env.sends with
  | nil => exact h.weaken (Nat.zero_le _)
  | cons a r => cases a with
    | fail => exact ⟨rfl, h.grow _ _⟩
    | accept n => exact ⟨rfl, h.grow _ _⟩

theorem sim_recv (k : Nat) : SimE B n (transportRecv k) (transportRecv k) := fun w w' h => by
  unfold transportRecv
  rw [h.env]
  cases w.env.recvs with
  | nil => exact h.weaken (Nat.zero_le _)
  | cons a r => cases a with
    | fail => exact ⟨rfl, h.grow _ _⟩
    | deliver m => exact ⟨rfl, h.grow _ _⟩

theorem sim_sendFuel : SimE B n sendFuel sendFuel := fun w w' h => ⟨by rw [h.env]; rfl, h⟩
theorem sim_recvFuel : SimE B n recvFuel recvFuel := fun w w' h => ⟨by rw [h.env]; rfl, h⟩
theorem sim_clockFuel : SimE B n clockFuel clockFuel := fun w w' h => ⟨by rw [h.env]; rfl, h⟩

theorem sim_ite {R : α → β → Prop} {q : α → Nat} {c c' : Prop} {d : Decidable c} {d' : Decidable c'} {a b : M α} {a' b' : M β} (hc : c = c')
    (ha : c → Sim B n R q a a') (hb : ¬ c → Sim B n R q b b') :
    Sim B n R q (@ite _ c d a b) (@ite _ c' d' a' b') := by
  subst hc
  by_cases h : c
  · rw [if_pos h, if_pos h]; exact ha h
  · rw [if_neg h, if_neg h]; exact hb h

theorem sim_markPending : SimE B n markPending markPending := fun w w' h => by
  obtain ⟨buf, tx, buf', tx', h1, h2, h3, h4, h5⟩ := h.ctx
  have k : w.ctx.connectStatus = .notConnected := by rw [h1]; exact B.s
  have k' : w'.ctx.connectStatus = .notConnected := by rw [h2]; exact B.s'
  refine ⟨rfl, h.env, h.trace, buf, tx, buf', tx', ?_, ?_, h3, h4, h5⟩
  · show (if w.ctx.connectStatus = .connected then _ else w.ctx) = _
    rw [if_neg (by rw [k]; decide)]; exact h1
  · show (if w'.ctx.connectStatus = .connected then _ else w'.ctx) = _
    rw [if_neg (by rw [k']; decide)]; exact h2

syntax "simg" "[" term,* "]" : tactic
macro_rules
  | `(tactic| simg [$[$ts],*]) => `(tactic|
      repeat' (first
        | (with_reducible first
          | (first $[| exact $ts]*)
          | exact simE_pure _ | exact simE_stuck | exact simE_ub _ | exact simE_lift _ | exact sim_pre | exact sim_post
          | exact sim_send _ | exact sim_recv _ | exact sim_getTime
          | exact sim_sendFuel | exact sim_recvFuel | exact sim_clockFuel | exact sim_markPending
          | (intro _) | refine sim_ite (by with_reducible rfl) ?_ ?_ | apply sim_ctx
          | apply simE_bind)
        | refine sim_ite rfl ?_ ?_ | exact simE_lift _ | exact simE_pure _ | (first $[| exact $ts]*)
        | (with_reducible split)))

end

section
variable {B : Base} {N : Nat}

theorem sim_noteSend (r : Option Nat) : SimE B N (noteSendResult r) (noteSendResult r) := by
  unfold noteSendResult
  cases r with
  | none => exact sim_markPending
  | some n =>
    dsimp only
    refine sim_ite rfl (fun _ => ?_) fun _ => simE_pure _
    refine simE_bind sim_getTime fun t w w' h => ?_
    obtain ⟨buf, tx, buf', tx', h1, h2, h3, h4, h5⟩ := h.ctx
    exact ⟨rfl, h.env, h.trace, buf, t, buf', t, by simp only [h1], by simp only [h2], h3, h4, h5⟩

theorem sim_offered (vecs : List (List UInt8)) (buf buf' : List UInt8) (tx tx' : UInt32) :
    SimE B N (liftRes (offeredBytes (mk B.c buf tx).hasWritev vecs)) (liftRes (offeredBytes (mk B.c' buf' tx').hasWritev vecs)) := by
  show SimE B N (liftRes (offeredBytes B.c.hasWritev vecs)) (liftRes (offeredBytes B.c'.hasWritev vecs))
  rw [B.writev]
  exact simE_lift _

theorem sim_sendVecLoop (g : Cfg) (t0 : UInt32) (b : Nat) : ∀ n vecs sent,
    SimE B N (sendVecLoop g t0 b n vecs sent) (sendVecLoop g t0 b n vecs sent)
  | 0, _, _ => simE_stuck
  | n + 1, vecs, sent => by
    unfold sendVecLoop
    simg [sim_offered .., sim_noteSend _, sim_sendVecLoop g t0 b n _ _]

theorem sim_sendMessageVector (g : Cfg) (v : List IoVec) : SimE B N (sendMessageVector g v) (sendMessageVector g v) := by
  unfold sendMessageVector
  simg [sim_sendVecLoop g _ _ _ _ _]

theorem sim_sendWholeVector (g : Cfg) (v : List IoVec) : SimE B N (sendWholeVector g v) (sendWholeVector g v) := by
  unfold sendWholeVector
  simg [sim_sendMessageVector g v]


theorem sim_sendConnect (g : Cfg) (ci : ConnectInfo) (will : Option PublishInfo) (n : Nat) :
    SimE B N (sendConnectWithoutCopy g ci will n) (sendConnectWithoutCopy g ci will n) := by
  unfold sendConnectWithoutCopy
  simg [sim_sendWholeVector g _]

theorem writeAt_agree {m m' : List UInt8} (hl : m'.length = m.length) {pos n : Nat} (hp : pos ≤ m.length) (bs : List UInt8)
    (h : ∀ i, i < n → m'[i]? = m[i]?) :
    ∀ i, i < n ∨ (pos ≤ n ∧ i < pos + bs.length) → (writeAt m' pos bs)[i]? = (writeAt m pos bs)[i]? := by
  intro i hi
  rw [writeAt_get hp, writeAt_get (hl ▸ hp)]
  by_cases h1 : i < pos
  · rw [if_pos h1, if_pos h1]; exact h i (by omega)
  · rw [if_neg h1, if_neg h1]
    by_cases h2 : i < pos + bs.length
    · rw [if_pos h2, if_pos h2]
    · rw [if_neg h2, if_neg h2]; exact h i (by omega)

theorem sim_recvInto {pos : Nat} (hp : pos ≤ N) (k : Nat) : Sim B N SameRes (after N pos) (recvInto pos k) (recvInto pos k) := by
  intro w w' h
  obtain ⟨buf, tx, buf', tx', h1, h2, h3, h4, h5⟩ := h.ctx
  show RelOut B _ _ ((if pos + k ≤ w.ctx.bufSize then _ else _ : M _) w) ((if pos + k ≤ w'.ctx.bufSize then _ else _ : M _) w')
  have hb : w.ctx.bufSize = buf.length := by rw [h1]; rfl
  have hb' : w'.ctx.bufSize = buf.length := by rw [h2]; exact h4
  rw [hb', hb]
  by_cases hk : pos + k ≤ buf.length
  · rw [if_pos hk]
    show RelOut B _ _ (M.bind (transportRecv k) _ w) (M.bind (transportRecv k) _ w')
    unfold M.bind transportRecv
    rw [h.env]
    cases hr : w.env.recvs with
    | nil => exact h.weaken (Nat.zero_le _)
    | cons a r => cases a with
      | fail => exact ⟨rfl, h.grow _ _⟩
      | deliver j =>
        have hlen : (w.env.input.take (min j k)).length ≤ k := by rw [List.length_take]; omega
        refine ⟨rfl, rfl, (h.grow w.env _).trace, writeAt buf pos (w.env.input.take (min j k)), tx, writeAt buf' pos (w.env.input.take (min j k)), tx',
          by simp only [h1], by simp only [h2], ?_, ?_, ?_⟩
        · rw [writeAt_len (by omega), h3]
        · rw [writeAt_len (by omega), writeAt_len (by omega), h4]
        · intro i hi
          refine writeAt_agree h4 (by omega) _ h5 i ?_
          simp only [after] at hi
          omega
  · rw [if_neg hk]
    exact simE_ub _ w w' h

theorem sim_markHooked : SimE B N markPendingHooked markPendingHooked := by
  unfold markPendingHooked
  simg [sim_pre]

theorem sim_recvExactLoop (g : Cfg) (N : Nat) : ∀ n pos m (t : UInt32) (M : Nat), N ≤ M → pos ≤ M →
    Sim B M SameRes (after N 0) (recvExactLoop g n pos m t) (recvExactLoop g n pos m t)
  | 0, _, _, _, _, _, _ => simE_stuck
  | n + 1, pos, m, t, M, hN, hp => by
    unfold recvExactLoop
    refine sim_ite rfl (fun _ => ?_) (fun _ => sim_pureQ _ (by simp only [after]; omega))
    refine sim_bind (sim_recvInto hp m) fun r r' hr => ?_
    subst hr
    cases r' with
    | none => exact simE_bind sim_markHooked fun _ => sim_pureQ _ hN
    | some c =>
      dsimp only
      refine sim_ite rfl (fun _ => ?_) fun _ => ?_
      · refine simE_bind sim_getTime fun _ => simE_bind (simE_lift _) fun _ => ?_
        exact sim_recvExactLoop g N n _ _ _ _ (by simp only [after]; omega) (by simp only [after]; omega)
      · refine simE_bind sim_getTime fun _ => sim_ite rfl (fun _ => ?_) fun _ => ?_
        · exact sim_pureQ _ (by simp only [after]; omega)
        · exact sim_recvExactLoop g N n _ _ _ _ (by simp only [after]; omega) (by simp only [after]; omega)


theorem bufSize_eq {buf buf' : List UInt8} {tx tx' : UInt32} (h : buf'.length = buf.length) :
    (mk B.c' buf' tx').bufSize = (mk B.c buf tx).bufSize := h

theorem sim_recvExact (g : Cfg) (n : Nat) : Sim B N SameRes (after N 0) (recvExact g n) (recvExact g n) := by
  unfold recvExact
  refine sim_ctx fun buf tx buf' tx' hb hl ha => ?_
  rw [bufSize_eq hl]
  refine simE_bind (simE_lift _) fun _ => simE_bind sim_getTime fun _ => simE_bind sim_recvFuel fun _ => ?_
  exact sim_recvExactLoop g N _ _ _ _ _ (Nat.le_refl _) (Nat.zero_le _)

theorem sim_recvExact' (g : Cfg) (n : Nat) : SimE B N (recvExact g n) (recvExact g n) :=
  sim_weaken (sim_recvExact g n) fun a => by cases a <;> simp only [after] <;> omega

theorem sim_discardLoop (g : Cfg) (T t0 : UInt32) : ∀ n left b,
    SimE B N (discardLoop g T t0 n left b) (discardLoop g T t0 n left b)
  | 0, _, _ => simE_stuck
  | n + 1, left, b => by
    unfold discardLoop
    simg [sim_recvExact' g _, sim_discardLoop g T t0 n _ _]

theorem sim_discardPacket (g : Cfg) (n : Nat) (T : UInt32) : SimE B N (discardPacket g n T) (discardPacket g n T) := by
  unfold discardPacket
  refine sim_ctx fun buf tx buf' tx' hb hl ha => ?_
  rw [bufSize_eq hl]
  simg [sim_discardLoop g _ _ _ _ _]

theorem sim_receivePacket (g : Cfg) (n : Nat) (T : UInt32) :
    Sim B N SameRes (afterPacket N n) (receivePacket g n T) (receivePacket g n T) := by
  unfold receivePacket
  refine sim_ctx fun buf tx buf' tx' hb hl ha => ?_
  rw [bufSize_eq hl]
  refine sim_ite rfl (fun _ => ?_) fun _ => ?_
  · unfold discardPacket
    refine sim_ctx fun buf tx buf' tx' hb hl ha => ?_
    rw [bufSize_eq hl]
    refine simE_bind sim_getTime fun _ => simE_bind sim_clockFuel fun _ => simE_bind (sim_discardLoop g _ _ _ _ _) fun _ => ?_
    exact sim_ite rfl (fun _ => sim_pureQ _ (Nat.le_refl _)) fun _ => sim_pureQ _ (Nat.le_refl _)
  · refine sim_bind (sim_recvExact g n) fun r r' hr => ?_
    subst hr
    refine sim_ite rfl (fun hr => ?_) fun hr => sim_pureQ _ (by cases r' <;> simp [afterPacket, after] <;> omega)
    subst hr
    exact sim_pureQ _ (by simp [afterPacket, after])

theorem sim_recvOne : SimE B N recvOne recvOne := by
  unfold recvOne
  simg [simE_pure _]

theorem sim_remainingLoop : ∀ n a b c, SimE B N (getRemainingLengthLoopM n a b c) (getRemainingLengthLoopM n a b c)
  | 0, _, _, _ => simE_stuck
  | n + 1, a, b, c => by
    unfold getRemainingLengthLoopM
    simg [sim_recvOne, sim_remainingLoop n _ _ _]

theorem sim_remaining : SimE B N getRemainingLengthM getRemainingLengthM := by
  unfold getRemainingLengthM
  simg [sim_remainingLoop ..]

theorem sim_typeAndLength : SimE B N getIncomingPacketTypeAndLengthM getIncomingPacketTypeAndLengthM := by
  unfold getIncomingPacketTypeAndLengthM
  simg [sim_recvOne, sim_remaining]

theorem sim_connackBreak (g : Cfg) (T t0 : UInt32) (n : Nat) : SimE B N (connackBreak g T t0 n) (connackBreak g T t0 n) := by
  unfold connackBreak
  simg [simE_pure _]

theorem sim_connackLoop (g : Cfg) (T t0 : UInt32) : ∀ n c, SimE B N (connackLoop g T t0 n c) (connackLoop g T t0 n c)
  | 0, _ => simE_stuck
  | n + 1, c => by
    unfold connackLoop
    simg [sim_typeAndLength, sim_connackBreak .., sim_connackLoop g T t0 n _]

theorem sim_finishConnack (g : Cfg) (T t0 : UInt32) (cs : Bool) (h : HeaderRes) (sp : Bool) :
    SimE B N (finishConnack g T t0 cs h sp) (finishConnack g T t0 cs h sp) := by
  unfold finishConnack
  refine simE_bind sim_getTime fun t => ?_
  dsimp only
  refine sim_ite rfl (fun _ => ?_) fun _ => simE_pure _
  refine sim_bind (sim_receivePacket g _ _) fun st st' hst => ?_
  subst hst
  by_cases hs : st' = .success
  · subst hs
    simp only [afterPacket, if_true, ne_eq, not_true_eq_false, if_false]
    refine sim_ctx fun buf tx buf' tx' hb hl ha => ?_
    have hp : SamePacket ⟨h.type, some buf, h.remainingLength, h.headerLength⟩ ⟨h.type, some buf', h.remainingLength, h.headerLength⟩ :=
      ⟨rfl, rfl, rfl, _, _, rfl, rfl, fun i hi => by
        have hi : i < h.remainingLength := hi
        exact ha _ (by omega)⟩
    dsimp only
    rw [ack_eq hp]
    refine sim_weaken (q := fun _ => max N h.remainingLength) ?_ (fun _ => by omega)
    simg [simE_pure _]
  · simp only [afterPacket, hs, if_false, ne_eq, not_false_eq_true, if_true]
    exact simE_pure _

theorem sim_receiveConnack (g : Cfg) (T : UInt32) (cs sp : Bool) : SimE B N (receiveConnack g T cs sp) (receiveConnack g T cs sp) := by
  unfold receiveConnack
  simg [sim_connackLoop .., sim_finishConnack ..]


end

/-! ### The whole of `MQTT_Connect` -/

theorem bind_done {α β : Type} {m : M α} {f : α → M β} {w w2 : World} {y : β} (h : (m >>= f) w = .done y w2) :
    ∃ x w1, m w = .done x w1 ∧ f x w1 = .done y w2 := by
  change M.bind m f w = _ at h
  unfold M.bind at h
  cases hm : m w with
  | done x w1 => rw [hm] at h; exact ⟨x, w1, rfl, h⟩
  | stuck w1 => rw [hm] at h; cases h
  | ub e w1 => rw [hm] at h; cases h

theorem bind_eq {α β : Type} {m : M α} {f : α → M β} {w w1 : World} {x : α} (h : m w = .done x w1) : (m >>= f) w = f x w1 := by
  show M.bind m f w = _
  unfold M.bind
  rw [h]

theorem sim_done {B : Base} {n : Nat} {α : Type} {q : α → Nat} {m m' : M α} (hs : Sim B n SameRes q m m') {w w' : World} (h : Cn B n w w')
    {x : α} {w1 : World} (hd : m w = .done x w1) : ∃ w1', m' w' = .done x w1' ∧ Cn B (q x) w1 w1' := by
  have h1 := hs w w' h
  rw [hd] at h1
  cases h2 : m' w' with
  | done x' w1' => rw [h2] at h1; obtain ⟨rfl, h3⟩ := h1; exact ⟨w1', rfl, h3⟩
  | stuck w1' => rw [h2] at h1; exact h1.elim
  | ub e w1' => rw [h2] at h1; exact h1.elim

/-- The context of a client that has just connected without a session. -/
def linkedCtx (c : Ctx) (ci : ConnectInfo) (tx : UInt32) : Ctx :=
  { cleanedCtx c with lastPacketTxTime := tx, connectStatus := .connected, keepAliveIntervalSec := ci.keepAliveSeconds, waitingForPingResp := false,
                      pingReqSendTimeMs := 0 }

/-- How the two attempts end. -/
structure End (B : Base) (ci : ConnectInfo) (st : Status) (w w' : World) : Prop where
  env : w'.env = w.env
  trace : ∃ es, w.trace = B.a ++ es ∧ w'.trace = B.a' ++ noClear es
  ok : st = .success → ∃ tx tx', w.ctx = linkedCtx B.c ci tx ∧ w'.ctx = linkedCtx B.c' ci tx'
  failed : st ≠ .success → w.ctx.connectStatus = .notConnected ∧ w'.ctx.connectStatus = .notConnected

theorem Cn.failed {B : Base} {n : Nat} {ci : ConnectInfo} {st : Status} {w w' : World} (h : Cn B n w w') (hs : st ≠ .success) : End B ci st w w' := by
  obtain ⟨es, h0, h1, h2⟩ := h.trace
  obtain ⟨buf, tx, buf', tx', h3, h4, _⟩ := h.ctx
  exact ⟨h.env, ⟨es, h1, by rw [h0, h2]⟩, fun h => absurd h hs, fun _ => ⟨by rw [h3]; exact B.s, by rw [h4]; exact B.s'⟩⟩

theorem End.grow {B : Base} {ci : ConnectInfo} {st : Status} {w w' : World} (h : End B ci st w w') (e : Event) (he : isClear e = false) :
    End B ci st { w with trace := w.trace ++ [e] } { w' with trace := w'.trace ++ [e] } := by
  obtain ⟨es, h1, h2⟩ := h.trace
  refine ⟨h.env, ⟨es ++ [e], by simp [h1], ?_⟩, h.ok, h.failed⟩
  unfold noClear at h2 ⊢
  rw [List.filter_append, List.filter_cons]
  simp [he, h2]

theorem noClear_clears (retr : Bool) (s : InFlight) : noClear (cleanClears retr s) = [] := by
  unfold noClear cleanClears
  rw [List.filter_eq_nil_iff]
  cases retr with
  | false => intro x hx; cases hx
  | true =>
    intro x hx
    simp only [if_true, List.mem_map] at hx
    obtain ⟨i, _, rfl⟩ := hx
    simp [isClear]

theorem connectLocked_same {B : Base} {s s' : InFlight} (hs : Represents B.c.tables s) (hs' : Represents B.c'.tables s') (hn : s'.out = [])
    {g : Cfg} {ci : ConnectInfo} {will : Option PublishInfo} {n : Nat} {T : UInt32} {sp0 : Bool} {w w' w1 : World} {st : Status} (h : Cn B 0 w w')
    (hd : connectLocked g ci will n T sp0 w = .done (st, false) w1) :
    ∃ w1', connectLocked g ci will n T sp0 w' = .done (st, false) w1' ∧ End B ci st w1 w1' := by
  obtain ⟨buf, tx, buf', tx', h1, h2, _⟩ := h.ctx
  have k : w.ctx.connectStatus = .notConnected := by rw [h1]; exact B.s
  have k' : w'.ctx.connectStatus = .notConnected := by rw [h2]; exact B.s'
  unfold connectLocked at hd ⊢
  rw [bind_eq (m := getCtx) (x := w'.ctx) (w1 := w') rfl]
  rw [bind_eq (m := getCtx) (x := w.ctx) (w1 := w) rfl] at hd
  rw [if_neg (by rw [k]; simp)] at hd
  rw [if_neg (by rw [k']; simp)]
  obtain ⟨st1, v1, d1, hd⟩ := bind_done hd
  obtain ⟨v1', d1', c1⟩ := sim_done (sim_sendConnect g ci will n) h d1
  rw [bind_eq d1']
  by_cases hst1 : st1 = .success
  · rw [if_neg (by simp [hst1])] at hd ⊢
    obtain ⟨⟨st2, sp2⟩, v2, d2, hd⟩ := bind_done hd
    obtain ⟨v2', d2', c2⟩ := sim_done (sim_receiveConnack g T ci.cleanSession sp0) c1 d2
    rw [bind_eq d2']
    dsimp only at hd ⊢
    by_cases hst2 : st2 = .success
    · rw [if_neg (by simp [hst2])] at hd ⊢
      obtain ⟨buf, tx, buf', tx', e1, e2, e3, e4, _⟩ := c2.ctx
      cases sp2 with
      | true =>
        exfalso
        rw [if_neg (by simp)] at hd
        obtain ⟨st3, _, _, hd⟩ := bind_done hd
        by_cases h3 : st3 = .success
        · rw [if_pos h3] at hd
          obtain ⟨_, _, _, hd⟩ := bind_done hd
          cases hd
        · rw [if_neg h3] at hd
          cases hd
      | false =>
        rw [if_pos rfl] at hd ⊢
        have ht : Represents v2.ctx.tables s := by rw [e1]; exact hs
        have ht' : Represents v2'.ctx.tables s' := by rw [e2]; exact hs'
        rw [bind_eq (handleCleanSession_eq v2 s ht), if_pos rfl, bind_eq (m := modifyCtx _) (x := ()) rfl] at hd
        rw [bind_eq (handleCleanSession_eq v2' s' ht'), if_pos rfl, bind_eq (m := modifyCtx _) (x := ()) rfl]
        cases hd
        refine ⟨_, rfl, ?_⟩
        obtain ⟨es, f0, f1, f2⟩ := c2.trace
        have hcl : cleanClears v2'.ctx.retransmits s' = [] := by
          unfold cleanClears; rw [hn]; cases v2'.ctx.retransmits <;> rfl
        refine ⟨c2.env, ⟨es ++ cleanClears v2.ctx.retransmits s, by simp [f1], ?_⟩, fun _ => ⟨tx, tx', ?_, ?_⟩, fun h => absurd rfl h⟩
        · show v2'.trace ++ _ = _
          rw [hcl, f2, noClear, List.filter_append]
          show _ = _ ++ (noClear es ++ noClear _)
          rw [noClear_clears, f0]
          simp
        · simp only [e1, linkedCtx, cleanedCtx, Ctx.bufSize, e3]
        · simp only [e2, linkedCtx, cleanedCtx, Ctx.bufSize, e4, e3, B.buf]
    · rw [if_pos hst2] at hd ⊢
      cases hd
      exact ⟨v2', rfl, c2.failed hst2⟩
  · rw [if_pos hst1] at hd ⊢
    cases hd
    exact ⟨v1', rfl, c1.failed hst1⟩

theorem connect_same {B : Base} {s s' : InFlight} (hs : Represents B.c.tables s) (hs' : Represents B.c'.tables s') (hn : s'.out = [])
    {g : Cfg} {ci : ConnectInfo} {will : Option PublishInfo} {T : UInt32} {sp0 : Bool} {w w' w1 : World} {st : Status} (h : Cn B 0 w w')
    (hd : mqttConnect g (some ci) will T (some sp0) w = .done (st, some false) w1) :
    ∃ w1', mqttConnect g (some ci) will T (some sp0) w' = .done (st, some false) w1' ∧ End B ci st w1 w1' := by
  simp only [mqttConnect] at hd ⊢
  obtain ⟨⟨st1, sp1⟩, v1, d1, hd⟩ := bind_done hd
  dsimp only at hd
  have hsp : sp1 = false ∧ st1 = st := by
    obtain ⟨_, _, _, hd⟩ := bind_done hd
    cases hd; exact ⟨rfl, rfl⟩
  obtain ⟨rfl, rfl⟩ := hsp
  -- the core
  have key : ∃ v1', (if (getConnectPacketSize (some ci) will).status = .success then
        connectCore g ci will (getConnectPacketSize (some ci) will).remainingLength T sp0
      else pure ((getConnectPacketSize (some ci) will).status, sp0) : M (Status × Bool)) w' = .done (st1, false) v1' ∧ End B ci st1 v1 v1' := by
    by_cases hz : (getConnectPacketSize (some ci) will).status = .success
    · rw [if_pos hz] at d1 ⊢
      unfold connectCore at d1 ⊢
      obtain ⟨_, u0, e0, d1⟩ := bind_done d1
      obtain ⟨u0', e0', c0⟩ := sim_done sim_pre h e0
      obtain ⟨⟨st2, sp2⟩, u1, e1, d1⟩ := bind_done d1
      dsimp only at d1
      obtain ⟨_, u2, e2, d1⟩ := bind_done d1
      rw [bind_eq e0']
      cases e2
      cases sp2 with
      | true =>
        exfalso
        by_cases hs2 : st2 = .success
        · rw [if_pos ⟨hs2, rfl⟩] at d1
          obtain ⟨_, _, _, d1⟩ := bind_done d1
          cases d1
        · rw [if_neg (fun h => hs2 h.1)] at d1
          cases d1
      | false =>
        rw [if_neg (by simp)] at d1
        cases d1
        obtain ⟨u1', e1', c1⟩ := connectLocked_same hs hs' hn c0 e1
        rw [bind_eq e1']
        dsimp only
        rw [bind_eq (m := postHook) (x := ()) rfl, if_neg (by simp)]
        exact ⟨_, rfl, c1.grow _ rfl⟩
    · rw [if_neg hz] at d1 ⊢
      cases d1
      exact ⟨w', rfl, h.failed hz⟩
  obtain ⟨v1', d1', c1⟩ := key
  rw [bind_eq d1']
  dsimp only
  obtain ⟨_, v2, d2, hd⟩ := bind_done hd
  cases hd
  unfold connectFailed at d2 ⊢
  by_cases hf : st1 = .success ∨ st1 = .statusConnected ∨ st1 = .statusDisconnectPending
  · rw [if_pos hf] at d2 ⊢
    cases d2
    exact ⟨v1', rfl, c1⟩
  · rw [if_neg hf] at d2 ⊢
    have hns : st1 ≠ .success := fun h => hf (Or.inl h)
    obtain ⟨k, k'⟩ := c1.failed hns
    have c2 := (c1.grow .pre rfl).grow .post rfl
    have m1 : ∀ v : World, v.ctx.connectStatus = .notConnected → markPendingHooked v = .done () { v with trace := v.trace ++ [.pre] ++ [.post] } := by
      intro v hv
      show Out.done () _ = _
      simp [hv]
    rw [m1 v1 k] at d2
    cases d2
    exact ⟨_, bind_eq (m1 v1' k'), c2⟩

end Mqtt.Anew
