/-
The two send loops: exact description of what reaches the transport and what changes in the context.
-/
import Verif.Proof.Wp
import Verif.Spec.Trace

namespace Mqtt
open Spec
set_option linter.unusedSimpArgs false

/-- The connection status after a failed transport call. -/
def afterFail (failed : Bool) (s : ConnStatus) : ConnStatus :=
  if failed ∧ s = .connected then .disconnectPending else s

theorem afterFail_or (a b : Bool) (s : ConnStatus) : afterFail b (afterFail a s) = afterFail (a || b) s := by
  cases a <;> cases b <;> cases s <;> simp [afterFail]

/-- A clock reading or a send call. -/
def isSendOrTime : Event → Bool
  | .sent _ _ => true
  | .time _ => true
  | _ => false

/-- What a send operation may do to the world. -/
structure SendDelta (w : World) (es : List Event) (w' : World) : Prop where
  trace : w'.trace = w.trace ++ es
  ctx : ∃ t, w'.ctx = { w.ctx with lastPacketTxTime := t, connectStatus := afterFail (hasFail es) w.ctx.connectStatus }
  env : ∃ s c, w'.env = { w.env with sends := s, clock := c }
  kinds : ∀ e ∈ es, isSendOrTime e = true
  quiet : quietAfterFail es

theorem SendDelta.refl (w : World) : SendDelta w [] w :=
  ⟨by simp, ⟨w.ctx.lastPacketTxTime, by simp [hasFail, afterFail]⟩, ⟨w.env.sends, w.env.clock, rfl⟩, by simp, trivial⟩

theorem SendDelta.trans {w w' w'' : World} {a b : List Event} (h : SendDelta w a w') (h' : SendDelta w' b w'')
    (hq : hasFail a = true → noSent b) : SendDelta w (a ++ b) w'' := by
  obtain ⟨t, hc⟩ := h.ctx
  obtain ⟨t', hc'⟩ := h'.ctx
  obtain ⟨s, c, he⟩ := h.env
  obtain ⟨s', c', he'⟩ := h'.env
  refine ⟨by rw [h'.trace, h.trace, List.append_assoc], ⟨t', ?_⟩, ⟨s', c', by rw [he', he]⟩, ?_,
    quietAfterFail_append h.quiet h'.quiet hq⟩
  · rw [hc', hc, hasFail_append, ← afterFail_or]
  · intro e hm
    rcases List.mem_append.mp hm with hm | hm
    · exact h.kinds e hm
    · exact h'.kinds e hm

theorem SendDelta.time (w : World) (t : UInt32) (rest : List UInt32) :
    SendDelta w [.time t] { w with env := { w.env with clock := rest }, trace := w.trace ++ [.time t] } :=
  ⟨rfl, ⟨w.ctx.lastPacketTxTime, by simp [hasFail, isFail, afterFail]⟩, ⟨w.env.sends, rest, rfl⟩, by simp [isSendOrTime],
    by simp [quietAfterFail, isFail]⟩

/-- One transport call followed by the handling of its result. -/
theorem wp_sendOnce {Q : Option Nat → World → Prop} {E U : World → Prop} {w : World} (bytes : List UInt8)
    (hE : ∀ es w', SendDelta w es w' → wire es <+: bytes → E w')
    (h : ∀ r es w', SendDelta w es w' → (∀ k, r = some k → k ≤ bytes.length) → hasFail es = r.isNone →
      wire es = bytes.take (r.getD 0) → w'.env.sends.length < w.env.sends.length → Q r w') :
    wp (do let r ← transportSend bytes; noteSendResult r; pure r) Q E U w := by
  rw [wp_bind]
  refine wp_transportSend (hE [] w (SendDelta.refl w) (List.nil_prefix)) ?_
  intro a rest r hs hk
  rw [wp_bind]
  have hlen : rest.length < w.env.sends.length := by rw [hs]; simp
  cases r with
  | none =>
    simp only [noteSendResult]
    unfold markPending
    rw [wp_modifyCtx, wp_pure]
    refine h none [.sent bytes none] _ ⟨rfl, ⟨w.ctx.lastPacketTxTime, ?_⟩, ⟨rest, w.env.clock, rfl⟩, by simp [isSendOrTime],
      by simp [quietAfterFail, isFail, noSent]⟩ (by simp) (by simp [hasFail, isFail]) (by simp [wire]) hlen
    simp only [hasFail, List.any_cons, isFail, afterFail]
    by_cases hc : w.ctx.connectStatus = .connected <;> simp [hc]
  | some k =>
    have hk' := hk k rfl
    have h1 : SendDelta w [.sent bytes (some k)]
        { w with env := { w.env with sends := rest }, trace := w.trace ++ [.sent bytes (some k)] } :=
      ⟨rfl, ⟨w.ctx.lastPacketTxTime, by simp [hasFail, isFail, afterFail]⟩, ⟨rest, w.env.clock, rfl⟩, by simp [isSendOrTime],
        by simp [quietAfterFail, isFail]⟩
    have hw1 : wire [.sent bytes (some k)] = bytes.take k := by simp [wire]
    simp only [noteSendResult]
    rw [wp_ite]
    constructor
    · intro hk0
      rw [wp_bind]
      refine wp_getTime (hE _ _ h1 (by rw [hw1]; exact List.take_prefix _ _)) ?_
      intro t rest' hc
      rw [wp_modifyCtx, wp_pure]
      refine h (some k) [.sent bytes (some k), .time t] _ ⟨by simp, ⟨t, by simp [hasFail, isFail, afterFail]⟩,
        ⟨rest, rest', rfl⟩, by simp [isSendOrTime], by simp [quietAfterFail, isFail]⟩ (by intro j hj; cases hj; exact hk')
        (by simp [hasFail, isFail]) (by simp [wire]) hlen
    · intro _
      rw [wp_pure, wp_pure]
      exact h (some k) _ _ h1 (by intro j hj; cases hj; exact hk') (by simp [hasFail, isFail]) (by simp [hw1]) hlen

theorem sendBufferLoop_spec (g : Cfg) (st : UInt32) (fuel : Nat) (rest : List UInt8) (sent : Nat) (w : World) :
    wp (sendBufferLoop g st fuel rest sent)
      (fun r w' => ∃ es n, SendDelta w es w' ∧ n ≤ rest.length ∧ wire es = rest.take n ∧ hasFail es = r.isNone ∧
        (∀ m, r = some m → m = sent + n) ∧ (r = none → n < rest.length))
      (fun w' => ∃ es, SendDelta w es w' ∧ wire es <+: rest) (fun _ => False) w := by
  induction fuel generalizing rest sent w with
  | zero => exact ⟨[], SendDelta.refl w, List.nil_prefix⟩
  | succ fuel ih =>
    unfold sendBufferLoop
    rw [wp_ite]
    constructor
    · intro hpos
      have key := @wp_sendOnce
        (fun r w1 => wp (do
          let now ← getTime
          match r with
          | none => pure none
          | some k =>
            if calculateElapsedTime now st ≥ g.sendTimeoutMs then pure (some (sent + k))
            else sendBufferLoop g st fuel (rest.drop k) (sent + k))
          (fun r w' => ∃ es n, SendDelta w es w' ∧ n ≤ rest.length ∧ wire es = rest.take n ∧ hasFail es = r.isNone ∧
            (∀ m, r = some m → m = sent + n) ∧ (r = none → n < rest.length))
          (fun w' => ∃ es, SendDelta w es w' ∧ wire es <+: rest) (fun _ => False) w1)
        (fun w' => ∃ es, SendDelta w es w' ∧ wire es <+: rest) (fun _ => False) w rest
        (fun es w' h1 h2 => ⟨es, h1, h2⟩) ?_
      · simp only [wp_bind, wp_pure] at key ⊢
        exact key
      · intro r es w1 hd hk hf hw hlen
        rw [wp_bind]
        refine wp_getTime ⟨es, hd, by rw [hw]; exact List.take_prefix _ _⟩ ?_
        intro t rest' hc
        have hd2 := hd.trans (SendDelta.time w1 t rest') (fun _ => by simp [noSent, isSent])
        have hw2 : wire (es ++ [.time t]) = rest.take (r.getD 0) := by rw [wire_append, hw]; simp [wire]
        have hf2 : hasFail (es ++ [.time t]) = r.isNone := by rw [hasFail_append, hf]; simp [hasFail, isFail]
        cases r with
        | none => exact ⟨_, 0, hd2, Nat.zero_le _, by simpa using hw2, hf2, by simp, fun _ => by omega⟩
        | some k =>
          have hk' := hk k rfl
          show wp (if _ then _ else _) _ _ _ _
          rw [wp_ite]
          constructor
          · intro _
            exact ⟨_, k, hd2, hk', hw2, hf2, by simp, by simp⟩
          · intro _
            refine wp_mono (ih (rest.drop k) (sent + k) _) ?_ ?_ (fun _ h => h)
            · rintro r w3 ⟨es3, n, hd3, hn, hw3, hf3, hm, hm0⟩
              refine ⟨es ++ [.time t] ++ es3, k + n, hd2.trans hd3 (fun h => by simp [hf2] at h),
                by rw [List.length_drop] at hn; omega, ?_, by rw [hasFail_append, hf2, hf3]; simp, ?_,
                fun h => by have := hm0 h; rw [List.length_drop] at this; omega⟩
              · rw [wire_append, hw2, hw3]
                show rest.take k ++ _ = _
                rw [← List.take_add]
              · intro m hr; rw [hm m hr]; omega
            · rintro w3 ⟨es3, hd3, hw3⟩
              refine ⟨es ++ [.time t] ++ es3, hd2.trans hd3 (fun h => by simp [hf2] at h), ?_⟩
              rw [wire_append, hw2]
              obtain ⟨s, hs⟩ := hw3
              exact ⟨s, by show rest.take k ++ _ ++ _ = _; rw [List.append_assoc, hs, List.take_append_drop]⟩
    · intro hpos
      exact ⟨[], 0, SendDelta.refl w, Nat.zero_le _, by simp [wire], by simp [hasFail], by simp, by simp⟩

/-- `sendBuffer`: the transport gets a prefix of the bytes; the reported count is the length of that prefix. -/
theorem sendBuffer_spec (g : Cfg) (bytes : List UInt8) (w : World) :
    wp (sendBuffer g bytes)
      (fun r w' => ∃ es n, SendDelta w es w' ∧ n ≤ bytes.length ∧ wire es = bytes.take n ∧ hasFail es = r.isNone ∧
        (∀ m, r = some m → m = n) ∧ (r = none → n < bytes.length))
      (fun w' => ∃ es, SendDelta w es w' ∧ wire es <+: bytes) (fun _ => False) w := by
  unfold sendBuffer
  rw [wp_bind]
  refine wp_getTime ⟨[], SendDelta.refl w, List.nil_prefix⟩ ?_
  intro t rest hc
  rw [wp_bind, wp_sendFuel]
  have h0 := SendDelta.time w t rest
  refine wp_mono (sendBufferLoop_spec g t _ bytes 0 _) ?_ ?_ (fun _ h => h)
  · rintro r w3 ⟨es3, n, hd3, hn, hw3, hf3, hm, hm0⟩
    refine ⟨[.time t] ++ es3, n, h0.trans hd3 (by simp [hasFail, isFail]), hn, by rw [wire_append, hw3]; simp [wire],
      by rw [hasFail_append, hf3]; simp [hasFail, isFail], ?_, hm0⟩
    intro m hr; rw [hm m hr]; omega
  · rintro w3 ⟨es3, hd3, hw3⟩
    exact ⟨[.time t] ++ es3, h0.trans hd3 (by simp [hasFail, isFail]), by rw [wire_append]; simpa [wire] using hw3⟩

/-- A send operation that returns has offered all the bytes to the transport. -/
theorem sendBuffer_offers (g : Cfg) (bytes : List UInt8) (w : World) (hb : bytes ≠ []) :
    wp (sendBuffer g bytes) (fun _ w' => ∃ es r, w'.trace = w.trace ++ es ∧ Event.sent bytes r ∈ es) (fun _ => True) (fun _ => True) w := by
  unfold sendBuffer
  rw [wp_bind]
  refine wp_getTime trivial ?_
  intro t rest hc
  rw [wp_bind, wp_sendFuel]
  unfold sendBufferLoop
  rw [if_pos (List.length_pos_iff.mpr hb), wp_bind]
  refine wp_transportSend trivial ?_
  intro a rest' r _ _
  have key : ∀ w1 : World, (∃ es2, w1.trace = w.trace ++ [.time t] ++ [.sent bytes r] ++ es2) →
      ∃ es r, w1.trace = w.trace ++ es ∧ Event.sent bytes r ∈ es := by
    rintro w1 ⟨es2, h⟩
    exact ⟨[.time t] ++ [.sent bytes r] ++ es2, r, by rw [h]; simp, by simp⟩
  rw [wp_bind]
  have hn : ∀ w0 : World, w0.trace = w.trace ++ [.time t] ++ [.sent bytes r] →
      wp (noteSendResult r) (fun _ w1 => ∃ es2, w1.trace = w.trace ++ [.time t] ++ [.sent bytes r] ++ es2) (fun _ => True) (fun _ => True) w0 := by
    intro w0 h0
    unfold noteSendResult
    cases r with
    | none => exact ⟨[], by rw [List.append_nil]; exact h0⟩
    | some k =>
      dsimp only
      rw [wp_ite]
      refine ⟨fun _ => ?_, fun _ => ⟨[], by rw [List.append_nil]; exact h0⟩⟩
      rw [wp_bind]
      refine wp_getTime trivial ?_
      intro t2 rest2 _
      exact ⟨[.time t2], by rw [← h0]⟩
  refine wp_mono (hn _ rfl) ?_ (fun _ h => h) (fun _ h => h)
  rintro _ w1 ⟨es2, h2⟩
  rw [wp_bind]
  refine wp_getTime trivial ?_
  intro t3 rest3 _
  cases r with
  | none => exact key _ ⟨es2 ++ [.time t3], by rw [← List.append_assoc, ← h2]⟩
  | some k =>
    show wp (if _ then _ else _) _ _ _ _
    rw [wp_ite]
    constructor
    · intro _
      exact key _ ⟨es2 ++ [.time t3], by rw [← List.append_assoc, ← h2]⟩
    · intro _
      refine wp_mono (sendBufferLoop_spec g t _ (bytes.drop k) (0 + k) _) ?_ (fun _ _ => trivial) (fun _ _ => trivial)
      rintro _ w2 ⟨es3, _, hd, _⟩
      refine key _ ⟨es2 ++ ([.time t3] ++ es3), ?_⟩
      rw [hd.trace]
      simp [h2]

theorem advanceVec_flatten (k : Nat) (vecs : List (List UInt8)) : (advanceVec k vecs).flatten = vecs.flatten.drop k := by
  induction vecs generalizing k with
  | nil => simp [advanceVec]
  | cons v vs ih =>
    unfold advanceVec
    by_cases h : k ≥ v.length
    · rw [if_pos h, ih, List.flatten_cons, List.drop_append, List.drop_eq_nil_of_le h, List.nil_append]
    · rw [if_neg h]
      rw [List.flatten_cons, List.flatten_cons, List.drop_append_of_le_length (by omega)]

/-- What the transport is offered is a prefix of what is left to send. -/
theorem offeredBytes_prefix (hw : Bool) (vecs : List (List UInt8)) (h : vecs ≠ []) :
    ∃ bytes, offeredBytes hw vecs = .ok bytes ∧ bytes <+: vecs.flatten := by
  unfold offeredBytes
  cases hw with
  | true => exact ⟨_, rfl, List.prefix_refl _⟩
  | false =>
    cases vecs with
    | nil => exact absurd rfl h
    | cons v vs => exact ⟨v, rfl, by rw [List.flatten_cons]; exact List.prefix_append _ _⟩

theorem take_of_prefix {a b : List UInt8} (h : a <+: b) {k : Nat} (hk : k ≤ a.length) : a.take k = b.take k := by
  obtain ⟨c, rfl⟩ := h
  rw [List.take_append_of_le_length hk]

theorem sendVecLoop_spec (g : Cfg) (st : UInt32) (total fuel : Nat) (vecs : List (List UInt8)) (sent : Nat) (w : World)
    (hlen : sent + vecs.flatten.length = total) :
    wp (sendVecLoop g st total fuel vecs sent)
      (fun r w' => ∃ es n, SendDelta w es w' ∧ n ≤ vecs.flatten.length ∧ wire es = vecs.flatten.take n ∧ hasFail es = r.isNone ∧
        (∀ m, r = some m → m = sent + n) ∧ (r = none → n < vecs.flatten.length))
      (fun w' => ∃ es, SendDelta w es w' ∧ wire es <+: vecs.flatten) (fun _ => False) w := by
  induction fuel generalizing vecs sent w with
  | zero => exact ⟨[], SendDelta.refl w, List.nil_prefix⟩
  | succ fuel ih =>
    unfold sendVecLoop
    rw [wp_ite]
    constructor
    · intro hpos
      have hne : vecs ≠ [] := by intro h; subst h; simp at hlen; omega
      rw [wp_bind, wp_getCtx]
      obtain ⟨bytes, hb, hpre⟩ := offeredBytes_prefix w.ctx.hasWritev vecs hne
      rw [hb, wp_bind, wp_liftRes]
      have hble : bytes.length ≤ vecs.flatten.length := hpre.length_le
      have key := @wp_sendOnce
        (fun r w1 => wp (do
          let now ← getTime
          match r with
          | none => pure none
          | some k =>
            if calculateElapsedTime now st > g.sendTimeoutMs then pure (some (sent + k))
            else sendVecLoop g st total fuel (advanceVec k vecs) (sent + k))
          (fun r w' => ∃ es n, SendDelta w es w' ∧ n ≤ vecs.flatten.length ∧ wire es = vecs.flatten.take n ∧
            hasFail es = r.isNone ∧ (∀ m, r = some m → m = sent + n) ∧ (r = none → n < vecs.flatten.length))
          (fun w' => ∃ es, SendDelta w es w' ∧ wire es <+: vecs.flatten) (fun _ => False) w1)
        (fun w' => ∃ es, SendDelta w es w' ∧ wire es <+: vecs.flatten) (fun _ => False) w bytes
        (fun es w' h1 h2 => ⟨es, h1, h2.trans hpre⟩) ?_
      · simp only [wp_bind, wp_pure] at key ⊢
        refine wp_mono (wp_and key (wp_transportSend (Q := fun r _ => ∀ k, r = some k → k ≤ bytes.length)
          (E := fun _ => True) (U := fun _ => True) trivial (fun _ _ r _ h => h))) ?_ (fun _ h => h.1) (fun _ h => h.1)
        rintro r w1 ⟨h1, h2⟩
        have : (r.all fun k => decide (k ≤ total - sent)) = true := by
          cases r with
          | none => rfl
          | some k => have := h2 k rfl; simp; omega
        rw [this]
        exact h1
      · intro r es w1 hd hk hf hw _
        rw [wp_bind]
        have hw' : wire es = vecs.flatten.take (r.getD 0) := by
          rw [hw]
          cases r with
          | none => simp
          | some k => exact take_of_prefix hpre (hk k rfl)
        refine wp_getTime ⟨es, hd, by rw [hw']; exact List.take_prefix _ _⟩ ?_
        intro t rest' hc
        have hd2 := hd.trans (SendDelta.time w1 t rest') (fun _ => by simp [noSent, isSent])
        have hw2 : wire (es ++ [.time t]) = vecs.flatten.take (r.getD 0) := by rw [wire_append, hw']; simp [wire]
        have hf2 : hasFail (es ++ [.time t]) = r.isNone := by rw [hasFail_append, hf]; simp [hasFail, isFail]
        cases r with
        | none => exact ⟨_, 0, hd2, Nat.zero_le _, by simpa using hw2, hf2, by simp, fun _ => by omega⟩
        | some k =>
          have hk' := hk k rfl
          show wp (if _ then _ else _) _ _ _ _
          rw [wp_ite]
          constructor
          · intro _
            exact ⟨_, k, hd2, by omega, hw2, hf2, by simp, by simp⟩
          · intro _
            have hadv := advanceVec_flatten k vecs
            refine wp_mono (ih (advanceVec k vecs) (sent + k) _ (by rw [hadv, List.length_drop]; omega)) ?_ ?_ (fun _ h => h)
            · rintro r w3 ⟨es3, n, hd3, hn, hw3, hf3, hm, hm0⟩
              rw [hadv] at hn hw3 hm0
              refine ⟨es ++ [.time t] ++ es3, k + n, hd2.trans hd3 (fun h => by simp [hf2] at h),
                by rw [List.length_drop] at hn; omega, ?_, by rw [hasFail_append, hf2, hf3]; simp, ?_,
                fun h => by have := hm0 h; rw [List.length_drop] at this; omega⟩
              · rw [wire_append, hw2, hw3]
                show List.take k _ ++ _ = _
                rw [← List.take_add]
              · intro m hr; rw [hm m hr]; omega
            · rintro w3 ⟨es3, hd3, hw3⟩
              rw [hadv] at hw3
              refine ⟨es ++ [.time t] ++ es3, hd2.trans hd3 (fun h => by simp [hf2] at h), ?_⟩
              rw [wire_append, hw2]
              obtain ⟨s, hs⟩ := hw3
              exact ⟨s, by show List.take k _ ++ _ ++ _ = _; rw [List.append_assoc, hs, List.take_append_drop]⟩
    · intro hpos
      exact ⟨[], 0, SendDelta.refl w, Nat.zero_le _, by simp [wire], by simp [hasFail], by simp, by simp⟩

/-- `sendMessageVector` on readable vectors: the transport gets a prefix of their concatenation. -/
theorem sendMessageVector_spec (g : Cfg) (vec : List IoVec) (vecs : List (List UInt8)) (hr : resolveVec vec = .ok vecs)
    (hne : vec ≠ []) (w : World) :
    wp (sendMessageVector g vec)
      (fun r w' => ∃ es n, SendDelta w es w' ∧ n ≤ vecs.flatten.length ∧ wire es = vecs.flatten.take n ∧ hasFail es = r.isNone ∧
        (∀ m, r = some m → m = n) ∧ (r = none → n < vecs.flatten.length))
      (fun w' => ∃ es, SendDelta w es w' ∧ wire es <+: vecs.flatten) (fun _ => False) w := by
  unfold sendMessageVector
  rw [wp_bind, hr, wp_liftRes]
  have : vec.isEmpty = false := by simpa using hne
  simp only [this, Bool.false_eq_true, if_false]
  rw [wp_bind]
  refine wp_getTime ⟨[], SendDelta.refl w, List.nil_prefix⟩ ?_
  intro t rest hc
  rw [wp_bind, wp_sendFuel]
  have h0 := SendDelta.time w t rest
  refine wp_mono (sendVecLoop_spec g t _ _ vecs 0 _ (by simp)) ?_ ?_ (fun _ h => h)
  · rintro r w3 ⟨es3, n, hd3, hn, hw3, hf3, hm, hm0⟩
    refine ⟨[.time t] ++ es3, n, h0.trans hd3 (by simp [hasFail, isFail]), hn, by rw [wire_append, hw3]; simp [wire],
      by rw [hasFail_append, hf3]; simp [hasFail, isFail], ?_, hm0⟩
    intro m hr; rw [hm m hr]; omega
  · rintro w3 ⟨es3, hd3, hw3⟩
    exact ⟨[.time t] ++ es3, h0.trans hd3 (by simp [hasFail, isFail]), by rw [wire_append]; simpa [wire] using hw3⟩

end Mqtt
