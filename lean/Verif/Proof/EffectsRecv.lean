/-
The receiving loops of core_mqtt.c: effects and exact contents of the network buffer.
-/
import Verif.Proof.Effects

namespace Mqtt
open Spec
set_option linter.unusedSimpArgs false

theorem writeAt_length {mem bs : List UInt8} {pos : Nat} (h : pos + bs.length ≤ mem.length) : (writeAt mem pos bs).length = mem.length := by
  simp [writeAt]; omega

theorem writeAt_nil {mem : List UInt8} {pos : Nat} : writeAt mem pos [] = mem := by
  simp [writeAt]

theorem writeAt_writeAt {mem a b : List UInt8} {pos : Nat} (h : pos + a.length ≤ mem.length) :
    writeAt (writeAt mem pos a) (pos + a.length) b = writeAt mem pos (a ++ b) := by
  have hl : (mem.take pos ++ a).length = pos + a.length := by simp; omega
  unfold writeAt
  rw [List.take_append_of_le_length (by omega), List.take_of_length_le (by omega)]
  rw [← hl, List.drop_append]
  simp only [hl, List.append_assoc, List.length_append]
  rw [List.drop_eq_nil_of_le (by simp; omega)]
  simp only [List.nil_append, List.drop_drop]
  congr 4
  simp; omega

/-- The world after `recvInto pos n` delivered at most `k` bytes. -/
def recvIntoWorld (w : World) (pos n k : Nat) (rest : List RecvAns) : World :=
  { recvWorld w n k rest with ctx := { w.ctx with netBuf := writeAt w.ctx.netBuf pos (w.env.input.take (min k n)) } }

theorem wp_recvInto {Q : Option Nat → World → Prop} {E U : World → Prop} {w : World} {pos n : Nat} (hE : E w)
    (hU : ¬ pos + n ≤ w.ctx.bufSize → U w)
    (hfail : ∀ rest, pos + n ≤ w.ctx.bufSize → w.env.recvs = .fail :: rest → Q none (recvFailWorld w n rest))
    (hok : ∀ k rest, pos + n ≤ w.ctx.bufSize → w.env.recvs = .deliver k :: rest →
      Q (some (w.env.input.take (min k n)).length) (recvIntoWorld w pos n k rest)) :
    wp (recvInto pos n) Q E U w := by
  unfold recvInto
  rw [wp_bind, wp_getCtx, wp_ite]
  constructor
  · intro hn
    rw [wp_bind]
    refine wp_transportRecv hE ?_ ?_
    · exact fun rest h => hfail rest hn h
    · intro k rest h
      show wp (do modifyCtx _; pure _) _ _ _ _
      rw [wp_bind, wp_modifyCtx, wp_pure]
      exact hok k rest hn h
  · exact fun hn => hU hn

theorem Fx.recvInto {h : Bool} {w : World} {pos n k : Nat} {rest : List RecvAns} (hn : pos + n ≤ w.ctx.bufSize) :
    Fx h w [.recvd n (Option.some (w.env.input.take (min k n)))] h (recvIntoWorld w pos n k rest) := by
  have hl : (w.env.input.take (min k n)).length ≤ n := by simp; omega
  have hb : (writeAt w.ctx.netBuf pos (w.env.input.take (min k n))).length = w.ctx.netBuf.length :=
    writeAt_length (by unfold Ctx.bufSize at hn; omega)
  have h1 := Fx.recvWorld (h := h) (w := w) n k rest
  refine ⟨h1.trace, h1.status, h1.quiet, h1.idle, h1.lock, rfl, rfl, hb, rfl, h1.stream, rfl, ?_, h1.mon, h1.clears⟩
  rintro oc ic ⟨hi, hs⟩
  exact ⟨by show _ ≤ (writeAt w.ctx.netBuf pos (w.env.input.take (min k n))).length; rw [hb]; exact hi, hs⟩

/-- A failed receive call followed by the status change inside the hooks. -/
theorem Fx.recvFail {w : World} {n : Nat} {rest : List RecvAns} {w' : World}
    (ht : w'.trace = w.trace ++ [.recvd n none, .pre, .post]) (he : w'.env = { w.env with recvs := rest })
    (hc : w'.ctx = { w.ctx with connectStatus := afterFail true w.ctx.connectStatus }) :
    Fx false w [.recvd n none, .pre, .post] false w' := by
  refine ⟨ht, ?_, ?_, ?_, ?_, by rw [hc], by rw [hc], by rw [hc]; rfl, by rw [hc], ?_, by rw [hc],
    by rw [hc]; exact fun _ _ h => h, Fx.monRefl (by rw [hc]) ?_, ?_⟩ <;>
    simp_all [hasFail, isFail, afterFail, quietAfterFail, noSent, isSent, lockRun, received, monRun, monStep, clearsOk]

theorem markPending_ctx (c : Ctx) :
    (if c.connectStatus = .connected then { c with connectStatus := .disconnectPending } else c) =
      { c with connectStatus := afterFail true c.connectStatus } := by
  unfold afterFail
  by_cases h : c.connectStatus = .connected
  · simp [h]
  · rw [if_neg h, if_neg (by simp [h])]

/-- The world after a failed receive call and `markPendingHooked`. -/
def failedWorld (w : World) (n : Nat) (rest : List RecvAns) : World :=
  { ctx := { w.ctx with connectStatus := afterFail true w.ctx.connectStatus }, env := { w.env with recvs := rest },
    trace := w.trace ++ [.recvd n none, .pre, .post] }

theorem wp_markPendingHooked {Q : Unit → World → Prop} {E U : World → Prop} {w : World} {n : Nat} {rest : List RecvAns} :
    wp markPendingHooked Q E U (recvFailWorld w n rest) ↔ Q () (failedWorld w n rest) := by
  unfold markPendingHooked markPending
  rw [wp_bind, wp_preHook, wp_bind, wp_modifyCtx, wp_postHook]
  simp only [markPending_ctx]
  unfold recvFailWorld failedWorld
  simp [List.append_assoc]

theorem Fx.failed {w : World} {n : Nat} {rest : List RecvAns} : Fx false w [.recvd n none, .pre, .post] false (failedWorld w n rest) :=
  Fx.recvFail rfl rfl rfl

/-- The events of receiving. -/
def isRecvOrTime : Event → Bool
  | .recvd .. | .time _ => true
  | _ => false

/-- Only events of receiving; hooks are called in pairs, after a failure. -/
inductive RecvX : List Event → Prop
  | nil : RecvX []
  | cons {e : Event} {es : List Event} : isRecvOrTime e = true → RecvX es → RecvX (e :: es)
  | failed {es : List Event} (n : Nat) : RecvX es → RecvX (.recvd n none :: .pre :: .post :: es)

theorem RecvX.app {a b : List Event} (ha : RecvX a) (hb : RecvX b) : RecvX (a ++ b) := by
  induction ha with
  | nil => exact hb
  | cons he _ ih => exact .cons he ih
  | failed n _ ih => exact .failed n ih

theorem RecvX.noSent {es : List Event} (h : RecvX es) : Spec.noSent es := by
  intro e he
  induction h with
  | nil => cases he
  | cons hk _ ih =>
    rcases List.mem_cons.mp he with h | h
    · subst h; cases e <;> simp_all [isRecvOrTime, isSent]
    · exact ih h
  | failed n _ ih =>
    simp only [List.mem_cons] at he
    rcases he with h | h | h | h
    · subst h; rfl
    · subst h; rfl
    · subst h; rfl
    · exact ih h

/-- The pairs of hooks leave the critical section as it was. -/
theorem RecvX.lock {es : List Event} (h : RecvX es) : lockRun false es = some false := by
  induction h with
  | nil => rfl
  | @cons e es hk _ ih => cases e <;> simp_all [isRecvOrTime, lockRun]
  | failed n _ ih => simp [lockRun, ih]

/-- Without a failure there are no hooks. -/
theorem RecvX.lockNoFail {es : List Event} (h : RecvX es) (hf : hasFail es = false) (b : Bool) : lockRun b es = some b := by
  induction h with
  | nil => rfl
  | @cons e es hk _ ih =>
    have hf' : hasFail es = false := by
      simp only [hasFail, List.any_cons, Bool.or_eq_false_iff] at hf ⊢
      exact hf.2
    cases e <;> simp_all [isRecvOrTime, lockRun]
  | failed n _ _ => simp [hasFail, isFail] at hf

/-- The received bytes were stored at `pos`; nothing else changed, but for the connection status after an error. -/
def Stored (pos : Nat) (w : World) (es : List Event) (w' : World) : Prop :=
  RecvX es ∧
  w'.ctx = { w.ctx with netBuf := writeAt w.ctx.netBuf pos (received es), connectStatus := afterFail (hasFail es) w.ctx.connectStatus }

theorem afterFail_false (s : ConnStatus) : afterFail false s = s := by simp [afterFail]

theorem Stored.nil (pos : Nat) (w : World) : Stored pos w [] w := by
  refine ⟨RecvX.nil, ?_⟩
  simp [received, writeAt_nil, hasFail, afterFail_false]

theorem Stored.time {pos : Nat} {w w' : World} {es : List Event} (h : Stored pos w es w') (t : UInt32) (r : List UInt32) :
    Stored pos w (es ++ [.time t]) (timeWorld w' t r) := by
  refine ⟨?_, ?_⟩
  · exact h.1.app (.cons rfl .nil)
  · have : received [Event.time t] = [] := rfl
    have h2 : hasFail [Event.time t] = false := rfl
    rw [received_append, hasFail_append, this, h2]
    simp [h.2, timeWorld]

theorem Stored.append {pos : Nat} {w w1 w2 : World} {a b : List Event} (h : Stored pos w a w1) (hf : hasFail a = false)
    (hl : pos + (received a).length ≤ w.ctx.bufSize) (h' : Stored (pos + (received a).length) w1 b w2) : Stored pos w (a ++ b) w2 := by
  refine ⟨?_, ?_⟩
  · exact h.1.app h'.1
  · rw [h'.2, h.2, hf, afterFail_false, received_append, hasFail_append, hf]
    simp only [Bool.false_or]
    rw [writeAt_writeAt hl]

theorem recvExactLoop_tr (g : Cfg) (fuel pos n : Nat) (t0 : UInt32) (w : World) :
    Tr (pos + n ≤ w.ctx.bufSize) false (recvExactLoop g fuel pos n t0)
      (fun r es h' w' => h' = false ∧ hasFail es = r.isNone ∧ (received es).length ≤ n ∧
        (∀ m, r = some m → m = pos + (received es).length) ∧ (n > 0 → pos + n ≤ w.ctx.bufSize ∧ Stored pos w es w') ∧
        (n = 0 → r = some pos ∧ es = [] ∧ w' = w) ∧
        (∀ m, r = some m → m < pos + n → Starved g.recvPollingTimeoutMs (.time t0 :: es))) RecvX w := by
  induction fuel generalizing pos n t0 w with
  | zero => exact Tr.stuck RecvX.nil
  | succ fuel ih =>
    unfold recvExactLoop
    refine Tr.ite ?_ ?_
    · intro hn
      unfold Tr
      rw [wp_bind]
      refine wp_recvInto (Fxs.refl false w RecvX.nil) (fun hb => ⟨Fxs.refl false w trivial, fun hv => hb hv.1⟩) ?_ ?_
      · intro rest hb hr
        show wp (do markPendingHooked; pure none) _ _ _ _
        rw [wp_bind, wp_markPendingHooked, wp_pure]
        refine ⟨_, false, Fx.failed, rfl, rfl, Nat.zero_le _, by simp, fun _ => ⟨hb, ?_⟩, by omega, by simp⟩
        refine ⟨.failed _ .nil, ?_⟩
        simp [received, writeAt_nil, hasFail, isFail, failedWorld]
      · intro k rest hb hr
        have f := Fx.recvInto (h := false) (w := w) (k := k) (rest := rest) hb
        generalize hbs : w.env.input.take (min k n) = bs at f ⊢
        have hbl : bs.length ≤ n := by rw [← hbs]; simp; omega
        have hst : Stored pos w [.recvd n (some bs)] (recvIntoWorld w pos n k rest) := by
          refine ⟨.cons rfl .nil, ?_⟩
          simp [received, hasFail, isFail, afterFail_false, recvIntoWorld, hbs, recvWorld]
        refine Tr.after f ?_
        show Tr _ false (if bs.length > 0 then _ else _) _ _ _
        have hbuf : (recvIntoWorld w pos n k rest).ctx.bufSize = w.ctx.bufSize := f.bufSize
        refine Tr.ite ?_ ?_
        · intro hk
          refine Tr.getTime hst.1 ?_
          intro t r _
          refine Tr.liftOk (a := ()) (by rw [decide_eq_true hbl]; rfl) ?_
          have hst2 := hst.time t r
          refine Tr.mono ((ih (pos + bs.length) (n - bs.length) t (timeWorld (recvIntoWorld w pos n k rest) t r)).weaken ?_) ?_ ?_
          · intro h; show _ ≤ (recvIntoWorld w pos n k rest).ctx.bufSize; rw [hbuf]; omega
          · intro r es h' w3 f3 ⟨h1, h2, h3, h4, h5, h6, h7⟩
            have hrec : received ([Event.recvd n (some bs)] ++ Event.time t :: es) = bs ++ received es := by
              simp [received]
            have hfl : hasFail ([Event.recvd n (some bs)] ++ Event.time t :: es) = hasFail es := by
              simp [hasFail, isFail]
            refine ⟨h1, by rw [hfl, h2], by rw [hrec]; simp; omega, ?_, fun _ => ⟨hb, ?_⟩, by omega, ?_⟩
            · intro m hm
              rw [h4 m hm, hrec]; simp; omega
            · by_cases hz : n - bs.length > 0
              · have := hst2.append (b := es) (w2 := w3) (by simp [hasFail, isFail])
                  (by have : received ([Event.recvd n (some bs)] ++ [Event.time t]) = bs := by simp [received]
                      rw [this]; omega)
                  (by have : received ([Event.recvd n (some bs)] ++ [Event.time t]) = bs := by simp [received]
                      rw [this]; exact (h5 hz).2)
                simpa using this
              · obtain ⟨_, he, hw⟩ := h6 (by omega)
                subst he hw
                simpa using hst2
            · intro m hm hlt
              exact (h7 m hm (by omega)).append_left [.time t0, .recvd n (some bs)]
          · exact fun es hes => hst.1.app (RecvX.cons rfl hes)
        · intro hk
          have hbs0 : bs = [] := List.length_eq_zero_iff.mp (by omega)
          subst hbs0
          refine Tr.getTime hst.1 ?_
          intro t r _
          have hst2 := hst.time t r
          refine Tr.ite ?_ ?_
          · intro hpoll
            refine Tr.pure ⟨rfl, by simp [hasFail, isFail], by simp [received], by simp [received], fun _ => ⟨hb, by simpa using hst2⟩, by omega, ?_⟩
            intro m _ _
            exact ⟨[], t0, [.recvd n (some [])], t, [], by simp, rfl, ⟨n, by simp⟩, hpoll⟩
          · intro _
            refine Tr.mono ((ih pos n t0 (timeWorld (recvIntoWorld w pos n k rest) t r)).weaken ?_) ?_ ?_
            · intro h; show _ ≤ (recvIntoWorld w pos n k rest).ctx.bufSize; rw [hbuf]; omega
            · intro r' es h' w3 f3 ⟨h1, h2, h3, h4, h5, h6, h7⟩
              have hrec : received ([Event.recvd n (some [])] ++ Event.time t :: es) = received es := by
                simp [received]
              have hfl : hasFail ([Event.recvd n (some [])] ++ Event.time t :: es) = hasFail es := by
                simp [hasFail, isFail]
              refine ⟨h1, by rw [hfl, h2], by rw [hrec]; exact h3, ?_, fun _ => ⟨hb, ?_⟩, by omega, fun m hm hlt => (h7 m hm hlt).poll n t⟩
              · intro m hm
                rw [h4 m hm, hrec]
              · have := hst2.append (b := es) (w2 := w3) (by simp [hasFail, isFail])
                  (by have : received ([Event.recvd n (some ([] : List UInt8))] ++ [Event.time t]) = [] := by simp [received]
                      rw [this]; simp; omega)
                  (by have : received ([Event.recvd n (some ([] : List UInt8))] ++ [Event.time t]) = [] := by simp [received]
                      rw [this]; exact (h5 hn).2)
                simpa using this
            · exact fun es hes => hst.1.app (RecvX.cons rfl hes)
    · intro hn
      have : n = 0 := by omega
      subst this
      exact Tr.pure ⟨rfl, by simp [hasFail], by simp [received], by simp [received], by omega, fun _ => ⟨rfl, rfl, rfl⟩, by rintro m h; cases h; omega⟩

theorem recvExact_tr (g : Cfg) (n : Nat) (w : World) :
    Tr (n ≤ w.ctx.bufSize) false (recvExact g n)
      (fun r es h' w' => h' = false ∧ hasFail es = r.isNone ∧ (received es).length ≤ n ∧
        (∀ m, r = some m → m = (received es).length) ∧ n ≤ w.ctx.bufSize ∧ Stored 0 w es w' ∧
        (∀ m, r = some m → m < n → Starved g.recvPollingTimeoutMs es)) RecvX w := by
  unfold recvExact
  refine Tr.getCtx (Tr.liftRes ?_ ?_)
  · intro a ha
    have hn : n ≤ w.ctx.bufSize := by
      by_cases hn : n ≤ w.ctx.bufSize
      · exact hn
      · rw [decide_eq_false hn] at ha; cases ha
    refine Tr.getTime RecvX.nil ?_
    intro t r _
    have hst := (Stored.nil 0 w).time t r
    refine Tr.recvFuel ?_
    refine Tr.mono ((recvExactLoop_tr g _ 0 n t (timeWorld w t r)).weaken ?_) ?_ ?_
    · intro hv; show 0 + n ≤ w.ctx.bufSize; omega
    · intro r' es h' w4 f ⟨h1, h2, h3, h4, h5, h6, h7⟩
      refine ⟨h1, by rw [hasFail_time, h2], by rw [received_time]; exact h3, ?_, hn, ?_, fun m hm hlt => h7 m hm (by omega)⟩
      · intro m hm; rw [h4 m hm, received_time]; omega
      · by_cases hz : n > 0
        · have := hst.append (b := es) (w2 := w4) (by simp [hasFail, isFail]) (by simp [received]) (by simpa [received] using (h5 hz).2)
          simpa using this
        · obtain ⟨_, he, hw⟩ := h6 (by omega)
          subst he hw
          simpa using hst
    · exact fun es hes => RecvX.cons rfl hes
  · intro e he hv
    rw [decide_eq_true hv.1] at he; cases he

/-- Receiving that keeps only the size of the buffer's content in view. -/
def Scratched (w : World) (es : List Event) (w' : World) : Prop :=
  RecvX es ∧
  ∃ b, b.length = w.ctx.bufSize ∧ w'.ctx = { w.ctx with netBuf := b, connectStatus := afterFail (hasFail es) w.ctx.connectStatus }

theorem Scratched.nil (w : World) : Scratched w [] w :=
  ⟨RecvX.nil, w.ctx.netBuf, rfl, by simp [hasFail, afterFail_false]⟩

theorem Scratched.trans {w w1 w2 : World} {a b : List Event} (h : Scratched w a w1) (h' : Scratched w1 b w2) : Scratched w (a ++ b) w2 := by
  obtain ⟨k, b1, hb1, hc1⟩ := h
  obtain ⟨k', b2, hb2, hc2⟩ := h'
  exact ⟨k.app k', b2, by rw [hb2, hc1]; exact hb1, by rw [hc2, hc1, hasFail_append, ← afterFail_or]⟩

theorem Scratched.time (w : World) (t : UInt32) (r : List UInt32) : Scratched w [.time t] (timeWorld w t r) :=
  ⟨.cons rfl .nil, w.ctx.netBuf, rfl, by simp [hasFail, isFail, afterFail_false, timeWorld]⟩

theorem Stored.scratched {pos : Nat} {w w' : World} {es : List Event} (h : Stored pos w es w') (hl : w'.ctx.bufSize = w.ctx.bufSize) :
    Scratched w es w' := by
  refine ⟨h.1, writeAt w.ctx.netBuf pos (received es), ?_, h.2⟩
  rw [h.2] at hl
  exact hl

theorem discardLoop_tr (g : Cfg) (timeoutMs t0 : UInt32) (fuel left n : Nat) (w : World) :
    Tr (n ≤ w.ctx.bufSize) false (discardLoop g timeoutMs t0 fuel left n)
      (fun left' es h' w' => h' = false ∧ (left' = 0 → (received es).length = left) ∧ (received es).length ≤ left ∧
        (hasFail es = true → left' ≠ 0) ∧ Scratched w es w') RecvX w := by
  induction fuel generalizing left n w with
  | zero => exact Tr.stuck RecvX.nil
  | succ fuel ih =>
    unfold discardLoop
    refine Tr.ite ?_ ?_
    · intro hl
      show Tr _ false (recvExact g (if left < n then left else n) >>= _) _ _ _
      generalize hm : (if left < n then left else n) = m
      have hmn : m ≤ n := by rw [← hm]; split <;> omega
      have hml : m ≤ left := by rw [← hm]; split <;> omega
      refine Tr.bind ((recvExact_tr g m w).weaken (by omega)) ?_
      rintro r es h' w1 f1 ⟨rfl, hf, hlen, hr, hmb, hst, hsv⟩
      have hsc := hst.scratched f1.bufSize
      refine Tr.ite ?_ ?_
      · intro hne
        refine Tr.pure ⟨rfl, by omega, by simp; omega, fun _ => by omega, by simpa using hsc⟩
      · intro heq
        have heq : r = some m := Classical.not_not.mp heq
        have hrm := hr m heq
        have hf0 : hasFail es = false := by rw [hf, heq]; rfl
        refine Tr.getTime (by simpa using hsc.1) ?_
        intro t r2 _
        have hsc2 := hsc.trans (Scratched.time w1 t r2)
        refine Tr.ite ?_ ?_
        · intro _
          refine Tr.pure ⟨rfl, ?_, ?_, ?_, by simpa using hsc2⟩
          · intro h0; simp [received_append, ← hrm, received_time, received_nil]; omega
          · simp [received_append, ← hrm, received_time, received_nil]; omega
          · simp [hasFail_append, hf0, hasFail_time, hasFail_nil]
        · intro _
          refine Tr.mono ((ih (left - m) m (timeWorld w1 t r2)).weaken ?_) ?_ ?_
          · intro hv; show m ≤ w1.ctx.bufSize; rw [f1.bufSize]; omega
          · rintro l' es3 h' w3 f3 ⟨h1, h2, h3, h4, h5⟩
            refine ⟨h1, ?_, ?_, ?_, by simpa using hsc2.trans h5⟩
            · intro h0
              have := h2 h0
              simp [received_append, ← hrm, this, received_time]; omega
            · simp [received_append, ← hrm, received_time]; omega
            · intro hf3
              refine h4 ?_
              simpa [hasFail_append, hf0, hasFail_time] using hf3
          · exact fun es hes => hsc.1.app (RecvX.cons rfl hes)
    · intro hl
      exact Tr.pure ⟨rfl, by intro _; simp [received]; omega, by simp [received], by simp [hasFail], Scratched.nil w⟩

theorem discardStoredLoop_tr (g : Cfg) (fuel left n : Nat) (w : World) :
    Tr (n ≤ w.ctx.bufSize) false (discardStoredLoop g fuel left n)
      (fun left' es h' w' => h' = false ∧ (left' = 0 → (received es).length = left) ∧ (received es).length ≤ left ∧
        (hasFail es = true → left' ≠ 0) ∧ Scratched w es w' ∧ (left' ≠ 0 → hasFail es = true ∨ Starved g.recvPollingTimeoutMs es)) RecvX w := by
  induction fuel generalizing left n w with
  | zero => exact Tr.stuck RecvX.nil
  | succ fuel ih =>
    unfold discardStoredLoop
    refine Tr.ite ?_ ?_
    · intro hl
      show Tr _ false (recvExact g (if left < n then left else n) >>= _) _ _ _
      generalize hm : (if left < n then left else n) = m
      have hmn : m ≤ n := by rw [← hm]; split <;> omega
      have hml : m ≤ left := by rw [← hm]; split <;> omega
      refine Tr.bind ((recvExact_tr g m w).weaken (by omega)) ?_
      rintro r es h' w1 f1 ⟨rfl, hf, hlen, hr, hmb, hst, hsv⟩
      have hsc := hst.scratched f1.bufSize
      refine Tr.ite ?_ ?_
      · intro hne
        refine Tr.pure ⟨rfl, by omega, by simp; omega, fun _ => by omega, by simpa using hsc, fun _ => ?_⟩
        rw [List.append_nil]
        cases r with
        | none => exact Or.inl (by rw [hf]; rfl)
        | some k =>
          refine Or.inr (hsv k rfl ?_)
          have : k ≠ m := fun h => hne (by rw [h])
          have := hr k rfl
          omega
      · intro heq
        have heq : r = some m := Classical.not_not.mp heq
        have hrm := hr m heq
        have hf0 : hasFail es = false := by rw [hf, heq]; rfl
        refine Tr.mono ((ih (left - m) m w1).weaken ?_) ?_ ?_
        · intro hv; rw [f1.bufSize]; omega
        · rintro l' es3 h' w3 f3 ⟨h1, h2, h3, h4, h5, h6⟩
          refine ⟨h1, ?_, ?_, ?_, by simpa using hsc.trans h5, ?_⟩
          · intro h0
            have := h2 h0
            simp [received_append, ← hrm, this]; omega
          · simp [received_append, ← hrm]; omega
          · intro hf3
            refine h4 ?_
            simpa [hasFail_append, hf0] using hf3
          · intro hl
            rcases h6 hl with h | h
            · exact Or.inl (by simp [hasFail_append, h])
            · exact Or.inr (h.append_left _)
        · exact fun es hes => hsc.1.app hes
    · intro hl
      exact Tr.pure ⟨rfl, by intro _; simp [received]; omega, by simp [received], by simp [hasFail], Scratched.nil w, fun h => absurd rfl h⟩

theorem discardPacket_tr (g : Cfg) (n : Nat) (t0 : UInt32) (w : World) :
    Tr True false (discardPacket g n t0)
      (fun st es h' w' => h' = false ∧ (received es).length ≤ n ∧ Scratched w es w' ∧
        (st = .noDataAvailable ∧ (received es).length = n ∧ hasFail es = false ∨ st = .recvFailed)) RecvX w := by
  unfold discardPacket
  refine Tr.getCtx (Tr.getTime RecvX.nil ?_)
  intro t r _
  refine Tr.clockFuel ?_
  refine Tr.bind (R' := fun left' es h' w' => h' = false ∧ (left' = 0 → (received es).length = n) ∧ (received es).length ≤ n ∧
        (hasFail es = true → left' ≠ 0) ∧ Scratched (timeWorld w t r) es w')
    (Tr.mono ((discardLoop_tr g t0 t _ n w.ctx.bufSize (timeWorld w t r)).weaken (fun _ => Nat.le_refl _)) (fun _ _ _ _ _ h => h)
      (fun es hes => RecvX.cons rfl hes)) ?_
  rintro left es h' w4 f ⟨rfl, h2, h3, h4, h5⟩
  have hsc := (Scratched.time w t r).trans h5
  have hrec : received (Event.time t :: (es ++ [])) = received es := by simp [received]
  have hfl : hasFail (Event.time t :: (es ++ [])) = hasFail es := by simp [hasFail, isFail]
  refine Tr.ite ?_ ?_
  · intro h0
    refine Tr.pure ⟨rfl, by rw [hrec]; exact h3, by simpa using hsc, Or.inl ⟨rfl, by rw [hrec]; exact h2 h0, ?_⟩⟩
    rw [hfl]
    cases hh : hasFail es
    · rfl
    · exact absurd h0 (h4 hh)
  · intro h0
    exact Tr.pure ⟨rfl, by rw [hrec]; exact h3, by simpa using hsc, Or.inr rfl⟩

/-- The context with an emptied buffer. -/
def resetCtx (c : Ctx) : Ctx := { c with netBuf := List.replicate c.bufSize 0, index := 0 }

theorem resetBuffer_tr {α : Type} {V : Prop} {h : Bool} {w : World} {X : List Event → Prop} {k : Unit → M α}
    {R : α → List Event → Bool → World → Prop} (hR : Tr V h (k ()) R X { w with ctx := resetCtx w.ctx }) :
    Tr V h (resetBuffer >>= k) R X w := by
  refine Tr.modifyCtx rfl rfl rfl ?_ rfl rfl (fun _ => Nat.zero_le _) rfl hR
  simp [Ctx.bufSize]

/-- `discardStoredPacket`: it reads (at most, and if it succeeds exactly) the part of the packet that is not in the buffer yet, and
empties the buffer. -/
theorem discardStoredPacket_tr (g : Cfg) (n : Nat) (w : World) :
    Tr (n > w.ctx.bufSize) false (discardStoredPacket g n)
      (fun st es h' w' => h' = false ∧ (received es).length ≤ n - w.ctx.index ∧ RecvX es ∧
        w'.ctx = { w.ctx with netBuf := List.replicate w.ctx.bufSize 0, index := 0,
                              connectStatus := afterFail (hasFail es) w.ctx.connectStatus } ∧
        (st = .noDataAvailable ∧ (received es).length = n - w.ctx.index ∧ hasFail es = false ∨
          st = .recvFailed ∧ (hasFail es = true ∨ Starved g.recvPollingTimeoutMs es))) RecvX w := by
  unfold discardStoredPacket
  refine Tr.getCtx (Tr.liftRes ?_ ?_)
  · intro _ _
    refine Tr.clockFuel ?_
    refine Tr.bind ((discardStoredLoop_tr g _ (n - w.ctx.index) w.ctx.bufSize w).weaken (fun _ => Nat.le_refl _)) ?_
    rintro left es h' w4 f ⟨rfl, h2, h3, h4, ⟨hk, b, hb, hc⟩, h6⟩
    refine resetBuffer_tr ?_
    have hctx : resetCtx w4.ctx =
        { w.ctx with netBuf := List.replicate w.ctx.bufSize 0, index := 0, connectStatus := afterFail (hasFail es) w.ctx.connectStatus } := by
      unfold resetCtx
      rw [f.bufSize, hc]
    refine Tr.ite ?_ ?_
    · intro h0
      refine Tr.pure ⟨rfl, by simpa using h3, by simpa using hk, by simpa using hctx, Or.inl ⟨rfl, by simpa using h2 h0, ?_⟩⟩
      rw [List.append_nil]
      cases hh : hasFail es
      · rfl
      · exact absurd h0 (h4 hh)
    · intro h0
      exact Tr.pure ⟨rfl, by simpa using h3, by simpa using hk, by simpa using hctx, Or.inr ⟨rfl, by simpa using h6 h0⟩⟩
  · intro e he hv
    rw [decide_eq_true hv.1] at he; cases he

theorem receivePacket_tr (g : Cfg) (n : Nat) (t0 : UInt32) (w : World) :
    Tr True false (receivePacket g n t0)
      (fun st es h' w' => h' = false ∧ Scratched w es w' ∧ (hasFail es = true → st = .recvFailed) ∧
        (st = .success ∧ (received es).length = n ∧ n ≤ w.ctx.bufSize ∧ w'.ctx.netBuf = writeAt w.ctx.netBuf 0 (received es) ∨
          st = .noDataAvailable ∧ n > w.ctx.bufSize ∧ (received es).length = n ∨
          st = .recvFailed ∧ (n ≤ w.ctx.bufSize → hasFail es = true ∨ (received es).length < n))) RecvX w := by
  unfold receivePacket
  refine Tr.getCtx (Tr.ite ?_ ?_)
  · intro hn
    refine Tr.mono (discardPacket_tr g n t0 w) ?_ (fun _ h => h)
    rintro st es h' w1 f ⟨h1, h2, h3, h4⟩
    refine ⟨h1, h3, ?_, ?_⟩
    · intro hf
      rcases h4 with ⟨_, _, h⟩ | h
      · simp [h] at hf
      · exact h
    · rcases h4 with ⟨h5, h6, _⟩ | h
      · exact Or.inr (Or.inl ⟨h5, hn, h6⟩)
      · exact Or.inr (Or.inr ⟨h, fun h' => by omega⟩)
  · intro hn
    refine Tr.bind ((recvExact_tr g n w).weaken (fun _ => by omega)) ?_
    rintro r es h' w1 f1 ⟨rfl, hf, hlen, hr, hmb, hst, hsv⟩
    have hsc := hst.scratched f1.bufSize
    refine Tr.ite ?_ ?_
    · intro heq
      refine Tr.pure ⟨rfl, by simpa using hsc, ?_, Or.inl ⟨rfl, ?_, by omega, ?_⟩⟩
      · rw [List.append_nil, hf, heq]; simp
      · simpa using (hr n heq).symm
      · rw [hst.2]; simp
    · intro hne
      refine Tr.pure ⟨rfl, by simpa using hsc, fun _ => rfl, Or.inr (Or.inr ⟨rfl, fun _ => ?_⟩)⟩
      rw [List.append_nil]
      cases r with
      | none => exact Or.inl (by simpa using hf)
      | some m =>
        have hm := hr m rfl
        have : m ≠ n := fun h => hne (by rw [h])
        exact Or.inr (by omega)

end Mqtt
