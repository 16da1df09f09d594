/-
The parts of `MQTT_Connect`: reading the CONNACK, resuming and resetting the session.
-/
import Verif.Proof.EffectsApi
import Verif.Proof.Resend
import Verif.Props.Acks

namespace Mqtt
open Spec
set_option linter.unusedSimpArgs false

section
variable {α β : Type} {V : Prop} {h : Bool} {w : World} {X : List Event → Prop}

/-- A failed receive call while there is no connection. -/
theorem Fx.recvFailIdle {h : Bool} {w : World} (n : Nat) (rest : List RecvAns) (hnc : w.ctx.connectStatus ≠ .connected) :
    Fx h w [.recvd n none] h (Mqtt.recvFailWorld w n rest) := by
  refine ⟨rfl, ?_, ?_, ?_, ?_, rfl, rfl, rfl, rfl, ?_, rfl, fun _ _ h => h, Fx.monRefl rfl ?_, ?_⟩ <;>
    simp_all [hasFail, isFail, afterFail, quietAfterFail, noSent, isSent, lockRun, received, monRun, monStep, clearsOk, Mqtt.recvFailWorld]

/-- One byte (or nothing, or an error). -/
theorem Tr.recvOne {k : OneRecv → M α} {R : α → List Event → Bool → World → Prop} (hnc : w.ctx.connectStatus ≠ .connected) (hx : X [])
    (hfail : ∀ w1, w1.ctx = w.ctx → w1.env.recvs.length < w.env.recvs.length →
      Tr V h (k .fail) (fun a es h' w' => R a (.recvd 1 none :: es) h' w') (fun es => X (.recvd 1 none :: es)) w1)
    (hnone : ∀ w1, w1.ctx = w.ctx → w1.env.recvs.length < w.env.recvs.length →
      Tr V h (k .none) (fun a es h' w' => R a (.recvd 1 (some []) :: es) h' w') (fun es => X (.recvd 1 (some []) :: es)) w1)
    (hbyte : ∀ b w1, w1.ctx = w.ctx → w1.env.recvs.length < w.env.recvs.length →
      Tr V h (k (.byte b)) (fun a es h' w' => R a (.recvd 1 (some [b]) :: es) h' w') (fun es => X (.recvd 1 (some [b]) :: es)) w1) :
    Tr V h (Mqtt.recvOne >>= k) R X w := by
  unfold Tr Mqtt.recvOne
  rw [wp_bind, wp_bind]
  refine wp_transportRecv (Fxs.refl h w hx) ?_ ?_
  · intro rest hr
    have f : Fx h w [.recvd 1 none] h (recvFailWorld w 1 rest) := Fx.recvFailIdle 1 rest hnc
    exact Tr.after (R := R) (X := X) f (hfail (recvFailWorld w 1 rest) rfl (by rw [hr]; simp [recvFailWorld]))
  · intro j rest hr
    have f : Fx h w [.recvd 1 (some (w.env.input.take (min j 1)))] h (recvWorld w 1 j rest) := Fx.recvWorld 1 j rest
    have hl : (recvWorld w 1 j rest).env.recvs.length < w.env.recvs.length := by rw [hr]; simp [recvWorld]
    cases hg : w.env.input.take (min j 1) with
    | nil =>
      rw [hg] at f
      have := Tr.after (R := R) (X := X) f (hnone (recvWorld w 1 j rest) rfl hl)
      unfold recvWorld at this
      rw [hg] at this
      exact this
    | cons b bs =>
      have hb : bs = [] := by
        have := congrArg List.length hg
        rw [List.length_take, List.length_cons] at this
        exact List.eq_nil_of_length_eq_zero (by omega)
      subst hb
      rw [hg] at f
      have := Tr.after (R := R) (X := X) f (hbyte b (recvWorld w 1 j rest) rfl hl)
      unfold recvWorld at this
      rw [hg] at this
      exact this
end

/-- Reading the header broke off: receiving failed, or nothing had arrived when the next byte was due. -/
def Broken (es : List Event) : Prop :=
  hasFail es = true ∨ es = [.recvd 1 (some [])] ∨ ∃ l b, es = l ++ [.recvd 1 (some [b]), .recvd 1 (some [])]

theorem Broken.cons {es : List Event} (h : Broken es) (b : UInt8) : Broken (.recvd 1 (some [b]) :: es) := by
  rcases h with h | rfl | ⟨l, c, rfl⟩
  · exact Or.inl (by simpa [hasFail, isFail] using h)
  · exact Or.inr (Or.inr ⟨[], b, rfl⟩)
  · exact Or.inr (Or.inr ⟨_ :: l, c, rfl⟩)

/-- The remaining length is read byte by byte: the result is that of the decoder on a list of answers (`getRemainingLengthLoop`) for the bytes
received. -/
theorem getRemainingLengthLoopM_tr {V : Prop} {h : Bool} (n acc m dec : Nat) (w : World) (hnc : w.ctx.connectStatus ≠ .connected) :
    Tr V h (getRemainingLengthLoopM n acc m dec)
      (fun r es h' w' => h' = h ∧ w'.ctx = w.ctx ∧ RecvX es ∧ (r.1 = remainingLengthInvalid ∨ hasFail es = false) ∧
        getRemainingLengthLoop ((received es).map .byte) acc m dec = (r.1, r.2, []) ∧
        (Broken es ∨ ∀ more : List UInt8, getRemainingLengthLoop ((received es ++ more).map .byte) acc m dec = (r.1, r.2, more.map .byte))) RecvX w := by
  induction n generalizing acc m dec w with
  | zero => exact Tr.stuck RecvX.nil
  | succ n ih =>
    unfold getRemainingLengthLoopM
    refine Tr.ite (fun hm => Tr.pure ⟨rfl, rfl, RecvX.nil, Or.inl rfl, ?_, Or.inr fun more => ?_⟩) (fun hm => ?_)
    · unfold getRemainingLengthLoop
      rw [if_pos hm]; rfl
    · unfold getRemainingLengthLoop
      rw [if_pos hm]; rfl
    refine Tr.recvOne hnc RecvX.nil ?_ ?_ ?_
    · intro w1 hc _
      refine Tr.pure ⟨rfl, hc, RecvX.cons rfl RecvX.nil, Or.inl rfl, ?_, Or.inl (Or.inl rfl)⟩
      unfold getRemainingLengthLoop
      rw [if_neg hm]; rfl
    · intro w1 hc _
      refine Tr.pure ⟨rfl, hc, RecvX.cons rfl RecvX.nil, Or.inl rfl, ?_, Or.inl (Or.inr (Or.inl rfl))⟩
      unfold getRemainingLengthLoop
      rw [if_neg hm]; rfl
    · intro b w1 hc _
      dsimp only
      have hr1 : received [.recvd 1 (some [b])] = [b] := by simp [received]
      refine Tr.ite (fun hi => Tr.pure ⟨rfl, hc, RecvX.cons rfl RecvX.nil, Or.inl rfl, ?_, Or.inr fun more => ?_⟩) (fun hi => ?_)
      · rw [hr1, List.map_cons, List.map_nil, getRemainingLengthLoop, if_neg hm]
        simp only
        rw [if_pos hi]
      · rw [hr1, List.cons_append, List.map_cons, List.nil_append, getRemainingLengthLoop, if_neg hm]
        simp only
        rw [if_pos hi]
      refine Tr.ite (fun hb => ?_) (fun hb => ?_)
      · refine Tr.mono (ih _ _ _ w1 (by rw [hc]; exact hnc)) ?_ (fun es hes => RecvX.cons rfl hes)
        rintro r es h' w' f ⟨h1, h2, h3, h4, h5, h6⟩
        have hr : received (.recvd 1 (some [b]) :: es) = b :: received es := by simp [received]
        refine ⟨h1, h2.trans hc, RecvX.cons rfl h3, ?_, ?_, ?_⟩
        · rcases h4 with h4 | h4
          · exact Or.inl h4
          · exact Or.inr (by simpa [hasFail, isFail] using h4)
        · show getRemainingLengthLoop ((received (.recvd 1 (some [b]) :: es)).map .byte) acc m dec = _
          rw [hr, List.map_cons]
          rw [getRemainingLengthLoop, if_neg hm]
          simp only
          rw [if_neg hi, if_pos hb]
          exact h5
        · rcases h6 with h6 | h6
          · exact Or.inl (h6.cons b)
          · refine Or.inr fun more => ?_
            show getRemainingLengthLoop ((received (.recvd 1 (some [b]) :: es) ++ more).map .byte) acc m dec = _
            rw [hr, List.cons_append, List.map_cons]
            rw [getRemainingLengthLoop, if_neg hm]
            simp only
            rw [if_neg hi, if_pos hb]
            exact h6 more
      · refine Tr.pure ⟨rfl, hc, RecvX.cons rfl RecvX.nil, Or.inr rfl, ?_, Or.inr fun more => ?_⟩
        · rw [hr1, List.map_cons, List.map_nil]
          rw [getRemainingLengthLoop, if_neg hm]
          simp only
          rw [if_neg hi, if_neg hb]
        · rw [hr1, List.cons_append, List.map_cons, List.nil_append]
          rw [getRemainingLengthLoop, if_neg hm]
          simp only
          rw [if_neg hi, if_neg hb]

theorem getRemainingLengthM_tr {V : Prop} {h : Bool} (w : World) (hnc : w.ctx.connectStatus ≠ .connected) :
    Tr V h getRemainingLengthM
      (fun r es h' w' => h' = h ∧ w'.ctx = w.ctx ∧ RecvX es ∧
        (r = remainingLengthInvalid ∧ (∀ n rest, n ≤ maxRemaining → received es ≠ varInt n ++ rest) ∧
            (Broken es ∨ ∀ n rest more, n ≤ maxRemaining → received es ++ more ≠ varInt n ++ rest) ∨
         r ≠ remainingLengthInvalid ∧ hasFail es = false ∧ r ≤ maxRemaining ∧ received es = varInt r)) RecvX w := by
  unfold getRemainingLengthM
  refine Tr.bind (getRemainingLengthLoopM_tr 5 0 1 0 w hnc) ?_
  rintro ⟨r, d⟩ es h' w1 f ⟨rfl, hc, hx, hf, hr, hmore⟩
  dsimp only at hr hf hmore ⊢
  obtain ⟨n, rest, h1, h2⟩ := getRemainingLength_eq (received es)
  unfold getRemainingLength at h1
  rw [hr] at h1
  simp only at h1
  have bad : n = remainingLengthInvalid → ∀ n rest, n ≤ maxRemaining → received es ≠ varInt n ++ rest := by
    intro hn m rs hm he
    rw [he, scan_varInt hm] at h2
    simp only [if_true] at h2
    exact h2.2.1 hn
  have bad' : (r ≠ remainingLengthInvalid ∧ d ≠ remainingLengthEncodedSize r ∨ r = remainingLengthInvalid) →
      Broken es ∨ ∀ n rest more, n ≤ maxRemaining → received es ++ more ≠ varInt n ++ rest := by
    intro hn
    refine hmore.imp_right fun hmore m rs more hm he => ?_
    obtain ⟨n', rest', k1, k2⟩ := getRemainingLength_eq (received es ++ more)
    unfold getRemainingLength at k1
    rw [hmore more] at k1
    simp only at k1
    rw [he, scan_varInt hm] at k2
    simp only [if_true] at k2
    refine k2.2.1 ?_
    rcases hn with ⟨ha, hb⟩ | ha
    · rw [if_pos ha, if_pos hb] at k1
      exact (congrArg Prod.fst k1).symm
    · rw [if_neg (fun h => h ha)] at k1
      exact (congrArg Prod.fst k1).symm.trans ha
  refine Tr.ite (fun hi => Tr.pure ⟨rfl, hc, by simpa using hx, Or.inl ⟨rfl, ?_, by rw [List.append_nil]; exact bad' (Or.inl hi)⟩⟩) (fun hi => Tr.pure ⟨rfl, hc, by simpa using hx, ?_⟩)
  · rw [if_pos hi.1, if_pos hi.2] at h1
    rw [List.append_nil]
    exact bad (congrArg Prod.fst h1).symm
  · rw [List.append_nil]
    by_cases hinv : r = remainingLengthInvalid
    · rw [if_neg (fun h => h hinv)] at h1
      exact Or.inl ⟨hinv, bad ((congrArg Prod.fst h1).symm.trans hinv), bad' (Or.inr hinv)⟩
    · right
      have hd : d = remainingLengthEncodedSize r := by
        by_cases hd : d = remainingLengthEncodedSize r
        · exact hd
        · exact absurd ⟨hinv, hd⟩ hi
      rw [if_pos hinv, if_neg (fun h => h hd)] at h1
      cases h1
      refine ⟨hinv, hf.resolve_left hinv, ?_⟩
      cases hs : scan 4 (received es) with
      | more => rw [hs] at h2; exact absurd h2 hinv
      | bad => rw [hs] at h2; exact absurd h2 hinv
      | done m l =>
        rw [hs] at h2
        simp only at h2
        split at h2
        · rename_i hl
          obtain ⟨rfl, _, h3⟩ := h2
          obtain ⟨k1, k2⟩ := scan_canonical hs
          have k2 := k2.mp hl
          have h3 : (received es).drop l = [] := by
            have := congrArg List.length h3
            rw [List.length_map, List.length_nil] at this
            exact List.eq_nil_of_length_eq_zero this.symm
          rw [h3, List.append_nil] at k2
          exact ⟨k1, k2⟩
        · exact absurd h2 hinv

/-- The outcome of reading the header of the first packet. -/
def FirstHeader (hr : HeaderRes) (es : List Event) : Prop :=
  (hr.status = .noDataAvailable ∧ es = [.recvd 1 (some [])]) ∨
  (hr.status = .recvFailed ∧ es = [.recvd 1 none]) ∨
  (hr.status = .badResponse ∧ (∃ b es', es = .recvd 1 (some [b]) :: es') ∧
    (∀ t n rest, ServerFirstByte t → n ≤ maxRemaining → received es ≠ UInt8.ofNat t :: (varInt n ++ rest)) ∧
    (Broken es ∨ ∀ t n rest more, ServerFirstByte t → n ≤ maxRemaining → received es ++ more ≠ UInt8.ofNat t :: (varInt n ++ rest))) ∨
  (hr.status = .success ∧ hasFail es = false ∧ (∃ b es', es = .recvd 1 (some [b]) :: es') ∧ hr.remainingLength ≤ maxRemaining ∧
    received es = hr.type :: varInt hr.remainingLength ∧ ServerFirstByte hr.type.toNat)

theorem serverFirstByte_lt {t : Nat} (h : ServerFirstByte t) : t < 256 := by
  unfold ServerFirstByte at h
  simp only [List.mem_cons, List.not_mem_nil, or_false] at h
  omega

/-- Either nothing was received or the first receive call delivered a byte. -/
def HeadX (es : List Event) : Prop := RecvX es ∧ (es = [] ∨ ∃ b l, es = .recvd 1 (some [b]) :: l)

theorem getIncomingPacketTypeAndLengthM_tr {V : Prop} {h : Bool} (w : World) (hnc : w.ctx.connectStatus ≠ .connected) :
    Tr V h getIncomingPacketTypeAndLengthM
      (fun r es h' w' => h' = h ∧ w'.ctx = w.ctx ∧ RecvX es ∧ FirstHeader r es) HeadX w := by
  unfold getIncomingPacketTypeAndLengthM
  refine Tr.recvOne hnc ⟨RecvX.nil, Or.inl rfl⟩ ?_ ?_ ?_
  · intro w1 hc hl
    exact Tr.pure ⟨rfl, hc, RecvX.cons rfl RecvX.nil, Or.inr (Or.inl ⟨rfl, rfl⟩)⟩
  · intro w1 hc hl
    exact Tr.pure ⟨rfl, hc, RecvX.cons rfl RecvX.nil, Or.inl ⟨rfl, rfl⟩⟩
  · intro b w1 hc hl
    dsimp only
    have hrec : ∀ es, received (.recvd 1 (some [b]) :: es) = b :: received es := fun es => by simp [received]
    refine Tr.ite (fun hv => ?_) (fun hv => Tr.pure ⟨rfl, hc, RecvX.cons rfl RecvX.nil, Or.inr (Or.inr (Or.inl ⟨rfl, ⟨b, [], rfl⟩, ?_, Or.inr ?_⟩))⟩)
    rotate_left
    · intro t n rest ht hn he
      rw [hrec] at he
      injection he with he _
      refine hv ((incomingPacketValid_iff b).mpr ?_)
      rw [he, UInt8.toNat_ofNat_of_lt' (show t < UInt8.size from serverFirstByte_lt ht)]
      exact ht
    · intro t n rest more ht hn he
      rw [hrec] at he
      injection he with he _
      refine hv ((incomingPacketValid_iff b).mpr ?_)
      rw [he, UInt8.toNat_ofNat_of_lt' (show t < UInt8.size from serverFirstByte_lt ht)]
      exact ht
    refine Tr.bind (R' := fun r es h' w' => h' = h ∧ w'.ctx = w1.ctx ∧ RecvX es ∧
        (r = remainingLengthInvalid ∧ (∀ n rest, n ≤ maxRemaining → received es ≠ varInt n ++ rest) ∧
            (Broken es ∨ ∀ n rest more, n ≤ maxRemaining → received es ++ more ≠ varInt n ++ rest) ∨
         r ≠ remainingLengthInvalid ∧ hasFail es = false ∧ r ≤ maxRemaining ∧ received es = varInt r))
      (Tr.mono (getRemainingLengthM_tr w1 (by rw [hc]; exact hnc)) (fun _ _ _ _ _ h => h) (fun es hes => ⟨RecvX.cons rfl hes, Or.inr ⟨b, es, rfl⟩⟩)) ?_
    rintro n es h' w2 f ⟨rfl, hc2, hx, hn⟩
    refine Tr.ite (fun hi => Tr.pure ⟨rfl, hc2.trans hc, ?_, Or.inr (Or.inr (Or.inl ⟨rfl, ⟨b, es, by simp⟩, ?_, ?_⟩))⟩) (fun hi => ?_)
    · simpa using RecvX.cons rfl hx
    · rcases hn with ⟨_, hn, _⟩ | ⟨hn, _⟩
      · intro t m rest _ hm he
        rw [List.append_nil, hrec] at he
        injection he with _ he
        exact hn m rest hm he
      · exact absurd hi hn
    · rw [List.append_nil]
      rcases hn with ⟨_, _, hn⟩ | ⟨hn, _⟩
      · refine hn.imp (fun h => h.cons b) fun hn t m rest more _ hm he => ?_
        rw [hrec] at he
        injection he with _ he
        exact hn m rest more hm he
      · exact absurd hi hn
    · rcases hn with ⟨hn, _⟩ | ⟨_, h1, h2, h3⟩
      · exact absurd hn hi
      · refine Tr.pure ⟨rfl, hc2.trans hc, by simpa using RecvX.cons rfl hx, Or.inr (Or.inr (Or.inr ⟨rfl, ?_, ⟨b, es, by simp⟩, h2, ?_,
          (incomingPacketValid_iff b).mp hv⟩))⟩
        · simpa [hasFail, isFail] using h1
        · rw [List.append_nil, hrec, h3]

/-! ### Waiting for the first packet -/

/-- The interactions of the polls that found nothing; with a timeout the clock is read after each of them. -/
def pollEvents (timed : Bool) (ts : List UInt32) : List Event :=
  ts.flatMap fun t => .recvd 1 (some []) :: (if timed then [.time t] else [])

/-- Polling goes on after poll number `i` (from 0), at clock reading `t`: with a timeout as long as it has not elapsed since `t0`, without one
`MQTT_MAX_CONNACK_RECEIVE_RETRY_COUNT` times. -/
def pollAgain (g : Cfg) (timeoutMs t0 : UInt32) (i : Nat) (t : UInt32) : Prop :=
  if timeoutMs > 0 then (t - t0) < timeoutMs else i < g.connackRetryCount

/-- The outcome of waiting for the header of the first packet, from poll number `i`. -/
def Polled (g : Cfg) (timeoutMs t0 : UInt32) (i : Nat) (hr : HeaderRes) (es : List Event) : Prop :=
  ∃ ts, (∀ j u, ts[j]? = some u → pollAgain g timeoutMs t0 (i + j) u) ∧
    ((hr.status = .noDataAvailable ∧ ∃ t, ¬ pollAgain g timeoutMs t0 (i + ts.length) t ∧
        es = pollEvents (decide (timeoutMs > 0)) (ts ++ [t])) ∨
     (hr.status ≠ .noDataAvailable ∧ ∃ hd t, FirstHeader hr hd ∧
        es = pollEvents (decide (timeoutMs > 0)) ts ++ hd ++ (if timeoutMs > 0 then [.time t] else [])))

theorem connackBreak_tr {V : Prop} {h : Bool} (g : Cfg) (timeoutMs t0 : UInt32) (i : Nat) (w : World) {X : List Event → Prop} (hx : X []) :
    Tr V h (connackBreak g timeoutMs t0 i)
      (fun b es h' w' => h' = h ∧ w'.ctx = w.ctx ∧ ∃ t, es = (if timeoutMs > 0 then [.time t] else []) ∧
        (b = false ↔ pollAgain g timeoutMs t0 i t)) X w := by
  unfold connackBreak pollAgain
  by_cases ht : timeoutMs > 0
  · simp only [if_pos ht]
    refine Tr.getTime hx ?_
    intro t rest _
    refine Tr.pure ⟨rfl, rfl, t, rfl, ?_⟩
    unfold calculateElapsedTime
    simp
  · simp only [if_neg ht]
    exact Tr.pure ⟨rfl, rfl, 0, rfl, by simp⟩

/-- The wait is bounded, counting from poll number `i`. -/
def WaitOk (g : Cfg) (timeoutMs t0 : UInt32) (i : Nat) (es : List Event) : Prop :=
  if timeoutMs > 0 then waitsUntil timeoutMs t0 es else i + polls es ≤ g.connackRetryCount + 1

theorem WaitOk.start {g : Cfg} {timeoutMs t0 : UInt32} {i : Nat} (hi : i ≤ g.connackRetryCount) {es : List Event}
    (h : es = [] ∨ ∃ e l, es = e :: l ∧ isRecvd e = true ∧ isEmptyPoll e = false) : WaitOk g timeoutMs t0 i es := by
  unfold WaitOk
  rcases h with rfl | ⟨e, l, rfl, h1, h2⟩
  · split
    · exact trivial
    · simp only [polls]; omega
  · split
    · unfold waitsUntil; rw [if_neg (by rw [h2]; decide)]; exact Or.inl h1
    · unfold polls; rw [if_pos h1, if_neg (by rw [h2]; decide)]; omega

/-- One more attempt that found nothing. -/
theorem WaitOk.again {g : Cfg} {timeoutMs t0 : UInt32} {i : Nat} {t : UInt32} (hp : pollAgain g timeoutMs t0 i t) {es : List Event}
    (h : (timeoutMs > 0 → waitsUntil timeoutMs t0 es) ∧ (¬ timeoutMs > 0 → i + 1 + polls es ≤ g.connackRetryCount + 1)) :
    WaitOk g timeoutMs t0 i (.recvd 1 (some []) :: ((if timeoutMs > 0 then [.time t] else []) ++ es)) := by
  unfold WaitOk
  unfold pollAgain at hp
  by_cases ht : timeoutMs > 0
  · simp only [if_pos ht] at hp ⊢
    simp only [List.cons_append, List.nil_append, waitsUntil, isEmptyPoll, if_true]
    rw [if_pos hp]; exact h.1 ht
  · simp only [if_neg ht] at hp ⊢
    have := h.2 ht
    simp only [List.nil_append, polls, isRecvd, isEmptyPoll, if_true]
    omega

/-- The attempt after which no further one is made. -/
theorem WaitOk.last {g : Cfg} {timeoutMs t0 : UInt32} {i : Nat} {t : UInt32} (hi : i ≤ g.connackRetryCount) :
    WaitOk g timeoutMs t0 i (.recvd 1 (some []) :: (if timeoutMs > 0 then [.time t] else [])) := by
  unfold WaitOk
  by_cases ht : timeoutMs > 0
  · simp only [if_pos ht, waitsUntil, isEmptyPoll, if_true]
    split <;> simp
  · simp only [if_neg ht]
    simp [polls, isRecvd, isEmptyPoll]
    omega

theorem WaitOk.stop {g : Cfg} {timeoutMs t0 : UInt32} {i : Nat} (hi : i ≤ g.connackRetryCount) :
    WaitOk g timeoutMs t0 i [.recvd 1 (some [])] := by
  unfold WaitOk
  by_cases ht : timeoutMs > 0
  · simp only [if_pos ht, waitsUntil, isEmptyPoll, if_true]
  · simp only [if_neg ht]
    simp [polls, isRecvd, isEmptyPoll]
    omega

theorem pollAgain.le {g : Cfg} {timeoutMs t0 : UInt32} {i : Nat} {t : UInt32} (hp : pollAgain g timeoutMs t0 i t) (ht : ¬ timeoutMs > 0) :
    i + 1 ≤ g.connackRetryCount := by
  unfold pollAgain at hp
  rw [if_neg ht] at hp
  exact hp

/-- Polls that found nothing and were followed by another one. -/
theorem WaitOk.polled {g : Cfg} {timeoutMs t0 : UInt32} (ts : List UInt32) (i : Nat)
    (h : ∀ j u, ts[j]? = some u → pollAgain g timeoutMs t0 (i + j) u) {es : List Event} (hes : WaitOk g timeoutMs t0 (i + ts.length) es) :
    WaitOk g timeoutMs t0 i (pollEvents (decide (timeoutMs > 0)) ts ++ es) := by
  induction ts generalizing i with
  | nil => simpa [pollEvents] using hes
  | cons t ts ih =>
    have e : pollEvents (decide (timeoutMs > 0)) (t :: ts) ++ es =
        .recvd 1 (some []) :: ((if timeoutMs > 0 then [.time t] else []) ++ (pollEvents (decide (timeoutMs > 0)) ts ++ es)) := by
      by_cases ht : timeoutMs > 0 <;> simp [pollEvents, ht]
    rw [e]
    have h1 := h 0 t (by simp)
    have h2 := ih (i + 1) (fun j u hj => by
      have := h (j + 1) u (by simpa using hj)
      have e : i + (j + 1) = i + 1 + j := by omega
      rwa [e] at this) (by
      have e : i + (t :: ts).length = i + 1 + ts.length := by simp; omega
      rwa [e] at hes)
    refine WaitOk.again h1 ⟨fun ht => ?_, fun ht => ?_⟩
    · unfold WaitOk at h2; rwa [if_pos ht] at h2
    · unfold WaitOk at h2; rwa [if_neg ht] at h2

/-- How many polls found nothing. -/
theorem pollAgain.length {g : Cfg} {timeoutMs t0 : UInt32} {ts : List UInt32} (ht : ¬ timeoutMs > 0)
    (h : ∀ j u, ts[j]? = some u → pollAgain g timeoutMs t0 (0 + j) u) : ts.length ≤ g.connackRetryCount := by
  cases hl : ts.length with
  | zero => omega
  | succ n =>
    have hn : n < ts.length := by omega
    have := (h n ts[n] (List.getElem?_eq_getElem hn)).le ht
    omega

theorem polls_noRecv {b : List Event} (hb : ∀ e ∈ b, isRecvd e = false) : polls b = 0 := by
  induction b with
  | nil => rfl
  | cons e es ih =>
    unfold polls
    rw [if_neg (by rw [hb e List.mem_cons_self]; decide)]
    exact ih (fun x hx => hb x (List.mem_cons_of_mem _ hx))

theorem Polled.waitOk {g : Cfg} {timeoutMs t0 : UInt32} {hr : HeaderRes} {a : List Event} (h : Polled g timeoutMs t0 0 hr a)
    (b : List Event) (hb : hr.status ≠ .success → ∀ e ∈ b, isRecvd e = false) : WaitOk g timeoutMs t0 0 (a ++ b) := by
  obtain ⟨ts, h1, ⟨h2, t, h3, h4⟩ | ⟨h2, hd, t, h3, h4⟩⟩ := h
  · have hbn := hb (by rw [h2]; decide)
    have e : a ++ b = pollEvents (decide (timeoutMs > 0)) ts ++ (.recvd 1 (some []) :: ((if timeoutMs > 0 then [.time t] else []) ++ b)) := by
      rw [h4]
      by_cases ht : timeoutMs > 0 <;> simp [pollEvents, ht]
    rw [e]
    refine WaitOk.polled ts 0 h1 ?_
    unfold WaitOk
    unfold pollAgain at h3
    by_cases ht : timeoutMs > 0
    · simp only [if_pos ht] at h3 ⊢
      simp only [List.cons_append, List.nil_append, waitsUntil, isEmptyPoll, if_true]
      rw [if_neg h3]
      exact hbn
    · simp only [if_neg ht]
      have := pollAgain.length ht h1
      simp only [List.nil_append, polls, isRecvd, isEmptyPoll, if_true, polls_noRecv hbn]
      omega
  · rw [h4, List.append_assoc, List.append_assoc]
    have hhd : ∃ e l, hd ++ ((if timeoutMs > 0 then [.time t] else []) ++ b) = e :: l ∧ isRecvd e = true ∧ isEmptyPoll e = false := by
      rcases h3 with ⟨k, _⟩ | ⟨_, k⟩ | ⟨_, ⟨x, l, k⟩, _⟩ | ⟨_, _, ⟨x, l, k⟩, _⟩
      · exact absurd k h2
      · rw [k]; exact ⟨_, _, rfl, rfl, rfl⟩
      · rw [k]; exact ⟨_, _, rfl, rfl, rfl⟩
      · rw [k]; exact ⟨_, _, rfl, rfl, rfl⟩
    by_cases ht : timeoutMs > 0
    · refine WaitOk.polled ts 0 h1 ?_
      obtain ⟨e, l, k1, k2, k3⟩ := hhd
      rw [k1]
      unfold WaitOk
      rw [if_pos ht]
      unfold waitsUntil
      rw [if_neg (by rw [k3]; decide)]
      exact Or.inl k2
    · exact WaitOk.polled ts 0 h1 (WaitOk.start (by have := pollAgain.length ht h1; omega) (Or.inr hhd))

theorem connackLoop_tr {V : Prop} {h : Bool} (g : Cfg) (timeoutMs t0 : UInt32) (fuel i : Nat) (w : World)
    (hnc : w.ctx.connectStatus ≠ .connected) (hi : ¬ timeoutMs > 0 → i ≤ g.connackRetryCount) :
    Tr V h (connackLoop g timeoutMs t0 fuel i)
      (fun hr es h' w' => h' = h ∧ w'.ctx = w.ctx ∧ RecvX es ∧ Polled g timeoutMs t0 i hr es)
      (fun es => RecvX es ∧ WaitOk g timeoutMs t0 i es) w := by
  have start : ∀ {es : List Event}, (es = [] ∨ ∃ e l, es = e :: l ∧ isRecvd e = true ∧ isEmptyPoll e = false) → WaitOk g timeoutMs t0 i es := by
    intro es hes
    by_cases ht : timeoutMs > 0
    · unfold WaitOk
      rw [if_pos ht]
      rcases hes with rfl | ⟨e, l, rfl, h1, h2⟩
      · exact trivial
      · unfold waitsUntil; rw [if_neg (by rw [h2]; decide)]; exact Or.inl h1
    · exact WaitOk.start (hi ht) hes
  induction fuel generalizing i w with
  | zero => exact Tr.stuck ⟨RecvX.nil, start (Or.inl rfl)⟩
  | succ fuel ih =>
    unfold connackLoop
    refine Tr.bind (R' := fun r es h' w' => h' = h ∧ w'.ctx = w.ctx ∧ RecvX es ∧ FirstHeader r es)
      (Tr.mono (getIncomingPacketTypeAndLengthM_tr w hnc) (fun _ _ _ _ _ h => h) ?_) ?_
    · rintro es ⟨k1, k2⟩
      refine ⟨k1, start ?_⟩
      rcases k2 with rfl | ⟨b, l, rfl⟩
      · exact Or.inl rfl
      · exact Or.inr ⟨_, _, rfl, rfl, rfl⟩
    rintro hr es h' w1 f ⟨rfl, hc, hx, hh⟩
    refine Tr.bind (connackBreak_tr g timeoutMs t0 i w1 ?_) ?_
    · rw [List.append_nil]
      refine ⟨hx, ?_⟩
      rcases hh with ⟨_, h⟩ | ⟨_, h⟩ | ⟨_, ⟨x, l, h⟩, _⟩ | ⟨_, _, ⟨x, l, h⟩, _⟩
      · rw [h]
        by_cases ht : timeoutMs > 0
        · unfold WaitOk
          simp only [if_pos ht, waitsUntil, isEmptyPoll, if_true]
        · exact WaitOk.stop (hi ht)
      · exact start (Or.inr ⟨_, _, h, rfl, rfl⟩)
      · exact start (Or.inr ⟨_, _, h, rfl, rfl⟩)
      · exact start (Or.inr ⟨_, _, h, rfl, rfl⟩)
    rintro brk es1 h' w2 f1 ⟨rfl, hc1, t, he1, hb⟩
    have hx1 : RecvX es1 := by
      rw [he1]; split
      · exact RecvX.cons rfl RecvX.nil
      · exact RecvX.nil
    refine Tr.ite ?_ ?_
    · rintro ⟨hst, hbrk⟩
      have hp := hb.mp hbrk
      have hes : es = [.recvd 1 (some [])] := by
        rcases hh with h | h | h | h
        · exact h.2
        · rw [h.1] at hst; cases hst
        · rw [h.1] at hst; cases hst
        · rw [h.1] at hst; cases hst
      refine Tr.mono (ih (i + 1) w2 (by rw [hc1, hc]; exact hnc) (fun ht => hp.le ht) ?_) ?_ (fun es2 h2 => ⟨by simpa using hx.app (hx1.app h2.1), ?_⟩)
      · intro es hes
        by_cases ht : timeoutMs > 0
        · unfold WaitOk
          rw [if_pos ht]
          rcases hes with rfl | ⟨e, l, rfl, h1, h2⟩
          · exact trivial
          · unfold waitsUntil; rw [if_neg (by rw [h2]; decide)]; exact Or.inl h1
        · exact WaitOk.start (hp.le ht) hes
      rotate_left
      · rw [hes, he1]
        refine WaitOk.again hp ⟨fun ht => ?_, fun ht => ?_⟩
        · have := h2.2; unfold WaitOk at this; rwa [if_pos ht] at this
        · have := h2.2; unfold WaitOk at this; rwa [if_neg ht] at this
      rintro r es2 h' w3 f3 ⟨h1, h2, h3, ts, h4, h5⟩
      refine ⟨h1, h2.trans (hc1.trans hc), by simpa using hx.app (hx1.app h3), t :: ts, ?_, ?_⟩
      · intro j u hj
        cases j with
        | zero => simp at hj; subst hj; exact hp
        | succ j =>
          have := h4 j u (by simpa using hj)
          have e : i + (j + 1) = i + 1 + j := by omega
          rw [e]; exact this
      · have hpe : es ++ (es1 ++ []) = pollEvents (decide (timeoutMs > 0)) [t] := by
          rw [hes, he1]
          by_cases ht : timeoutMs > 0 <;> simp [pollEvents, ht]
        have happ : ∀ l, pollEvents (decide (timeoutMs > 0)) (t :: l) = es ++ (es1 ++ pollEvents (decide (timeoutMs > 0)) l) := by
          intro l
          have : pollEvents (decide (timeoutMs > 0)) (t :: l) =
              pollEvents (decide (timeoutMs > 0)) [t] ++ pollEvents (decide (timeoutMs > 0)) l := by
            simp [pollEvents]
          rw [this, ← hpe]; simp
        rcases h5 with ⟨h5, t', h6, h7⟩ | ⟨h5, hd, t', h6, h7⟩
        · refine Or.inl ⟨h5, t', ?_, ?_⟩
          · have e : i + (t :: ts).length = i + 1 + ts.length := by simp; omega
            rw [e]; exact h6
          · rw [List.cons_append, happ, h7]
        · refine Or.inr ⟨h5, hd, t', h6, ?_⟩
          rw [happ, h7]; simp
    · intro hno
      refine Tr.pure ⟨rfl, hc1.trans hc, by simpa using hx.app hx1, [], by simp, ?_⟩
      by_cases hst : hr.status = .noDataAvailable
      · have hes : es = [.recvd 1 (some [])] := by
          rcases hh with h | h | h | h
          · exact h.2
          · rw [h.1] at hst; cases hst
          · rw [h.1] at hst; cases hst
          · rw [h.1] at hst; cases hst
        refine Or.inl ⟨hst, t, ?_, ?_⟩
        · intro hp
          exact hno ⟨hst, hb.mpr (by simpa using hp)⟩
        · rw [hes, he1]
          by_cases ht : timeoutMs > 0 <;> simp [pollEvents, ht]
      · refine Or.inr ⟨hst, es, t, hh, ?_⟩
        rw [he1]; simp [pollEvents]

/-- Between two bytes of the fixed header a receive call came back empty. -/
def Gap (es : List Event) : Prop := ∃ a x b, es = a ++ .recvd 1 (some [x]) :: .recvd 1 (some []) :: b

theorem Gap.app {es : List Event} (h : Gap es) (a b : List Event) : Gap (a ++ (es ++ b)) := by
  obtain ⟨c, x, d, rfl⟩ := h
  exact ⟨a ++ c, x, d ++ b, by simp⟩

/-- What kept a CONNACK that was under way from being received. -/
def CutShort (w : World) (st : Status) (es : List Event) : Prop :=
  ∀ (more : List UInt8) (f c : UInt8) (rest : List UInt8), received es ++ more = 0x20 :: 2 :: f :: c :: rest → 2 ≤ w.ctx.bufSize → hasFail es = false →
    received es = [0x20, 2, f, c] ∨ st = .recvFailed ∨ received es = [] ∨ Gap es

/-- The outcome of waiting for the CONNACK. -/
structure ConnackDone (g : Cfg) (timeoutMs : UInt32) (clean sp0 : Bool) (w : World) (st : Status) (sp : Bool) (es : List Event) (w' : World) : Prop where
  recv : RecvX es
  ctx : ∃ b, b.length = w.ctx.bufSize ∧ w'.ctx = { w.ctx with netBuf := b }
  wait : ∃ t0 hr a b, es = .time t0 :: (a ++ b) ∧ Polled g timeoutMs t0 0 hr a ∧ (hr.status ≠ .success → b = [] ∧ st = hr.status)
  accept : st = .success ↔ hasFail es = false ∧ 2 ≤ w.ctx.bufSize ∧
    ((received es = [0x20, 2, 0, 0]) ∨ (received es = [0x20, 2, 1, 0] ∧ clean = false))
  session : st = .success → sp = decide (received es = [0x20, 2, 1, 0])
  refused : st = .serverRefused ↔ hasFail es = false ∧ 2 ≤ w.ctx.bufSize ∧
    ∃ code : UInt8, 1 ≤ code.toNat ∧ code.toNat ≤ 5 ∧ received es = [0x20, 2, 0, code]
  statuses : st ∈ [.success, .serverRefused, .badResponse, .recvFailed, .noDataAvailable]
  cut : CutShort w st es

theorem pollEvents_received (b : Bool) (ts : List UInt32) : received (pollEvents b ts) = [] ∧ hasFail (pollEvents b ts) = false := by
  induction ts with
  | nil => exact ⟨rfl, rfl⟩
  | cons t ts ih =>
    have : pollEvents b (t :: ts) = (.recvd 1 (some []) :: (if b then [.time t] else [])) ++ pollEvents b ts := by simp [pollEvents]
    rw [this, received_append, hasFail_append, ih.1, ih.2]
    cases b <;> simp [received, hasFail, isFail]

/-- The bytes of the header and whether they are a valid header. -/
theorem Polled.header {g : Cfg} {timeoutMs t0 : UInt32} {i : Nat} {hr : HeaderRes} {es : List Event} (h : Polled g timeoutMs t0 i hr es) :
    (hr.status = .noDataAvailable ∨ hr.status = .recvFailed ∨ hr.status = .badResponse) ∧
      (∀ t n rest, ServerFirstByte t → n ≤ maxRemaining → received es ≠ UInt8.ofNat t :: (varInt n ++ rest)) ∨
    (hr.status = .success ∧ hasFail es = false ∧ hr.remainingLength ≤ maxRemaining ∧
      received es = hr.type :: varInt hr.remainingLength ∧ ServerFirstByte hr.type.toNat) := by
  obtain ⟨ts, _, ⟨h1, t, _, h2⟩ | ⟨h1, hd, t, h2, h3⟩⟩ := h
  · left
    refine ⟨Or.inl h1, ?_⟩
    intro t n rest _ _ he
    rw [h2, (pollEvents_received _ _).1] at he
    cases he
  · have e1 : received es = received hd := by
      rw [h3, received_append, received_append, (pollEvents_received _ _).1]
      split <;> simp [received]
    have e2 : hasFail es = hasFail hd := by
      rw [h3, hasFail_append, hasFail_append, (pollEvents_received _ _).2]
      split <;> simp [hasFail, isFail]
    rw [e1, e2]
    rcases h2 with ⟨k, _⟩ | ⟨k, k2⟩ | ⟨k, _, k2, _⟩ | ⟨k1, k2, _, k3, k4, k5⟩
    · exact absurd k h1
    · refine Or.inl ⟨Or.inr (Or.inl k), ?_⟩
      intro t n rest _ _ he
      rw [k2] at he
      cases he
    · exact Or.inl ⟨Or.inr (Or.inr k), k2⟩
    · exact Or.inr ⟨k1, k2, k3, k4, k5⟩

/-- A valid header was not read: because nothing arrived, receiving failed, or there was a gap. -/
theorem Polled.missed {g : Cfg} {timeoutMs t0 : UInt32} {i : Nat} {hr : HeaderRes} {es : List Event} (h : Polled g timeoutMs t0 i hr es)
    (hs : hr.status ≠ .success) (hf : hasFail es = false) {t n : Nat} {rest more : List UInt8} (ht : ServerFirstByte t) (hn : n ≤ maxRemaining)
    (hr : received es ++ more = UInt8.ofNat t :: (varInt n ++ rest)) : received es = [] ∨ Gap es := by
  obtain ⟨ts, _, ⟨h1, t, _, h2⟩ | ⟨h1, hd, t, h2, h3⟩⟩ := h
  · exact Or.inl (by rw [h2, (pollEvents_received _ _).1])
  · have e1 : received es = received hd := by
      rw [h3, received_append, received_append, (pollEvents_received _ _).1]
      split <;> simp [received]
    have e2 : hasFail es = hasFail hd := by
      rw [h3, hasFail_append, hasFail_append, (pollEvents_received _ _).2]
      split <;> simp [hasFail, isFail]
    rw [e1] at hr
    rw [e2] at hf
    rcases h2 with ⟨k, _⟩ | ⟨k, k2⟩ | ⟨k, ⟨b, es', k1⟩, _, k2⟩ | ⟨k, _⟩
    · exact absurd k h1
    · rw [k2] at hf; cases hf
    · right
      rw [h3, List.append_assoc]
      refine Gap.app ?_ _ _
      rcases k2 with (k2 | k2 | ⟨l, x, k2⟩) | k2
      · rw [hf] at k2; cases k2
      · rw [k2] at k1; cases k1
      · exact ⟨l, x, [], k2⟩
      · exact absurd hr (k2 _ _ _ _ ht hn)
    · exact absurd k hs

/-- Bytes with a valid header in front determine the header. -/
theorem header_unique {t t' : UInt8} {n n' : Nat} {a b : List UInt8} (hn : n ≤ maxRemaining) (hn' : n' ≤ maxRemaining)
    (h : t :: (varInt n ++ a) = t' :: (varInt n' ++ b)) : t = t' ∧ n = n' ∧ a = b := by
  injection h with h1 h2
  have h3 := scan_varInt (n := n) hn a
  rw [h2, scan_varInt hn' b] at h3
  injection h3 with h3 _
  subst h3
  exact ⟨h1, rfl, List.append_cancel_left h2⟩

theorem varInt_two : varInt 2 = [2] := by decide +kernel

/-- What happened when waiting for the CONNACK did not come to an end. -/
def ConnackX (g : Cfg) (timeoutMs : UInt32) (es : List Event) : Prop :=
  RecvX es ∧ (es = [] ∨ ∃ t0 l, es = .time t0 :: l ∧ WaitOk g timeoutMs t0 0 l)

theorem receiveConnack_tr (g : Cfg) (timeoutMs : UInt32) (clean sp0 : Bool) (w : World) (hnc : w.ctx.connectStatus = .notConnected) :
    Tr True false (receiveConnack g timeoutMs clean sp0)
      (fun r es h' w' => ConnackDone g timeoutMs clean sp0 w r.1 r.2 es w') (ConnackX g timeoutMs) w := by
  have hn : w.ctx.connectStatus ≠ .connected := by rw [hnc]; decide
  unfold receiveConnack
  refine Tr.getTime ⟨RecvX.nil, Or.inl rfl⟩ ?_
  intro t0 rest _
  refine Tr.recvFuel ?_
  refine Tr.bind (R' := fun hr es h' w' => h' = false ∧ w'.ctx = w.ctx ∧ RecvX es ∧ Polled g timeoutMs t0 0 hr es)
    (Tr.mono (connackLoop_tr g timeoutMs t0 _ 0 (timeWorld w t0 rest) hn (fun _ => Nat.zero_le _)) (fun _ _ _ _ _ h => h)
      (fun es hes => ⟨RecvX.cons rfl hes.1, Or.inr ⟨t0, es, rfl, hes.2⟩⟩)) ?_
  rintro hr es h' w1 f ⟨rfl, hc, hx, hp⟩
  -- the cases in which no CONNACK was read
  have other : ∀ (st : Status) (a : List Event) (w' : World), RecvX a → (∃ b, b.length = w.ctx.bufSize ∧ w'.ctx = { w.ctx with netBuf := b }) →
      (hr.status ≠ .success → a = [] ∧ st = hr.status) →
      (∀ f c, received es ++ received a = [0x20, 2, f, c] → hasFail a = true ∨ w.ctx.bufSize < 2) → st ≠ .success → st ≠ .serverRefused →
      CutShort w st (.time t0 :: (es ++ a)) →
      st ∈ [.success, .serverRefused, .badResponse, .recvFailed, .noDataAvailable] →
      ConnackDone g timeoutMs clean sp0 w st sp0 (.time t0 :: (es ++ a)) w' := by
    intro st a w' ha hctx hw hne h1 h2 hcut h3
    have hrec : received (.time t0 :: (es ++ a)) = received es ++ received a := by rw [received_time, received_append]
    have hfe : hasFail (.time t0 :: (es ++ a)) = (hasFail es || hasFail a) := by rw [hasFail_time, hasFail_append]
    refine ⟨RecvX.cons rfl (hx.app ha), hctx, ⟨t0, hr, es, a, rfl, hp, hw⟩, ?_, fun h => absurd h h1, ?_, h3, hcut⟩
    · rw [hrec]
      constructor
      · intro h; exact absurd h h1
      · rintro ⟨k1, k2, h | ⟨h, _⟩⟩
        · rcases hne 0 0 h with h | h
          · rw [hfe, h] at k1; simp at k1
          · omega
        · rcases hne 1 0 h with h | h
          · rw [hfe, h] at k1; simp at k1
          · omega
    · rw [hrec]
      constructor
      · intro h; exact absurd h h2
      · rintro ⟨k1, k2, c, _, _, h⟩
        rcases hne 0 c h with h | h
        · rw [hfe, h] at k1; simp at k1
        · omega
  have conn : ∀ (f c : UInt8) (a : List UInt8), (0x20 : UInt8) :: (varInt 2 ++ ([f, c] ++ a)) = [0x20, 2, f, c] ++ a := by
    intro f c a; rw [varInt_two]; rfl
  rcases hp.header with ⟨hst, hbad⟩ | ⟨hst, hf, hlen, hrec, hsrv⟩
  · have hst' : hr.status ≠ .success := by rcases hst with h | h | h <;> rw [h] <;> decide
    refine Tr.ite (fun _ => Tr.pure ?_) (fun h => absurd hst' h)
    refine other hr.status [] w1 RecvX.nil ⟨w.ctx.netBuf, rfl, by rw [hc]⟩ (fun _ => ⟨rfl, rfl⟩) ?_ hst' ?_ ?_ ?_
    · intro f c he
      rw [received_nil, List.append_nil] at he
      exfalso
      refine hbad 0x20 2 [f, c] (by decide) (by decide) ?_
      rw [he, varInt_two]; rfl
    · rcases hst with h | h | h <;> rw [h] <;> decide
    · intro more f c rest he _ hfe
      rw [List.append_nil] at he hfe ⊢
      rw [received_time] at he ⊢
      rw [hasFail_time] at hfe
      right; right
      refine (hp.missed hst' hfe (t := 0x20) (n := 2) (rest := f :: c :: rest) (more := more) (by decide) (by decide) ?_).imp_right fun h => ?_
      · rw [he, varInt_two]; rfl
      · have := h.app [.time t0] []
        rwa [List.append_nil] at this
    · rcases hst with h | h | h <;> rw [h] <;> decide
  · refine Tr.ite (fun h => absurd hst h) (fun _ => ?_)
    unfold finishConnack
    refine Tr.getTime ⟨by simpa using RecvX.cons rfl hx, Or.inr ⟨t0, es, by simp, by simpa using hp.waitOk [] (fun _ => by simp)⟩⟩ ?_
    intro t1 rest1 _
    dsimp only
    refine Tr.ite (fun hty => ?_) (fun hty => Tr.pure ?_)
    · -- a CONNACK
      have hty : hr.type = 0x20 := hty
      -- if the bytes look like a CONNACK the header said so
      have shape : ∀ (x : List UInt8) f c, received es ++ x = [0x20, 2, f, c] → hr.remainingLength = 2 ∧ x = [f, c] := by
        intro x f c he
        rw [hrec, hty] at he
        have h2 := header_unique (t := 0x20) (t' := 0x20) (n' := 2) (b := [f, c]) hlen (by decide)
          (by rw [varInt_two]; simpa using he)
        exact ⟨h2.2.1, h2.2.2⟩
      have shape' : ∀ (x : List UInt8) f c rest, received es ++ x = 0x20 :: 2 :: f :: c :: rest → hr.remainingLength = 2 ∧ x = f :: c :: rest := by
        intro x f c rest he
        rw [hrec, hty] at he
        have h2 := header_unique (t := 0x20) (t' := 0x20) (n' := 2) (b := f :: c :: rest) hlen (by decide)
          (by rw [varInt_two]; simpa using he)
        exact ⟨h2.2.1, h2.2.2⟩
      refine Tr.bind (R' := fun st es2 h' w2 => h' = false ∧ Scratched (timeWorld w1 t1 rest1) es2 w2 ∧ (hasFail es2 = true → st = .recvFailed) ∧
          (st = .success ∧ (received es2).length = hr.remainingLength ∧ hr.remainingLength ≤ w.ctx.bufSize ∧
              w2.ctx.netBuf = writeAt w.ctx.netBuf 0 (received es2) ∨
            st = .noDataAvailable ∧ hr.remainingLength > w.ctx.bufSize ∧ (received es2).length = hr.remainingLength ∨
            st = .recvFailed ∧ (hr.remainingLength ≤ w.ctx.bufSize → hasFail es2 = true ∨ (received es2).length < hr.remainingLength))) ?_ ?_
      · refine Tr.mono (receivePacket_tr g hr.remainingLength _ (timeWorld w1 t1 rest1)) ?_ ?_
        · rintro st es2 h' w2 f2 ⟨k1, k2, k3, k4⟩
          have e : (timeWorld w1 t1 rest1).ctx = w.ctx := hc
          rw [e] at k4
          exact ⟨k1, k2, k3, k4⟩
        · intro es2 h2
          exact ⟨RecvX.cons rfl (hx.app (RecvX.cons rfl h2)), Or.inr ⟨t0, _, rfl, hp.waitOk _ (fun h => absurd hst h)⟩⟩
      · rintro st es2 h' w2 f2 ⟨rfl, ⟨k1, b, hb, hctx⟩, k3, k4⟩
        have e : (timeWorld w1 t1 rest1).ctx = w.ctx := hc
        rw [e, hnc] at hctx
        rw [e] at hb
        have hctx : w2.ctx = { w.ctx with netBuf := b } := by
          rw [hctx]
          have : afterFail (hasFail es2) .notConnected = .notConnected := by unfold afterFail; simp
          rw [this, ← hnc]
        have hx2 : RecvX (.time t1 :: es2) := RecvX.cons rfl k1
        refine Tr.ite (fun hne => Tr.pure ?_) (fun hne => ?_)
        · -- the body could not be read
          have := other st (.time t1 :: es2) w2 hx2 ⟨b, hb, hctx⟩ (fun h => absurd hst h) ?_ hne ?_ ?_ ?_
          · simpa using this
          · intro f c he
            rw [received_time] at he
            obtain ⟨e1, e2⟩ := shape _ _ _ he
            rw [hasFail_time]
            rcases k4 with h | h | h
            · exact absurd h.1 hne
            · right; omega
            · by_cases hle : hr.remainingLength ≤ w.ctx.bufSize
              · rcases h.2 hle with h | h
                · exact Or.inl h
                · rw [e2] at h; simp at h; omega
              · right; omega
          · rcases k4 with h | h | h <;> rw [h.1] <;> decide
          · intro more f c rest he hbuf _
            rw [received_time, received_append, received_time, List.append_assoc] at he
            obtain ⟨e1, _⟩ := shape' _ _ _ _ he
            rcases k4 with h | h | h
            · exact absurd h.1 hne
            · omega
            · exact Or.inr (Or.inl h.1)
          · rcases k4 with h | h | h <;> rw [h.1] <;> decide
        · have hne : st = .success := Classical.not_not.mp hne
          rcases k4 with ⟨_, k5, k6, k7⟩ | h | h
          rotate_left
          · rw [h.1] at hne; cases hne
          · rw [h.1] at hne; cases hne
          have hf2 : hasFail es2 = false := by
            cases hf2 : hasFail es2 with
            | false => rfl
            | true => rw [k3 hf2] at hne; cases hne
          have hbuf : w2.ctx.netBuf = received es2 ++ w.ctx.netBuf.drop (received es2).length := by
            rw [k7]; simp [writeAt]
          refine Tr.getCtx ?_
          obtain ⟨ast, sp, a1, a2, a3, a4, a5, a6, a7⟩ := C12_connack (received es2) (w.ctx.netBuf.drop (received es2).length) hr.headerLength none sp0
          refine Tr.liftOk (a := (ast, none, some sp)) ?_ ?_
          · rw [hbuf, hty, ← k5]; exact a1
          have hall : received (.time t0 :: (es ++ (.time t1 :: es2))) = received es ++ received es2 := by
            rw [received_time, received_append, received_time]
          have hfall : hasFail (.time t0 :: (es ++ (.time t1 :: es2))) = false := by
            rw [hasFail_time, hasFail_append, hasFail_time, hf, hf2]; rfl
          have build : ∀ st', (st' = .success ↔ (ast = .success ∧ ¬ (clean = true ∧ sp = true))) →
              (st' = .serverRefused ↔ ast = .serverRefused) → st' ∈ [.success, .serverRefused, .badResponse, .recvFailed, .noDataAvailable] →
              ConnackDone g timeoutMs clean sp0 w st' sp (.time t0 :: (es ++ (.time t1 :: es2))) w2 := by
            intro st' b1 b2 b3
            have body : ∀ f c : UInt8, received es2 = [f, c] ↔ (2 ≤ w.ctx.bufSize ∧ received es ++ received es2 = [0x20, 2, f, c]) := by
              intro f c
              constructor
              · intro h
                have h2 : hr.remainingLength = 2 := by rw [← k5, h]; rfl
                refine ⟨by omega, ?_⟩
                rw [hrec, hty, h2, h, varInt_two]; rfl
              · intro h
                exact (shape _ _ _ h.2).2
            refine ⟨RecvX.cons rfl (hx.app hx2), ⟨b, hb, hctx⟩, ⟨t0, hr, es, .time t1 :: es2, rfl, hp, fun h => absurd hst h⟩, ?_, ?_, ?_, b3, ?_⟩
            · rw [hall, hfall, b1, a2, body, body]
              constructor
              · rintro ⟨⟨h1, h2⟩ | ⟨h1, h2⟩, h3⟩
                · exact ⟨rfl, h1, Or.inl h2⟩
                · have := a6 0 ((body _ _).mpr ⟨h1, h2⟩)
                  refine ⟨rfl, h1, Or.inr ⟨h2, ?_⟩⟩
                  cases clean with
                  | false => rfl
                  | true => exact absurd ⟨rfl, this⟩ h3
              · rintro ⟨_, h1, h2 | ⟨h2, h3⟩⟩
                · have := a5 0 ((body _ _).mpr ⟨h1, h2⟩)
                  exact ⟨Or.inl ⟨h1, h2⟩, by simp [this]⟩
                · exact ⟨Or.inr ⟨h1, h2⟩, by simp [h3]⟩
            · intro h
              rw [hall]
              rcases a2.mp (b1.mp h).1 with h2 | h2
              · rw [a5 0 h2, ((body _ _).mp h2).2]; decide
              · rw [a6 0 h2, ((body _ _).mp h2).2]; decide
            · rw [hall, hfall, b2, a3]
              constructor
              · rintro ⟨c, h1, h2, h3⟩
                exact ⟨rfl, ((body _ _).mp h3).1, c, h1, h2, ((body _ _).mp h3).2⟩
              · rintro ⟨_, h0, c, h1, h2, h3⟩
                exact ⟨c, h1, h2, (body _ _).mpr ⟨h0, h3⟩⟩
            · intro more f c rest he hbuf' _
              rw [hall] at he ⊢
              rw [List.append_assoc] at he
              obtain ⟨e1, e2⟩ := shape' _ _ _ _ he
              rw [e1] at k5
              left
              have e3 : received es2 = [f, c] := by
                have := congrArg (List.take 2) e2
                rw [List.take_append_of_le_length (by omega), List.take_of_length_le (by omega)] at this
                simpa using this
              exact ((body _ _).mp e3).2
          simp only [Option.getD_some]
          refine Tr.ite ?_ ?_
          · rintro ⟨h1, h2, h3⟩
            refine Tr.pure ?_
            have := build .badResponse ?_ ?_ (by decide)
            · simpa using this
            · constructor
              · intro h; cases h
              · rintro ⟨_, h⟩; exact absurd ⟨h2, h3⟩ h
            · rw [h1]; simp
          · intro hno
            refine Tr.pure ?_
            have := build ast ?_ Iff.rfl ?_
            · simpa using this
            · constructor
              · exact fun h => ⟨h, fun h' => hno ⟨h, h'⟩⟩
              · exact fun h => h.1
            · rcases a4 with h | h | h <;> rw [h] <;> decide
    · have hty : hr.type ≠ 0x20 := hty
      have := other .badResponse [.time t1] (timeWorld w1 t1 rest1) (RecvX.cons rfl RecvX.nil) ⟨w.ctx.netBuf, rfl, by show w1.ctx = _; rw [hc]⟩
        (fun h => absurd hst h) ?_ (by decide) (by decide) ?_ (by decide)
      · simpa using this
      · intro f c he
        rw [received_time, received_nil, List.append_nil, hrec] at he
        injection he with he _
        exact absurd he hty
      · intro more f c rest he _ _
        rw [received_time, received_append, received_time, received_nil, List.append_nil, hrec] at he
        injection he with he _
        exact absurd he hty

end Mqtt
