/-
C70: a client whose application polls keeps the promise of its keep-alive interval.
-/
import Verif.Spec.Alive
import Verif.Props.Silence
import Verif.Props.Session

namespace Mqtt
open Spec
set_option linter.unusedSimpArgs false

/-! ### Clocked events -/

theorem clocked_split : ∀ (a b : List Event) (n l : Nat) (p : Bool) (n' l' : Nat) (x : UInt32), Clocked n l p (a ++ b) n' l' →
    ∃ m lm, Clocked n l p a m lm ∧ Clocked m lm (lastTx (x, p) a).2 b n' l'
  | [], b, n, l, p, n', l', x, h => ⟨n, l, ⟨Nat.le_refl _, rfl⟩, h⟩
  | y :: a, b, n, l, p, n', l', x, h => by
    cases y with
    | time t =>
      obtain ⟨T, h1, h2, h3⟩ := h
      obtain ⟨m, lm, h4, h5⟩ := clocked_split a b _ _ _ _ _ (if p then t else x) h3
      exact ⟨m, lm, ⟨T, h1, h2, h4⟩, h5⟩
    | sent bs r =>
      cases r with
      | none => exact clocked_split a b _ _ _ _ _ x h
      | some k => exact clocked_split a b _ _ _ _ _ x h
    | _ => exact clocked_split a b _ _ _ _ _ x h

theorem clocked_low : ∀ (es : List Event) (n l : Nat) (p : Bool) (n' l' : Nat), Clocked n l p es n' l' → l ≤ n →
    l ≤ l' ∧ l' ≤ n' ∧ n ≤ n' ∧ (lastTx (UInt32.ofNat l, p) es).1 = UInt32.ofNat l'
  | [], n, l, p, n', l', ⟨h1, h2⟩, hl => by subst h2; exact ⟨Nat.le_refl _, by omega, h1, rfl⟩
  | y :: es, n, l, p, n', l', h, hl => by
    cases y with
    | time t =>
      obtain ⟨T, h1, rfl, h3⟩ := h
      obtain ⟨k1, k2, k3, k4⟩ := clocked_low es _ _ _ _ _ h3 (by cases p <;> simp <;> omega)
      refine ⟨?_, k2, by omega, ?_⟩
      · cases p <;> simp at k1 <;> omega
      · cases p <;> exact k4
    | sent bs r =>
      cases r with
      | none => exact clocked_low es _ _ _ _ _ h hl
      | some k => exact clocked_low es _ _ _ _ _ h hl
    | _ => exact clocked_low es _ _ _ _ _ h hl

/-- A transmission among the events is not earlier than they are. -/
theorem clocked_fresh : ∀ (es : List Event) (n l : Nat) (p : Bool) (n' l' : Nat), Clocked n l p es n' l' → l ≤ n → stampRun p es = some false →
    (p = true ∨ wire es ≠ []) → n ≤ l'
  | [], n, l, p, n', l', h, _, hs, hp => by
    rcases hp with rfl | hp
    · cases hs
    · exact absurd rfl hp
  | y :: es, n, l, p, n', l', h, hl, hs, hp => by
    cases p with
    | true =>
      cases y with
      | time t =>
        obtain ⟨T, h1, rfl, h3⟩ := h
        have := (clocked_low es _ _ _ _ _ h3 (by simp)).1
        simp at this
        omega
      | _ => cases hs
    | false =>
      have hw : wire (y :: es) ≠ [] := by
        rcases hp with h | h
        · cases h
        · exact h
      cases y with
      | time t =>
        obtain ⟨T, h1, rfl, h3⟩ := h
        have := clocked_fresh es _ _ _ _ _ h3 (by simp; omega) hs (Or.inr hw)
        omega
      | sent bs r =>
        cases r with
        | none => exact clocked_fresh es _ _ _ _ _ h hl hs (Or.inr hw)
        | some k =>
          refine clocked_fresh es _ _ _ _ _ h hl hs ?_
          by_cases hk : 0 < k
          · left; simp [hk]
          · right
            have : k = 0 := by omega
            subst this
            simpa [wire] using hw
      | _ => exact clocked_fresh es _ _ _ _ _ h hl hs (Or.inr hw)

/-! ### What a call does to the outstanding ping -/

/-- A ping that is outstanding was so when the events `es` began, or it was sent among them and its time is that of the transmission. -/
def FreshPing (tr0 : List Event) (l0 : UInt32) (wt0 : Bool) (pt0 : UInt32) (w : World) : Prop :=
  ∃ es, w.trace = tr0 ++ es ∧ stampRun false es = some false ∧ lastTx (l0, false) es = (w.ctx.lastPacketTxTime, false) ∧
    (w.ctx.waitingForPingResp = true → (wt0 = true ∧ w.ctx.pingReqSendTimeMs = pt0) ∨
      ∃ a b, es = a ++ b ∧ wire a ≠ [] ∧ stampRun false a = some false ∧ lastTx (l0, false) a = (w.ctx.pingReqSendTimeMs, false))

section
variable {tr0 : List Event} {l0 : UInt32} {wt0 : Bool} {pt0 : UInt32}

theorem FreshPing.grow {w w' : World} (h : FreshPing tr0 l0 wt0 pt0 w) (es' : List Event) (ht : w'.trace = w.trace ++ es')
    (hs : stampRun false es' = some false) (hl : lastTx (w.ctx.lastPacketTxTime, false) es' = (w'.ctx.lastPacketTxTime, false))
    (hc : w'.ctx.waitingForPingResp = true → (w.ctx.waitingForPingResp = true ∧ w'.ctx.pingReqSendTimeMs = w.ctx.pingReqSendTimeMs) ∨
      (wire es' ≠ [] ∧ w'.ctx.pingReqSendTimeMs = w'.ctx.lastPacketTxTime)) : FreshPing tr0 l0 wt0 pt0 w' := by
  obtain ⟨es, h1, h2, h3, h4⟩ := h
  have k2 : stampRun false (es ++ es') = some false := by rw [stampRun_append, h2]; exact hs
  have k3 : lastTx (l0, false) (es ++ es') = (w'.ctx.lastPacketTxTime, false) := by rw [lastTx_append, h3, hl]
  refine ⟨es ++ es', by rw [ht, h1, List.append_assoc], k2, k3, fun hw => ?_⟩
  rcases hc hw with ⟨c1, c2⟩ | ⟨c1, c2⟩
  · rcases h4 c1 with ⟨d1, d2⟩ | ⟨a, b, d1, d2, d3, d4⟩
    · exact Or.inl ⟨d1, c2.trans d2⟩
    · exact Or.inr ⟨a, b ++ es', by rw [d1, List.append_assoc], d2, d3, by rw [c2]; exact d4⟩
  · refine Or.inr ⟨es ++ es', [], (List.append_nil _).symm, ?_, k2, by rw [k3, c2]⟩
    rw [wire_append]
    intro h
    exact c1 (List.append_eq_nil_iff.mp h).2

instance freshPing_closed0 : Closed0 (FreshPing tr0 l0 wt0 pt0) where
  modify w f hf h := h.grow [] (by simp) rfl (by show _ = ((f w.ctx).lastPacketTxTime, false); rw [(hf w.ctx).1]; rfl) (fun h => Or.inl ((hf w.ctx).2 h))
  add w e env he h := h.grow [e] rfl (stampRun_plain he) (lastTx_plain _ he) (fun h => Or.inl ⟨h, rfl⟩)
  idle w bs r env hr h := h.grow [.sent bs r] rfl (by rcases hr with rfl | rfl <;> rfl) (by rcases hr with rfl | rfl <;> rfl) (fun h => Or.inl ⟨h, rfl⟩)
  sent w bs k t env hk h := h.grow ([.sent bs (some k)] ++ [.time t]) (by simp) (by simp [stampRun, hk]) (by simp [lastTx, hk]) (fun h => Or.inl ⟨h, rfl⟩)

/-- The events since the trace `tr0`: a transmission is followed by a reading of the clock, and the last such reading is noted. -/
def Noted (tr0 : List Event) (l0 : UInt32) (w : World) : Prop :=
  ∃ es, w.trace = tr0 ++ es ∧ stampRun false es = some false ∧ lastTx (l0, false) es = (w.ctx.lastPacketTxTime, false)

theorem Noted.grow {w w' : World} (h : Noted tr0 l0 w) (es' : List Event) (ht : w'.trace = w.trace ++ es')
    (hs : stampRun false es' = some false) (hl : lastTx (w.ctx.lastPacketTxTime, false) es' = (w'.ctx.lastPacketTxTime, false)) : Noted tr0 l0 w' := by
  obtain ⟨es, h1, h2, h3⟩ := h
  exact ⟨es ++ es', by rw [ht, h1, List.append_assoc], by rw [stampRun_append, h2]; exact hs, by rw [lastTx_append, h3, hl]⟩

instance noted_closed0 : Closed0 (Noted tr0 l0) where
  modify w f hf h := h.grow [] (by simp) rfl (by show _ = ((f w.ctx).lastPacketTxTime, false); rw [(hf w.ctx).1]; rfl)
  add w e env he h := h.grow [e] rfl (stampRun_plain he) (lastTx_plain _ he)
  idle w bs r env hr h := h.grow [.sent bs r] rfl (by rcases hr with rfl | rfl <;> rfl) (by rcases hr with rfl | rfl <;> rfl)
  sent w bs k t env hk h := h.grow ([.sent bs (some k)] ++ [.time t]) (by simp) (by simp [stampRun, hk]) (by simp [lastTx, hk])

theorem ping_noted (g : Cfg) : Pres (Noted tr0 l0) (mqttPing g) := by
  have hm : ∀ f : Ctx → Ctx, (∀ c, (f c).lastPacketTxTime = c.lastPacketTxTime) → Pres (Noted tr0 l0) (modifyCtx f) := by
    intro f hf w h a w' he
    cases he
    exact h.grow [] (by simp) rfl (by show _ = ((f w.ctx).lastPacketTxTime, false); rw [hf]; rfl)
  unfold mqttPing
  pres [pres_sendIfConnected g _, hm _ (fun _ => rfl)]

theorem ping_stamps (g : Cfg) {w w' : World} {st : Status} {es : List Event} (he : mqttPing g w = .done st w') (ht : w'.trace = w.trace ++ es) :
    stampRun false es = some false ∧ lastTx (w.ctx.lastPacketTxTime, false) es = (w'.ctx.lastPacketTxTime, false) := by
  obtain ⟨es', h1, h2, h3⟩ := ping_noted (tr0 := w.trace) (l0 := w.ctx.lastPacketTxTime) g w ⟨[], (List.append_nil _).symm, rfl, rfl⟩ st w' he
  rw [ht] at h1
  rw [List.append_cancel_left h1]
  exact ⟨h2, h3⟩

instance freshPing_closed : Closed (FreshPing tr0 l0 wt0 pt0) where
  ping g := by
    intro w h st w' he
    have ht := mqttPing_tr (V := False) g w
    unfold Tr wp at ht
    rw [he] at ht
    obtain ⟨es, h', f, _, hd⟩ := ht
    obtain ⟨s1, s2⟩ := ping_stamps g he f.trace
    refine h.grow es f.trace s1 s2 fun hw => ?_
    rcases hd.cases with ⟨_, _, _, _, hc⟩ | ⟨_, _, _, _, k1, k2, _⟩ | ⟨_, hw', _, _, _, k2⟩
    · exact Or.inl ⟨by rw [hc] at hw; exact hw, by rw [hc]⟩
    · exact Or.inl ⟨by rw [← k1]; exact hw, k2⟩
    · exact Or.inr ⟨by rw [hw']; simp [pingreqPacket, packet], k2⟩

end

/-- The events of a call: its transmissions are followed by clock readings, and a ping outstanding after it was so before or was sent in it. -/
theorem call_ping {g : Cfg} {w w' : World} {e : Env} {c : ApiCall} {r : ApiRet} (hc : callIn g w e c = .done r w') :
    stampRun false (callEvents g w e c) = some false ∧
    lastTx (w.ctx.lastPacketTxTime, false) (callEvents g w e c) = (w'.ctx.lastPacketTxTime, false) ∧
    (w'.ctx.waitingForPingResp = true → (w.ctx.waitingForPingResp = true ∧ w'.ctx.pingReqSendTimeMs = w.ctx.pingReqSendTimeMs) ∨
      ∃ a b, callEvents g w e c = a ++ b ∧ wire a ≠ [] ∧ stampRun false a = some false ∧
        lastTx (w.ctx.lastPacketTxTime, false) a = (w'.ctx.pingReqSendTimeMs, false)) := by
  have h := pres_apiCall (I := FreshPing w.trace w.ctx.lastPacketTxTime w.ctx.waitingForPingResp w.ctx.pingReqSendTimeMs) g c { w with env := e }
    ⟨[], (List.append_nil _).symm, rfl, rfl, fun h => Or.inl ⟨h, rfl⟩⟩ r w' hc
  obtain ⟨es, h1, h2, h3, h4⟩ := h
  have : callEvents g w e c = es := by
    unfold callEvents
    rw [hc]
    simp [newEvents, Out.world, h1]
  rw [this]
  exact ⟨h2, h3, h4⟩

/-! ### The promise -/

theorem Spec.Attended.inv {g : Cfg} {gap : Nat} {h : List (ApiCall × ApiRet)} {w w' : World} {tx t0 last poll now L : Nat} (hh : FromInit g h w)
    (hw : w.ctx.waitingForPingResp = false) (htx : w.ctx.lastPacketTxTime = UInt32.ofNat tx) (h0 : tx ≤ t0) (h0' : t0 ≤ tx + L)
    (hk : sendLimit g w.ctx ≠ 0) (hL1 : sendLimit g w.ctx ≤ L) (hL2 : g.pingrespTimeoutMs.toNat ≤ L) (hL : L + gap < 4294967296)
    (hp : Attended g gap w tx t0 w' last poll now) :
    (∃ h, FromInit g h w') ∧ sendLimit g w'.ctx = sendLimit g w.ctx ∧ w'.ctx.lastPacketTxTime = UInt32.ofNat last ∧ last ≤ now ∧ poll ≤ now ∧
    poll ≤ last + L ∧
    (w'.ctx.waitingForPingResp = true → ∃ pt, w'.ctx.pingReqSendTimeMs = UInt32.ofNat pt ∧ pt ≤ last ∧ poll ≤ pt + g.pingrespTimeoutMs.toNat) := by
  induction hp with
  | start => exact ⟨⟨h, hh⟩, rfl, htx, h0, Nat.le_refl _, h0', fun h => by rw [hw] at h; cases h⟩
  | @call w1 w2 last poll now last' stop e c r hp hv hpl hc hcl ih =>
    obtain ⟨⟨h', i1⟩, i2, i3, i4, i5, i6, i7⟩ := ih
    obtain ⟨c1, c2, c3⟩ := call_ping hc
    rw [i3] at c2 c3
    obtain ⟨l1, l2, l3, l4⟩ := clocked_low _ _ _ _ _ _ hcl i4
    have hcon : ∀ ci will t sp, c ≠ .connect ci will t sp := by
      rintro ci will t sp rfl; cases hpl
    refine ⟨⟨_, i1.append (.call (.start _) hv hc)⟩, ?_, ?_, l2, by omega, by omega, fun hw2 => ?_⟩
    · rw [← i2]
      unfold sendLimit
      rw [(C44_interval i1 e hv hc).2 hcon]
    · rw [c2] at l4; exact l4
    · rcases c3 hw2 with ⟨d1, d2⟩ | ⟨a, b, d1, d2, d3, d4⟩
      · obtain ⟨pt, p1, p2, p3⟩ := i7 d1
        exact ⟨pt, d2.trans p1, by omega, p3⟩
      · rw [d1] at hcl
        obtain ⟨m, lm, q1, q2⟩ := clocked_split _ _ _ _ _ _ _ (UInt32.ofNat last) hcl
        obtain ⟨m1, m2, m3, m4⟩ := clocked_low _ _ _ _ _ _ q1 i4
        have m5 := clocked_fresh _ _ _ _ _ _ q1 i4 d3 (Or.inr d2)
        have m6 := (clocked_low _ _ _ _ _ _ q2 m2).1
        rw [d4] at m4
        exact ⟨lm, m4, m6, by omega⟩
  | @idle w1 w2 last poll now last' start stop n e st es hp hst hgap hc hok hes hcl ih =>
    obtain ⟨⟨h', i1⟩, i2, i3, i4, i5, i6, i7⟩ := ih
    obtain ⟨c1, c2, c3⟩ := call_ping hc
    rw [i3] at c2 c3
    have hlast : last ≤ start := by omega
    obtain ⟨l1, l2, l3, l4⟩ := clocked_low _ _ _ _ _ _ hcl hlast
    -- the reading with which the keep-alive check was made
    have hread : ∀ t es', es = .time t :: es' → ∃ T, start ≤ T ∧ T ≤ stop ∧ t = UInt32.ofNat T := by
      intro t es' h
      rw [hes, h] at hcl
      obtain ⟨T, t1, t2, t3⟩ := hcl
      exact ⟨T, t1, (clocked_low _ _ _ _ _ _ t3 (by simp; omega)).2.2.1, t2⟩
    have hping : w2.ctx.waitingForPingResp = true → (w1.ctx.waitingForPingResp = true ∧ w2.ctx.pingReqSendTimeMs = w1.ctx.pingReqSendTimeMs) ∨
        ∃ pt, w2.ctx.pingReqSendTimeMs = UInt32.ofNat pt ∧ pt ≤ last' ∧ start ≤ pt := by
      intro hw2
      rcases c3 hw2 with d | ⟨a, b, d1, d2, d3, d4⟩
      · exact Or.inl d
      · rw [d1] at hcl
        obtain ⟨m, lm, q1, q2⟩ := clocked_split _ _ _ _ _ _ _ (UInt32.ofNat last) hcl
        obtain ⟨m1, m2, m3, m4⟩ := clocked_low _ _ _ _ _ _ q1 hlast
        have m5 := clocked_fresh _ _ _ _ _ _ q1 hlast d3 (Or.inr d2)
        have m6 := (clocked_low _ _ _ _ _ _ q2 m2).1
        rw [d4] at m4
        exact Or.inr ⟨lm, m4, m6, m5⟩
    have hmain : start ≤ last' + L ∧ (w1.ctx.waitingForPingResp = true → ∃ pt, w1.ctx.pingReqSendTimeMs = UInt32.ofNat pt ∧ pt ≤ last' ∧
        start ≤ pt + g.pingrespTimeoutMs.toNat) := by
      cases hw1 : w1.ctx.waitingForPingResp with
      | true =>
        obtain ⟨t, es', e1, e2, _⟩ := C44_outstanding i1 e hc hes hw1
        obtain ⟨T, t1, t2, rfl⟩ := hread t es' e1
        obtain ⟨pt, p1, p2, p3⟩ := i7 hw1
        have hns : ¬ g.pingrespTimeoutMs.toNat < since (UInt32.ofNat T) w1.ctx.pingReqSendTimeMs := by
          intro h
          have := e2.mpr h
          subst this
          rcases hok with h | h <;> cases h
        rw [p1, since_ofNat (by omega) (by omega)] at hns
        exact ⟨by omega, fun _ => ⟨pt, p1, by omega, by omega⟩⟩
      | false =>
        refine ⟨?_, fun h => by cases h⟩
        obtain ⟨t, es', e1, _, _, e3, e4⟩ := C44_ping i1 e hc hes hw1
        obtain ⟨T, t1, t2, rfl⟩ := hread t es' e1
        by_cases hn : PingNeeded g w1.ctx (UInt32.ofNat T)
        · by_cases hcs : w1.ctx.connectStatus = .connected
          · rcases e3 hn hcs with ⟨rest, f1, _⟩ | ⟨f1, _⟩
            · have hwire : wire (callEvents g w1 e .processLoop) ≠ [] := by
                rw [hes, e1, wire_cons_of_noSent _ _ rfl, wire_cons_of_noSent _ _ rfl, f1]
                simp [pingreqPacket, packet]
              have := clocked_fresh _ _ _ _ _ _ hcl hlast c1 (Or.inr hwire)
              omega
            · subst f1; rcases hok with h | h <;> cases h
          · obtain ⟨_, f2⟩ := e4 hn hcs
            split at f2 <;> subst f2 <;> rcases hok with h | h <;> cases h
        · unfold PingNeeded at hn
          rw [i3, since_ofNat (by omega) (by omega), i2] at hn
          have : ¬ (sendLimit g w.ctx ≠ 0 ∧ sendLimit g w.ctx ≤ T - last) := fun h => hn (Or.inl h)
          omega
    refine ⟨⟨_, i1.append (.call (.start _) (show ValidCall g .processLoop from trivial) hc)⟩, ?_, ?_, l2, l3, hmain.1, fun hw2 => ?_⟩
    · rw [← i2]
      unfold sendLimit
      rw [(C44_interval i1 e (show ValidCall g .processLoop from trivial) hc).2 (fun _ _ _ _ h => by cases h)]
    · rw [c2] at l4; exact l4
    · rcases hping hw2 with ⟨d1, d2⟩ | ⟨pt, d1, d2, d3⟩
      · obtain ⟨pt, p1, p2, p3⟩ := hmain.2 d1
        exact ⟨pt, d2.trans p1, p2, p3⟩
      · exact ⟨pt, d1, d2, by omega⟩

/-- **C70** An application that connected with a keep-alive interval and polls keeps the promise: let the last transmission have been at time `tx`, let
`MQTT_ProcessLoop` be called again and again, such that a call that finds no data and reports no error ends at most `gap` ms after the one before was begun.  Then
whatever else is called (except for connecting and disconnecting) and whatever the server and the transport do, the last transmission is at no time `now` more
than the (capped) keep-alive interval, or the time allowed for a PINGRESP if that is longer, plus `gap` ago. -/
theorem C70_keeps_alive {g : Cfg} {gap : Nat} {h : List (ApiCall × ApiRet)} {w w' : World} {tx t0 last poll now : Nat} (hh : FromInit g h w)
    (hw : w.ctx.waitingForPingResp = false) (htx : w.ctx.lastPacketTxTime = UInt32.ofNat tx) (h0 : tx ≤ t0)
    (hk : sendLimit g w.ctx ≠ 0) (h0' : t0 ≤ tx + sendLimit g w.ctx) (hL : max (sendLimit g w.ctx) g.pingrespTimeoutMs.toNat + gap < 2 ^ 32)
    (hp : Attended g gap w tx t0 w' last poll now) (hnow : now ≤ poll + gap) :
    last ≤ now ∧ now ≤ last + max (sendLimit g w.ctx) g.pingrespTimeoutMs.toNat + gap := by
  obtain ⟨_, _, _, h1, _, h2, _⟩ := hp.inv hh hw htx h0 (Nat.le_trans h0' (Nat.add_le_add_left (Nat.le_max_left _ _) _)) hk (Nat.le_max_left _ _)
    (Nat.le_max_right _ _) hL
  exact ⟨h1, by omega⟩

/-- What is noted after events with a transmission does not depend on what was noted before. -/
theorem lastTx_fresh : ∀ (es : List Event) (x y : UInt32) (p : Bool), stampRun p es = some false → (p = true ∨ wire es ≠ []) →
    (lastTx (x, p) es).1 = (lastTx (y, p) es).1
  | [], x, y, p, hs, hp => by
    rcases hp with rfl | hp
    · cases hs
    · exact absurd rfl hp
  | z :: es, x, y, p, hs, hp => by
    cases p with
    | true =>
      cases z with
      | time t => rfl
      | _ => cases hs
    | false =>
      have hw : wire (z :: es) ≠ [] := by
        rcases hp with h | h
        · cases h
        · exact h
      cases z with
      | sent bs r =>
        cases r with
        | none => exact lastTx_fresh es x y _ hs (Or.inr hw)
        | some k =>
          refine lastTx_fresh es x y _ hs ?_
          by_cases hk : 0 < k
          · left; simp [hk]
          · right
            have : k = 0 := by omega
            subst this
            simpa [wire] using hw
      | _ => exact lastTx_fresh es x y _ hs (Or.inr hw)

/-- **C70** from the connection on.  `MQTT_Connect` with keep-alive interval `k` seconds was called at time `start` and succeeded at time `stop`; its last
transmission was at time `tx` (the clock readings of the call say so).  If the rest of the call took no longer than the interval, the promise is kept from then
on as above. -/
theorem C70_from_connect {g : Cfg} {gap : Nat} {h : List (ApiCall × ApiRet)} {w0 w w' : World} {start stop tx last poll now : Nat} (hh : FromInit g h w0)
    {e : Env} {ci : ConnectInfo} {will : Option PublishInfo} {t : UInt32} {sp sp' : Option Bool} (hv : ci.Valid will)
    (hc : callIn g w0 e (.connect (some ci) will t sp) = .done (.connect .success sp') w)
    (hcl : Clocked start start false (callEvents g w0 e (.connect (some ci) will t sp)) stop tx)
    (hk : min g.packetTxTimeoutMs.toNat (1000 * ci.keepAliveSeconds.toNat) ≠ 0)
    (hs : stop ≤ tx + min g.packetTxTimeoutMs.toNat (1000 * ci.keepAliveSeconds.toNat))
    (hL : max (min g.packetTxTimeoutMs.toNat (1000 * ci.keepAliveSeconds.toNat)) g.pingrespTimeoutMs.toNat + gap < 2 ^ 32)
    (hp : Attended g gap w tx stop w' last poll now) (hnow : now ≤ poll + gap) :
    start ≤ tx ∧ tx ≤ stop ∧ last ≤ now ∧
    now ≤ last + max (min g.packetTxTimeoutMs.toNat (1000 * ci.keepAliveSeconds.toNat)) g.pingrespTimeoutMs.toNat + gap := by
  have hv' : ValidCall g (.connect (some ci) will t sp) := fun c hc => by cases hc; exact hv
  obtain ⟨s1, s2, _⟩ := call_ping hc
  obtain ⟨l1, l2, l3, l4⟩ := clocked_low _ _ _ _ _ _ hcl (Nat.le_refl _)
  obtain ⟨c, p, hci, _, _, _, _, hpre, _⟩ := C41_success hh e _ will t sp sp' hv' hc
  have hwire : wire (callEvents g w0 e (.connect (some ci) will t sp)) ≠ [] := by
    intro hw
    rw [hw] at hpre
    exact absurd (List.prefix_nil.mp hpre) (by simp [connectPacket, packet])
  have htx : w.ctx.lastPacketTxTime = UInt32.ofNat tx := by
    rw [← l4, lastTx_fresh _ _ w0.ctx.lastPacketTxTime _ s1 (Or.inr hwire), s2]
  have hlim : sendLimit g w.ctx = min g.packetTxTimeoutMs.toNat (1000 * ci.keepAliveSeconds.toNat) := by
    unfold sendLimit
    rw [(C44_interval hh e hv' hc).1 ci will t sp rfl rfl]
  have hping := (C44_outstanding_changes hh e hv' hc).2.1 ⟨_, _, _, _, rfl⟩ rfl
  have hin : FromInit g _ w := hh.append (.call (.start _) hv' hc)
  rw [← hlim] at hk hs hL ⊢
  exact ⟨l1, l2, C70_keeps_alive hin hping htx l2 hk hs hL hp hnow⟩

/-! ### Example -/

/-- The times after the events, for a clock below 2^32; `none` if it goes back. -/
def clockedRun : Nat → Nat → Bool → List Event → Option (Nat × Nat)
  | now, last, _, [] => some (now, last)
  | now, last, p, .time t :: es => if now ≤ t.toNat then clockedRun t.toNat (if p then t.toNat else last) false es else none
  | now, last, _, .sent _ (some k) :: es => clockedRun now last (decide (0 < k)) es
  | now, last, _, _ :: es => clockedRun now last false es

theorem clockedRun_sound : ∀ (es : List Event) (now last : Nat) (p : Bool) (now' last' : Nat), clockedRun now last p es = some (now', last') →
    Clocked now last p es now' last'
  | [], now, last, p, now', last', h => by
    simp only [clockedRun, Option.some.injEq, Prod.mk.injEq] at h
    exact ⟨Nat.le_of_eq h.1, h.2.symm⟩
  | y :: es, now, last, p, now', last', h => by
    cases y with
    | time t =>
      simp only [clockedRun] at h
      split at h
      · rename_i hle
        exact ⟨t.toNat, hle, by simp, clockedRun_sound es _ _ _ _ _ h⟩
      · cases h
    | sent bs r =>
      cases r with
      | none => exact clockedRun_sound es _ _ _ _ _ h
      | some k => exact clockedRun_sound es _ _ _ _ _ h
    | _ => exact clockedRun_sound es _ _ _ _ _ h

/-- The session of C55's example: polls at 20 s and 30 s (which pings), a publish at 31 s, a poll at 35 s. -/
theorem Ex.attended : Attended Ex.g 12000 Ex.after 3 19000 Ex.quiet4 31005 35000 35000 := by
  have h1 : Attended Ex.g 12000 Ex.after 3 19000 Ex.quiet1 3 20000 20000 :=
    .idle (n := 64) (es := (callEvents Ex.g Ex.after (Ex.envAt 20000 []) .processLoop).tail) .start (by omega) (by omega)
      (Ex.ret_done (r := .status .success) (by decide +kernel)) (Or.inl rfl) (by decide +kernel) (clockedRun_sound _ _ _ _ _ _ (by decide +kernel))
  have h2 : Attended Ex.g 12000 Ex.after 3 19000 Ex.quiet2 30005 30003 30006 :=
    .idle (n := 64) (es := (callEvents Ex.g Ex.quiet1 (Ex.envAt 30003 []) .processLoop).tail) h1 (by omega) (by omega)
      (Ex.ret_done (r := .status .success) (by decide +kernel)) (Or.inl rfl) (by decide +kernel) (clockedRun_sound _ _ _ _ _ _ (by decide +kernel))
  have h3 : Attended Ex.g 12000 Ex.after 3 19000 Ex.quiet3 31005 30003 31006 :=
    .call h2 (Ex.publishValid .qos0 0) rfl (Ex.ret_done (r := .status .success) (by decide +kernel)) (clockedRun_sound _ _ _ _ _ _ (by decide +kernel))
  exact .idle (n := 64) (es := (callEvents Ex.g Ex.quiet3 (Ex.envAt 35000 []) .processLoop).tail) h3 (by omega) (by omega)
      (Ex.ret_done (r := .status .success) (by decide +kernel)) (Or.inl rfl) (by decide +kernel) (clockedRun_sound _ _ _ _ _ _ (by decide +kernel))

/-- Non-vacuity of C70. -/
example : 31005 ≤ 35000 ∧ 35000 ≤ 31005 + max (sendLimit Ex.g Ex.after.ctx) Ex.g.pingrespTimeoutMs.toNat + 12000 :=
  C70_keeps_alive Ex.after_fromInit (by decide +kernel) (by decide +kernel) (by omega) (by decide +kernel) (by decide +kernel) (by decide +kernel)
    Ex.attended (by omega)

/-- Non-vacuity of C70_from_connect: a connection with an interval of 60 s (capped to 30 s), CONNECT at time 0, a poll at 20 s, and one at 31 s, which pings. -/
def Ex.linked : World := (callIn Ex.g Ex.w0 (Ex.envAt 0 [0x20, 2, 0, 0]) Ex.connectCall).world
def Ex.linked1 : World := (callIn Ex.g Ex.linked (Ex.envAt 20000 []) .processLoop).world
def Ex.linked2 : World := (callIn Ex.g Ex.linked1 (Ex.envAt 31000 []) .processLoop).world

theorem Ex.linked_attended : Attended Ex.g 20000 Ex.linked 11 17 Ex.linked2 31002 31000 31003 := by
  have h1 : Attended Ex.g 20000 Ex.linked 11 17 Ex.linked1 11 20000 20000 :=
    .idle (n := 64) (es := (callEvents Ex.g Ex.linked (Ex.envAt 20000 []) .processLoop).tail) .start (by omega) (by omega)
      (Ex.ret_done (r := .status .success) (by decide +kernel)) (Or.inl rfl) (by decide +kernel) (clockedRun_sound _ _ _ _ _ _ (by decide +kernel))
  exact .idle (n := 64) (es := (callEvents Ex.g Ex.linked1 (Ex.envAt 31000 []) .processLoop).tail) h1 (by omega) (by omega)
      (Ex.ret_done (r := .status .success) (by decide +kernel)) (Or.inl rfl) (by decide +kernel) (clockedRun_sound _ _ _ _ _ _ (by decide +kernel))

example : 31002 ≤ 31003 ∧ 31003 ≤ 31002 + 30000 + 20000 :=
  (C70_from_connect (start := 0) (Ex.played_fromInit (steps := []) (by simp) rfl) (Ex.connectValid _ rfl)
    (Ex.ret_done (r := .connect .success (some false)) (by decide +kernel)) (clockedRun_sound _ _ _ _ _ _ (by decide +kernel)) (by decide +kernel) (by decide +kernel)
    (by decide +kernel) Ex.linked_attended (by omega)).2.2

/-! ### Data that keeps arriving -/

/-- The environment of the call of `MQTT_ProcessLoop` number `n`, made after 20 `n` seconds: a QoS 0 message has arrived. -/
def Ex.floodEnv (n : Nat) : Env := { Ex.envAt (20000 * n) [0x30, 4, 0, 1, 97, 98] with recvs := [.deliver 6] }

/-- The client after `n` such calls. -/
def Ex.flooded : Nat → World
  | 0 => Ex.after
  | n + 1 => (callIn Ex.g (Ex.flooded n) (Ex.floodEnv (n + 1)) .processLoop).world

/-- **C70** is false of an application that polls while messages keep arriving: the keep-alive check is made only by a `MQTT_ProcessLoop` that finds no data.  The
client connected with a keep-alive interval of 60 s (and pings after 30 s); the application polls every 20 s for two minutes and every time a QoS 0 message has arrived.
All calls report MQTTSuccess, and nothing is sent: by the standard the server must close the connection after 90 s. -/
theorem C70_flood : Ex.after.ctx.keepAliveIntervalSec = 60 ∧ Ex.after.ctx.connectStatus = .connected ∧ Ex.after.ctx.lastPacketTxTime = 3 ∧
    ∀ n, n < 6 → Ex.ret (callIn Ex.g (Ex.flooded n) (Ex.floodEnv (n + 1)) .processLoop) = some (.status .success) ∧
      wire (callEvents Ex.g (Ex.flooded n) (Ex.floodEnv (n + 1)) .processLoop) = [] := by
  refine ⟨by decide +kernel, by decide +kernel, by decide +kernel, by decide +kernel⟩

end Mqtt
