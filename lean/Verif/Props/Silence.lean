/-
C55: a server that has gone silent is noticed.

`Silent` (Spec/Silence.lean) describes the time in which nothing arrives and `MQTT_ProcessLoop` does not complain; the theorems bound it.
-/
import Verif.Spec.Silence
import Verif.Props.KeepAlive
import Verif.Props.Receive

namespace Mqtt
open Spec
set_option linter.unusedSimpArgs false

/-! ### A transmission is followed by a reading of the clock -/

/-- Runs through a trace; `none` if a send call that took a byte is not followed by a reading of the clock. -/
def stampRun : Bool → List Event → Option Bool
  | p, [] => some p
  | true, .time _ :: es => stampRun false es
  | true, _ :: _ => none
  | false, .sent _ (some k) :: es => stampRun (decide (0 < k)) es
  | false, _ :: es => stampRun false es

theorem stampRun_append (p : Bool) (a b : List Event) : stampRun p (a ++ b) = (stampRun p a).bind (stampRun · b) := by
  induction a generalizing p with
  | nil => rfl
  | cons x a ih =>
    cases p with
    | true => cases x <;> first | exact ih false | rfl
    | false =>
      cases x with
      | sent bs r =>
        cases r with
        | none => exact ih false
        | some k => exact ih _
      | _ => exact ih false

def Stamped (w : World) : Prop := stampRun false w.trace = some false

theorem stampRun_plain {e : Event} (h : noSend e = true) : stampRun false [e] = some false := by
  cases e <;> first | rfl | cases h

instance stamped_closed0 : Closed0 Stamped where
  modify _ _ _ h := h
  add w e env he h := by
    unfold Stamped at *
    rw [stampRun_append, h]; exact stampRun_plain he
  idle w bs r env hr h := by
    unfold Stamped at *
    rw [stampRun_append, h]
    rcases hr with rfl | rfl <;> rfl
  sent w bs k t env hk h := by
    unfold Stamped at *
    rw [stampRun_append, stampRun_append, h]
    simp [stampRun, hk]

instance stamped_closed : Closed Stamped where
  ping g := by
    have hm : ∀ f : Ctx → Ctx, Pres Stamped (modifyCtx f) := by
      intro f w h a w' he
      cases he
      exact h
    unfold mqttPing
    pres [pres_sendIfConnected g _, hm _]

theorem FromInit.stamped {g : Cfg} {h : List (ApiCall × ApiRet)} {w : World} (hh : FromInit g h w) : Stamped w := by
  obtain ⟨_, w0, h1, h2, h3⟩ := hh
  refine h3.pres (I := Stamped) ?_ (fun w e h => h)
  unfold Stamped
  rw [h2]; rfl

theorem lastTx_mem : ∀ (es : List Event) (s : UInt32 × Bool), (lastTx s es).1 = s.1 ∨ Event.time (lastTx s es).1 ∈ es
  | [], _ => Or.inl rfl
  | x :: es, (l, p) => by
    have next : ∀ p', lastTx (l, p) (x :: es) = lastTx (l, p') es →
        (lastTx (l, p) (x :: es)).1 = l ∨ Event.time (lastTx (l, p) (x :: es)).1 ∈ x :: es := by
      intro p' he
      rw [he]
      exact (lastTx_mem es (l, p')).imp id (List.mem_cons_of_mem _)
    cases x with
    | time t =>
      cases p with
      | false => exact next false rfl
      | true =>
        show (lastTx (t, false) es).1 = l ∨ _
        rcases lastTx_mem es (t, false) with h | h
        · right
          show Event.time (lastTx (t, false) es).1 ∈ _
          rw [h]; exact List.mem_cons_self
        · exact Or.inr (List.mem_cons_of_mem _ h)
    | sent bs r =>
      cases r with
      | none => exact next false rfl
      | some k => exact next _ rfl
    | _ => exact next false rfl

/-- If something was sent, the time noted for the last transmission is one of the readings. -/
theorem lastTx_stamped : ∀ (es : List Event) (l : UInt32) (p : Bool), stampRun p es = some false → (p = true ∨ wire es ≠ []) →
    Event.time (lastTx (l, p) es).1 ∈ es
  | [], l, p, h, hp => by
    rcases hp with rfl | hp
    · cases h
    · exact absurd rfl hp
  | x :: es, l, true, h, _ => by
    cases x with
    | time t =>
      show Event.time (lastTx (t, false) es).1 ∈ _
      rcases lastTx_mem es (t, false) with h | h
      · rw [h]; exact List.mem_cons_self
      · exact List.mem_cons_of_mem _ h
    | _ => cases h
  | x :: es, l, false, h, hp => by
    have hw : wire (x :: es) ≠ [] := by
      rcases hp with h | h
      · cases h
      · exact h
    cases x with
    | sent bs r =>
      cases r with
      | none => exact List.mem_cons_of_mem _ (lastTx_stamped es l false h (Or.inr hw))
      | some k =>
        show Event.time (lastTx (l, decide (0 < k)) es).1 ∈ _
        refine List.mem_cons_of_mem _ (lastTx_stamped es l _ h ?_)
        by_cases hk : 0 < k
        · left; simp [hk]
        · right
          have : k = 0 := by omega
          subst this
          simpa [wire] using hw
    | _ => exact List.mem_cons_of_mem _ (lastTx_stamped es l false h (Or.inr hw))

theorem lastTx_noSent : ∀ (es : List Event) (l : UInt32), (∀ x ∈ es, isSent x = false) → lastTx (l, false) es = (l, false)
  | [], _, _ => rfl
  | x :: es, l, h => by
    have ih := lastTx_noSent es l fun y hy => h y (List.mem_cons_of_mem _ hy)
    have hx := h x List.mem_cons_self
    cases x <;> first | exact ih | cases hx

/-! ### What a quiet call does -/

theorem Spec.NoPacket.advance {g : Cfg} {m : Bool} {s : InFlight} {w w' : World} {st : Status} {es : List Event} (hi : w.ctx.index ≤ w.ctx.bufSize)
    (hn : NoPacket w.ctx) (h : Advance g m s w st es w') : es = [] ∧ w'.ctx = w.ctx := by
  unfold Advance at h
  split at h
  · exact ⟨h.1, h.2.1⟩
  · exact ⟨h.1, h.2.1⟩
  · rename_i t hl n hr
    obtain ⟨h1, h2⟩ := hn t hl n hr
    rw [buffered_length hi] at h1
    rw [if_neg (by omega), if_pos (by omega)] at h
    exact ⟨h.1, h.2.1⟩

theorem Spec.NoPacket.same {c c' : Ctx} (hn : NoPacket c) (hb : c'.buffered = c.buffered) (hs : c'.bufSize = c.bufSize) : NoPacket c' := by
  unfold NoPacket
  rw [hb, hs]; exact hn

theorem since_ofNat {T T0 : Nat} (h : T0 ≤ T) (h' : T < T0 + 4294967296) : since (UInt32.ofNat T) (UInt32.ofNat T0) = T - T0 :=
  (C44_elapsed T T0 h).2.2 (by omega)

/-- What a `MQTT_ProcessLoop` that received nothing and did not complain did. -/
theorem poll_effect {g : Cfg} {h : List (ApiCall × ApiRet)} {w w' : World} (hh : FromInit g h w) {e : Env} (hn : NoPacket w.ctx) {st : Status}
    (hc : callIn g w e .processLoop = .done (.status st) w') (hst : st = .success ∨ st = .needMoreBytes) (hr : received (callEvents g w e .processLoop) = []) :
    NoPacket w'.ctx ∧ w'.ctx.lastPacketRxTime = w.ctx.lastPacketRxTime ∧ w'.ctx.keepAliveIntervalSec = w.ctx.keepAliveIntervalSec ∧
    ∃ now, Event.time now ∈ callEvents g w e .processLoop ∧
    ((w.ctx.waitingForPingResp = true ∧ w'.ctx.waitingForPingResp = true ∧ w'.ctx.pingReqSendTimeMs = w.ctx.pingReqSendTimeMs ∧
        since now w.ctx.pingReqSendTimeMs ≤ g.pingrespTimeoutMs.toNat) ∨
     (w.ctx.waitingForPingResp = false ∧ ¬ PingNeeded g w.ctx now ∧ w'.ctx.waitingForPingResp = false ∧
        w'.ctx.lastPacketTxTime = w.ctx.lastPacketTxTime) ∨
     (w.ctx.waitingForPingResp = false ∧ w'.ctx.waitingForPingResp = true ∧ Event.time w'.ctx.pingReqSendTimeMs ∈ callEvents g w e .processLoop)) := by
  have hh' : FromInit g (h ++ [(.processLoop, .status st)]) w' := hh.append (.call (.start w) trivial hc)
  obtain ⟨hg, hidx, s, hrep⟩ := hh.good
  rcases call_cases (c := .processLoop) hg hidx hrep e trivial with ⟨r, es, w1, h1, h2, hl, hd⟩ | ⟨es, w1, h1, h2, hl, hd⟩
  rotate_left
  · rw [hc] at h1; cases h1
  rw [hc] at h1
  cases h1
  rw [h2] at hr ⊢
  cases hd with
  | processLoop f hi =>
  have htr : w'.trace = w.trace ++ es := hl.trace
  obtain ⟨h0, ⟨_, rfl, _⟩ | ⟨r, kst, ka, w1, w2, hlen, hw1, hk, h⟩⟩ := hi
  · rcases hst with h | h <;> cases h
  have hrn : r = [] := by
    rcases h with ⟨_, rfl, _⟩ | ⟨_, es2, rfl, _⟩
    · rw [received_got] at hr; exact (List.append_eq_nil_iff.mp hr).1
    · rw [received_got] at hr; exact (List.append_eq_nil_iff.mp hr).1
  subst hrn
  have hc1 : w1.ctx = { w.ctx with controlPacketSent := false } := by
    rw [hw1]
    unfold appended writeAt
    simp [List.take_append_drop, World.fresh]
  obtain ⟨now, hk⟩ : ∃ now, KeepAliveDone g now w1 kst ka w2 := by
    rcases hk with ⟨_, _, hk⟩ | ⟨h, _⟩
    · exact hk
    · exact absurd ⟨rfl, rfl⟩ h
  have hpn : pingDue g now w1.ctx ↔ PingNeeded g w.ctx now := by rw [hc1]; exact pingDue_iff _ _ _
  have e1 : w1.ctx.waitingForPingResp = w.ctx.waitingForPingResp := by rw [hc1]
  have e2 : w1.ctx.pingReqSendTimeMs = w.ctx.pingReqSendTimeMs := by rw [hc1]
  have e3 : w1.ctx.lastPacketTxTime = w.ctx.lastPacketTxTime := by rw [hc1]
  have e4 : w1.ctx.lastPacketRxTime = w.ctx.lastPacketRxTime := by rw [hc1]
  have e5 : w1.ctx.keepAliveIntervalSec = w.ctx.keepAliveIntervalSec := by rw [hc1]
  have e6 : w1.ctx.buffered = w.ctx.buffered := by rw [hc1]; rfl
  have e7 : w1.ctx.bufSize = w.ctx.bufSize := by rw [hc1]; rfl
  have e8 : w1.ctx.index = w.ctx.index := by rw [hc1]
  -- the keep-alive check was passed
  have hkst : kst = .success := by
    rcases h with ⟨h3, _, _, rfl⟩ | ⟨h3, _⟩
    · exfalso
      rcases hk with ⟨_, _, _, k4⟩ | ⟨_, _, _, _, k5⟩ | ⟨_, _, es', _, w3, _, hp⟩
      · split at k4
        · subst k4; rcases hst with h | h <;> cases h
        · exact h3 k4
      · exact h3 k5
      · rcases hp.cases with ⟨_, _, _, k, _⟩ | ⟨_, _, _, k, _⟩ | ⟨_, _, _, k, _⟩
        · unfold notConnectedStatus at k
          split at k <;> subst k <;> rcases hst with h | h <;> cases h
        · subst k; rcases hst with h | h <;> cases h
        · exact h3 k
    · exact h3
  subst hkst
  obtain ⟨es2, rfl, ha⟩ : ∃ es2, es = .recvd (w.ctx.bufSize - w.ctx.index) (some []) :: (ka ++ es2) ∧ Advance g true s w2 st es2 w' := by
    rcases h with ⟨h3, _⟩ | ⟨_, es2, h3, h4⟩
    · exact absurd rfl h3
    · exact ⟨es2, h3, h4⟩
  have done : w2.ctx.buffered = w1.ctx.buffered → w2.ctx.bufSize = w1.ctx.bufSize → w2.ctx.index = w1.ctx.index →
      w2.ctx.lastPacketRxTime = w1.ctx.lastPacketRxTime → w2.ctx.keepAliveIntervalSec = w1.ctx.keepAliveIntervalSec →
      es2 = [] ∧ w'.ctx = w2.ctx ∧ NoPacket w'.ctx ∧ w'.ctx.lastPacketRxTime = w.ctx.lastPacketRxTime ∧
        w'.ctx.keepAliveIntervalSec = w.ctx.keepAliveIntervalSec := by
    intro d1 d2 d3 d4 d5
    have hn2 : NoPacket w2.ctx := hn.same (d1.trans e6) (d2.trans e7)
    obtain ⟨h3, h4⟩ := hn2.advance (by rw [d3, d2, e8, e7]; exact hidx) ha
    exact ⟨h3, h4, by rw [h4]; exact hn2, by rw [h4, d4, e4], by rw [h4, d5, e5]⟩
  rcases hk with ⟨k1, rfl, k3, k4⟩ | ⟨k1, k2, rfl, k4, _⟩ | ⟨k1, k2, es', rfl, w3, hw3, hp⟩
  · obtain ⟨rfl, h4, h5, h6, h7⟩ := done (by rw [k3]) (by rw [k3]) (by rw [k3]) (by rw [k3]) (by rw [k3])
    refine ⟨h5, h6, h7, now, by simp, Or.inl ⟨e1 ▸ k1, by rw [h4, k3, k1], by rw [h4, k3, e2], ?_⟩⟩
    split at k4
    · cases k4
    · rename_i hto
      rw [e2, gt_iff_lt, UInt32.lt_iff_toNat_lt, since_eq] at hto
      omega
  · obtain ⟨rfl, h4, h5, h6, h7⟩ := done (by rw [k4]) (by rw [k4]) (by rw [k4]) (by rw [k4]) (by rw [k4])
    exact ⟨h5, h6, h7, now, by simp, Or.inr (Or.inl ⟨e1 ▸ k1, fun h => k2 (hpn.mpr h), by rw [h4, k4, k1], by rw [h4, k4, e3]⟩)⟩
  · obtain ⟨t, p, q, hctx⟩ := hp.ctx
    rw [hw3] at hctx
    obtain ⟨rfl, h4, h5, h6, h7⟩ := done (by rw [hctx]; rfl) (by rw [hctx]; rfl) (by rw [hctx]) (by rw [hctx]) (by rw [hctx])
    rcases hp.cases with ⟨p1, _, _, k, _⟩ | ⟨_, _, _, k, _⟩ | ⟨_, p1, _, _, p2, p3⟩
    · unfold notConnectedStatus at k
      split at k <;> cases k
    · cases k
    · refine ⟨h5, h6, h7, now, by simp, Or.inr (Or.inr ⟨e1 ▸ k1, by rw [h4, p2], ?_⟩)⟩
      rw [h4, p3, ← h4]
      have h8 := hh'.times.1
      unfold TxOk at h8
      rw [htr, lastTx_append, hh.times.1] at h8
      have h9 := hh'.stamped
      unfold Stamped at h9
      rw [htr, stampRun_append, hh.stamped] at h9
      have h10 := lastTx_stamped _ w.ctx.lastPacketTxTime false h9 (Or.inr (by
        rw [wire_cons_of_noSent _ _ rfl, List.append_nil, wire_cons_of_noSent _ _ rfl, wire_cons_of_noSent _ _ rfl, wire_cons_of_noSent _ _ rfl, p1]
        simp [pingreqPacket, packet]))
      rw [h8] at h10
      exact h10

/-- What any other call that received nothing did. -/
theorem other_effect {g : Cfg} {h : List (ApiCall × ApiRet)} {w w' : World} (hh : FromInit g h w) {e : Env} (hn : NoPacket w.ctx) {c : ApiCall} {r : ApiRet}
    (hv : ValidCall g c) (hp : plainCall c = true) (h1 : c ≠ .ping) (h2 : c ≠ .processLoop) (hc : callIn g w e c = .done r w')
    (hr : received (callEvents g w e c) = []) :
    NoPacket w'.ctx ∧ w'.ctx.lastPacketRxTime = w.ctx.lastPacketRxTime ∧ w'.ctx.keepAliveIntervalSec = w.ctx.keepAliveIntervalSec ∧
    w'.ctx.waitingForPingResp = w.ctx.waitingForPingResp ∧ w'.ctx.pingReqSendTimeMs = w.ctx.pingReqSendTimeMs ∧
    ((∀ x ∈ callEvents g w e c, isSent x = false) → w'.ctx.lastPacketTxTime = w.ctx.lastPacketTxTime) := by
  have hist : Hist g w ([] ++ [(c, r)]) w' := .call (.start w) hv hc
  have hh' := hh.append hist
  have hbs : w'.ctx.bufSize = w.ctx.bufSize := (C33_index hh hist).2
  have hcon : ∀ ci will t sp, c ≠ .connect ci will t sp := by
    rintro ci will t sp rfl; cases hp
  have hb : w'.ctx.buffered = w.ctx.buffered := by
    by_cases hl : c = .receiveLoop
    · subst hl
      obtain ⟨_, h3 | ⟨p, h3, h4⟩ | ⟨_, t, hl, n, h3, h4⟩⟩ := C33_unread hh e false hc
      · change _ = _ ++ received (callEvents g w e .receiveLoop) at h3
        rw [h3, hr, List.append_nil]
      · change _ ++ received (callEvents g w e .receiveLoop) = _ at h4
        rw [hr, List.append_nil] at h4
        obtain ⟨hl, h5, h6⟩ := readHeader_packet (rest := w'.ctx.buffered) h3
        rw [← h4] at h5
        have h7 := (hn _ _ _ h5).1
        rw [h4, h6, List.length_append] at h7
        omega
      · change readHeader (_ ++ received (callEvents g w e .receiveLoop)) = _ at h3
        rw [hr, List.append_nil] at h3
        have := (hn _ _ _ h3).2
        omega
    · exact (C33_other hh e hv hp (by intro m; cases m <;> assumption) hc).1
  obtain ⟨h3, h4⟩ := (C44_outstanding_changes hh e hv hc).2.2 h1 h2 hcon
  refine ⟨hn.same hb hbs, ?_, (C44_interval hh e hv hc).2 hcon, h3, h4, fun hs => ?_⟩
  · refine Decidable.byContradiction fun hne => ?_
    obtain ⟨_, _, n, got, es, p, h5, h6, h7⟩ := C44_last_reception hh e hv hc hne
    rw [h5, received_got] at hr
    rw [(List.append_eq_nil_iff.mp hr).1, hb, List.append_nil] at h7
    have := congrArg List.length h7
    rw [List.length_append] at this
    exact h6 (List.eq_nil_of_length_eq_zero (by omega))
  · obtain ⟨hg, hidx, s, hrep⟩ := hh.good
    rcases call_cases hg hidx hrep e hv with ⟨r', es, w1, k1, k2, hl, _⟩ | ⟨es, w1, k1, k2, _⟩
    · rw [hc] at k1
      cases k1
      have h8 := hh'.times.1
      unfold TxOk at h8
      have htr : w'.trace = w.trace ++ es := hl.trace
      rw [htr, lastTx_append, hh.times.1, lastTx_noSent _ _ (by rw [← k2]; exact hs)] at h8
      exact (congrArg Prod.fst h8).symm
    · rw [hc] at k1; cases k1

/-- While no ping is outstanding these are the same as at the beginning. -/
def SameTimes (quiet : Bool) (c c' : Ctx) : Prop :=
  c'.lastPacketRxTime = c.lastPacketRxTime ∧ c'.keepAliveIntervalSec = c.keepAliveIntervalSec ∧ (quiet = true → c'.lastPacketTxTime = c.lastPacketTxTime)

theorem Spec.Silent.bound {g : Cfg} {gap : Nat} {quiet : Bool} {h : List (ApiCall × ApiRet)} {w w' : World} {t0 poll now M : Nat} (hh : FromInit g h w)
    (hn : NoPacket w.ctx) (hw : w.ctx.waitingForPingResp = false) (hs : Silent g gap quiet w t0 w' poll now)
    (hp : g.pingrespTimeoutMs.toNat + gap < 4294967296) (hM : t0 ≤ M)
    (hD : ∀ c T, SameTimes quiet w.ctx c → t0 ≤ T → T ≤ M + gap → ¬ PingNeeded g c (UInt32.ofNat T) → T ≤ M) :
    poll ≤ M + gap + g.pingrespTimeoutMs.toNat := by
  have key : (∃ h, FromInit g h w') ∧ NoPacket w'.ctx ∧ t0 ≤ poll ∧ poll ≤ now ∧
      ((w'.ctx.waitingForPingResp = false ∧ SameTimes quiet w.ctx w'.ctx ∧ poll ≤ M) ∨
       (w'.ctx.waitingForPingResp = true ∧ ∃ Tp, w'.ctx.pingReqSendTimeMs = UInt32.ofNat Tp ∧ Tp ≤ now ∧ Tp ≤ M + gap ∧
         poll ≤ Tp + g.pingrespTimeoutMs.toNat)) := by
    induction hs with
    | start => exact ⟨⟨h, hh⟩, hn, Nat.le_refl _, Nat.le_refl _, Or.inl ⟨hw, ⟨rfl, rfl, fun _ => rfl⟩, hM⟩⟩
    | other hs hv hpl h1 h2 ht hc hr hq hin ih =>
      obtain ⟨⟨h', i1⟩, i2, i3, i4, i5⟩ := ih
      obtain ⟨o1, o2, o3, o4, o5, o6⟩ := other_effect i1 i2 hv hpl h1 h2 hc hr
      refine ⟨⟨_, i1.append (.call (.start _) hv hc)⟩, o1, i3, by omega, ?_⟩
      rw [o4, o5]
      rcases i5 with ⟨k1, ⟨k2, k3, k4⟩, k5⟩ | ⟨k1, Tp, k2, k3, k4, k5⟩
      · exact Or.inl ⟨k1, ⟨o2.trans k2, o3.trans k3, fun hq' => (o6 (hq hq')).trans (k4 hq')⟩, k5⟩
      · exact Or.inr ⟨k1, Tp, k2, by omega, k4, k5⟩
    | poll hs h1 h2 h3 hc hst hr hin ih =>
      obtain ⟨⟨h', i1⟩, i2, i3, i4, i5⟩ := ih
      obtain ⟨o1, o2, o3, t, o4, o5⟩ := poll_effect i1 i2 hc hst hr
      refine ⟨⟨_, i1.append (.call (.start _) (show ValidCall g .processLoop from trivial) hc)⟩, o1, by omega, h2, ?_⟩
      obtain ⟨T, t1, t2, rfl⟩ := hin t o4
      rcases o5 with ⟨p1, p2, p3, p4⟩ | ⟨p1, p2, p3, p4⟩ | ⟨p1, p2, p3⟩
      · rcases i5 with ⟨k1, _⟩ | ⟨_, Tp, k2, k3, k4, k5⟩
        · rw [p1] at k1; cases k1
        · rw [k2, since_ofNat (by omega) (by omega)] at p4
          exact Or.inr ⟨p2, Tp, p3.trans k2, by omega, k4, by omega⟩
      · rcases i5 with ⟨_, ⟨k2, k3, k4⟩, k5⟩ | ⟨k1, _⟩
        · have := hD _ T ⟨k2, k3, k4⟩ (by omega) (by omega) p2
          exact Or.inl ⟨p3, ⟨o2.trans k2, o3.trans k3, fun hq => p4.trans (k4 hq)⟩, by omega⟩
        · rw [p1] at k1; cases k1
      · rcases i5 with ⟨_, _, k5⟩ | ⟨k1, _⟩
        · obtain ⟨Tp, q1, q2, q3⟩ := hin _ p3
          exact Or.inr ⟨p2, Tp, q3, q2, by omega, by omega⟩
        · rw [p1] at k1; cases k1
  obtain ⟨_, _, _, _, ⟨_, _, h1⟩ | ⟨_, Tp, _, _, h1, h2⟩⟩ := key <;> omega

/-- **C55** Nothing arrives any more from the server, whatever else the application does (except for connecting, disconnecting and pinging itself):
`MQTT_ProcessLoop`, called again and again, does not go on reporting MQTTSuccess.  Let the last packet have been received at time `rx`, let no
ping be outstanding at time `t0`, and let every call of `MQTT_ProcessLoop` end within `gap` ms after the begin of the one before.  Then the last one
that reports MQTTSuccess (or MQTTNeedMoreBytes) begins at most PINGRESP timeout + `gap` after the time at which a ping was due: the receive
timeout after `rx`, or `t0` if that is later. -/
theorem C55_silence_noticed {g : Cfg} {gap : Nat} {h : List (ApiCall × ApiRet)} {w w' : World} {rx t0 poll now : Nat} (hh : FromInit g h w)
    (hn : NoPacket w.ctx) (hw : w.ctx.waitingForPingResp = false) (hrx : w.ctx.lastPacketRxTime = UInt32.ofNat rx) (h0 : rx ≤ t0)
    (hs : Silent g gap false w t0 w' poll now) (hp : g.pingrespTimeoutMs.toNat + gap < 2 ^ 32)
    (hwrap : max t0 (rx + g.packetRxTimeoutMs.toNat) + gap < rx + 2 ^ 32) :
    poll ≤ max t0 (rx + g.packetRxTimeoutMs.toNat) + gap + g.pingrespTimeoutMs.toNat := by
  refine hs.bound hh hn hw hp (Nat.le_max_left _ _) ?_
  rintro c T ⟨h1, _, _⟩ h2 h3 h4
  rw [hrx] at h1
  unfold PingNeeded at h4
  rw [h1, since_ofNat (by omega) (by omega)] at h4
  have h5 : ¬ (T - rx ≠ 0 ∧ g.packetRxTimeoutMs.toNat ≤ T - rx) := fun h => h4 (Or.inr h)
  omega

/-- **C55** The same for the keep-alive interval: if the other calls send nothing, the last `MQTT_ProcessLoop` that reports MQTTSuccess begins at most PINGRESP
timeout + `gap` after the (capped) keep-alive interval since the last transmission has passed. -/
theorem C55_idle_noticed {g : Cfg} {gap : Nat} {h : List (ApiCall × ApiRet)} {w w' : World} {tx t0 poll now : Nat} (hh : FromInit g h w)
    (hn : NoPacket w.ctx) (hw : w.ctx.waitingForPingResp = false) (htx : w.ctx.lastPacketTxTime = UInt32.ofNat tx) (h0 : tx ≤ t0)
    (hk : sendLimit g w.ctx ≠ 0) (hs : Silent g gap true w t0 w' poll now) (hp : g.pingrespTimeoutMs.toNat + gap < 2 ^ 32)
    (hwrap : max t0 (tx + sendLimit g w.ctx) + gap < tx + 2 ^ 32) :
    poll ≤ max t0 (tx + sendLimit g w.ctx) + gap + g.pingrespTimeoutMs.toNat := by
  refine hs.bound hh hn hw hp (Nat.le_max_left _ _) ?_
  rintro c T ⟨_, h1, h1'⟩ h2 h3 h4
  have h1' := h1' rfl
  rw [htx] at h1'
  have he : sendLimit g c = sendLimit g w.ctx := by unfold sendLimit; rw [h1]
  unfold PingNeeded at h4
  rw [h1', he, since_ofNat (by omega) (by omega)] at h4
  have h5 : ¬ (sendLimit g w.ctx ≠ 0 ∧ sendLimit g w.ctx ≤ T - tx) := fun h => h4 (Or.inl h)
  omega

/-! ### Example -/

def withinB (a b : Nat) (es : List Event) : Bool := es.all fun e => match e with
  | .time t => decide (a ≤ t.toNat) && decide (t.toNat ≤ b)
  | _ => true

theorem withinB_sound {a b : Nat} {es : List Event} (h : withinB a b es = true) : Within a b es := by
  intro t ht
  have := List.all_eq_true.mp h _ ht
  simp only [Bool.and_eq_true, decide_eq_true_eq] at this
  exact ⟨t.toNat, this.1, this.2, by simp⟩

theorem Ex.ret_done {o : Out ApiRet} {r : ApiRet} (h : Ex.ret o = some r) : o = .done r o.world := by
  cases o with
  | done a w => simp only [Ex.ret, Option.some.injEq] at h; rw [h]; rfl
  | stuck w => cases h
  | ub e w => cases h

/-- A session falls silent: a poll at 20 s, one that pings at 30 s, a publish, a poll at 35 s. -/
def Ex.quiet1 : World := (callIn Ex.g Ex.after (Ex.envAt 20000 []) .processLoop).world
def Ex.quiet2 : World := (callIn Ex.g Ex.quiet1 (Ex.envAt 30003 []) .processLoop).world
def Ex.quiet3 : World := (callIn Ex.g Ex.quiet2 (Ex.envAt 31000 []) (Ex.publishCall .qos0 0)).world
def Ex.quiet4 : World := (callIn Ex.g Ex.quiet3 (Ex.envAt 35000 []) .processLoop).world

theorem Ex.silent : Silent Ex.g 12000 false Ex.after 19000 Ex.quiet4 35000 35000 := by
  have h1 : Silent Ex.g 12000 false Ex.after 19000 Ex.quiet1 20000 20001 :=
    .poll .start (by omega) (by omega) (by omega) (Ex.ret_done (r := .status .success) (by decide +kernel)) (Or.inl rfl) (by decide +kernel)
      (withinB_sound (by decide +kernel))
  have h2 : Silent Ex.g 12000 false Ex.after 19000 Ex.quiet2 30003 30010 :=
    .poll h1 (by omega) (by omega) (by omega) (Ex.ret_done (r := .status .success) (by decide +kernel)) (Or.inl rfl) (by decide +kernel)
      (withinB_sound (by decide +kernel))
  have h3 : Silent Ex.g 12000 false Ex.after 19000 Ex.quiet3 30003 31010 :=
    .other h2 (Ex.publishValid _ _) rfl (fun h => by cases h) (fun h => by cases h) (by omega) (Ex.ret_done (r := .status .success) (by decide +kernel))
      (by decide +kernel) (fun h => by cases h) (fun t ht => by
        obtain ⟨T, h1, h2, h3⟩ := (withinB_sound (a := 31000) (b := 31010) (by decide +kernel) :
          Within 31000 31010 (callEvents Ex.g Ex.quiet2 (Ex.envAt 31000 []) (Ex.publishCall .qos0 0))) t ht
        exact ⟨T, by omega, h2, h3⟩)
  exact .poll h3 (by omega) (by omega) (by omega) (Ex.ret_done (r := .status .success) (by decide +kernel)) (Or.inl rfl) (by decide +kernel)
      (withinB_sound (by decide +kernel))

/-- Non-vacuity of C55: the hypotheses hold for this silence, in which a ping was sent; the next poll after the 5 s for the PINGRESP reports the timeout. -/
example : NoPacket Ex.after.ctx ∧ Ex.after.ctx.waitingForPingResp = false ∧ Ex.after.ctx.lastPacketRxTime = UInt32.ofNat 5 ∧
    Ex.after.ctx.lastPacketTxTime = UInt32.ofNat 3 ∧ sendLimit Ex.g Ex.after.ctx = 30000 ∧
    wire (callEvents Ex.g Ex.quiet1 (Ex.envAt 30003 []) .processLoop) = pingreqPacket ∧
    Ex.ret (callIn Ex.g Ex.quiet4 (Ex.envAt 35010 []) .processLoop) = some (.status .keepAliveTimeout) := by
  refine ⟨?_, by decide +kernel, by decide +kernel, by decide +kernel, by decide +kernel, by decide +kernel, by decide +kernel⟩
  have : Ex.after.ctx.buffered = [] := by decide +kernel
  unfold NoPacket
  rw [this]
  intro t hl n h
  cases h

example : 35000 ≤ max 19000 (5 + Ex.g.packetRxTimeoutMs.toNat) + 12000 + Ex.g.pingrespTimeoutMs.toNat :=
  C55_silence_noticed Ex.after_fromInit (by
    have : Ex.after.ctx.buffered = [] := by decide +kernel
    unfold NoPacket
    rw [this]
    intro t hl n h
    cases h) (by decide +kernel) (by decide +kernel) (by omega) Ex.silent (by decide) (by decide)

/-- Why `MQTT_Ping` is excluded: it begins the wait for the PINGRESP anew.  An application that pings again every 4 s keeps `MQTT_ProcessLoop` from ever
reporting the timeout of 5 s: here it still reports MQTTSuccess 8 s after the first unanswered ping. -/
theorem C55_ping_postpones : ∃ w1 w2, callIn Ex.g Ex.quiet2 (Ex.envAt 34003 []) .ping = .done (.status .success) w1 ∧
    callIn Ex.g w1 (Ex.envAt 38003 []) .processLoop = .done (.status .success) w2 ∧
    Ex.quiet2.ctx.waitingForPingResp = true ∧ Ex.quiet2.ctx.pingReqSendTimeMs.toNat ≤ 30010 ∧ w2.ctx.waitingForPingResp = true ∧
    Ex.g.pingrespTimeoutMs.toNat = 5000 :=
  ⟨_, _, Ex.ret_done (by decide +kernel), Ex.ret_done (by decide +kernel), by decide +kernel, by decide +kernel, by decide +kernel, by decide⟩

end Mqtt
