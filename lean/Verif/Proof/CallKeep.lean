/-
Facts about the keep-alive check in receive calls.
-/
import Verif.Proof.CallConnect
import Verif.Spec.KeepAlive

namespace Mqtt
open Spec
set_option linter.unusedSimpArgs false

theorem since_eq (now t : UInt32) : (now - t).toNat = since now t := by
  unfold since
  rw [UInt32.toNat_sub]
  have := t.toNat_lt
  omega

theorem txLimit_eq (g : Cfg) (c : Ctx) : (txLimit g c).toNat = sendLimit g c := by
  unfold txLimit sendLimit
  have h : (1000 * c.keepAliveIntervalSec.toUInt32 : UInt32).toNat = 1000 * c.keepAliveIntervalSec.toNat := by
    rw [UInt32.toNat_mul, UInt16.toNat_toUInt32]
    have := c.keepAliveIntervalSec.toNat_lt
    show 1000 * _ % _ = _
    omega
  split
  · rename_i hlt
    rw [UInt32.lt_iff_toNat_lt, h] at hlt
    omega
  · rename_i hlt
    rw [UInt32.lt_iff_toNat_lt, h] at hlt
    rw [h]; omega

theorem ne_zero_iff (x : UInt32) : x ≠ 0 ↔ x.toNat ≠ 0 := by
  constructor
  · intro h h0
    exact h (UInt32.toNat_inj.mp h0)
  · rintro h rfl
    exact h rfl

theorem pingDue_iff (g : Cfg) (now : UInt32) (c : Ctx) : pingDue g now c ↔ PingNeeded g c now := by
  unfold pingDue PingNeeded
  rw [ne_zero_iff, ne_zero_iff, ge_iff_le, ge_iff_le, UInt32.le_iff_toNat_le, UInt32.le_iff_toNat_le, txLimit_eq, since_eq, since_eq]

theorem AckBytes.nil : AckBytes [] := ⟨none, List.nil_prefix⟩

/-- Statuses the state engine can report. -/
theorem step_ne_timeout (s : InFlight) (c : Call) : (step s c).1.1 ≠ .keepAliveTimeout := by
  have ins : ∀ {φ : Type} (cap : Nat) (l : Table φ) (id : UInt16) (p : φ), (l.insert cap id p).1 ≠ .keepAliveTimeout := by
    intro φ cap l id p
    unfold Table.insert
    split
    · simp
    · split <;> simp
  have ack : ∀ {φ : Type} (rule : φ → Option (Effect φ × PubState)) (l : Table φ) (id : UInt16), (ackTable rule l id).1.1 ≠ .keepAliveTimeout := by
    intro φ rule l id
    unfold ackTable
    split
    · simp
    · split <;> simp
  cases c with
  | reserve id q =>
    cases q
    · simp [step]
    all_goals
      simp only [step]
      split
      · simp
      · exact ins _ _ _ _
  | publish op id q =>
    cases q
    · simp [step]
    all_goals
      simp only [step]
      split
      · simp
      · cases op
        · dsimp only
          split
          · simp
          · split
            · simp
            · split <;> simp
        · exact ins _ _ _ _
  | ack op ty id =>
    simp only [step]
    split
    · simp
    · split
      · exact ack _ _ _
      · exact ack _ _ _
  | cancel id =>
    simp only [step]
    split <;> simp

theorem react_ne_timeout (retx manage : Bool) (s : InFlight) (t : UInt8) (body : List UInt8) :
    (react retx manage s t body).status ≠ .keepAliveTimeout := by
  unfold react
  split
  · simp
  · unfold reactPublish
    split
    · simp
    · dsimp only
      split
      · simp
      · split
        · simp
        · exact step_ne_timeout _ _
  · unfold reactAck
    dsimp only
    split
    · simp
    · exact step_ne_timeout _ _
  · simp
  · simp
  · simp

theorem Reacted.ne_timeout {retx manage : Bool} {s : InFlight} {t : UInt8} {body : List UInt8} {w w' : World} {st : Status} {es : List Event}
    (h : Reacted (react retx manage s t body) w st es w') : st ≠ .keepAliveTimeout := by
  rcases h.cases with ⟨_, _, _, h, _⟩ | ⟨_, _, _, _, h, _⟩ | ⟨_, _, _, _, h, _⟩ | ⟨_, _, _, _, _, _, h, _⟩
  · rw [h]; exact react_ne_timeout _ _ _ _ _
  · rw [h]; unfold notConnectedStatus; split <;> simp
  · rw [h]; simp
  · rw [h]; exact step_ne_timeout _ _

theorem Reacted.ackBytes {r : Reaction} {w w' : World} {st : Status} {es : List Event} (h : Reacted r w st es w') : AckBytes (wire es) :=
  ⟨r.ack, h.x.2.2⟩

theorem Advance.ackBytes {g : Cfg} {m : Bool} {s : InFlight} {w w' : World} {st : Status} {es : List Event} (h : Advance g m s w st es w') :
    AckBytes (wire es) ∧ st ≠ .keepAliveTimeout := by
  unfold Advance at h
  split at h
  · obtain ⟨rfl, _, rfl⟩ := h
    refine ⟨AckBytes.nil, ?_⟩
    split <;> simp
  · obtain ⟨rfl, _, rfl⟩ := h; exact ⟨AckBytes.nil, by simp⟩
  · split at h
    · obtain ⟨h1, _, _, h2⟩ := h
      refine ⟨by rw [wire_of_noSent h1.noSent]; exact AckBytes.nil, ?_⟩
      rcases h2 with ⟨rfl, _⟩ | ⟨rfl, _⟩ <;> simp
    · split at h
      · obtain ⟨rfl, _, rfl⟩ := h; exact ⟨AckBytes.nil, by simp⟩
      · obtain ⟨rst, re, w3, rx, hr, he, rfl, _⟩ := h
        have h1 : callerStatus rst ≠ .keepAliveTimeout := by
          unfold callerStatus
          split
          · simp
          · exact hr.ne_timeout
        refine ⟨?_, h1⟩
        rcases he with ⟨_, rfl, _⟩ | ⟨_, rfl⟩
        · exact hr.ackBytes
        · rw [wire_append]
          simpa [wire] using hr.ackBytes

theorem react_pong {retx manage : Bool} {s : InFlight} {t : UInt8} {body : List UInt8} (h : (react retx manage s t body).pong = true) :
    t = 0xD0 ∧ body = [] := by
  unfold react at h
  split at h
  · cases h
  · unfold reactPublish at h
    split at h
    · cases h
    · dsimp only at h
      split at h
      · cases h
      · split at h <;> cases h
  · unfold reactAck at h
    dsimp only at h
    split at h <;> cases h
  · rename_i hr
    unfold readIncoming at hr
    split at hr
    · split at hr
      · cases hr
      · split at hr <;> first | cases hr | (split at hr <;> cases hr)
    · have no : ∀ (o : Option UInt16) (f : UInt16 → Packet), (∀ i, f i ≠ .pingresp) → o.map f ≠ some .pingresp := by
        intro o f hf
        cases o with
        | none => simp
        | some i => simpa using hf i
      iterate 4 split at hr; exact absurd hr (no _ _ (by intro i; simp))
      split at hr
      · cases hs : subackBody body with
        | none => rw [hs] at hr; cases hr
        | some p => rw [hs] at hr; cases hr
      · split at hr
        · exact absurd hr (no _ _ (by intro i; simp))
        · split at hr
          · rename_i h1
            split at hr
            · rename_i h2; exact ⟨h1, h2⟩
            · cases hr
          · cases hr
  · cases h
  · cases h

/-- Only a PINGRESP at the front of the buffer ends the wait for one. -/
theorem Advance.pong {g : Cfg} {m : Bool} {s : InFlight} {w w' : World} {st : Status} {es : List Event} (hi : w.ctx.index ≤ w.ctx.bufSize)
    (h : Advance g m s w st es w') :
    w'.ctx.waitingForPingResp = w.ctx.waitingForPingResp ∨ [0xD0, 0] <+: w.ctx.buffered := by
  unfold Advance at h
  split at h
  · exact Or.inl (by rw [h.2.1])
  · exact Or.inl (by rw [h.2.1])
  · rename_i t hl n hh
    split at h
    · exact Or.inl (by rw [h.2.2.1])
    · split at h
      · exact Or.inl (by rw [h.2.1])
      · rename_i hlen
        obtain ⟨rst, re, w3, rx, hr, he, _, hc, _⟩ := h
        obtain ⟨t1, b1, T1, hc1⟩ := hr.ctx
        by_cases hp : (react w.ctx.retransmits m s t ((w.ctx.buffered.drop hl).take n)).pong = true
        · refine Or.inr ?_
          obtain ⟨rfl, hb⟩ := react_pong hp
          obtain ⟨_, _, h3, rest, h4⟩ := readHeader_known hh
          have hn : n = 0 := by
            have h5 : ((w.ctx.buffered.drop hl).take n).length = 0 := by rw [hb]; rfl
            rw [List.length_take, List.length_drop, buffered_length hi] at h5
            omega
          subst hn
          have h0 : varInt 0 = [0] := by decide +kernel
          rw [h4, h0]
          exact ⟨rest, rfl⟩
        · refine Or.inl ?_
          rw [hc]
          show w3.ctx.waitingForPingResp = _
          rw [hc1]
          simp [hp]

/-- What a receive call whose transport delivered nothing did about pings. -/
theorem Iterated.keepAlive {g : Cfg} {s : InFlight} {w w' : World} {st : Status} {es : List Event} {n : Nat}
    (h : Iterated g true s w st (.recvd n (some []) :: es) w') :
    ∃ now es', es = .time now :: es' ∧
      (w.ctx.waitingForPingResp = true → (st = .keepAliveTimeout ↔ g.pingrespTimeoutMs.toNat < since now w.ctx.pingReqSendTimeMs) ∧
        AckBytes (wire es') ∧ (st = .keepAliveTimeout → es' = [] ∧ w'.ctx = w.ctx)) ∧
      (w.ctx.waitingForPingResp = false → st ≠ .keepAliveTimeout ∧
        (¬ PingNeeded g w.ctx now → AckBytes (wire es')) ∧
        (PingNeeded g w.ctx now → w.ctx.connectStatus ≠ .connected → wire es' = [] ∧ st = notConnectedStatus w.ctx.connectStatus) ∧
        (PingNeeded g w.ctx now → w.ctx.connectStatus = .connected →
          (st = .sendFailed ∧ wire es' <+: pingreqPacket ∧ wire es' ≠ pingreqPacket ∧ w'.ctx.waitingForPingResp = false ∧
            ∃ r, Event.sent pingreqPacket r ∈ es') ∨
          ∃ rest, wire es' = pingreqPacket ++ rest ∧ AckBytes rest ∧
            (w'.ctx.waitingForPingResp = true ∨ [0xD0, 0] <+: w.ctx.buffered))) := by
  obtain ⟨h0, h⟩ := h
  rcases h with ⟨h, _⟩ | ⟨r, kst, ka, w1, w2, _, hw1, hk, h⟩
  · cases h
  have hes : ∃ es2, Event.recvd n (some []) :: es = Event.recvd (w.ctx.bufSize - w.ctx.index) (some r) :: (ka ++ es2) ∧
      ((kst ≠ .success ∧ es2 = [] ∧ w'.ctx = w2.ctx ∧ st = kst) ∨ (kst = .success ∧ Advance g true s w2 st es2 w')) := by
    rcases h with ⟨h1, h2, h3, h4⟩ | ⟨h1, es2, h2, h3⟩
    · exact ⟨[], by rw [h2, List.append_nil], Or.inl ⟨h1, rfl, h3, h4⟩⟩
    · exact ⟨es2, h2, Or.inr ⟨h1, h3⟩⟩
  obtain ⟨es2, he, hcase⟩ := hes
  obtain ⟨he1, he2⟩ := List.cons.inj he
  injection he1 with _ he1
  injection he1 with he1
  subst he1
  have hc1 : w1.ctx = w.ctx := by
    rw [hw1]
    unfold appended writeAt
    simp [List.take_append_drop]
  have hk : ∃ now, KeepAliveDone g now w1 kst ka w2 := by
    rcases hk with ⟨_, _, hk⟩ | ⟨h, _⟩
    · exact hk
    · exact absurd ⟨rfl, rfl⟩ h
  obtain ⟨now, hk⟩ := hk
  unfold KeepAliveDone at hk
  rw [hc1] at hk
  rw [pingDue_iff] at hk
  have hlt : (now - w.ctx.pingReqSendTimeMs > g.pingrespTimeoutMs) ↔ g.pingrespTimeoutMs.toNat < since now w.ctx.pingReqSendTimeMs := by
    rw [gt_iff_lt, UInt32.lt_iff_toNat_lt, since_eq]
  rcases hk with ⟨k1, rfl, k3, k4⟩ | ⟨k1, k2, rfl, k3, k4⟩ | ⟨k1, k2, es', rfl, w3, k3, k4⟩
  · refine ⟨now, es2, he2, fun _ => ?_, fun h => by rw [k1] at h; cases h⟩
    by_cases hto : now - w.ctx.pingReqSendTimeMs > g.pingrespTimeoutMs
    · rw [if_pos hto] at k4
      subst k4
      rcases hcase with ⟨_, rfl, c3, rfl⟩ | ⟨c1, _⟩
      · exact ⟨⟨fun _ => hlt.mp hto, fun _ => rfl⟩, AckBytes.nil, fun _ => ⟨rfl, by rw [c3, k3]⟩⟩
      · cases c1
    · rw [if_neg hto] at k4
      subst k4
      rcases hcase with ⟨c1, _⟩ | ⟨_, ha⟩
      · exact absurd rfl c1
      · obtain ⟨a1, a2⟩ := ha.ackBytes
        exact ⟨⟨fun h => absurd h a2, fun h => absurd (hlt.mpr h) hto⟩, a1, fun h => absurd h a2⟩
  · subst k4
    rcases hcase with ⟨c1, _⟩ | ⟨_, ha⟩
    · exact absurd rfl c1
    obtain ⟨a1, a2⟩ := ha.ackBytes
    refine ⟨now, [.pre, .post] ++ es2, by rw [he2]; rfl, fun h => (by rw [k1] at h; cases h), fun _ => ⟨a2, fun _ => ?_, fun h => absurd h k2,
      fun h => absurd h k2⟩⟩
    rw [wire_append]; simpa [wire] using a1
  · refine ⟨now, [.pre, .post] ++ es' ++ es2, by rw [he2]; simp, fun h => (by rw [k1] at h; cases h), fun _ => ?_⟩
    have hw : wire ([.pre, .post] ++ es' ++ es2) = wire es' ++ wire es2 := by
      rw [wire_append, wire_append]; simp [wire]
    rw [hw]
    rcases k4.cases with ⟨p1, p2, p3, p4, p5⟩ | ⟨p1, p2, p3, p4, p5, p6, p7⟩ | ⟨p1, p2, p3, p4, p5, p6⟩
    · rw [k3] at p1 p4
      have hk : kst ≠ .success := by
        rw [p4]; unfold notConnectedStatus; split <;> simp
      rcases hcase with ⟨_, rfl, c3, rfl⟩ | ⟨c1, _⟩
      · refine ⟨?_, fun h => absurd k2 h, fun _ _ => ⟨by rw [p2]; rfl, p4⟩, fun _ h => absurd h p1⟩
        rw [p4]; unfold notConnectedStatus; split <;> simp
      · exact absurd c1 hk
    · rw [k3] at p1
      rcases hcase with ⟨_, rfl, c3, rfl⟩ | ⟨c1, _⟩
      · refine ⟨by rw [p4]; simp, fun h => absurd k2 h, fun _ h => absurd p1 h, fun _ _ => Or.inl ⟨p4, ?_, ?_, ?_, ?_⟩⟩
        · simpa [wire] using p2
        · simpa [wire] using p3
        · rw [c3, p5, k3, k1]
        · obtain ⟨r, hr⟩ := p7
          exact ⟨r, List.mem_append_left _ (List.mem_append_right _ hr)⟩
      · rw [p4] at c1; cases c1
    · rw [k3] at p1
      rcases hcase with ⟨c1, _⟩ | ⟨_, ha⟩
      · exact absurd p4 c1
      · obtain ⟨a1, a2⟩ := ha.ackBytes
        refine ⟨a2, fun h => absurd k2 h, fun _ h => absurd p1 h, fun _ _ => Or.inr ⟨wire es2, by rw [p2], a1, ?_⟩⟩
        obtain ⟨t, p, q, hc⟩ := k4.ctx
        rcases ha.pong (by rw [hc, k3]; exact h0) with h | h
        · exact Or.inl (by rw [h, p5])
        · refine Or.inr ?_
          have hb : w2.ctx.buffered = w.ctx.buffered := by rw [hc, k3]; rfl
          rw [← hb]; exact h

/-- A receive call that does not check the keep-alive. -/
theorem Iterated.noCheck {g : Cfg} {m : Bool} {s : InFlight} {w w' : World} {st : Status} {es : List Event} (h : Iterated g m s w st es w')
    (hn : m = false ∨ ∀ n es', es ≠ .recvd n (some []) :: es') : AckBytes (wire es) ∧ st ≠ .keepAliveTimeout := by
  obtain ⟨_, ⟨rfl, rfl, _⟩ | ⟨r, kst, ka, w1, w2, _, hw1, hk, h⟩⟩ := h
  · exact ⟨AckBytes.nil, by simp⟩
  · have hm : ¬ (m = true ∧ r = []) := by
      rintro ⟨rfl, rfl⟩
      rcases hn with h' | hn
      · cases h'
      · rcases h with ⟨_, rfl, _⟩ | ⟨_, es2, rfl, _⟩ <;> exact hn _ _ rfl
    rcases hk with ⟨h1, h2, _⟩ | ⟨_, rfl, rfl, rfl⟩
    · exact absurd ⟨h1, h2⟩ hm
    · rcases h with ⟨h, _⟩ | ⟨_, es2, rfl, ha⟩
      · exact absurd rfl h
      · obtain ⟨a1, a2⟩ := ha.ackBytes
        refine ⟨?_, a2⟩
        rw [wire_cons_of_noSent _ _ rfl]; exact a1

theorem Iterated.timeout {g : Cfg} {m : Bool} {s : InFlight} {w w' : World} {es : List Event}
    (h : Iterated g m s w .keepAliveTimeout es w') :
    m = true ∧ w.ctx.waitingForPingResp = true ∧ ∃ n now, es = [.recvd n (some []), .time now] ∧
      g.pingrespTimeoutMs.toNat < since now w.ctx.pingReqSendTimeMs := by
  cases m with
  | false => exact absurd rfl (h.noCheck (Or.inl rfl)).2
  | true =>
    refine ⟨rfl, ?_⟩
    by_cases he : ∃ n es', es = .recvd n (some []) :: es'
    · obtain ⟨n, es', rfl⟩ := he
      obtain ⟨now, es2, rfl, k1, k2⟩ := h.keepAlive
      cases hw : w.ctx.waitingForPingResp with
      | false => exact absurd rfl (k2 hw).1
      | true =>
        obtain ⟨j1, _, j2⟩ := k1 hw
        exact ⟨rfl, n, now, by rw [(j2 rfl).1], j1.mp rfl⟩
    · exact absurd rfl (h.noCheck (Or.inr fun n es' h => he ⟨n, es', h⟩)).2

theorem SentResult.ne_timeout {bs : List UInt8} {st : Status} {es : List Event} (h : SentResult bs st es) : st ≠ .keepAliveTimeout := by
  unfold SentResult at h
  rcases h with ⟨h, _⟩ | ⟨h, _⟩ <;> rw [h] <;> simp

theorem notConnectedStatus_ne_timeout (c : ConnStatus) : notConnectedStatus c ≠ .keepAliveTimeout := by
  unfold notConnectedStatus; split <;> simp

theorem PubSent.ne_timeout {p : PublishInfo} {id : UInt16} {zs : List UInt8} {w w' : World} {st : Status} {es : List Event}
    (h : PubSent p id zs w st es w') : st ≠ .keepAliveTimeout := by
  rcases h.2.2 with ⟨_, _, h⟩ | ⟨_, _, _, rfl⟩ | ⟨_, _, _, _, _, h⟩
  · exact h.ne_timeout
  · simp
  · exact h.ne_timeout

/-- Only the receive calls report the keep-alive timeout. -/
theorem Did.timeout {g : Cfg} {s : InFlight} {w w' : World} {c : ApiCall} {r : ApiRet} {es : List Event} (h : Did g s w c r es w')
    (hr : r.code = some .keepAliveTimeout) :
    c = .processLoop ∧ w.ctx.waitingForPingResp = true ∧ ∃ n now, es = [.recvd n (some []), .time now] ∧
      g.pingrespTimeoutMs.toNat < since now w.ctx.pingReqSendTimeMs := by
  cases h with
  | publish _ h =>
    exfalso
    injection hr with hr
    rcases h.cases with ⟨rfl, _⟩ | ⟨_, h, _⟩ | ⟨_, _, _, h, _⟩ | ⟨_, zs, s1, st0, es0, w0, w1, _, _, hp, _, ⟨_, h, _⟩ | ⟨_, h, _⟩⟩
    · cases hr
    · rw [h] at hr; exact notConnectedStatus_ne_timeout _ hr
    · rw [h] at hr; exact step_ne_timeout _ _ hr
    · rw [h] at hr; exact hp.ne_timeout hr
    · rw [h] at hr
      unfold noteSent at hr
      split at hr
      · cases hr
      · exact step_ne_timeout _ _ hr
  | subscribe _ h =>
    exfalso
    injection hr with hr
    rcases h.cases with ⟨rfl, _⟩ | ⟨_, h, _⟩ | ⟨_, _, _, _, h⟩
    · cases hr
    · rw [h] at hr; exact notConnectedStatus_ne_timeout _ hr
    · exact h.ne_timeout hr
  | unsubscribe _ h =>
    exfalso
    injection hr with hr
    rcases h.cases with ⟨rfl, _⟩ | ⟨_, h, _⟩ | ⟨_, _, _, _, h⟩
    · cases hr
    · rw [h] at hr; exact notConnectedStatus_ne_timeout _ hr
    · exact h.ne_timeout hr
  | publishNull => cases hr
  | subscribeNull => cases hr
  | unsubscribeNull => cases hr
  | ping _ h =>
    exfalso
    injection hr with hr
    rcases h.cases with ⟨_, _, _, h, _⟩ | ⟨_, _, _, h, _⟩ | ⟨_, _, _, h, _⟩
    · rw [h] at hr; exact notConnectedStatus_ne_timeout _ hr
    · rw [h] at hr; cases hr
    · rw [h] at hr; cases hr
  | disconnect h =>
    exfalso
    injection hr with hr
    rcases h.cases with ⟨_, h, _⟩ | ⟨_, _, _, _, _, h, _⟩
    · rw [h] at hr; cases hr
    · exact h.ne_timeout hr
  | processLoop _ h =>
    injection hr with hr
    subst hr
    exact ⟨rfl, h.timeout.2⟩
  | receiveLoop _ h =>
    injection hr with hr
    subst hr
    cases h.timeout.1
  | cancel _ h =>
    exfalso
    injection hr with hr
    cases h with
    | none => cases hr
    | some _ _ _ => exact step_ne_timeout _ _ hr
  | check _ =>
    exfalso
    injection hr with hr
    cases hc : w.ctx.connectStatus <;> rw [hc] at hr <;> cases hr
  | getId _ => cases hr
  | connect h =>
    exfalso
    injection hr with hr
    subst hr
    rcases h.outcome with ⟨_, _, ⟨_, h, _⟩ | ⟨h, _⟩⟩ | ⟨_, _, h, _⟩ | ⟨_, _, _, _, _, h | h, _⟩ | ⟨_, _, ⟨_, h, _⟩ | ⟨_, h⟩⟩
    · cases h
    · cases hc : w.ctx.connectStatus <;> rw [hc] at h <;> cases h
    · cases h
    · cases h
    · cases h
    · cases h
    · simp at h
  | connectNull _ _ => cases hr

theorem react_no_pong (retx : Bool) (s : InFlight) (t : UInt8) (body : List UInt8) : (react retx false s t body).pong = false := by
  unfold react
  split
  · rfl
  · unfold reactPublish
    split
    · rfl
    · dsimp only
      split
      · rfl
      · split <;> rfl
  · unfold reactAck
    dsimp only
    split <;> rfl
  · rfl
  · rfl
  · rfl

theorem Advance.rx {g : Cfg} {m : Bool} {s : InFlight} {w w' : World} {st : Status} {es : List Event} (h : Advance g m s w st es w') :
    w'.ctx.pingReqSendTimeMs = w.ctx.pingReqSendTimeMs ∧ (m = false → w'.ctx.waitingForPingResp = w.ctx.waitingForPingResp) ∧
    (w'.ctx.lastPacketRxTime = w.ctx.lastPacketRxTime ∨
      st = .success ∧ ∃ re, es = re ++ [.time w'.ctx.lastPacketRxTime] ∧ ∃ p, p ≠ [] ∧ w.ctx.buffered = p ++ w'.ctx.buffered) := by
  unfold Advance at h
  split at h
  · rw [h.2.1]; exact ⟨rfl, fun _ => rfl, Or.inl rfl⟩
  · rw [h.2.1]; exact ⟨rfl, fun _ => rfl, Or.inl rfl⟩
  · rename_i t hl n hh
    split at h
    · rw [h.2.2.1]; exact ⟨rfl, fun _ => rfl, Or.inl rfl⟩
    · split at h
      · rw [h.2.1]; exact ⟨rfl, fun _ => rfl, Or.inl rfl⟩
      · obtain ⟨rst, re, w3, rx, hr, he, hst, hc, hb⟩ := h
        obtain ⟨t1, b1, T1, hc1⟩ := hr.ctx
        refine ⟨by rw [hc]; show w3.ctx.pingReqSendTimeMs = _; rw [hc1], ?_, ?_⟩
        · rintro rfl
          rw [hc]
          show w3.ctx.waitingForPingResp = _
          rw [hc1]
          show (if (react _ false _ _ _).pong = true then _ else _) = _
          rw [react_no_pong]; rfl
        · have hrx : w'.ctx.lastPacketRxTime = rx := by rw [hc]
          rcases he with ⟨_, rfl, h2⟩ | ⟨h1, h2⟩
          · exact Or.inl (by rw [hrx, h2])
          · refine Or.inr ⟨by rw [hst, h1]; rfl, re, by rw [hrx]; exact h2, w.ctx.buffered.take (hl + n), ?_, by rw [hb, List.take_append_drop]⟩
            obtain ⟨_, _, h3, rest, h4⟩ := readHeader_known hh
            rw [h4, h3, Nat.add_assoc, Nat.add_comm 1]
            simp

/-- When a receive call changes the time of the last reception, and what it does to an outstanding ping. -/
theorem Iterated.rx {g : Cfg} {m : Bool} {s : InFlight} {w w' : World} {st : Status} {es : List Event} (h : Iterated g m s w st es w') :
    (m = false → w'.ctx.pingReqSendTimeMs = w.ctx.pingReqSendTimeMs ∧ w'.ctx.waitingForPingResp = w.ctx.waitingForPingResp) ∧
    (w'.ctx.lastPacketRxTime = w.ctx.lastPacketRxTime ∨
      st = .success ∧ ∃ n r re, es = .recvd n (some r) :: (re ++ [.time w'.ctx.lastPacketRxTime]) ∧
        ∃ p, p ≠ [] ∧ w.ctx.buffered ++ r = p ++ w'.ctx.buffered) := by
  obtain ⟨h0, ⟨rfl, rfl, hc⟩ | ⟨r, kst, ka, w1, w2, hlen, hw1, hk, h⟩⟩ := h
  · rw [hc]; exact ⟨fun _ => ⟨rfl, rfl⟩, Or.inl rfl⟩
  · have e1 : w1.ctx.lastPacketRxTime = w.ctx.lastPacketRxTime := by rw [hw1]; rfl
    have e2 : w1.ctx.pingReqSendTimeMs = w.ctx.pingReqSendTimeMs := by rw [hw1]; rfl
    have e3 : w1.ctx.waitingForPingResp = w.ctx.waitingForPingResp := by rw [hw1]; rfl
    have hb : w1.ctx.buffered = w.ctx.buffered ++ r := by rw [hw1]; exact appended_buffered (by omega)
    have hk2 : w2.ctx.lastPacketRxTime = w1.ctx.lastPacketRxTime ∧ w2.ctx.buffered = w1.ctx.buffered ∧ (m = false → w2 = w1) := by
      rcases hk with ⟨rfl, _, now, hk⟩ | ⟨_, _, _, rfl⟩
      · have : ∀ {w3 : World}, w3.ctx = w1.ctx → w3.ctx.lastPacketRxTime = w1.ctx.lastPacketRxTime ∧ w3.ctx.buffered = w1.ctx.buffered ∧
            (true = false → w3 = w1) := fun h => ⟨by rw [h], by rw [h], fun h => nomatch h⟩
        rcases hk with ⟨_, _, hk, _⟩ | ⟨_, _, _, hk, _⟩ | ⟨_, _, es', _, w3, hw3, hp⟩
        · exact this hk
        · exact this hk
        · obtain ⟨t, p, q, hp⟩ := hp.ctx
          rw [hp, hw3]; exact ⟨rfl, rfl, fun h => nomatch h⟩
      · exact ⟨rfl, rfl, fun _ => rfl⟩
    rcases h with ⟨_, _, h2, _⟩ | ⟨_, es2, he, ha⟩
    · rw [h2]
      exact ⟨fun hm => by rw [hk2.2.2 hm]; exact ⟨e2, e3⟩, Or.inl (hk2.1.trans e1)⟩
    · obtain ⟨a1, a2, a3⟩ := ha.rx
      refine ⟨fun hm => ⟨?_, ?_⟩, ?_⟩
      · rw [a1, hk2.2.2 hm, e2]
      · rw [a2 hm, hk2.2.2 hm, e3]
      · rcases a3 with a3 | ⟨a3, re, rfl, p, hp, hpb⟩
        · exact Or.inl (a3.trans (hk2.1.trans e1))
        · exact Or.inr ⟨a3, _, r, ka ++ re, by rw [he, List.append_assoc], p, hp, by rw [← hb, ← hk2.2.1, hpb]⟩

theorem Resumed.times {s : InFlight} {w w' : World} {st : Status} {es : List Event} (h : Resumed s w st es w') :
    w'.ctx.lastPacketRxTime = w.ctx.lastPacketRxTime ∧ w'.ctx.waitingForPingResp = w.ctx.waitingForPingResp := by
  obtain ⟨a, st1, w1, b, _, hp, h⟩ := h
  obtain ⟨t, b1, T, hc⟩ := hp.ctx
  rcases h with ⟨_, _, rfl, _⟩ | ⟨_, _, hq⟩
  · rw [hc]; exact ⟨rfl, rfl⟩
  · obtain ⟨t2, hc2⟩ := hq.ctx
    rw [hc2, hc]; exact ⟨rfl, rfl⟩

/-- What the calls other than the receive calls do to the noted times. -/
theorem Did.times {g : Cfg} {s : InFlight} {w w' : World} {c : ApiCall} {r : ApiRet} {es : List Event} (h : Did g s w c r es w')
    (hl : c ≠ .processLoop) (hl' : c ≠ .receiveLoop) :
    w'.ctx.lastPacketRxTime = w.ctx.lastPacketRxTime ∧
    ((w'.ctx.waitingForPingResp = w.ctx.waitingForPingResp ∧ w'.ctx.pingReqSendTimeMs = w.ctx.pingReqSendTimeMs ∧
        ¬ (c = .ping ∧ r = .status .success) ∧ ¬ (∃ ci will t sp0 sp, c = .connect ci will t sp0 ∧ r = .connect .success sp)) ∨
      (c = .ping ∧ r = .status .success ∧ w'.ctx.waitingForPingResp = true ∧ w'.ctx.pingReqSendTimeMs = w'.ctx.lastPacketTxTime) ∨
      (∃ ci will t sp0, c = .connect ci will t sp0) ∧ w'.ctx.waitingForPingResp = false) := by
  cases h with
  | publish _ h =>
    obtain ⟨t, T, hc⟩ := h.ctx
    rw [hc]; exact ⟨rfl, Or.inl ⟨rfl, rfl, by simp, by simp⟩⟩
  | subscribe _ h =>
    obtain ⟨t, hc⟩ := h.ctx
    rw [hc]; exact ⟨rfl, Or.inl ⟨rfl, rfl, by simp, by simp⟩⟩
  | unsubscribe _ h =>
    obtain ⟨t, hc⟩ := h.ctx
    rw [hc]; exact ⟨rfl, Or.inl ⟨rfl, rfl, by simp, by simp⟩⟩
  | publishNull => exact ⟨rfl, Or.inl ⟨rfl, rfl, by simp, by simp⟩⟩
  | subscribeNull => exact ⟨rfl, Or.inl ⟨rfl, rfl, by simp, by simp⟩⟩
  | unsubscribeNull => exact ⟨rfl, Or.inl ⟨rfl, rfl, by simp, by simp⟩⟩
  | ping _ h =>
    obtain ⟨t, p, q, hc⟩ := h.ctx
    refine ⟨by rw [hc], ?_⟩
    rcases h.cases with ⟨_, _, _, h1, h2⟩ | ⟨_, _, _, h1, h2, h3, _⟩ | ⟨_, _, _, h1, h2, h3⟩
    · refine Or.inl ⟨by rw [h2], by rw [h2], ?_, by simp⟩
      rintro ⟨_, h⟩
      injection h with h
      rw [h1] at h
      unfold notConnectedStatus at h
      split at h <;> cases h
    · exact Or.inl ⟨h2, h3, by simp [h1], by simp⟩
    · exact Or.inr (Or.inl ⟨rfl, by rw [h1], h2, h3⟩)
  | disconnect h =>
    rcases h.cases with ⟨_, _, _, h⟩ | ⟨_, _, _, _, _, _, t, h⟩
    all_goals rw [h]; exact ⟨rfl, Or.inl ⟨rfl, rfl, by simp, by simp⟩⟩
  | processLoop _ _ => exact absurd rfl hl
  | receiveLoop _ _ => exact absurd rfl hl'
  | cancel _ h =>
    cases h with
    | none => exact ⟨rfl, Or.inl ⟨rfl, rfl, by simp, by simp⟩⟩
    | some _ h _ => rw [h]; exact ⟨rfl, Or.inl ⟨rfl, rfl, by simp, by simp⟩⟩
  | check h => rw [h]; exact ⟨rfl, Or.inl ⟨rfl, rfl, by simp, by simp⟩⟩
  | getId h => rw [h]; exact ⟨rfl, Or.inl ⟨rfl, rfl, by simp, by simp⟩⟩
  | connectNull _ h => rw [h]; exact ⟨rfl, Or.inl ⟨rfl, rfl, by simp, by simp⟩⟩
  | @connect ci will t sp0 sp st _ _ h =>
    cases h with
    | badSize h1 h2 h3 => have hne := h1; exact ⟨by rw [h3], Or.inl ⟨by rw [h3], by rw [h3], by simp, by simp [hne]⟩⟩
    | already h1 h2 h3 h4 => 
      have hne : st ≠ .success := by rw [h4]; split <;> simp
      exact ⟨by rw [h3], Or.inl ⟨by rw [h3], by rw [h3], by simp, by simp [hne]⟩⟩
    | noTopic h1 h2 h3 h4 => exact ⟨by rw [h4], Or.inl ⟨by rw [h4], by rw [h4], by simp, by simp⟩⟩
    | notSent h1 h2 h3 h4 h5 h6 h7 => exact ⟨by rw [h7], Or.inl ⟨by rw [h7], by rw [h7], by simp, by simp⟩⟩
    | notAccepted h1 h2 h3 h4 h5 h6 h7 h8 h9 h10 =>
      obtain ⟨b, _, hb⟩ := h8.ctx
      have hne := h9; exact ⟨by rw [h10, hb, h7], Or.inl ⟨by rw [h10, hb, h7], by rw [h10, hb, h7], by simp, by simp [hne]⟩⟩
    | fresh h1 h2 h3 h4 h5 h6 h7 h8 h9 =>
      obtain ⟨b, _, hb⟩ := h8.ctx
      exact ⟨by rw [h9, hb, h7]; rfl, Or.inr (Or.inr ⟨⟨_, _, _, _, rfl⟩, by rw [h9]; rfl⟩)⟩
    | resumed h1 h2 h3 h4 h5 h6 h7 h8 h9 h10 h11 h12 =>
      obtain ⟨b, _, hb⟩ := h8.ctx
      obtain ⟨k1, k2⟩ := h11.times
      refine ⟨?_, Or.inr (Or.inr ⟨⟨_, _, _, _, rfl⟩, ?_⟩)⟩
      · rw [h12]
        show _ = _
        rw [k1, h9]
        show _ = _
        rw [connectedCtx, hb, h7]
      · rw [h12]
        show _ = _
        rw [k2, h9]; rfl

end Mqtt
