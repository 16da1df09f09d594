/-
C80: what an application that polls can rely on in real time.
-/
import Verif.Spec.Polling
import Verif.Props.Duration
import Verif.Props.Alive

namespace Mqtt
open Spec

/-! ### Timed events -/

theorem timed_within {D : Nat} : ∀ {es : List Event} {t t' : Nat}, Timed D t es t' → t ≤ t' ∧ Within t t' es
  | [], t, t', h => by cases h; exact ⟨Nat.le_refl _, fun x hx => by cases hx⟩
  | e :: es, t, t', h => by
    cases e with
    | time x =>
      obtain ⟨r, u, h1, h2, h3, rfl, h4⟩ := h
      obtain ⟨k1, k2⟩ := timed_within h4
      refine ⟨by omega, fun y hy => ?_⟩
      rcases List.mem_cons.mp hy with hy | hy
      · cases hy
        exact ⟨r, h1, by omega, rfl⟩
      · obtain ⟨T, a, b, c⟩ := k2 y hy
        exact ⟨T, by omega, b, c⟩
    | _ =>
      obtain ⟨u, h1, h2, h4⟩ := h
      obtain ⟨k1, k2⟩ := timed_within h4
      refine ⟨by omega, fun y hy => ?_⟩
      rcases List.mem_cons.mp hy with hy | hy
      · cases hy
      · obtain ⟨T, a, b, c⟩ := k2 y hy
        exact ⟨T, by omega, b, c⟩

theorem Spec.Within.mono {a b a' : Nat} {es : List Event} (h : Within a b es) (ha : a' ≤ a) : Within a' b es := fun t ht => by
  obtain ⟨T, h1, h2, h3⟩ := h t ht
  exact ⟨T, by omega, h2, h3⟩

theorem clocked_before : ∀ {es : List Event} {n n0 l : Nat} {p : Bool} {n' l' : Nat}, Clocked n l p es n' l' → n0 ≤ n → Clocked n0 l p es n' l'
  | [], _, _, _, _, _, _, h, h0 => ⟨Nat.le_trans h0 h.1, h.2⟩
  | e :: es, n, n0, l, p, n', l', h, h0 => by
    cases e with
    | time t =>
      obtain ⟨T, h1, h2, h3⟩ := h
      exact ⟨T, by omega, h2, h3⟩
    | sent bs r =>
      cases r with
      | none => exact clocked_before (es := es) h h0
      | some k => exact clocked_before (es := es) h h0
    | _ => exact clocked_before (es := es) h h0

theorem call_bufSize {g : Cfg} {w w' : World} {e : Env} {c : ApiCall} {r : ApiRet} (hc : callIn g w e c = .done r w') : w'.ctx.bufSize = w.ctx.bufSize := by
  have h := apiCall_fast g c { w with env := e }
  unfold Fast wp at h
  unfold callIn at hc
  rw [hc] at h
  obtain ⟨⟨es, hk⟩, _⟩ := h
  exact hk.buf

/-- How long `MQTT_ProcessLoop` takes if nothing arrives. -/
theorem idle_time {g : Cfg} {D : Nat} {w : World} {e : Env} {t t' : Nat} (hb : 0 < w.ctx.bufSize) (hD : longestWait g .processLoop + 8 * D < 2 ^ 32)
    (hr : received (callEvents g w e .processLoop).tail = []) (ht : Timed D t (callEvents g w e .processLoop) t') : t' ≤ t + callTime g D 0 .processLoop := by
  have := C79_duration g w e .processLoop hb hD ht
  simp only [awaited] at this
  rw [hr] at this
  simpa [callTime] using this

theorem received_tail {es : List Event} (h : received es = []) : received es.tail = [] := by
  cases es with
  | nil => rfl
  | cons e es =>
    rw [show e :: es = [e] ++ es from rfl, received_append] at h
    exact (List.append_eq_nil_iff.mp h).2

theorem Spec.PolledFor.silent {g : Cfg} {D pause : Nat} {quiet : Bool} {w w' : World} {t0 poll fin now : Nat} (hb : 0 < w.ctx.bufSize)
    (hD : longestWait g .processLoop + 8 * D < 2 ^ 32) (hs : PolledFor g D pause quiet w t0 w' poll fin now) :
    Silent g (pause + 2 * callTime g D 0 .processLoop) quiet w t0 w' poll now ∧ poll ≤ fin ∧ fin ≤ now ∧ fin ≤ poll + callTime g D 0 .processLoop ∧ 0 < w'.ctx.bufSize := by
  induction hs with
  | start => exact ⟨.start, Nat.le_refl _, Nat.le_refl _, by omega, hb⟩
  | other hs hv hpl h1 h2 hn hc hr hq ht ih =>
    obtain ⟨i1, i2, i3, i4, i5⟩ := ih
    obtain ⟨k1, k2⟩ := timed_within ht
    exact ⟨.other i1 hv hpl h1 h2 (by omega) hc hr hq (k2.mono hn), i2, by omega, i4, by rw [call_bufSize hc]; exact i5⟩
  | poll hs hn hp hc hst hr ht ih =>
    obtain ⟨i1, i2, i3, i4, i5⟩ := ih
    obtain ⟨k1, k2⟩ := timed_within ht
    have := idle_time i5 hD (received_tail hr) ht
    exact ⟨.poll i1 hn k1 (by omega) hc hst hr k2, k1, Nat.le_refl _, this, by rw [call_bufSize hc]; exact i5⟩

/-- **C80**.  Nothing arrives any more from the server.  The application calls `MQTT_ProcessLoop` again and again, at most `pause` ms after the call before has returned, and
no call of the transport, the clock or a callback takes longer than `D` ms.  Let `B` be the duration of a `MQTT_ProcessLoop` without data (`callTime`: one send timeout, one polling
timeout and some multiple of `D`).  If the last packet was received at time `rx` and no ping is outstanding at time `t0`, then the last call that reports MQTTSuccess begins at
most `pause` + 2 `B` + PINGRESP timeout after the ping was due (the receive timeout after `rx`, or `t0` if that is later), and has returned `B` later. -/
theorem C80_silence {g : Cfg} {D pause : Nat} {h : List (ApiCall × ApiRet)} {w w' : World} {rx t0 poll fin now : Nat} (hh : FromInit g h w) (hb : 0 < w.ctx.bufSize)
    (hn : NoPacket w.ctx) (hw : w.ctx.waitingForPingResp = false) (hrx : w.ctx.lastPacketRxTime = UInt32.ofNat rx) (h0 : rx ≤ t0)
    (hs : PolledFor g D pause false w t0 w' poll fin now) (hD : longestWait g .processLoop + 8 * D < 2 ^ 32)
    (hp : g.pingrespTimeoutMs.toNat + (pause + 2 * callTime g D 0 .processLoop) < 2 ^ 32)
    (hwrap : max t0 (rx + g.packetRxTimeoutMs.toNat) + (pause + 2 * callTime g D 0 .processLoop) < rx + 2 ^ 32) :
    poll ≤ max t0 (rx + g.packetRxTimeoutMs.toNat) + (pause + 2 * callTime g D 0 .processLoop) + g.pingrespTimeoutMs.toNat ∧ fin ≤ poll + callTime g D 0 .processLoop := by
  obtain ⟨k1, _, _, k4, _⟩ := hs.silent hb hD
  exact ⟨C55_silence_noticed hh hn hw hrx h0 k1 hp hwrap, k4⟩

/-- **C80**, the same for the keep-alive interval if the other calls send nothing. -/
theorem C80_idle {g : Cfg} {D pause : Nat} {h : List (ApiCall × ApiRet)} {w w' : World} {tx t0 poll fin now : Nat} (hh : FromInit g h w) (hb : 0 < w.ctx.bufSize)
    (hn : NoPacket w.ctx) (hw : w.ctx.waitingForPingResp = false) (htx : w.ctx.lastPacketTxTime = UInt32.ofNat tx) (h0 : tx ≤ t0) (hk : sendLimit g w.ctx ≠ 0)
    (hs : PolledFor g D pause true w t0 w' poll fin now) (hD : longestWait g .processLoop + 8 * D < 2 ^ 32)
    (hp : g.pingrespTimeoutMs.toNat + (pause + 2 * callTime g D 0 .processLoop) < 2 ^ 32)
    (hwrap : max t0 (tx + sendLimit g w.ctx) + (pause + 2 * callTime g D 0 .processLoop) < tx + 2 ^ 32) :
    poll ≤ max t0 (tx + sendLimit g w.ctx) + (pause + 2 * callTime g D 0 .processLoop) + g.pingrespTimeoutMs.toNat ∧ fin ≤ poll + callTime g D 0 .processLoop := by
  obtain ⟨k1, _, _, k4, _⟩ := hs.silent hb hD
  exact ⟨C55_idle_noticed hh hn hw htx h0 hk k1 hp hwrap, k4⟩

/-- **C80**, what the application sees: the first `MQTT_ProcessLoop` that begins after that time reports something else than MQTTSuccess (and MQTTNeedMoreBytes), and it returns
at most `pause` + 2 `B` after that time. -/
theorem C80_reported {g : Cfg} {D pause : Nat} {h : List (ApiCall × ApiRet)} {w w1 w2 : World} {rx t0 poll fin now start stop : Nat} {e : Env} {st : Status}
    (hh : FromInit g h w) (hb : 0 < w.ctx.bufSize)
    (hn : NoPacket w.ctx) (hw : w.ctx.waitingForPingResp = false) (hrx : w.ctx.lastPacketRxTime = UInt32.ofNat rx) (h0 : rx ≤ t0)
    (hs : PolledFor g D pause false w t0 w1 poll fin now) (hD : longestWait g .processLoop + 8 * D < 2 ^ 32)
    (hp : g.pingrespTimeoutMs.toNat + (pause + 2 * callTime g D 0 .processLoop) < 2 ^ 32)
    (hwrap : max t0 (rx + g.packetRxTimeoutMs.toNat) + (pause + 2 * callTime g D 0 .processLoop) < rx + 2 ^ 32)
    (h1 : now ≤ start) (h2 : start ≤ fin + pause) (hc : callIn g w1 e .processLoop = .done (.status st) w2) (hr : received (callEvents g w1 e .processLoop) = [])
    (ht : Timed D start (callEvents g w1 e .processLoop) stop)
    (hlate : max t0 (rx + g.packetRxTimeoutMs.toNat) + (pause + 2 * callTime g D 0 .processLoop) + g.pingrespTimeoutMs.toNat < start) :
    st ≠ .success ∧ st ≠ .needMoreBytes ∧
    stop ≤ max t0 (rx + g.packetRxTimeoutMs.toNat) + 2 * pause + 4 * callTime g D 0 .processLoop + g.pingrespTimeoutMs.toNat := by
  obtain ⟨k1, k2⟩ := C80_silence hh hb hn hw hrx h0 hs hD hp hwrap
  have hb1 := (hs.silent hb hD).2.2.2.2
  have hst := idle_time hb1 hD (received_tail hr) ht
  have no : ¬ (st = .success ∨ st = .needMoreBytes) := fun hst' => by
    have := (C80_silence hh hb hn hw hrx h0 (hs.poll h1 h2 hc hst' hr ht) hD hp hwrap).1
    omega
  exact ⟨fun h => no (.inl h), fun h => no (.inr h), by omega⟩

/-! ### The keep-alive interval -/

theorem Spec.KeptFor.attended {g : Cfg} {D pause : Nat} {w w' : World} {tx t0 last poll fin now : Nat} (hb : 0 < w.ctx.bufSize)
    (hD : longestWait g .processLoop + 8 * D < 2 ^ 32) (hs : KeptFor g D pause w tx t0 w' last poll fin now) :
    Attended g (pause + 2 * callTime g D 0 .processLoop) w tx t0 w' last poll now ∧ poll ≤ fin ∧ fin ≤ now ∧ fin ≤ poll + callTime g D 0 .processLoop ∧ 0 < w'.ctx.bufSize := by
  induction hs with
  | start => exact ⟨.start, Nat.le_refl _, Nat.le_refl _, by omega, hb⟩
  | call hs hv hpl hn hc ht hcl ih =>
    obtain ⟨i1, i2, i3, i4, i5⟩ := ih
    obtain ⟨k1, _⟩ := timed_within ht
    exact ⟨.call i1 hv hpl hc (clocked_before hcl hn), i2, by omega, i4, by rw [call_bufSize hc]; exact i5⟩
  | idle hs hn hp hc hst he hr ht hcl ih =>
    obtain ⟨i1, i2, i3, i4, i5⟩ := ih
    obtain ⟨k1, _⟩ := timed_within ht
    have := idle_time i5 hD (by rw [he]; exact hr) ht
    exact ⟨.idle i1 hn (by omega) hc hst he hcl, k1, Nat.le_refl _, this, by rw [call_bufSize hc]; exact i5⟩

/-- **C80**, the promise of the keep-alive interval in real time: let the application call `MQTT_ProcessLoop` without data at most `pause` ms after the last such call has returned.
Then the last transmission is never more than the (capped) keep-alive interval, or the time allowed for a PINGRESP if that is longer, plus `pause` + 2 `B` ago. -/
theorem C80_keeps_alive {g : Cfg} {D pause : Nat} {h : List (ApiCall × ApiRet)} {w w' : World} {tx t0 last poll fin now : Nat} (hh : FromInit g h w) (hb : 0 < w.ctx.bufSize)
    (hw : w.ctx.waitingForPingResp = false) (htx : w.ctx.lastPacketTxTime = UInt32.ofNat tx) (h0 : tx ≤ t0) (hk : sendLimit g w.ctx ≠ 0) (h0' : t0 ≤ tx + sendLimit g w.ctx)
    (hD : longestWait g .processLoop + 8 * D < 2 ^ 32)
    (hL : max (sendLimit g w.ctx) g.pingrespTimeoutMs.toNat + (pause + 2 * callTime g D 0 .processLoop) < 2 ^ 32)
    (hp : KeptFor g D pause w tx t0 w' last poll fin now) (hnow : now ≤ fin + pause) :
    last ≤ now ∧ now ≤ last + max (sendLimit g w.ctx) g.pingrespTimeoutMs.toNat + (pause + 2 * callTime g D 0 .processLoop) := by
  obtain ⟨k1, _, _, k4, _⟩ := hp.attended hb hD
  exact C70_keeps_alive hh hw htx h0 hk h0' hL k1 (by omega)

/-! ### Example -/

/-- Events that take place as the clock shows. -/
theorem Ex.timedAt {D t t' : Nat} {es : List Event} (h : Ex.timeline D t es (Ex.stamps 0 t es) = true) (h' : (Ex.stamps 0 t es).getLastD t = t') : Timed D t es t' :=
  h' ▸ Ex.timed h

/-- The session of C55's example, with a pause of at most 12 s: polls at 20 s and 30 s (which pings), a publish at 31 s, a poll at 35 s. -/
theorem Ex.polledFor : PolledFor Ex.g 5 12000 false Ex.after 19000 Ex.quiet4 35000 35000 35000 := by
  have h1 : PolledFor Ex.g 5 12000 false Ex.after 19000 Ex.quiet1 20000 20000 20000 :=
    .poll .start (by omega) (by omega) (Ex.ret_done (r := .status .success) (by decide +kernel)) (Or.inl rfl) (by decide +kernel)
      (Ex.timedAt (by decide +kernel) (by decide +kernel))
  have h2 : PolledFor Ex.g 5 12000 false Ex.after 19000 Ex.quiet2 30003 30006 30006 :=
    .poll h1 (by omega) (by omega) (Ex.ret_done (r := .status .success) (by decide +kernel)) (Or.inl rfl) (by decide +kernel)
      (Ex.timedAt (by decide +kernel) (by decide +kernel))
  have h3 : PolledFor Ex.g 5 12000 false Ex.after 19000 Ex.quiet3 30003 30006 31006 :=
    .other (start := 31000) h2 (Ex.publishValid _ _) rfl (fun h => by cases h) (fun h => by cases h) (by omega) (Ex.ret_done (r := .status .success) (by decide +kernel))
      (by decide +kernel) (fun h => by cases h) (Ex.timedAt (by decide +kernel) (by decide +kernel))
  exact .poll h3 (by omega) (by omega) (Ex.ret_done (r := .status .success) (by decide +kernel)) (Or.inl rfl) (by decide +kernel)
      (Ex.timedAt (by decide +kernel) (by decide +kernel))

theorem Ex.after_noPacket : NoPacket Ex.after.ctx := by
  have : Ex.after.ctx.buffered = [] := by decide +kernel
  unfold NoPacket
  rw [this]
  intro t hl n h
  cases h

/-- Non-vacuity of `C80_silence`. -/
example : 35000 ≤ max 19000 (5 + Ex.g.packetRxTimeoutMs.toNat) + (12000 + 2 * callTime Ex.g 5 0 .processLoop) + Ex.g.pingrespTimeoutMs.toNat ∧
    35000 ≤ 35000 + callTime Ex.g 5 0 .processLoop :=
  C80_silence Ex.after_fromInit (by decide +kernel) Ex.after_noPacket (by decide +kernel) (by decide +kernel) (by omega) Ex.polledFor (by decide) (by decide) (by decide)

/-- Non-vacuity of `C80_keeps_alive`. -/
theorem Ex.keptFor : KeptFor Ex.g 5 12000 Ex.after 3 19000 Ex.quiet4 31005 35000 35000 35000 := by
  have h1 : KeptFor Ex.g 5 12000 Ex.after 3 19000 Ex.quiet1 3 20000 20000 20000 :=
    .idle (n := 64) (es := (callEvents Ex.g Ex.after (Ex.envAt 20000 []) .processLoop).tail) .start (by omega) (by omega)
      (Ex.ret_done (r := .status .success) (by decide +kernel)) (Or.inl rfl) (by decide +kernel) (by decide +kernel) (Ex.timedAt (by decide +kernel) (by decide +kernel))
      (clockedRun_sound _ _ _ _ _ _ (by decide +kernel))
  have h2 : KeptFor Ex.g 5 12000 Ex.after 3 19000 Ex.quiet2 30005 30003 30006 30006 :=
    .idle (n := 64) (es := (callEvents Ex.g Ex.quiet1 (Ex.envAt 30003 []) .processLoop).tail) h1 (by omega) (by omega)
      (Ex.ret_done (r := .status .success) (by decide +kernel)) (Or.inl rfl) (by decide +kernel) (by decide +kernel) (Ex.timedAt (by decide +kernel) (by decide +kernel))
      (clockedRun_sound _ _ _ _ _ _ (by decide +kernel))
  have h3 : KeptFor Ex.g 5 12000 Ex.after 3 19000 Ex.quiet3 31005 30003 30006 31006 :=
    .call (start := 31000) h2 (Ex.publishValid .qos0 0) rfl (by omega) (Ex.ret_done (r := .status .success) (by decide +kernel))
      (Ex.timedAt (by decide +kernel) (by decide +kernel)) (clockedRun_sound _ _ _ _ _ _ (by decide +kernel))
  exact .idle (n := 64) (es := (callEvents Ex.g Ex.quiet3 (Ex.envAt 35000 []) .processLoop).tail) h3 (by omega) (by omega)
      (Ex.ret_done (r := .status .success) (by decide +kernel)) (Or.inl rfl) (by decide +kernel) (by decide +kernel) (Ex.timedAt (by decide +kernel) (by decide +kernel))
      (clockedRun_sound _ _ _ _ _ _ (by decide +kernel))

example : 31005 ≤ 35000 ∧ 35000 ≤ 31005 + max (sendLimit Ex.g Ex.after.ctx) Ex.g.pingrespTimeoutMs.toNat + (12000 + 2 * callTime Ex.g 5 0 .processLoop) :=
  C80_keeps_alive Ex.after_fromInit (by decide +kernel) (by decide +kernel) (by decide +kernel) (by omega) (by decide +kernel) (by decide +kernel) (by decide)
    (by decide +kernel) Ex.keptFor (by omega)

/-- A session with a short send timeout falls silent: the last poll before the ping is due at 30 s, one that pings at 42 s, one at 47 s, just before the time for the PINGRESP
has passed, and one at 59 s that reports it. -/
def Ex.hurried : World := (callIn Ex.hasty Ex.w0 (Ex.envAt 0 [0x20, 2, 0, 0]) Ex.connectCall).world
def Ex.hurried1 : World := (callIn Ex.hasty Ex.hurried (Ex.envAt 29990 []) .processLoop).world
def Ex.hurried2 : World := (callIn Ex.hasty Ex.hurried1 (Ex.envAt 41980 []) .processLoop).world
def Ex.hurried3 : World := (callIn Ex.hasty Ex.hurried2 (Ex.envAt 46980 []) .processLoop).world

theorem Ex.hurried_fromInit : FromInit Ex.hasty [(Ex.connectCall, .connect .success (some false))] Ex.hurried :=
  ⟨⟨by decide, by decide⟩, Ex.w0, Ex.ctxInit true, rfl, .call (h := []) (.start _) (fun c h => by cases h; exact Ex.ciValid) (Ex.ret_done (by decide +kernel))⟩

theorem Ex.hurried_polledFor : PolledFor Ex.hasty 1 12000 false Ex.hurried 29990 Ex.hurried3 46980 46980 46980 := by
  have h1 : PolledFor Ex.hasty 1 12000 false Ex.hurried 29990 Ex.hurried1 29990 29990 29990 :=
    .poll .start (by omega) (by omega) (Ex.ret_done (r := .status .success) (by decide +kernel)) (Or.inl rfl) (by decide +kernel)
      (Ex.timedAt (by decide +kernel) (by decide +kernel))
  have h2 : PolledFor Ex.hasty 1 12000 false Ex.hurried 29990 Ex.hurried2 41980 41983 41983 :=
    .poll h1 (by omega) (by omega) (Ex.ret_done (r := .status .success) (by decide +kernel)) (Or.inl rfl) (by decide +kernel)
      (Ex.timedAt (by decide +kernel) (by decide +kernel))
  exact .poll h2 (by omega) (by omega) (Ex.ret_done (r := .status .success) (by decide +kernel)) (Or.inl rfl) (by decide +kernel)
      (Ex.timedAt (by decide +kernel) (by decide +kernel))

/-- Non-vacuity of `C80_reported`. -/
example : ∃ w', callIn Ex.hasty Ex.hurried3 (Ex.envAt 58970 []) .processLoop = .done (.status .keepAliveTimeout) w' ∧ Status.keepAliveTimeout ≠ .success ∧
    Status.keepAliveTimeout ≠ .needMoreBytes ∧ 58970 ≤ max 29990 (0 + 30000) + 2 * 12000 + 4 * callTime Ex.hasty 1 0 .processLoop + 5000 :=
  ⟨_, Ex.ret_done (by decide +kernel),
    C80_reported (st := .keepAliveTimeout) (start := 58970) (e := Ex.envAt 58970 []) Ex.hurried_fromInit (by decide +kernel) (by
      have : Ex.hurried.ctx.buffered = [] := by decide +kernel
      unfold NoPacket
      rw [this]
      intro t hl n h
      cases h) (by decide +kernel) (rx := 0) (by decide +kernel) (by omega) Ex.hurried_polledFor (by decide) (by decide) (by decide) (by omega) (by omega)
      (Ex.ret_done (by decide +kernel)) (by decide +kernel) (Ex.timedAt (by decide +kernel) (by decide +kernel)) (by decide)⟩

end Mqtt
