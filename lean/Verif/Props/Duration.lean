/-
C79: how long a call takes.
-/
import Verif.Proof.DurationConnect
import Verif.Props.Silence

namespace Mqtt
open Spec

/-- **C79**.  If every call of the environment, with the computation before it, takes at most `D` milliseconds, and the waits are short enough for a 32-bit clock, then
a call takes at most the time `callTime` says: a send timeout for each transmission it may make, and for `MQTT_Connect` the given time to wait for the server.  Only
bytes that are awaited one by one extend it, by at most the polling timeout each.  This holds from every state with a buffer, also when the call does not return because
the environment stops answering, and while the clock wraps around. -/
theorem C79_duration (g : Cfg) (w : World) (e : Env) (c : ApiCall) (hb : 0 < w.ctx.bufSize) {D t t' : Nat} (hD : longestWait g c + 8 * D < 2 ^ 32)
    (ht : Timed D t (callEvents g w e c) t') :
    t' ≤ t + callTime g D w.ctx.tables.outgoing.length c + awaited c (callEvents g w e c) * byteTime g D := by
  have h1 : g.sendTimeoutMs.toNat + 4 * D < 2 ^ 32 ∧ g.recvPollingTimeoutMs.toNat + 3 * D < 2 ^ 32 := by
    cases c <;> simp only [longestWait] at hD <;> omega
  obtain ⟨es, k1, k2⟩ := Duration.calls_dur (K := w.ctx.bufSize) (D := D) (N := w.ctx.tables.outgoing.length) h1.1 h1.2 c
    (fun ci will τ sp hc => by subst hc; simp only [longestWait] at hD; omega) { w with env := e } ⟨⟨hb, rfl⟩, rfl⟩
  have hes : callEvents g w e c = es := by
    unfold callEvents callIn newEvents
    rw [k1]
    simp
  rw [hes] at ht ⊢
  exact k2 t t' ht

/-- **C79**, `MQTT_Connect`: the server cannot hold it for longer than the given time and one buffer of bytes, however much it sends: not even with a packet that does
not fit into the buffer and is dropped. -/
theorem C79_connect (g : Cfg) (w : World) (e : Env) (ci : Option ConnectInfo) (will : Option PublishInfo) (timeoutMs : UInt32) (sp : Option Bool) (hb : 0 < w.ctx.bufSize)
    {D t t' : Nat} (hD : longestWait g (.connect ci will timeoutMs sp) + (w.ctx.bufSize + 1) * byteTime g D + 8 * D < 2 ^ 32)
    (ht : Timed D t (callEvents g w e (.connect ci will timeoutMs sp)) t') :
    t' ≤ t + callTime g D w.ctx.tables.outgoing.length (.connect ci will timeoutMs sp) + w.ctx.bufSize * byteTime g D + 2 * D := by
  simp only [longestWait, Nat.add_mul, Nat.one_mul] at hD
  have hbt : byteTime g D = g.recvPollingTimeoutMs.toNat + 6 * D := rfl
  have h := Duration.connect_flat (K := w.ctx.bufSize) (D := D) (N := w.ctx.tables.outgoing.length) (g := g) (by omega) (by omega) ci will timeoutMs
    (by unfold Duration.bufferTime; omega) sp
  obtain ⟨es, k1, k2⟩ := (h.status (k := fun r => ApiRet.connect r.1 r.2)).run { w with env := e } ⟨⟨hb, rfl⟩, rfl⟩
  have hes : callEvents g w e (.connect ci will timeoutMs sp) = es := by
    unfold callEvents callIn newEvents
    simp only [apiCall]
    rw [k1]
    simp
  rw [hes] at ht
  have := k2 t t' ht
  omega

/-! ### Examples -/

/-- The events ended at the times `us`; a clock was read when the reading ended. -/
def Ex.timeline (D : Nat) : Nat → List Event → List Nat → Bool
  | _, [], us => us.isEmpty
  | t, .time x :: es, u :: us => decide (t ≤ u ∧ u ≤ t + D ∧ x = UInt32.ofNat u) && Ex.timeline D u es us
  | t, _ :: es, u :: us => decide (t ≤ u ∧ u ≤ t + D) && Ex.timeline D u es us
  | _, _ :: _, [] => false

theorem Ex.timed {D : Nat} : ∀ {es : List Event} {us : List Nat} {t : Nat}, Ex.timeline D t es us = true → Timed D t es (us.getLastD t)
  | [], [], _, _ => rfl
  | [], _ :: _, _, h => by simp [timeline] at h
  | e :: es, [], t, h => by cases e <;> simp [timeline] at h
  | e :: es, u :: us, t, h => by
    have hl : (u :: us).getLastD t = us.getLastD u := by
      cases us with
      | nil => rfl
      | cons v vs => simp [List.getLastD]
    rw [hl]
    cases e with
    | time x =>
      simp only [timeline, Bool.and_eq_true, decide_eq_true_eq] at h
      exact ⟨u, u, h.1.1, Nat.le_refl _, h.1.2.1, h.1.2.2, Ex.timed h.2⟩
    | _ =>
      simp only [timeline, Bool.and_eq_true, decide_eq_true_eq] at h
      exact ⟨u, h.1.1, h.1.2, Ex.timed h.2⟩

/-- Readings show the time since `base`; nothing else takes time. -/
def Ex.stamps (base : Nat) : Nat → List Event → List Nat
  | _, [] => []
  | _, .time x :: es => (base + x.toNat) :: Ex.stamps base (base + x.toNat) es
  | t, _ :: es => t :: Ex.stamps base t es

/-- A slow server: after the first two bytes of a packet of 102 bytes, for a buffer of 64, every byte arrives after 9 ms. -/
def Ex.drip : Env :=
  ⟨[], .deliver 2 :: (List.replicate 100 [.deliver 0, .deliver 1]).flatten, 0x30 :: 100 :: List.replicate 100 7, (List.range 400).map fun k => UInt32.ofNat (5 * k), [], []⟩

/-- A short send timeout of 20 ms. -/
def Ex.hasty : Cfg := { Ex.g with sendTimeoutMs := 20 }

/-- The transport takes a byte at a time, or nothing at all; the clock counts milliseconds. -/
def Ex.reluctant (k : Nat) : Env := ⟨List.replicate 60 (.accept k), [], [], (List.range 200).map UInt32.ofNat, [], []⟩

/-- Three topic filters "ab". -/
def Ex.threeFilters : ApiCall := .subscribe (some (List.replicate 3 ⟨.qos1, some [97, 98], 2⟩)) 9

/-- Non-vacuity of C79: `MQTT_Connect` with the clock at 2³² ms; it takes 17 ms. -/
example : let es := callEvents Ex.g Ex.w0 (Ex.env [0x20, 2, 1, 0]) Ex.connectCall
    Timed 1 (2 ^ 32) es (2 ^ 32 + 17) ∧ 2 ^ 32 + 17 ≤ 2 ^ 32 + callTime Ex.g 1 2 Ex.connectCall + 4 * byteTime Ex.g 1 := by
  have h := Ex.timed (D := 1) (es := callEvents Ex.g Ex.w0 (Ex.env [0x20, 2, 1, 0]) Ex.connectCall)
    (us := Ex.stamps (2 ^ 32) (2 ^ 32) (callEvents Ex.g Ex.w0 (Ex.env [0x20, 2, 1, 0]) Ex.connectCall)) (t := 2 ^ 32) (by decide +kernel)
  rw [show List.getLastD (Ex.stamps (2 ^ 32) (2 ^ 32) (callEvents Ex.g Ex.w0 (Ex.env [0x20, 2, 1, 0]) Ex.connectCall)) (2 ^ 32) = 2 ^ 32 + 17 by decide +kernel] at h
  refine ⟨h, ?_⟩
  have := C79_duration Ex.g Ex.w0 (Ex.env [0x20, 2, 1, 0]) Ex.connectCall (by decide +kernel) (by decide) h
  rwa [show awaited Ex.connectCall (callEvents Ex.g Ex.w0 (Ex.env [0x20, 2, 1, 0]) Ex.connectCall) = 4 by decide +kernel] at this

/-- A transport that takes nothing: `MQTT_Ping` gives up after 20 ms with a send timeout of 20 ms; 27 ms are allowed. -/
example : let es := callEvents Ex.hasty (Ex.played Ex.session).2 (Ex.reluctant 0) .ping
    Timed 1 0 es 20 ∧ callTime Ex.hasty 1 2 .ping = 27 := by
  refine ⟨?_, by decide⟩
  have h := Ex.timed (D := 1) (es := callEvents Ex.hasty (Ex.played Ex.session).2 (Ex.reluctant 0) .ping)
    (us := Ex.stamps 0 0 (callEvents Ex.hasty (Ex.played Ex.session).2 (Ex.reluctant 0) .ping)) (t := 0) (by decide +kernel)
  rwa [show List.getLastD (Ex.stamps 0 0 (callEvents Ex.hasty (Ex.played Ex.session).2 (Ex.reluctant 0) .ping)) 0 = 20 by decide +kernel] at h

/-- The send timeout is one for each part of a SUBSCRIBE, so that the number of filters has to count: with a timeout of 20 ms, three filters take 40 ms and the call
succeeds. -/
theorem C79_each_part : let es := callEvents Ex.hasty (Ex.played Ex.session).2 (Ex.reluctant 1) Ex.threeFilters
    Timed 1 0 es 40 ∧ ∃ w', callIn Ex.hasty (Ex.played Ex.session).2 (Ex.reluctant 1) Ex.threeFilters = .done (.status .success) w' := by
  have h := Ex.timed (D := 1) (es := callEvents Ex.hasty (Ex.played Ex.session).2 (Ex.reluctant 1) Ex.threeFilters)
    (us := Ex.stamps 0 0 (callEvents Ex.hasty (Ex.played Ex.session).2 (Ex.reluctant 1) Ex.threeFilters)) (t := 0) (by decide +kernel)
  rw [show List.getLastD (Ex.stamps 0 0 (callEvents Ex.hasty (Ex.played Ex.session).2 (Ex.reluctant 1) Ex.threeFilters)) 0 = 40 by decide +kernel] at h
  exact ⟨h, _, Ex.ret_done (by decide +kernel)⟩

/-- And the bytes have to count: a server that announces a packet too large for the buffer, and then sends a byte before each polling timeout of 10 ms has passed, keeps
`MQTT_ReceiveLoop` busy for 1005 ms, where 95 ms would be allowed without them. -/
theorem C79_drip : let es := callEvents Ex.hasty (Ex.played Ex.session).2 Ex.drip .receiveLoop
    Timed 5 0 es 1005 ∧ awaited .receiveLoop es = 100 ∧ callTime Ex.hasty 5 (Ex.played Ex.session).2.ctx.tables.outgoing.length .receiveLoop = 95 := by
  have h := Ex.timed (D := 5) (es := callEvents Ex.hasty (Ex.played Ex.session).2 Ex.drip .receiveLoop)
    (us := Ex.stamps 0 0 (callEvents Ex.hasty (Ex.played Ex.session).2 Ex.drip .receiveLoop)) (t := 0) (by decide +kernel)
  rw [show List.getLastD (Ex.stamps 0 0 (callEvents Ex.hasty (Ex.played Ex.session).2 Ex.drip .receiveLoop)) 0 = 1005 by decide +kernel] at h
  exact ⟨h, by decide +kernel, by decide +kernel⟩

/-- A server that announces a CONNACK of 300 bytes and sends it byte by byte, each after 9 ms. -/
def Ex.longConnack : Env :=
  ⟨[.accept 99], .deliver 1 :: .deliver 1 :: .deliver 1 :: (List.replicate 300 [.deliver 0, .deliver 1]).flatten, 0x20 :: 0xAC :: 2 :: List.replicate 300 7,
    (List.range 800).map fun k => UInt32.ofNat (5 * k), [], []⟩

/-- 50 ms for the CONNACK. -/
def Ex.briefConnect : ApiCall := .connect (some Ex.ci) none 50 (some true)

/-- Non-vacuity of `C79_connect`, and why a buffer of bytes has to count: `MQTT_Connect` with a timeout of 50 ms comes back after 680 ms, when the first 64 bytes of 300
are read.  It does not wait for the others. -/
theorem C79_connect_drip : let es := callEvents Ex.hasty Ex.w0 Ex.longConnack Ex.briefConnect
    Timed 5 0 es 680 ∧ (received es).length = 67 ∧ Ex.ret (callIn Ex.hasty Ex.w0 Ex.longConnack Ex.briefConnect) = some (.connect .recvFailed (some true)) ∧
      callTime Ex.hasty 5 Ex.w0.ctx.tables.outgoing.length Ex.briefConnect = 465 := by
  have h := Ex.timed (D := 5) (es := callEvents Ex.hasty Ex.w0 Ex.longConnack Ex.briefConnect)
    (us := Ex.stamps 0 0 (callEvents Ex.hasty Ex.w0 Ex.longConnack Ex.briefConnect)) (t := 0) (by decide +kernel)
  rw [show List.getLastD (Ex.stamps 0 0 (callEvents Ex.hasty Ex.w0 Ex.longConnack Ex.briefConnect)) 0 = 680 by decide +kernel] at h
  exact ⟨h, by decide +kernel, by decide +kernel, by decide +kernel⟩

example : let es := callEvents Ex.hasty Ex.w0 Ex.longConnack Ex.briefConnect
    Timed 5 0 es 680 ∧ 680 ≤ 0 + callTime Ex.hasty 5 2 Ex.briefConnect + 64 * byteTime Ex.hasty 5 + 2 * 5 :=
  ⟨C79_connect_drip.1, C79_connect Ex.hasty Ex.w0 Ex.longConnack _ _ _ _ (by decide) (by decide) C79_connect_drip.1⟩

end Mqtt
