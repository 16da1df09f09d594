/-
Keep-alive: C44.

`since now t` is the time from clock reading `t` to clock reading `now` in milliseconds, `PingNeeded g c now` says that the (capped) keep-alive interval
has passed since the last transmission or the receive timeout since the last reception (see Spec/KeepAlive).  The times that the context notes for the last
transmission, for the last reception and for the outstanding ping are tied to the clock readings in the trace by `C44_last_transmission`,
`C44_ping_time` and `C44_last_reception`.
-/
import Verif.Proof.CallKeep
import Verif.Proof.LastTx
import Verif.Props.Status

namespace Mqtt
open Spec
set_option linter.unusedSimpArgs false

/-- **C44** `MQTT_ProcessLoop` finds no data while a ping is outstanding: it reports MQTTKeepAliveTimeout exactly if more than the configured time has
passed since the ping was sent, and it sends no ping. -/
theorem C44_outstanding {g : Cfg} {h : List (ApiCall × ApiRet)} {w w' : World} (hh : FromInit g h w) (e : Env) {st : Status} {n : Nat} {es : List Event}
    (hc : callIn g w e .processLoop = .done (.status st) w') (hes : callEvents g w e .processLoop = .recvd n (some []) :: es)
    (hw : w.ctx.waitingForPingResp = true) :
    ∃ now es', es = .time now :: es' ∧ (st = .keepAliveTimeout ↔ g.pingrespTimeoutMs.toNat < since now w.ctx.pingReqSendTimeMs) ∧
      AckBytes (wire es') := by
  obtain ⟨hg, hidx, s, hrep⟩ := hh.good
  rcases call_cases (c := .processLoop) hg hidx hrep e trivial with ⟨r, es1, w1, h1, h2, hl, hd⟩ | ⟨es1, w1, h1, h2, hl, hd⟩
  · rw [hc] at h1
    cases h1
    rw [hes] at h2
    subst h2
    cases hd with
    | processLoop _ hi =>
      obtain ⟨now, es', h3, h4, _⟩ := hi.keepAlive
      obtain ⟨h5, h6, _⟩ := h4 hw
      exact ⟨now, es', h3, h5, h6⟩
  · rw [hc] at h1; cases h1

/-- **C44** `MQTT_ProcessLoop` finds no data while no ping is outstanding: it never reports a timeout.  If no ping is needed, it sends at most an
acknowledgement.  If one is needed and the connection is established, it sends exactly one PINGREQ and then at most an acknowledgement
(for a packet that was already buffered); the ping is outstanding afterwards, unless the answer was in the buffer already.  If that
fails, it reports it.  Without a connection it says so. -/
theorem C44_ping {g : Cfg} {h : List (ApiCall × ApiRet)} {w w' : World} (hh : FromInit g h w) (e : Env) {st : Status} {n : Nat} {es : List Event}
    (hc : callIn g w e .processLoop = .done (.status st) w') (hes : callEvents g w e .processLoop = .recvd n (some []) :: es)
    (hw : w.ctx.waitingForPingResp = false) :
    ∃ now es', es = .time now :: es' ∧ st ≠ .keepAliveTimeout ∧
      (¬ PingNeeded g w.ctx now → AckBytes (wire es')) ∧
      (PingNeeded g w.ctx now → w.ctx.connectStatus = .connected →
        (∃ rest, wire es' = pingreqPacket ++ rest ∧ AckBytes rest ∧ (w'.ctx.waitingForPingResp = true ∨ [0xD0, 0] <+: w.ctx.buffered)) ∨
        (st = .sendFailed ∧ (∃ r, Event.sent pingreqPacket r ∈ es') ∧ wire es' <+: pingreqPacket ∧ wire es' ≠ pingreqPacket ∧
          w'.ctx.waitingForPingResp = false)) ∧
      (PingNeeded g w.ctx now → w.ctx.connectStatus ≠ .connected →
        wire es' = [] ∧ st = if w.ctx.connectStatus = .notConnected then .statusNotConnected else .statusDisconnectPending) := by
  obtain ⟨hg, hidx, s, hrep⟩ := hh.good
  rcases call_cases (c := .processLoop) hg hidx hrep e trivial with ⟨r, es1, w1, h1, h2, hl, hd⟩ | ⟨es1, w1, h1, h2, hl, hd⟩
  · rw [hc] at h1
    cases h1
    rw [hes] at h2
    subst h2
    cases hd with
    | processLoop _ hi =>
      obtain ⟨now, es', h3, _, h4⟩ := hi.keepAlive
      obtain ⟨h5, h6, h7, h8⟩ := h4 hw
      refine ⟨now, es', h3, h5, h6, fun hp hcon => ?_, fun hp hcon => h7 hp hcon⟩
      rcases h8 hp hcon with ⟨k1, k2, k3, k4, k5⟩ | k
      · exact Or.inr ⟨k1, k5, k2, k3, k4⟩
      · exact Or.inl k
  · rw [hc] at h1; cases h1

/-- **C44** `MQTT_ReceiveLoop`, and `MQTT_ProcessLoop` when data arrives or the transport fails, never send a ping: at most an acknowledgement. -/
theorem C44_no_ping {g : Cfg} {h : List (ApiCall × ApiRet)} {w w' : World} (hh : FromInit g h w) (e : Env) {c : ApiCall} {r : ApiRet}
    (hl : c = .receiveLoop ∨ c = .processLoop ∧ ∀ n es, callEvents g w e c ≠ .recvd n (some []) :: es) (hc : callIn g w e c = .done r w') :
    AckBytes (wire (callEvents g w e c)) := by
  obtain ⟨hg, hidx, s, hrep⟩ := hh.good
  have hv : ValidCall g c := by
    rcases hl with rfl | ⟨rfl, _⟩ <;> trivial
  rcases call_cases hg hidx hrep e hv with ⟨r', es1, w1, h1, h2, _, hd⟩ | ⟨es1, w1, h1, h2, _, hd⟩
  · rw [hc] at h1
    cases h1
    rw [h2] at hl ⊢
    rcases hl with rfl | ⟨rfl, hl⟩
    · cases hd with
      | receiveLoop _ hi => exact (hi.noCheck (Or.inl rfl)).1
    · cases hd with
      | processLoop _ hi => exact (hi.noCheck (Or.inr hl)).1
  · rw [hc] at h1; cases h1

/-- **C44** MQTTKeepAliveTimeout is reported in no other case: only by `MQTT_ProcessLoop`, without data, with a ping outstanding for too long. -/
theorem C44_timeout_only {g : Cfg} {h : List (ApiCall × ApiRet)} {w w' : World} (hh : FromInit g h w) (e : Env) {c : ApiCall} {r : ApiRet}
    (hv : ValidCall g c) (hc : callIn g w e c = .done r w') (hr : r.code = some .keepAliveTimeout) :
    c = .processLoop ∧ w.ctx.waitingForPingResp = true ∧ ∃ n now, callEvents g w e c = [.recvd n (some []), .time now] ∧
      g.pingrespTimeoutMs.toNat < since now w.ctx.pingReqSendTimeMs := by
  obtain ⟨hg, hidx, s, hrep⟩ := hh.good
  rcases call_cases hg hidx hrep e hv with ⟨r', es1, w1, h1, h2, _, hd⟩ | ⟨es1, w1, h1, h2, _, hd⟩
  · rw [hc] at h1
    cases h1
    rw [h2]
    exact hd.timeout hr
  · rw [hc] at h1; cases h1

/-- **C44** The time of the last transmission is the clock reading that followed the last send call that took a byte (0 if there was none). -/
theorem C44_last_transmission {g : Cfg} {h : List (ApiCall × ApiRet)} {w : World} (hh : FromInit g h w) :
    w.ctx.lastPacketTxTime = (lastTx (0, false) w.trace).1 := by
  rw [hh.times.1]

/-- **C44** If a ping is outstanding, then a complete PINGREQ was sent, and its time is the clock reading with which its transmission ended. -/
theorem C44_ping_time {g : Cfg} {h : List (ApiCall × ApiRet)} {w : World} (hh : FromInit g h w) (hw : w.ctx.waitingForPingResp = true) :
    ∃ before ping after, w.trace = before ++ (ping ++ after) ∧ wire ping = pingreqPacket ∧
      w.ctx.pingReqSendTimeMs = (lastTx (0, false) (before ++ ping)).1 := by
  obtain ⟨a, b, c, h1, h2, h3⟩ := hh.times.2 hw
  exact ⟨a, b, c, h1, h2, by rw [h3]⟩

/-- **C44** The time of the last reception changes only in receive calls that consumed a packet and returned MQTTSuccess; then it is their last clock
reading. -/
theorem C44_last_reception {g : Cfg} {h : List (ApiCall × ApiRet)} {w w' : World} (hh : FromInit g h w) (e : Env) {c : ApiCall} {r : ApiRet}
    (hv : ValidCall g c) (hc : callIn g w e c = .done r w') (hn : w'.ctx.lastPacketRxTime ≠ w.ctx.lastPacketRxTime) :
    (c = .processLoop ∨ c = .receiveLoop) ∧ r = .status .success ∧
    ∃ n got es packet, callEvents g w e c = .recvd n (some got) :: (es ++ [.time w'.ctx.lastPacketRxTime]) ∧ packet ≠ [] ∧
      w.ctx.buffered ++ got = packet ++ w'.ctx.buffered := by
  obtain ⟨hg, hidx, s, hrep⟩ := hh.good
  rcases call_cases hg hidx hrep e hv with ⟨r', es1, w1, h1, h2, _, hd⟩ | ⟨es1, w1, h1, h2, _, hd⟩
  · rw [hc] at h1
    cases h1
    rw [h2]
    by_cases hp : c = .processLoop
    · subst hp
      cases hd with
      | processLoop _ hi =>
        rcases hi.rx.2 with h3 | ⟨rfl, n, got, es, h3, p, h4, h5⟩
        · exact absurd h3 hn
        · exact ⟨Or.inl rfl, rfl, n, got, es, p, h3, h4, h5⟩
    · by_cases hp' : c = .receiveLoop
      · subst hp'
        cases hd with
        | receiveLoop _ hi =>
          rcases hi.rx.2 with h3 | ⟨rfl, n, got, es, h3, p, h4, h5⟩
          · exact absurd h3 hn
          · exact ⟨Or.inr rfl, rfl, n, got, es, p, h3, h4, h5⟩
      · exact absurd (hd.times hp hp').1 hn
  · rw [hc] at h1; cases h1

/-- **C44** Which calls change what is known about an outstanding ping: a successful `MQTT_Ping` makes one outstanding, a successful
`MQTT_Connect` forgets it, and except for `MQTT_ProcessLoop` (above) no other call touches it. -/
theorem C44_outstanding_changes {g : Cfg} {h : List (ApiCall × ApiRet)} {w w' : World} (hh : FromInit g h w) (e : Env) {c : ApiCall} {r : ApiRet}
    (hv : ValidCall g c) (hc : callIn g w e c = .done r w') :
    (c = .ping → r = .status .success → w'.ctx.waitingForPingResp = true ∧ w'.ctx.pingReqSendTimeMs = w'.ctx.lastPacketTxTime) ∧
    ((∃ ci will t sp, c = .connect ci will t sp) → r.code = some .success → w'.ctx.waitingForPingResp = false) ∧
    (c ≠ .ping → c ≠ .processLoop → (∀ ci will t sp, c ≠ .connect ci will t sp) →
      w'.ctx.waitingForPingResp = w.ctx.waitingForPingResp ∧ w'.ctx.pingReqSendTimeMs = w.ctx.pingReqSendTimeMs) := by
  obtain ⟨hg, hidx, s, hrep⟩ := hh.good
  rcases call_cases hg hidx hrep e hv with ⟨r', es1, w1, h1, h2, _, hd⟩ | ⟨es1, w1, h1, h2, _, hd⟩
  · rw [hc] at h1
    cases h1
    by_cases hp : c = .processLoop
    · subst hp
      exact ⟨fun h => (by cases h), (by rintro ⟨_, _, _, _, h⟩; cases h), fun _ h => absurd rfl h⟩
    · by_cases hp' : c = .receiveLoop
      · subst hp'
        refine ⟨fun h => (by cases h), (by rintro ⟨_, _, _, _, h⟩; cases h), fun _ _ _ => ?_⟩
        cases hd with
        | receiveLoop _ hi =>
          obtain ⟨h3, h4⟩ := hi.rx.1 rfl
          exact ⟨h4, h3⟩
      · rcases (hd.times hp hp').2 with ⟨k1, k2, k3, k4⟩ | ⟨rfl, rfl, k1, k2⟩ | ⟨⟨ci, will, t, sp, rfl⟩, k⟩
        · refine ⟨fun h1 h2 => absurd ⟨h1, h2⟩ k3, ?_, fun _ _ _ => ⟨k1, k2⟩⟩
          rintro ⟨ci, will, t, sp, rfl⟩ hr
          exfalso
          cases hd with
          | connect _ => injection hr with hr; subst hr; exact k4 ⟨_, _, _, _, _, rfl, rfl⟩
          | connectNull _ _ => cases hr
        · exact ⟨fun _ _ => ⟨k1, k2⟩, (by rintro ⟨_, _, _, _, h⟩; cases h), fun h => absurd rfl h⟩
        · exact ⟨fun h => (by cases h), fun _ _ => k, fun _ _ h => absurd rfl (h _ _ _ _)⟩
  · rw [hc] at h1; cases h1

/-- **C44** The interval that counts is the one given to the last successful `MQTT_Connect`. -/
theorem C44_interval {g : Cfg} {h : List (ApiCall × ApiRet)} {w w' : World} (hh : FromInit g h w) (e : Env) {c : ApiCall} {r : ApiRet}
    (hv : ValidCall g c) (hc : callIn g w e c = .done r w') :
    (∀ ci will t sp, c = .connect (some ci) will t sp → r.code = some .success → w'.ctx.keepAliveIntervalSec = ci.keepAliveSeconds) ∧
    ((∀ ci will t sp, c ≠ .connect ci will t sp) → w'.ctx.keepAliveIntervalSec = w.ctx.keepAliveIntervalSec) := by
  obtain ⟨hg, hidx, s, hrep⟩ := hh.good
  rcases call_cases hg hidx hrep e hv with ⟨r', es1, w1, h1, h2, _, hd⟩ | ⟨es1, w1, h1, h2, _, hd⟩
  · rw [hc] at h1
    cases h1
    refine ⟨?_, ?_⟩
    · rintro ci will t sp rfl hr
      cases hd with
      | connectNull _ _ => cases hr
      | connect hd =>
        injection hr with hr
        subst hr
        cases hd with
        | badSize h _ => exact absurd rfl h
        | already _ _ _ h => split at h <;> cases h
        | notAccepted _ _ _ _ _ _ _ _ h => exact absurd rfl h
        | fresh _ _ _ _ _ _ _ _ h => rw [h]; rfl
        | resumed _ _ _ _ _ _ _ _ h9 h10 _ h12 =>
          rw [h12]
          show _ = _
          rw [h10.keepAlive, h9]; rfl
    · intro hn
      cases hd with
      | publish f _ => exact f.keepAlive
      | publishNull => rfl
      | subscribe f _ => exact f.keepAlive
      | subscribeNull => rfl
      | unsubscribe f _ => exact f.keepAlive
      | unsubscribeNull => rfl
      | ping f _ => exact f.keepAlive
      | disconnect h =>
        rcases h.cases with ⟨_, _, _, h⟩ | ⟨_, _, _, _, _, _, t, h⟩ <;> rw [h] <;> rfl
      | processLoop f _ => exact f.keepAlive
      | receiveLoop f _ => exact f.keepAlive
      | cancel _ h =>
        cases h with
        | none => rfl
        | some _ h _ => rw [h]
      | check h => rw [h]
      | getId h => rw [h]
      | connect _ => exact absurd rfl (hn _ _ _ _)
      | connectNull _ _ => exact absurd rfl (hn _ _ _ _)
  · rw [hc] at h1; cases h1

/-- **C44** The time arithmetic of the library is exact modulo 2^32, across the wrap-around of the clock: for times in milliseconds the difference of
their readings is the real difference, if it is less than 2^32 ms. -/
theorem C44_elapsed (T T0 : Nat) (h : T0 ≤ T) :
    (calculateElapsedTime (UInt32.ofNat T) (UInt32.ofNat T0)).toNat = since (UInt32.ofNat T) (UInt32.ofNat T0) ∧
    since (UInt32.ofNat T) (UInt32.ofNat T0) = (T - T0) % 2 ^ 32 ∧
    (T - T0 < 2 ^ 32 → since (UInt32.ofNat T) (UInt32.ofNat T0) = T - T0) := by
  refine ⟨since_eq _ _, ?_, ?_⟩ <;>
  · simp only [since, UInt32.toNat_ofNat']
    omega

/-! ### Examples -/

/-- The clock shows `t` and then goes on in steps of one. -/
def Ex.envAt (t : Nat) (input : List UInt8) : Env := { Ex.env input with clock := (List.range 50).map fun i => UInt32.ofNat (t + i) }

/-- A session with a ping by `MQTT_ProcessLoop` after 30 seconds of silence. -/
def Ex.pinged : List (Env × ApiCall) := Ex.session ++ [(Ex.envAt 30010 [], .processLoop)]

theorem Ex.pingedValid : ∀ x ∈ Ex.pinged, ValidCall Ex.g x.2 := by
  intro x hx
  rcases List.mem_append.mp hx with h | h
  · exact Ex.sessionValid x h
  · cases List.mem_singleton.mp h; trivial

theorem Ex.pinged_fromInit : FromInit Ex.g (Ex.played Ex.pinged).1 (Ex.played Ex.pinged).2 :=
  Ex.played_fromInit Ex.pingedValid (by decide +kernel)

/-- Non-vacuity of `C44_ping`: one millisecond too early nothing is sent, in time the PINGREQ; `C44_outstanding`: the limit of 5 seconds is exact,
also across the wrap-around of the clock; the PINGRESP ends the wait. -/
example : Ex.after.ctx.waitingForPingResp = false ∧ PingNeeded Ex.g Ex.after.ctx 30003 ∧ ¬ PingNeeded Ex.g Ex.after.ctx 30002 ∧
    wire (callEvents Ex.g Ex.after (Ex.envAt 30002 []) .processLoop) = [] ∧
    wire (callEvents Ex.g Ex.after (Ex.envAt 30003 []) .processLoop) = [0xC0, 0] ∧
    (Ex.played Ex.pinged).2.ctx.waitingForPingResp = true := by
  decide +kernel

example : let w := (Ex.played Ex.pinged).2
    let t := w.ctx.pingReqSendTimeMs.toNat
    Ex.ret (callIn Ex.g w (Ex.envAt (t + 5000) []) .processLoop) = some (.status .success) ∧
    Ex.ret (callIn Ex.g w (Ex.envAt (t + 5001) []) .processLoop) = some (.status .keepAliveTimeout) ∧
    Ex.ret (callIn Ex.g w (Ex.envAt (t + 2 ^ 32 - 1) []) .processLoop) = some (.status .keepAliveTimeout) ∧
    (callIn Ex.g w (Ex.envAt (t + 9000) [0xD0, 0]) .processLoop).world.ctx.waitingForPingResp = false ∧
    Ex.ret (callIn Ex.g w (Ex.envAt (t + 9000) [0xD0, 0]) .processLoop) = some (.status .success) ∧
    Ex.ret (callIn Ex.g Ex.after (Ex.env []) .ping) = some (.status .success) := by
  decide +kernel

end Mqtt
