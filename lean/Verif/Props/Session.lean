/-
Establishing and resuming sessions: C38, C39, C41, C42.
-/
import Verif.Proof.CallConnack
import Verif.Props.Status

namespace Mqtt
open Spec
set_option linter.unusedSimpArgs false

/-! ### C38 -/

/-- **C38** When `MQTT_Connect` succeeds and the server still has the session, then exactly this was sent: the CONNECT, a PUBREL for every
publish whose PUBREC had arrived and whose PUBCOMP had not, and, if copies are stored, the stored copies of the publishes for which neither
PUBACK nor PUBREC had arrived: each retrieved once, in order. -/
theorem C38_resumed {g : Cfg} {h : List (ApiCall × ApiRet)} {w w' : World} (hh : FromInit g h w) (e : Env) (ci : ConnectInfo)
    (will : Option PublishInfo) (t : UInt32) (sp0 : Bool) (hv : ci.Valid will)
    (hc : callIn g w e (.connect (some ci) will t (some sp0)) = .done (.connect .success (some true)) w') :
    ∃ stored : List (UInt16 × List UInt8),
      retrieved (callEvents g w e (.connect (some ci) will t (some sp0))) = stored.map (fun x => (x.1, some x.2)) ∧
      stored.map (·.1) = (if w.ctx.retransmits then unacked w.ctx.tables else []) ∧
      wire (callEvents g w e (.connect (some ci) will t (some sp0))) =
        connectPacket (ci.toSpec will) ++ (unreleased w.ctx.tables).flatMap (fun id => idPacket 0x62 id.toNat) ++ stored.flatMap (·.2) ∧
      unacked w'.ctx.tables = unacked w.ctx.tables ∧ unreleased w'.ctx.tables = unreleased w.ctx.tables := by
  obtain ⟨s, hrep, ⟨st, sp, es, w1, h1, h2, hd⟩ | ⟨es, w1, h1, h2, hd⟩⟩ := connect_cases hh e ci will t sp0 hv
  · rw [hc] at h1
    cases h1
    rw [h2]
    obtain ⟨stored, k1, k2, k3⟩ := hd.resent.2 rfl rfl
    refine ⟨stored, k1, ?_, ?_, ?_⟩
    · rw [unacked_eq hrep.1]; exact k2
    · rw [unreleased_eq hrep.1, ← pubrel_wire]; exact k3
    · exact ConnectDone.kept (w := { w with env := e }) hrep hd (by simp)
  · rw [h1] at hc; cases hc

/-- **C38** However the call ends, also if it fails or does not return: nothing else is sent, and in no other order.  In particular no
stored copy is sent that has not been retrieved for a publish that is still unacknowledged. -/
theorem C38_nothing_else {g : Cfg} {h : List (ApiCall × ApiRet)} {w : World} (hh : FromInit g h w) (e : Env) (ci : ConnectInfo)
    (will : Option PublishInfo) (t : UInt32) (sp0 : Option Bool) (hv : ci.Valid will) :
    let es := callEvents g w e (.connect (some ci) will t sp0)
    (retrieved es).map (·.1) <+: unacked w.ctx.tables ∧
    wire es <+: connectPacket (ci.toSpec will) ++ (unreleased w.ctx.tables).flatMap (fun id => idPacket 0x62 id.toNat) ++
      (retrieved es).flatMap (fun x => x.2.getD []) := by
  obtain ⟨hg, hidx, s, hrep⟩ := hh.good
  cases sp0 with
  | none =>
    have hv' : ValidCall g (.connect (some ci) will t none) := fun c h => by cases h; exact hv
    have he : callEvents g w e (.connect (some ci) will t none) = [.pre, .post] := by
      rcases call_cases hg hidx hrep e hv' with ⟨r, es, w1, h1, h2, hl, hd⟩ | ⟨es, w1, h1, h2, hl, hd⟩
      · rw [h2]
        cases hd with
        | connectNull _ _ => rfl
      · cases hd
    rw [he]
    exact ⟨List.nil_prefix, List.nil_prefix⟩
  | some sp0 =>
    obtain ⟨s, hrep, ⟨st, sp, es, w1, h1, h2, hd⟩ | ⟨es, w1, h1, h2, hd⟩⟩ := connect_cases hh e ci will t sp0 hv
    · have := hd.resent.1
      rw [h2, unacked_eq hrep.1, unreleased_eq hrep.1, ← pubrel_wire]; exact this
    · have := hd.resent
      rw [h2, unacked_eq hrep.1, unreleased_eq hrep.1, ← pubrel_wire]; exact this

/-- **C38** A resumption does not change what is pending, whether it succeeds or not; neither does a call of `MQTT_Connect` that does not get that
far.  So what could not be sent again this time will be the next time. -/
theorem C38_kept {g : Cfg} {h : List (ApiCall × ApiRet)} {w w' : World} (hh : FromInit g h w) (e : Env) (ci : ConnectInfo)
    (will : Option PublishInfo) (t : UInt32) (sp0 : Bool) (r : ApiRet) (hv : ci.Valid will)
    (hc : callIn g w e (.connect (some ci) will t (some sp0)) = .done r w') (hr : r ≠ .connect .success (some false)) :
    unacked w'.ctx.tables = unacked w.ctx.tables ∧ unreleased w'.ctx.tables = unreleased w.ctx.tables := by
  obtain ⟨s, hrep, ⟨st, sp, es, w1, h1, h2, hd⟩ | ⟨es, w1, h1, h2, hd⟩⟩ := connect_cases hh e ci will t sp0 hv
  · rw [hc] at h1
    cases h1
    refine ConnectDone.kept (w := { w with env := e }) hrep hd ?_
    rintro ⟨rfl, rfl⟩
    exact hr rfl
  · rw [h1] at hc; cases hc

/-- The id of a publish call that adds to the publishes in flight. -/
def addedBy (w : World) : ApiCall → List UInt16
  | .publish (some p) id => if p.qos ≠ .qos0 ∧ id ∉ (inFlight w.ctx.tables.outgoing).map (·.packetId) then [id] else []
  | _ => []

/-- **C38** The order is the order of the original sends, and for PUBRELs the order in which the PUBRECs arrived: no call changes the order of
what is pending, a new publish goes to the end, and so does a publish whose PUBREC arrives. -/
theorem C38_order {g : Cfg} {h : List (ApiCall × ApiRet)} {w w' : World} (hh : FromInit g h w) (e : Env) (c : ApiCall) (r : ApiRet)
    (hv : ValidCall g c) (hc : callIn g w e c = .done r w') :
    (unacked w'.ctx.tables).Sublist (unacked w.ctx.tables ++ addedBy w c) ∧
    (unreleased w'.ctx.tables).Sublist (unreleased w.ctx.tables ++ pubrecs (callEvents g w e c)) := by
  obtain ⟨hg, hidx, s, hrep⟩ := hh.good
  rcases call_cases hg hidx hrep e hv with ⟨r', es, w1, h1, h2, hl, hd⟩ | ⟨es, w1, h1, h2, hl, hd⟩
  · rw [hc] at h1
    cases h1
    rw [h2]
    obtain ⟨s', k1, k2⟩ := Did.ordered (w := { w with env := e }) hrep hd
    have e1 : addedBy w c = newPublish s c := by
      unfold addedBy
      split
      · show _ = reservedId _ _ _
        unfold reservedId
        have e2 : (inFlight w.ctx.tables.outgoing).map (·.packetId) = s.out.map (·.1) := by
          have e : inFlight w.ctx.tables.outgoing = s.out.map outRec := hrep.1.entries
          rw [e, List.map_map]
          exact List.map_congr_left fun x _ => keepsId_out x
        simp only [e2, phase_of_mem]
      · rename_i hno
        cases c with
        | publish p id =>
          cases p with
          | none => rfl
          | some p => exact absurd rfl (hno p id)
        | _ => rfl
    rw [unacked_eq hrep.1, unreleased_eq hrep.1, unacked_eq k1.1, unreleased_eq k1.1, e1]
    exact ⟨k2.pubs, k2.rels⟩
  · rw [h1] at hc; cases hc

/-! ### C39 -/

/-- **C39** When `MQTT_Connect` succeeds and the server has no session, no publish is in flight in either direction, nothing is buffered, and
the clear callback was called exactly once for each publish for which neither PUBACK nor PUBREC had arrived (if copies are stored); no other
callback was made. -/
theorem C39_clean {g : Cfg} {h : List (ApiCall × ApiRet)} {w w' : World} (hh : FromInit g h w) (e : Env) (ci : ConnectInfo)
    (will : Option PublishInfo) (t : UInt32) (sp0 : Bool) (hv : ci.Valid will)
    (hc : callIn g w e (.connect (some ci) will t (some sp0)) = .done (.connect .success (some false)) w') :
    inFlight w'.ctx.tables.outgoing = [] ∧ inFlight w'.ctx.tables.incoming = [] ∧ w'.ctx.index = 0 ∧
    w'.ctx.tables.outgoing.length = w.ctx.tables.outgoing.length ∧ w'.ctx.tables.incoming.length = w.ctx.tables.incoming.length ∧
    callbacks (callEvents g w e (.connect (some ci) will t (some sp0))) =
      (if w.ctx.retransmits then unacked w.ctx.tables else []).map .clear := by
  obtain ⟨s, hrep, ⟨st, sp, es, w1, h1, h2, hd⟩ | ⟨es, w1, h1, h2, hd⟩⟩ := connect_cases hh e ci will t sp0 hv
  · rw [hc] at h1
    cases h1
    rw [h2, unacked_eq hrep.1]
    exact hd.cleaned
  · rw [h1] at hc; cases hc

/-! ### C41 -/

/-- **C41** `MQTT_Connect` reports success only if there was no connection, all of the CONNECT was sent and the first packet received is a
CONNACK with return code 0, without session present if a clean session was requested. -/
theorem C41_success {g : Cfg} {h : List (ApiCall × ApiRet)} {w w' : World} (hh : FromInit g h w) (e : Env) (ci : Option ConnectInfo)
    (will : Option PublishInfo) (t : UInt32) (sp0 sp : Option Bool) (hv : ValidCall g (.connect ci will t sp0))
    (hc : callIn g w e (.connect ci will t sp0) = .done (.connect .success sp) w') :
    ∃ c p, ci = some c ∧ sp = some p ∧ ConnectArgsOk c will ∧ w.ctx.connectStatus = .notConnected ∧ w'.ctx.connectStatus = .connected ∧
      connectPacket (c.toSpec will) <+: wire (callEvents g w e (.connect ci will t sp0)) ∧
      received (callEvents g w e (.connect ci will t sp0)) = [0x20, 2, if p then 1 else 0, 0] ∧ (c.cleanSession = true → p = false) := by
  obtain ⟨hg, hidx, s, hrep⟩ := hh.good
  rcases call_cases hg hidx hrep e hv with ⟨r', es, w1, h1, h2, hl, hd⟩ | ⟨es, w1, h1, h2, hl, hd⟩
  · rw [hc] at h1
    cases h1
    rw [h2]
    cases hd with
    | @connect ci _ _ sp0 sp _ _ _ hd =>
      refine ⟨ci, sp, rfl, rfl, ?_⟩
      have hwire : connectPacket (ci.toSpec will) <+: wire es := by
        rcases hd.wire with ⟨_, _, h⟩ | ⟨h, _⟩ | ⟨_, h⟩
        · exact absurd rfl h
        · rw [h]; exact List.prefix_refl _
        · exact h
      rcases hd.outcome with ⟨k1, _, ⟨_, k2, _⟩ | ⟨k2, _⟩⟩ | ⟨k1, k2, _, k3, _, k4, k5⟩ | ⟨_, _, _, _, _, k | k, _⟩ | ⟨_, _, ⟨_, k, _⟩ | ⟨_, k⟩⟩
      · cases k2
      · unfold connectStatusCode at k2; split at k2 <;> first | cases k2 | exact absurd ‹_› k1
      · refine ⟨k2, k1, k3, hwire, k5, ?_⟩
        intro h
        cases sp with
        | false => rfl
        | true => rw [k4 rfl] at h; cases h
      · cases k
      · cases k
      · cases k
      · simp at k
  · rw [h1] at hc; cases hc

/-- **C41** Any refusal, malformed or other first packet makes it return an error and leaves the context not connected. -/
theorem C41_failure {g : Cfg} {h : List (ApiCall × ApiRet)} {w w' : World} (hh : FromInit g h w) (e : Env) (ci : Option ConnectInfo)
    (will : Option PublishInfo) (t : UInt32) (sp0 : Option Bool) (r : ApiRet) (hv : ValidCall g (.connect ci will t sp0))
    (hc : callIn g w e (.connect ci will t sp0) = .done r w') (hn : w.ctx.connectStatus = .notConnected)
    (hrec : received (callEvents g w e (.connect ci will t sp0)) ≠ [0x20, 2, 0, 0])
    (hrec' : received (callEvents g w e (.connect ci will t sp0)) = [0x20, 2, 1, 0] → ∃ c, ci = some c ∧ c.cleanSession = true) :
    r.code ≠ some .success ∧ w'.ctx.connectStatus = .notConnected := by
  obtain ⟨hg, hidx, s, hrep⟩ := hh.good
  rcases call_cases hg hidx hrep e hv with ⟨r', es, w1, h1, h2, hl, hd⟩ | ⟨es, w1, h1, h2, hl, hd⟩
  · rw [hc] at h1
    cases h1
    rw [h2] at hrec hrec'
    cases hd with
    | @connect ci _ _ sp0 sp st _ _ hd =>
      have hcode : (ApiRet.connect st (some sp)).code = some st := rfl
      rw [hcode]
      have clean : received es = [0x20, 2, 1, 0] → ci.cleanSession = true := by
        intro h
        obtain ⟨c, h1, h2⟩ := hrec' h
        cases h1; exact h2
      have hn' : ({ w with env := e } : World).ctx.connectStatus = .notConnected := hn
      rcases hd.outcome with ⟨k1, _⟩ | ⟨k1, k2, _, k3, _, k4, k5⟩ | ⟨_, _, _, k1, _, _, _, k2⟩ | ⟨_, k0, ⟨_, k, _⟩ | ⟨_, k⟩⟩
      · exact absurd hn' k1
      · exfalso
        cases sp with
        | false => exact hrec k5
        | true => have := clean k5; rw [k4 rfl] at this; cases this
      · have := clean k2; rw [k1] at this; cases this
      · exact ⟨by rw [k]; decide, k0⟩
      · refine ⟨?_, k0⟩
        rintro h
        cases h
        simp at k
    | connectNull _ h =>
      refine ⟨by simp [ApiRet.code], ?_⟩
      rw [h]
      show afterFail true w.ctx.connectStatus = _
      rw [hn]; rfl
  · rw [h1] at hc; cases hc

/-- **C41** A refusal is reported as such. -/
theorem C41_refused {g : Cfg} {h : List (ApiCall × ApiRet)} {w w' : World} (hh : FromInit g h w) (e : Env) (ci : ConnectInfo)
    (will : Option PublishInfo) (t : UInt32) (sp0 : Bool) (r : ApiRet) (hv : ci.Valid will)
    (hc : callIn g w e (.connect (some ci) will t (some sp0)) = .done r w') :
    r.code = some .serverRefused ↔ hasFail (callEvents g w e (.connect (some ci) will t (some sp0))) = false ∧ 2 ≤ w.ctx.bufSize ∧
      ∃ code : UInt8, 1 ≤ code.toNat ∧ code.toNat ≤ 5 ∧
        received (callEvents g w e (.connect (some ci) will t (some sp0))) = [0x20, 2, 0, code] := by
  obtain ⟨s, hrep, ⟨st, sp, es, w1, h1, h2, hd⟩ | ⟨es, w1, h1, h2, hd⟩⟩ := connect_cases hh e ci will t sp0 hv
  · rw [hc] at h1
    cases h1
    rw [h2]
    have := hd.refused
    simpa [ApiRet.code] using this
  · rw [h1] at hc; cases hc

/-- **C41** Conversely, an accepting CONNACK is not missed: if the call comes back and the transport did not fail, it succeeded.  (With session
present the retransmissions must also have been possible.)  The buffer must hold the two bytes after the header of the CONNACK. -/
theorem C41_accepted {g : Cfg} {h : List (ApiCall × ApiRet)} {w w' : World} (hh : FromInit g h w) (e : Env) (ci : ConnectInfo)
    (will : Option PublishInfo) (t : UInt32) (sp0 : Bool) (r : ApiRet) (hv : ci.Valid will)
    (hc : callIn g w e (.connect (some ci) will t (some sp0)) = .done r w') (hb : 2 ≤ w.ctx.bufSize)
    (hf : hasFail (callEvents g w e (.connect (some ci) will t (some sp0))) = false) :
    (received (callEvents g w e (.connect (some ci) will t (some sp0))) = [0x20, 2, 0, 0] → r = .connect .success (some false)) ∧
    (received (callEvents g w e (.connect (some ci) will t (some sp0))) = [0x20, 2, 1, 0] → ci.cleanSession = false →
      r = .connect .success (some true) ∨
      (r = .connect .sendFailed (some true) ∨ r = .connect .publishRetrieveFailed (some true)) ∧ w'.ctx.connectStatus = .disconnectPending) := by
  obtain ⟨s, hrep, ⟨st, sp, es, w1, h1, h2, hd⟩ | ⟨es, w1, h1, h2, hd⟩⟩ := connect_cases hh e ci will t sp0 hv
  · rw [hc] at h1
    cases h1
    rw [h2] at hf ⊢
    exact hd.accepted hb hf
  · rw [h1] at hc; cases hc

/-! ### C42 -/

/-- **C42** With timeout 0, `MQTT_Connect` asks for the first byte of the CONNACK at most `MQTT_MAX_CONNACK_RECEIVE_RETRY_COUNT` + 1 times.  Also
if the call does not return: then it is not because of polling. -/
theorem C42_polls {g : Cfg} {h : List (ApiCall × ApiRet)} {w : World} (hh : FromInit g h w) (e : Env) (ci : Option ConnectInfo)
    (will : Option PublishInfo) (sp0 : Option Bool) (hv : ValidCall g (.connect ci will 0 sp0)) :
    polls (callEvents g w e (.connect ci will 0 sp0)) ≤ g.connackRetryCount + 1 := by
  have hw := call_waited hh e ci will 0 sp0 hv
  rcases hw with h | ⟨a, t0, b, h1, h2, h3⟩
  · rw [polls_noRecv h]; omega
  · rw [h1, polls_append h2, polls_time]
    unfold WaitOk at h3
    rw [if_neg (by decide)] at h3
    omega

/-- **C42** With a timeout, the clock is read once before the first attempt to receive, and after every attempt that found nothing.  Nothing more
is received once the timeout has elapsed; the elapsed time is counted modulo 2^32. -/
theorem C42_timeout {g : Cfg} {h : List (ApiCall × ApiRet)} {w : World} (hh : FromInit g h w) (e : Env) (ci : Option ConnectInfo)
    (will : Option PublishInfo) (t : UInt32) (sp0 : Option Bool) (hv : ValidCall g (.connect ci will t sp0)) (ht : t ≠ 0) :
    (∀ x ∈ callEvents g w e (.connect ci will t sp0), isRecvd x = false) ∨
    ∃ a t0 b, callEvents g w e (.connect ci will t sp0) = a ++ .time t0 :: b ∧ (∀ x ∈ a, isRecvd x = false) ∧ waitsUntil t t0 b := by
  have hw := call_waited hh e ci will t sp0 hv
  rcases hw with h | ⟨a, t0, b, h1, h2, h3⟩
  · exact Or.inl h
  · refine Or.inr ⟨a, t0, b, h1, h2, ?_⟩
    unfold WaitOk at h3
    rwa [if_pos (UInt32.pos_iff_ne_zero.mpr ht)] at h3

/-- **C42** In real time: if every receive call takes at least a millisecond and the clock is read often enough to see 2^32 milliseconds go by
(the time between two readings plus the timeout is at most that), there are at most as many attempts as milliseconds in the timeout. -/
theorem C42_real_time {g : Cfg} {h : List (ApiCall × ApiRet)} {w : World} (hh : FromInit g h w) (e : Env) (ci : Option ConnectInfo)
    (will : Option PublishInfo) (t : UInt32) (sp0 : Option Bool) (hv : ValidCall g (.connect ci will t sp0)) (ht : t ≠ 0)
    (gap now : Nat) (hgap : t.toNat + gap ≤ 2 ^ 32) (hclock : recvClock gap now now (callEvents g w e (.connect ci will t sp0))) :
    polls (callEvents g w e (.connect ci will t sp0)) ≤ t.toNat := by
  rcases C42_timeout hh e ci will t sp0 hv ht with h | ⟨a, t0, b, h1, h2, h3⟩
  · rw [polls_noRecv h]; omega
  · rw [h1] at hclock ⊢
    rw [polls_append h2, polls_time]
    obtain ⟨now', low', T0, _, _, rfl, hc⟩ := recvClock.suffix a hclock
    have hpos : 0 < t.toNat := by
      have := UInt32.pos_iff_ne_zero.mpr ht
      exact UInt32.lt_iff_toNat_lt.mp this
    have := waitsUntil.polls hgap b.length b T0 T0 (Nat.le_refl _) h3 hc (Nat.le_refl _) (by omega)
    omega

/-- **C42** If nothing arrives the call reports MQTTNoDataAvailable: after `MQTT_MAX_CONNACK_RECEIVE_RETRY_COUNT` + 1 attempts, or when the timeout
has elapsed. -/
theorem C42_nothing_arrived {g : Cfg} {h : List (ApiCall × ApiRet)} {w w' : World} (hh : FromInit g h w) (e : Env) (ci : ConnectInfo)
    (will : Option PublishInfo) (t : UInt32) (sp0 : Bool) (r : ApiRet) (hv : ci.Valid will)
    (hc : callIn g w e (.connect (some ci) will t (some sp0)) = .done r w')
    (hn : w.ctx.connectStatus = .notConnected)
    (hs : wire (callEvents g w e (.connect (some ci) will t (some sp0))) = connectPacket (ci.toSpec will))
    (hr : received (callEvents g w e (.connect (some ci) will t (some sp0))) = [])
    (hf : hasFail (callEvents g w e (.connect (some ci) will t (some sp0))) = false) :
    r.code = some .noDataAvailable ∧ w'.ctx.connectStatus = .notConnected ∧
    (t = 0 → polls (callEvents g w e (.connect (some ci) will t (some sp0))) = g.connackRetryCount + 1) ∧
    (t ≠ 0 → ∃ a t0 b t1, callEvents g w e (.connect (some ci) will t (some sp0)) = a ++ .time t0 :: (b ++ [.time t1, .post, .pre, .post]) ∧
      (∀ x ∈ a, isRecvd x = false) ∧ t ≤ t1 - t0) := by
  obtain ⟨s, hrep, ⟨st, sp, es, w1, h1, h2, hd⟩ | ⟨es, w1, h1, h2, hd⟩⟩ := connect_cases hh e ci will t sp0 hv
  · rw [hc] at h1
    cases h1
    rw [h2] at hs hr hf ⊢
    obtain ⟨rfl, k1, k2, k3⟩ := hd.silent hn hs hr hf
    exact ⟨rfl, k1, k2, k3⟩
  · rw [h1] at hc; cases hc

/-! ### Non-vacuity -/

/-- Two publishes are in flight when the connection ends: one with QoS 1 and no answer, one with QoS 2 whose PUBREC has arrived. -/
def Ex.interrupted : List (Env × ApiCall) :=
  [(Ex.env [0x20, 2, 0, 0], Ex.connectCall), (Ex.env [], Ex.publishCall .qos2 7), (Ex.env [], Ex.publishCall .qos1 8),
   (Ex.env [0x50, 2, 0, 7], .processLoop), (Ex.env [0, 7], .processLoop), (Ex.env [], .disconnect)]

def Ex.paused : World := (Ex.played Ex.interrupted).2

theorem Ex.interruptedValid : ∀ x ∈ Ex.interrupted, ValidCall Ex.g x.2 := by
  intro x hx
  simp only [Ex.interrupted, List.mem_cons, List.not_mem_nil, or_false] at hx
  rcases hx with rfl | rfl | rfl | rfl | rfl | rfl
  · exact Ex.connectValid
  · exact Ex.publishValid _ _
  · exact Ex.publishValid _ _
  all_goals trivial

theorem Ex.paused_fromInit : FromInit Ex.g (Ex.played Ex.interrupted).1 Ex.paused :=
  Ex.played_fromInit Ex.interruptedValid (by decide +kernel)

/-- The server has the session; the stored copy of publish 8 is `1 2 3 4`. -/
def Ex.sessionKept : Env := { Ex.env [0x20, 2, 1, 0] with retrieves := [some [1, 2, 3, 4]] }

/-- Non-vacuity of C38. -/
example : unacked Ex.paused.ctx.tables = [8] ∧ unreleased Ex.paused.ctx.tables = [7] ∧
    Ex.ret (callIn Ex.g Ex.paused Ex.sessionKept Ex.connectCall) = some (.connect .success (some true)) ∧
    wire (callEvents Ex.g Ex.paused Ex.sessionKept Ex.connectCall) =
      connectPacket (Ex.ci.toSpec none) ++ [0x62, 2, 0, 7] ++ [1, 2, 3, 4] ∧
    retrieved (callEvents Ex.g Ex.paused Ex.sessionKept Ex.connectCall) = [(8, some [1, 2, 3, 4])] := by
  decide +kernel

/-- Non-vacuity of C39: the server has no session. -/
example : (inFlight Ex.paused.ctx.tables.outgoing).length = 2 ∧
    Ex.ret (callIn Ex.g Ex.paused (Ex.env [0x20, 2, 0, 0]) Ex.connectCall) = some (.connect .success (some false)) ∧
    callbacks (callEvents Ex.g Ex.paused (Ex.env [0x20, 2, 0, 0]) Ex.connectCall) = [.clear 8] := by
  decide +kernel

/-- Non-vacuity of C41: a refusal, another packet, and an answer with the session-present flag although a clean session was asked for. -/
example : Ex.ret (callIn Ex.g Ex.paused (Ex.env [0x20, 2, 0, 5]) Ex.connectCall) = some (.connect .serverRefused (some false)) ∧
    Ex.ret (callIn Ex.g Ex.paused (Ex.env [0xD0, 0]) Ex.connectCall) = some (.connect .badResponse (some true)) ∧
    Ex.ret (callIn Ex.g Ex.paused (Ex.env [0x20, 2, 1, 0]) (.connect (some { Ex.ci with cleanSession := true }) none 1000 (some true))) =
      some (.connect .badResponse (some true)) := by
  decide +kernel

/-- The clock of a server that does not answer: it advances by 300 ms with each reading. -/
def Ex.silence : Env := { Ex.env [] with clock := (List.range 50).map fun i => UInt32.ofNat (300 * i) }

/-- Non-vacuity of C42: no answer, with and without timeout.  With a timeout of 1000 ms there are four attempts. -/
example : Ex.ret (callIn Ex.g Ex.paused Ex.silence Ex.connectCall) = some (.connect .noDataAvailable (some true)) ∧
    polls (callEvents Ex.g Ex.paused Ex.silence Ex.connectCall) = 4 ∧
    wire (callEvents Ex.g Ex.paused Ex.silence Ex.connectCall) = connectPacket (Ex.ci.toSpec none) ∧
    Ex.ret (callIn Ex.g Ex.paused Ex.silence (.connect (some Ex.ci) none 0 (some true))) = some (.connect .noDataAvailable (some true)) ∧
    polls (callEvents Ex.g Ex.paused Ex.silence (.connect (some Ex.ci) none 0 (some true))) = Ex.g.connackRetryCount + 1 := by
  decide +kernel

end Mqtt
