/-
C90: disconnecting and connecting again recovers the client, whatever happened before.
-/
import Verif.Props.Concern
import Verif.Props.Connecting
import Verif.Props.Session
import Verif.Props.Receive

namespace Mqtt
open Spec

/-- A successful `MQTT_Connect` that resumes a session leaves the position in the receive buffer alone, and no ping is awaited. -/
theorem ConnectDone.position {g : Cfg} {ci : ConnectInfo} {will : Option PublishInfo} {t : UInt32} {sp0 : Bool} {s : InFlight} {w w' : World} {st : Status} {sp : Bool}
    {es : List Event} (h : ConnectDone g ci will t sp0 s w st sp es w') (hs : st = .success) :
    w'.ctx.waitingForPingResp = false ∧ (w'.ctx.index = if sp then w.ctx.index else 0) := by
  cases h with
  | badSize h0 => exact absurd hs h0
  | already _ h0 _ h1 => rw [hs] at h1; split at h1 <;> cases h1
  | noTopic => cases hs
  | notSent => cases hs
  | notAccepted _ _ _ _ _ _ _ _ h0 => exact absurd hs h0
  | fresh _ _ _ _ _ _ h1 h2 h3 => rw [h3]; exact ⟨rfl, rfl⟩
  | @resumed _ snd ca res w1 w2 w3 w4 _ t _ _ _ _ _ _ h7 h8 h9 _ h11 h12 =>
    obtain ⟨nb, _, hn⟩ := h8.ctx
    obtain ⟨a, st1, w5, b', _, hp, hq⟩ := h11
    obtain ⟨t1, x1, T1, hc1⟩ := hp.ctx
    have hc2 : ∃ t2 x2, w4.ctx = { w5.ctx with lastPacketTxTime := t2, connectStatus := afterFail x2 w5.ctx.connectStatus } := by
      rcases hq with ⟨_, _, rfl, _⟩ | ⟨_, _, hq⟩
      · exact ⟨_, false, rfl⟩
      · obtain ⟨t2, hc⟩ := hq.ctx
        exact ⟨t2, _, hc⟩
    obtain ⟨t2, x2, hc2⟩ := hc2
    rw [h12, hc2, hc1, h9, hn, h7]
    exact ⟨rfl, rfl⟩

section
variable {g : Cfg} {h : List (ApiCall × ApiRet)} {w w1 w2 : World} {e1 e2 : Env} {r1 r2 : ApiRet} {ci : ConnectInfo} {will : Option PublishInfo} {t : UInt32} {sp0 sp : Bool}
  {rest : List UInt8}

/-- **C90** Whatever happened before (transport failures, bytes that are no packet, an unanswered ping): the application calls `MQTT_Disconnect`, with whatever result, and
`MQTT_Connect`, and the server accepts.  Unless the environment hinders this attempt (as in C85), the client is connected, its receive buffer is empty and no ping is awaited.  In a new session
no publish is in flight; in a resumed one what was pending is pending, and exactly that has been sent again.  (To resume a session, the client must not have received bytes while it was
not connected: `F_h_stale_bytes`.) -/
theorem C90_recovers (hh : FromInit g h w) (hd : callIn g w e1 .disconnect = .done r1 w1) (hv : ci.Valid will) (ha : ConnectArgsOk ci will) (hb : 2 ≤ w.ctx.bufSize)
    (hc : callIn g w1 e2 (.connect (some ci) will t (some sp0)) = .done r2 w2) (hin : e2.input = [0x20, 2, if sp then 1 else 0, 0] ++ rest) (hcs : ci.cleanSession = true → sp = false)
    (hstale : sp = true → w.ctx.connectStatus ≠ .notConnected ∨ w.ctx.buffered = [])
    (h1 : ¬ connectHindered g t (callEvents g w1 e2 (.connect (some ci) will t (some sp0))))
    (h2 : ¬ (sp = true ∧ notRetrieved (callEvents g w1 e2 (.connect (some ci) will t (some sp0))))) :
    r2 = .connect .success (some sp) ∧ w2.ctx.connectStatus = .connected ∧ w2.ctx.buffered = [] ∧ w2.ctx.waitingForPingResp = false ∧
    (sp = false → inFlight w2.ctx.tables.outgoing = [] ∧ inFlight w2.ctx.tables.incoming = []) ∧
    (sp = true → inFlight w2.ctx.tables.incoming = inFlight w.ctx.tables.incoming ∧ unacked w2.ctx.tables = unacked w.ctx.tables ∧
      unreleased w2.ctx.tables = unreleased w.ctx.tables ∧
      ∃ stored : List (UInt16 × List UInt8),
        retrieved (callEvents g w1 e2 (.connect (some ci) will t (some sp0))) = stored.map (fun x => (x.1, some x.2)) ∧
        stored.map (·.1) = (if w.ctx.retransmits then unacked w.ctx.tables else []) ∧
        wire (callEvents g w1 e2 (.connect (some ci) will t (some sp0))) =
          connectPacket (ci.toSpec will) ++ (unreleased w.ctx.tables).flatMap (fun id => idPacket 0x62 id.toNat) ++ stored.flatMap (·.2)) := by
  have hh1 := hh.snoc (c := .disconnect) trivial hd
  obtain ⟨k1, _, _, k4, k5⟩ := C43_disconnect hh e1 r1 hd
  have same : w1.ctx.tables = w.ctx.tables ∧ w1.ctx.bufSize = w.ctx.bufSize ∧ w1.ctx.retransmits = w.ctx.retransmits ∧
      (w.ctx.connectStatus ≠ .notConnected ∨ w.ctx.buffered = [] → w1.ctx.buffered = []) := by
    by_cases hn : w.ctx.connectStatus = .notConnected
    · rw [(k4 hn).2.1]
      exact ⟨rfl, rfl, rfl, fun h => h.elim (absurd hn) id⟩
    · obtain ⟨⟨t, hx⟩, _⟩ := k5 hn
      rw [hx]
      exact ⟨rfl, by simp [Ctx.bufSize], rfl, fun _ => by simp [Ctx.buffered]⟩
  obtain ⟨s1, s2, s3, s4⟩ := same
  have hv' : ValidCall g (.connect (some ci) will t (some sp0)) := fun c h => by cases h; exact hv
  obtain ⟨c1, c2⟩ := C85_connects hh1 hv k1 ha (by rw [s2]; exact hb) hc hin hcs h1 h2
  subst c1
  have hpos : w2.ctx.waitingForPingResp = false ∧ (w2.ctx.index = if sp then w1.ctx.index else 0) := by
    obtain ⟨s, _, ⟨st, sp', es, w3, q1, _, hdone⟩ | ⟨es, w3, q1, _, _⟩⟩ := connect_cases hh1 e2 ci will t sp0 hv
    · rw [hc] at q1
      cases q1
      exact hdone.position rfl
    · rw [hc] at q1; cases q1
  refine ⟨rfl, c2, ?_, hpos.1, ?_, ?_⟩
  · cases sp with
    | false => unfold Ctx.buffered; rw [hpos.2]; rfl
    | true =>
      have hb1 := s4 (hstale rfl)
      have hlen : w1.ctx.index = 0 := by
        obtain ⟨_, hidx, _⟩ := hh1.good
        have := congrArg List.length hb1
        unfold Ctx.buffered at this
        unfold Ctx.bufSize at hidx
        simp only [List.length_take, List.length_nil] at this
        omega
      unfold Ctx.buffered
      rw [hpos.2, if_pos rfl, hlen]
      rfl
  · rintro rfl
    obtain ⟨q1, q2, _⟩ := C39_clean hh1 e2 ci will t sp0 hv hc
    exact ⟨q1, q2⟩
  · rintro rfl
    obtain ⟨stored, q1, q2, q3, q4, q5⟩ := C38_resumed hh1 e2 ci will t sp0 hv hc
    rcases C89_connect hh1 hv' hc with ⟨x, _⟩ | ⟨_, x, _⟩
    · cases x
    · rw [s1] at q2 q3 q4 q5 x
      rw [s3] at q2
      exact ⟨x, q4, q5, stored, q1, q2, q3⟩

/-- **C90** And then the client hears again: the packets that the server sends after the CONNACK are presented one after the other, as C32 says, whatever was left of the old
stream. -/
theorem C90_hears (hh : FromInit g h w) (hd : callIn g w e1 .disconnect = .done r1 w1) (hv : ci.Valid will) (ha : ConnectArgsOk ci will) (hb : 2 ≤ w.ctx.bufSize)
    (hc : callIn g w1 e2 (.connect (some ci) will t (some sp0)) = .done r2 w2) (hin : e2.input = [0x20, 2, if sp then 1 else 0, 0] ++ rest) (hcs : ci.cleanSession = true → sp = false)
    (hstale : sp = true → w.ctx.connectStatus ≠ .notConnected ∨ w.ctx.buffered = [])
    (h1 : ¬ connectHindered g t (callEvents g w1 e2 (.connect (some ci) will t (some sp0))))
    (h2 : ¬ (sp = true ∧ notRetrieved (callEvents g w1 e2 (.connect (some ci) will t (some sp0)))))
    {h' : List (ApiCall × ApiRet)} {w3 : World} {m : Bool} (hs : Hist g w2 h' w3) (hl : ∀ x ∈ h', x.1 = loopCall m) {es : List Event} (hes : w3.trace = w2.trace ++ es)
    {s : InFlight} (hrep : Represents w2.ctx.tables s) {pkts : List Raw} {tail : List UInt8} (hp : ∀ p ∈ pkts, p.Valid) (hf : ∀ p ∈ pkts, p.bytes.length ≤ w2.ctx.bufSize)
    (hstream : received es ++ tail = pkts.flatMap Raw.bytes) (hok : ∀ x ∈ h', ∀ st ∈ cannotSend, x.2 ≠ .status st) :
    ∃ done todo s', pkts = done ++ todo ∧ received es = done.flatMap Raw.bytes ++ w3.ctx.buffered ∧
      Represents w3.ctx.tables s' ∧ present w2.ctx.retransmits m w2.ctx.bufSize s done = (callbacks es, s') := by
  have hv' : ValidCall g (.connect (some ci) will t (some sp0)) := fun c h => by cases h; exact hv
  obtain ⟨_, _, k, _⟩ := C90_recovers hh hd hv ha hb hc hin hcs hstale h1 h2
  have := C32_exact ((hh.snoc (c := .disconnect) trivial hd).snoc hv' hc) hs hl hes hrep hp hf (tail := tail) (by rw [k]; exact hstream) hok
  rw [k] at this
  exact this

end

/-- The client that stopped hearing (`Ex.spoilt`) disconnects; not even the DISCONNECT can be sent. -/
def Ex.deafWorld : World := (Ex.feed Ex.spoilt).2
def Ex.broken : Env := { Ex.env [] with sends := [.fail] }
def Ex.hungUp : World := (callIn Ex.g Ex.deafWorld Ex.broken .disconnect).world
def Ex.healed : World := (callIn Ex.g Ex.hungUp (Ex.env [0x20, 2, 1, 0]) Ex.connectCall).world

theorem Ex.deafWorld_fromInit : FromInit Ex.g ((Ex.played Ex.session).1 ++ (Ex.feed Ex.spoilt).1) Ex.deafWorld :=
  Ex.after_fromInit.append (Ex.feed_hist (by decide +kernel))

theorem Ex.hungUp_done : callIn Ex.g Ex.deafWorld Ex.broken .disconnect = .done (.status .sendFailed) Ex.hungUp := Ex.ret_done (by decide +kernel)

/-- Non-vacuity of `C90_recovers`: the session is resumed, and the PUBREL that was pending is sent again. -/
example : Ex.deafWorld.ctx.buffered = [0xF7, 0x70, 2, 0, 7] ∧ callIn Ex.g Ex.hungUp (Ex.env [0x20, 2, 1, 0]) Ex.connectCall = .done (.connect .success (some true)) Ex.healed ∧
    Ex.healed.ctx.connectStatus = .connected ∧ Ex.healed.ctx.buffered = [] ∧ unreleased Ex.healed.ctx.tables = [7] := by
  have hd : callIn Ex.g Ex.hungUp (Ex.env [0x20, 2, 1, 0]) Ex.connectCall = .done (.connect .success (some true)) Ex.healed := Ex.ret_done (by decide +kernel)
  obtain ⟨h1, h2, h3, _, _, h4⟩ := C90_recovers Ex.deafWorld_fromInit Ex.hungUp_done Ex.ciValid ⟨by decide, fun _ h => by cases h⟩ (by decide +kernel) hd (sp := true) (rest := []) rfl
    (by decide) (fun _ => .inl (by decide +kernel)) (Ex.unhindered (by decide +kernel) (by decide +kernel) (by decide +kernel)) (by
      rintro ⟨_, id, h⟩
      have h3 : (callEvents Ex.g Ex.hungUp (Ex.env [0x20, 2, 1, 0]) Ex.connectCall).all (fun | .retrieve _ none => false | _ => true) = true := by decide +kernel
      cases List.all_eq_true.mp h3 _ h)
  exact ⟨by decide +kernel, hd, h2, h3, (h4 rfl).2.2.1.trans (by decide +kernel)⟩

/-- Non-vacuity of `C90_hears`: the PUBCOMP that was not seen before is presented now. -/
example : (Ex.play Ex.healed [({ Ex.env [0x70, 2, 0, 7] with recvs := [.deliver 4] }, .receiveLoop)]).map
    (fun x => (x.1.map (·.2), callbacks (x.2.trace.drop Ex.healed.trace.length))) = some ([.status .success], [.app 0x70 [0, 7] 7 .success none]) := by decide +kernel

end Mqtt
