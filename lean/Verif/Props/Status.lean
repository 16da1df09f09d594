/-
The connection status, transport errors, parameters and hooks: C29, C30, C40, C43, C45, C46, C48.

`FromInit g h w`: the world `w` was reached from an initialised context by the history `h` of API calls.  `callIn g w e c` is one more call `c`
with any behaviour `e` of the environment; `callEvents g w e c` are the interactions with the environment in it.
-/
import Verif.Proof.CallConnect
import Verif.Props.State
import Verif.Props.Example

namespace Mqtt
open Spec
set_option linter.unusedSimpArgs false

theorem FromInit.append {g : Cfg} {h h' : List (ApiCall × ApiRet)} {w w' : World} (hh : FromInit g h w) (hr : Hist g w h' w') :
    FromInit g (h ++ h') w' := by
  obtain ⟨hg, w0, h1, h2, h3⟩ := hh
  refine ⟨hg, w0, h1, h2, ?_⟩
  clear h1 h2
  induction hr with
  | start => rwa [List.append_nil]
  | call _ hv hc ih => rw [← List.append_assoc]; exact .call ih hv hc

/-! ### C29 -/

/-- **C29** A transport error on an established connection leaves the connection in the disconnect-pending state, in whatever call it occurs
(also if the call does not return), and the call reports it.  (For `MQTT_Connect`, which starts without a connection, see `C29_connect`;
`MQTT_Disconnect` ends the connection.) -/
theorem C29_pending_after_error {g : Cfg} {h : List (ApiCall × ApiRet)} {w : World} (hh : FromInit g h w) (e : Env) (c : ApiCall)
    (hv : ValidCall g c) (hp : plainCall c = true) (hc : w.ctx.connectStatus = .connected) (hf : hasFail (callEvents g w e c) = true) :
    (callIn g w e c).world.ctx.connectStatus = .disconnectPending ∧
    (∀ r w', callIn g w e c = .done r w' →
      ((∃ b, Event.sent b none ∈ callEvents g w e c) → r.code = some .sendFailed) ∧
      ((∃ n, Event.recvd n none ∈ callEvents g w e c) → r.code = some .recvFailed)) := by
  obtain ⟨hg, hidx, s, hrep⟩ := hh.good
  rcases call_cases hg hidx hrep e hv with ⟨r, es, w1, h1, h2, hl, hd⟩ | ⟨es, w1, h1, h2, hl, hd⟩
  · rw [h2] at hf ⊢
    rw [h1]
    refine ⟨?_, ?_⟩
    · show w1.ctx.connectStatus = _
      rw [(hd.usual hp).1.status, hf]
      show afterFail true w.ctx.connectStatus = _
      rw [hc]; rfl
    · intro r' w' he
      cases he
      obtain ⟨k1, k2⟩ := hd.fails hp
      cases hr : r.code with
      | none => exact absurd hr (k2 hf)
      | some st =>
        refine ⟨?_, ?_⟩
        · rintro ⟨b, hb⟩; rw [(k1 st hr).1 b hb]
        · rintro ⟨n, hn⟩; rw [(k1 st hr).2 n hn]
  · rw [h2] at hf
    rw [h1]
    refine ⟨?_, fun r w' he => by cases he⟩
    show w1.ctx.connectStatus = _
    rw [(hd.usual hp).status, hf]
    show afterFail true w.ctx.connectStatus = _
    rw [hc]; rfl

/-- **C29** A send error in `MQTT_Connect` is reported; the connection is disconnect-pending afterwards if the CONNACK had arrived, and not
established otherwise. -/
theorem C29_connect {g : Cfg} {h : List (ApiCall × ApiRet)} {w w' : World} (hh : FromInit g h w) (e : Env) (ci : ConnectInfo)
    (will : Option PublishInfo) (t : UInt32) (sp : Bool) (st : Status) (sp' : Option Bool) (hv : ValidCall g (.connect (some ci) will t (some sp)))
    (hc : callIn g w e (.connect (some ci) will t (some sp)) = .done (.connect st sp') w')
    (hf : ∃ b, Event.sent b none ∈ callEvents g w e (.connect (some ci) will t (some sp))) :
    st = .sendFailed ∧
    w'.ctx.connectStatus = (if received (callEvents g w e (.connect (some ci) will t (some sp))) = [] then .notConnected else .disconnectPending) := by
  obtain ⟨hg, hidx, s, hrep⟩ := hh.good
  rcases call_cases hg hidx hrep e hv with ⟨r, es, w1, h1, h2, hl, hd⟩ | ⟨es, w1, h1, h2, hl, hd⟩
  · rw [h1] at hc
    cases hc
    rw [h2] at hf ⊢
    obtain ⟨b, hb⟩ := hf
    cases hd with
    | connect hd => exact hd.sendFails hb
    | connectNull hn _ => rcases hn with h | h <;> cases h
  · rw [h1] at hc; cases hc

/-- **C29** The state is left only by `MQTT_Disconnect`: it persists through every history without it. -/
theorem C29_pending_stays {g : Cfg} {h h' : List (ApiCall × ApiRet)} {w w' : World} (hh : FromInit g h w)
    (hc : w.ctx.connectStatus = .disconnectPending) (hr : Hist g w h' w') (hn : ∀ x ∈ h', x.1 ≠ .disconnect) :
    w'.ctx.connectStatus = .disconnectPending := by
  induction hr with
  | start => exact hc
  | @call w1 w2 h1 e c r hr hv hcall ih =>
    have hc1 := ih (fun x hx => hn x (List.mem_append_left _ hx))
    obtain ⟨hg, hidx, s, hrep⟩ := (hh.append hr).good
    have hnd : c ≠ .disconnect := hn (c, r) (List.mem_append_right _ List.mem_cons_self)
    rcases call_cases hg hidx hrep e hv with ⟨r', es, w3, k1, k2, hl, hd⟩ | ⟨es, w3, k1, k2, hl, hd⟩
    · rw [hcall] at k1
      cases k1
      by_cases hp : plainCall c = true
      · rw [(hd.usual hp).1.status]
        show afterFail (hasFail es) w1.ctx.connectStatus = _
        rw [hc1]; cases hasFail es <;> rfl
      · cases hd with
        | connect hd =>
          have hc1' : ({ w1 with env := e } : World).ctx.connectStatus = .disconnectPending := hc1
          rcases hd.outcome with ⟨_, _, ⟨_, _, h3⟩ | ⟨_, h3⟩⟩ | ⟨h3, _⟩ | ⟨h3, _⟩ | ⟨h3, _⟩
          · rw [h3]
          · rw [h3]; exact hc1
          all_goals (rw [hc1'] at h3; cases h3)
        | connectNull _ h3 =>
          rw [h3]
          show afterFail true w1.ctx.connectStatus = _
          rw [hc1]; rfl
        | disconnect _ => exact absurd rfl hnd
        | _ => exact absurd rfl hp
    · rw [hcall] at k1; cases k1

/-! ### C30 -/

/-- **C30** Without an established connection none of the calls hands anything to the transport's send function (`MQTT_Connect` and
`MQTT_Disconnect` aside), also if the call does not return. -/
theorem C30_nothing_sent {g : Cfg} {h : List (ApiCall × ApiRet)} {w : World} (hh : FromInit g h w) (e : Env) (c : ApiCall)
    (hv : ValidCall g c) (hp : plainCall c = true) (hc : w.ctx.connectStatus ≠ .connected) : noSent (callEvents g w e c) := by
  obtain ⟨hg, hidx, s, hrep⟩ := hh.good
  rcases call_cases hg hidx hrep e hv with ⟨r, es, w1, h1, h2, hl, hd⟩ | ⟨es, w1, h1, h2, hl, hd⟩
  · rw [h2]; exact (hd.usual hp).1.idle hc
  · rw [h2]; exact (hd.usual hp).idle hc

/-- **C30** If the connection is lost during a call because the transport reports an error, the call sends nothing from then on. -/
theorem C30_nothing_sent_after_error {g : Cfg} {h : List (ApiCall × ApiRet)} {w : World} (hh : FromInit g h w) (e : Env) (c : ApiCall)
    (hv : ValidCall g c) (hp : plainCall c = true) : quietAfterFail (callEvents g w e c) := by
  obtain ⟨hg, hidx, s, hrep⟩ := hh.good
  rcases call_cases hg hidx hrep e hv with ⟨r, es, w1, h1, h2, hl, hd⟩ | ⟨es, w1, h1, h2, hl, hd⟩
  · rw [h2]; exact (hd.usual hp).1.quiet
  · rw [h2]; exact (hd.usual hp).quiet

/-- `MQTT_Publish`, `MQTT_Subscribe`, `MQTT_Unsubscribe` and `MQTT_Ping`. -/
def sendingCall : ApiCall → Bool
  | .publish .. | .subscribe .. | .unsubscribe .. | .ping => true
  | _ => false

/-- **C30** Without an established connection these four calls return at once and say so (given arguments they accept); nothing changes. -/
theorem C30_refused {g : Cfg} {h : List (ApiCall × ApiRet)} {w : World} (hh : FromInit g h w) (e : Env) (c : ApiCall)
    (hv : ValidCall g c) (hp : sendingCall c = true) (ha : ArgsOk w.ctx c) (hc : w.ctx.connectStatus ≠ .connected) :
    ∃ w', callIn g w e c = .done (.status (if w.ctx.connectStatus = .notConnected then .statusNotConnected else .statusDisconnectPending)) w' ∧
      w'.ctx = w.ctx ∧ wire (callEvents g w e c) = [] ∧ received (callEvents g w e c) = [] ∧ callbacks (callEvents g w e c) = [] := by
  obtain ⟨hg, hidx, s, hrep⟩ := hh.good
  rcases call_cases hg hidx hrep e hv with ⟨r, es, w1, h1, h2, hl, hd⟩ | ⟨es, w1, h1, h2, hl, hd⟩
  · rw [h1, h2]
    suffices hs : r = .status (notConnectedStatus w.ctx.connectStatus) ∧ w1.ctx = w.ctx ∧ wire es = [] ∧ received es = [] ∧ callbacks es = [] from
      ⟨w1, by rw [hs.1]; rfl, hs.2⟩
    cases hd with
    | publish f h =>
      obtain ⟨q, hq, ha⟩ := ha
      cases hq
      rcases h.cases with ⟨_, _, _, h⟩ | ⟨_, rfl, rfl, h'⟩ | ⟨h, _⟩ | ⟨h, _⟩
      · exact absurd ha h
      · exact ⟨rfl, h', rfl, rfl, rfl⟩
      · exact absurd h hc
      · exact absurd h hc
    | publishNull => obtain ⟨q, hq, _⟩ := ha; cases hq
    | subscribe f h =>
      obtain ⟨q, hq, ha⟩ := ha
      cases hq
      rcases h.cases with ⟨_, _, _, h⟩ | ⟨_, rfl, rfl, h'⟩ | ⟨h, _⟩
      · exact absurd ha h
      · exact ⟨rfl, h', rfl, rfl, rfl⟩
      · exact absurd h hc
    | subscribeNull => obtain ⟨q, hq, _⟩ := ha; cases hq
    | unsubscribe f h =>
      obtain ⟨q, hq, ha⟩ := ha
      cases hq
      rcases h.cases with ⟨_, _, _, h⟩ | ⟨_, rfl, rfl, h'⟩ | ⟨h, _⟩
      · exact absurd ha h
      · exact ⟨rfl, h', rfl, rfl, rfl⟩
      · exact absurd h hc
    | unsubscribeNull => obtain ⟨q, hq, _⟩ := ha; cases hq
    | ping f h =>
      rcases h.cases with ⟨_, h3, h4, rfl, h'⟩ | ⟨h, _⟩ | ⟨h, _⟩
      · refine ⟨rfl, h', h3, received_of_noRecv (noRecv_of_ack h.kinds), ?_⟩
        unfold callbacks
        rw [List.filter_eq_nil_iff]
        intro x hx
        have := h.kinds x hx
        cases x <;> simp_all [isAckEvent, isCallback]
      · exact absurd h hc
      · exact absurd h hc
    | _ => cases hp
  · exfalso
    cases hd with
    | publish f h hq => exact hc hq.2
    | subscribe f h hq => exact hc hq.2
    | unsubscribe f h hq => exact hc hq.2
    | ping f h hq => exact hc hq
    | _ => cases hp

/-! ### C40 -/

/-- **C40** All changes of the connection status. -/
theorem C40_transitions {g : Cfg} {h : List (ApiCall × ApiRet)} {w w' : World} (hh : FromInit g h w) (e : Env) (c : ApiCall) (r : ApiRet)
    (hv : ValidCall g c) (hc : callIn g w e c = .done r w') :
    w'.ctx.connectStatus = w.ctx.connectStatus ∨
    -- an accepting CONNACK
    (w.ctx.connectStatus = .notConnected ∧ w'.ctx.connectStatus = .connected ∧ (∃ ci will t sp, c = .connect ci will t sp) ∧
      r.code = some .success ∧ (received (callEvents g w e c) = [0x20, 2, 0, 0] ∨ received (callEvents g w e c) = [0x20, 2, 1, 0])) ∨
    -- the session is resumed, but retransmission fails
    (w.ctx.connectStatus = .notConnected ∧ w'.ctx.connectStatus = .disconnectPending ∧ (∃ ci will t sp, c = .connect ci will t sp) ∧
      (r.code = some .sendFailed ∨ r.code = some .publishRetrieveFailed) ∧ received (callEvents g w e c) = [0x20, 2, 1, 0]) ∨
    -- a transport error
    (w.ctx.connectStatus = .connected ∧ w'.ctx.connectStatus = .disconnectPending ∧ plainCall c = true ∧ hasFail (callEvents g w e c) = true) ∨
    -- bad parameters given to `MQTT_Connect` on an established connection
    (w.ctx.connectStatus = .connected ∧ w'.ctx.connectStatus = .disconnectPending ∧ (∃ ci will t sp, c = .connect ci will t sp) ∧
      ¬ ArgsOk w.ctx c ∧ r.code = some .badParameter) ∨
    (w'.ctx.connectStatus = .notConnected ∧ c = .disconnect) := by
  obtain ⟨hg, hidx, s, hrep⟩ := hh.good
  rcases call_cases hg hidx hrep e hv with ⟨r', es, w1, h1, h2, hl, hd⟩ | ⟨es, w1, h1, h2, hl, hd⟩
  · rw [hc] at h1
    cases h1
    rw [h2]
    by_cases hp : plainCall c = true
    · have hs : w'.ctx.connectStatus = afterFail (hasFail es) w.ctx.connectStatus := (hd.usual hp).1.status
      cases hf : hasFail es with
      | false => left; rw [hs, hf, afterFail_false]
      | true =>
        rw [hf] at hs
        cases hcs : w.ctx.connectStatus with
        | connected => rw [hcs] at hs; exact Or.inr (Or.inr (Or.inr (Or.inl ⟨rfl, hs, hp, rfl⟩)))
        | notConnected => rw [hcs] at hs; exact Or.inl hs
        | disconnectPending => rw [hcs] at hs; exact Or.inl hs
    · cases hd with
      | @connect ci will t sp0 sp st _ _ hd =>
        rcases hd.outcome with ⟨h3, _, ⟨h4, h5, h6⟩ | ⟨_, h6⟩⟩ | ⟨h3, h4, h5, h6, _, _, h7⟩ | ⟨h3, h4, h5, _, _, h6, h7, h8⟩ | ⟨h3, h4, _⟩
        · have h3 : w.ctx.connectStatus ≠ .notConnected := h3
          cases hcs : w.ctx.connectStatus with
          | connected =>
            refine Or.inr (Or.inr (Or.inr (Or.inr (Or.inl ⟨rfl, by rw [h6], ⟨_, _, _, _, rfl⟩, ?_, by rw [h5]; rfl⟩))))
            rintro ⟨x, hx, _, ha⟩
            cases hx
            exact h4 ha
          | notConnected => exact absurd hcs h3
          | disconnectPending => exact Or.inl (by rw [h6])
        · exact Or.inl (by rw [h6])
        · refine Or.inr (Or.inl ⟨h3, h6, ⟨_, _, _, _, rfl⟩, by rw [h5]; rfl, ?_⟩)
          cases sp
          · exact Or.inl h7
          · exact Or.inr h7
        · refine Or.inr (Or.inr (Or.inl ⟨h3, h7, ⟨_, _, _, _, rfl⟩, ?_, h8⟩))
          rcases h6 with rfl | rfl
          · exact Or.inl rfl
          · exact Or.inr rfl
        · exact Or.inl (h4.trans h3.symm)
      | @connectNull ci will t sp0 _ hn h3 =>
        have h3 : w'.ctx.connectStatus = afterFail true w.ctx.connectStatus := by rw [h3]
        cases hcs : w.ctx.connectStatus with
        | connected =>
          rw [hcs] at h3
          refine Or.inr (Or.inr (Or.inr (Or.inr (Or.inl ⟨rfl, h3, ⟨_, _, _, _, rfl⟩, ?_, rfl⟩))))
          rintro ⟨x, hx, hy, ha⟩
          rcases hn with h | h
          · rw [h] at hx; cases hx
          · exact hy h
        | notConnected => rw [hcs] at h3; exact Or.inl h3
        | disconnectPending => rw [hcs] at h3; exact Or.inl h3
      | disconnect hd =>
        refine Or.inr (Or.inr (Or.inr (Or.inr (Or.inr ⟨?_, rfl⟩))))
        rcases hd.cases with ⟨h3, _, _, h4⟩ | ⟨_, snd, _, _, _, _, t, h4⟩
        · rw [h4]; exact h3
        · rw [h4]; rfl
      | _ => exact absurd rfl hp
  · rw [h1] at hc; cases hc

/-- **C40** `MQTT_Connect` while there is a connection returns at once, sends nothing, and says what the status is. -/
theorem C40_connect_again {g : Cfg} {h : List (ApiCall × ApiRet)} {w : World} (hh : FromInit g h w) (e : Env) (ci : Option ConnectInfo)
    (will : Option PublishInfo) (t : UInt32) (sp : Option Bool) (hv : ValidCall g (.connect ci will t sp))
    (ha : ArgsOk w.ctx (.connect ci will t sp)) (hc : w.ctx.connectStatus ≠ .notConnected) :
    ∃ w', callIn g w e (.connect ci will t sp) = .done (.connect (if w.ctx.connectStatus = .connected then .statusConnected else .statusDisconnectPending) sp) w' ∧
      w'.ctx = w.ctx ∧ callEvents g w e (.connect ci will t sp) = [.pre, .post] := by
  obtain ⟨hg, hidx, s, hrep⟩ := hh.good
  obtain ⟨x, rfl, hsp, ha⟩ := ha
  rcases call_cases hg hidx hrep e hv with ⟨r, es, w1, h1, h2, hl, hd⟩ | ⟨es, w1, h1, h2, hl, hd⟩
  · rw [h1, h2]
    cases hd with
    | connect hd =>
      cases hd with
      | badSize k1 k2 k3 => exact absurd ((connectSize_iff _ _).mpr ⟨ha.client, fun x hx => (ha.will x hx).2⟩) (k2 ▸ k1)
      | already k1 k2 k3 k4 => exact ⟨w1, by rw [k4], k3, rfl⟩
      | noTopic k1 k2 _ _ => exact absurd k2 hc
      | notSent k1 k2 => exact absurd k2 hc
      | notAccepted k1 k2 => exact absurd k2 hc
      | fresh k1 k2 => exact absurd k2 hc
      | resumed k1 k2 => exact absurd k2 hc
    | connectNull hn _ =>
      rcases hn with h | h
      · cases h
      · exact absurd h hsp
  · exfalso
    cases hd with
    | connect hx =>
      cases hx with
      | sending k1 k2 => exact hc k2
      | waiting k1 k2 => exact hc k2
      | resuming k1 k2 => exact hc k2

/-! ### C43 -/

/-- **C43** `MQTT_Disconnect` ends the connection and drops unread input.  It offers the transport exactly the DISCONNECT packet and says
whether the transport took it.  Nothing else in the context changes (but for the time of the last transmission).  Without a connection nothing
happens. -/
theorem C43_disconnect {g : Cfg} {h : List (ApiCall × ApiRet)} {w w' : World} (hh : FromInit g h w) (e : Env) (r : ApiRet)
    (hc : callIn g w e .disconnect = .done r w') :
    w'.ctx.connectStatus = .notConnected ∧ received (callEvents g w e .disconnect) = [] ∧ callbacks (callEvents g w e .disconnect) = [] ∧
    (w.ctx.connectStatus = .notConnected → r = .status .statusNotConnected ∧ w'.ctx = w.ctx ∧ noSent (callEvents g w e .disconnect)) ∧
    (w.ctx.connectStatus ≠ .notConnected →
      (∃ t, w'.ctx = { w.ctx with connectStatus := .notConnected, netBuf := List.replicate w.ctx.bufSize 0, index := 0, lastPacketTxTime := t }) ∧
      (r = .status .success ∧ wire (callEvents g w e .disconnect) = disconnectPacket ∨
       r = .status .sendFailed ∧ wire (callEvents g w e .disconnect) <+: disconnectPacket ∧ wire (callEvents g w e .disconnect) ≠ disconnectPacket)) := by
  obtain ⟨hg, hidx, s, hrep⟩ := hh.good
  rcases call_cases hg hidx hrep e (c := .disconnect) trivial with ⟨r', es, w1, h1, h2, hl, hd⟩ | ⟨es, w1, h1, h2, hl, hd⟩
  · rw [hc] at h1
    cases h1
    rw [h2]
    cases hd with
    | disconnect hd =>
      rcases hd.cases with ⟨h3, rfl, rfl, h4⟩ | ⟨h3, snd, rfl, hk, _, hs, t, h4⟩
      · exact ⟨by rw [h4]; exact h3, rfl, rfl, fun _ => ⟨rfl, h4, by simp [noSent, isSent]⟩, fun h => absurd h3 h⟩
      · have hcb : callbacks (.pre :: (snd ++ [.post])) = [] := by
          unfold callbacks
          rw [List.filter_eq_nil_iff]
          intro x hx
          simp only [List.mem_cons, List.mem_append, List.not_mem_nil, or_false] at hx
          rcases hx with rfl | hx | rfl
          · simp [isCallback]
          · have := hk x hx
            cases x <;> simp_all [isSendOrTime, isCallback]
          · simp [isCallback]
        refine ⟨by rw [h4]; rfl, ?_, hcb, fun h => absurd h h3, fun _ => ⟨⟨t, h4⟩, ?_⟩⟩
        · rw [(received_hook _).1, received_append, received_of_noRecv (noRecv_of_send hk)]; rfl
        · rw [wire_hooked]
          rcases hs with ⟨rfl, _, h5⟩ | ⟨rfl, h5, h6⟩
          · exact Or.inl ⟨rfl, h5⟩
          · exact Or.inr ⟨rfl, h5, h6⟩
  · rw [h1] at hc; cases hc

/-! ### C45 -/

/-- **C45** Given arguments it does not accept, a function (other than `MQTT_Connect`) returns MQTTBadParameter and does nothing: the context
is unchanged and nothing is called, not even the hooks. -/
theorem C45_no_effect {g : Cfg} {h : List (ApiCall × ApiRet)} {w : World} (hh : FromInit g h w) (e : Env) (c : ApiCall) (hv : ValidCall g c)
    (hn : ∀ ci will t sp, c ≠ .connect ci will t sp) (ha : ¬ ArgsOk w.ctx c) :
    callIn g w e c = .done (.status .badParameter) { w with env := e } ∧ callEvents g w e c = [] := by
  obtain ⟨hg, hidx, s, hrep⟩ := hh.good
  rcases call_cases hg hidx hrep e hv with ⟨r, es, w1, h1, h2, hl, hd⟩ | ⟨es, w1, h1, h2, hl, hd⟩
  · rw [h1, h2]
    cases hd with
    | publish f h =>
      have hne : ¬ es ≠ [] := fun hes => ha ⟨_, rfl, h.args hes⟩
      rcases h.cases with ⟨rfl, rfl, rfl, _⟩ | ⟨_, _, rfl, _⟩ | ⟨_, _, _, _, rfl, _⟩ | ⟨_, _, _, _, _, _, _, _, _, _, rfl, _⟩
      · exact ⟨rfl, rfl⟩
      all_goals exact absurd (List.cons_ne_nil _ _) hne
    | publishNull => exact ⟨rfl, rfl⟩
    | subscribe f h =>
      rcases h.cases with ⟨rfl, rfl, rfl, _⟩ | ⟨_, h5, _, _⟩ | ⟨_, _, _, _, h5⟩
      · exact ⟨rfl, rfl⟩
      · exact absurd ⟨_, rfl, h.args (by rw [h5]; unfold notConnectedStatus; split <;> decide)⟩ ha
      · exact absurd ⟨_, rfl, h.args (by rcases h5 with ⟨h5, _⟩ | ⟨h5, _⟩ <;> rw [h5] <;> decide)⟩ ha
    | subscribeNull => exact ⟨rfl, rfl⟩
    | unsubscribe f h =>
      rcases h.cases with ⟨rfl, rfl, rfl, _⟩ | ⟨_, h5, _, _⟩ | ⟨_, _, _, _, h5⟩
      · exact ⟨rfl, rfl⟩
      · exact absurd ⟨_, rfl, h.args (by rw [h5]; unfold notConnectedStatus; split <;> decide)⟩ ha
      · exact absurd ⟨_, rfl, h.args (by rcases h5 with ⟨h5, _⟩ | ⟨h5, _⟩ <;> rw [h5] <;> decide)⟩ ha
    | unsubscribeNull => exact ⟨rfl, rfl⟩
    | cancel h0 h =>
      cases h with
      | none => exact ⟨rfl, rfl⟩
      | some k1 =>
        refine absurd ?_ ha
        intro h
        rw [← hrep.1.size, h] at k1
        exact k1 rfl
    | connect _ => exact absurd rfl (hn _ _ _ _)
    | connectNull _ _ => exact absurd rfl (hn _ _ _ _)
    | _ => exact absurd trivial ha
  · exfalso
    cases hd with
    | publish f h hq => exact ha ⟨_, rfl, hq.1⟩
    | subscribe f h hq => exact ha ⟨_, rfl, hq.1⟩
    | unsubscribe f h hq => exact ha ⟨_, rfl, hq.1⟩
    | connect _ => exact absurd rfl (hn _ _ _ _)
    | _ => exact absurd trivial ha

/-- **C45** for `MQTT_Connect`: without a connection, arguments it does not accept have no effect either (but for the hooks). -/
theorem C45_connect {g : Cfg} {h : List (ApiCall × ApiRet)} {w : World} (hh : FromInit g h w) (e : Env) (ci : Option ConnectInfo)
    (will : Option PublishInfo) (t : UInt32) (sp : Option Bool) (hv : ValidCall g (.connect ci will t sp))
    (ha : ¬ ArgsOk w.ctx (.connect ci will t sp)) (hc : w.ctx.connectStatus = .notConnected) :
    ∃ w', callIn g w e (.connect ci will t sp) = .done (.connect .badParameter sp) w' ∧ w'.ctx = w.ctx ∧
      ∀ x ∈ callEvents g w e (.connect ci will t sp), x = .pre ∨ x = .post := by
  obtain ⟨hg, hidx, s, hrep⟩ := hh.good
  have hooks : ∀ x ∈ [Event.pre, .post], x = Event.pre ∨ x = .post := by simp
  rcases call_cases hg hidx hrep e hv with ⟨r, es, w1, h1, h2, hl, hd⟩ | ⟨es, w1, h1, h2, hl, hd⟩
  · rw [h1, h2]
    refine ⟨w1, ?_⟩
    cases hd with
    | connect hd =>
      have hb : ¬ ConnectArgsOk _ will := fun hb => ha ⟨_, rfl, by simp, hb⟩
      rcases hd.outcome with ⟨h3, _⟩ | ⟨_, h3, _⟩ | ⟨_, h3, _⟩ | ⟨_, _, ⟨_, rfl, rfl, h4, h5⟩ | ⟨h3, _⟩⟩
      · exact absurd hc h3
      · exact absurd h3 hb
      · exact absurd h3 hb
      · refine ⟨rfl, h4, ?_⟩
        rcases h5 with rfl | rfl <;> simp
      · exact absurd h3 hb
    | connectNull hn h3 =>
      refine ⟨rfl, ?_, hooks⟩
      rw [h3]
      show { w.ctx with connectStatus := afterFail true w.ctx.connectStatus } = w.ctx
      rw [hc]
      have : afterFail true ConnStatus.notConnected = .notConnected := rfl
      rw [this, ← hc]
  · exfalso
    have hb : ∀ ci will, (getConnectPacketSize (some ci) will).status = .success → (∀ x, will = some x → x.pTopicName ≠ none) → ConnectArgsOk ci will :=
      fun ci will h h' => ⟨((connectSize_iff ci will).mp h).1, fun x hx => ⟨h' x hx, ((connectSize_iff ci will).mp h).2 x hx⟩⟩
    cases hd with
    | connect hx =>
      refine ha ⟨_, rfl, by simp, ?_⟩
      cases hx with
      | sending k1 k2 k3 k4 k5 k6 => exact hb _ _ k1 k6
      | waiting k1 k2 k3 k4 k5 k6 k7 => exact hb _ _ k1 k7
      | resuming k1 k2 k3 k4 k5 k6 k7 k8 k9 k10 k11 => exact hb _ _ k1 k11

/-- Conversely, acceptable arguments are not refused: MQTTBadParameter is returned only for a publish sent again with another QoS than the one
in flight, and for cancelling an id that is not in flight. -/
theorem C45_only_invalid {g : Cfg} {h : List (ApiCall × ApiRet)} {w w' : World} (hh : FromInit g h w) (e : Env) (c : ApiCall) (r : ApiRet)
    (hv : ValidCall g c) (hl : c ≠ .processLoop ∧ c ≠ .receiveLoop) (ha : ArgsOk w.ctx c) (hc : callIn g w e c = .done r w')
    (hb : r.code = some .badParameter) :
    (∃ p id, c = .publish (some p) id ∧ p.qos ≠ .qos0 ∧ p.dup = true ∧ ∃ x ∈ inFlight w.ctx.tables.outgoing, x.packetId = id ∧ x.qos ≠ p.qos) ∨
    (∃ id, c = .cancelCallback id ∧ ∀ x ∈ inFlight w.ctx.tables.outgoing, x.packetId ≠ id) := by
  obtain ⟨hg, hidx, s, hrep⟩ := hh.good
  rcases call_cases hg hidx hrep e hv with ⟨r', es, w1, h1, h2, hl', hd⟩ | ⟨es, w1, h1, h2, hl', hd⟩
  · rw [hc] at h1
    cases h1
    have nc : ∀ x : ConnStatus, notConnectedStatus x ≠ .badParameter := by intro x; cases x <;> decide
    cases hd with
    | @publish p id st _ _ f h =>
      obtain ⟨q, hq, ha⟩ := ha
      cases hq
      cases hb
      obtain ⟨k1, k2, q, k3, k4⟩ := h.bad ha
      refine Or.inl ⟨p, id, rfl, k1, k2, outRec (id, q), inFlight_phase hrep.1 k3, keepsId_out _, ?_⟩
      have : (outRec (id, q)).qos = outQoS q := by cases q <;> rfl
      rw [this]; exact k4
    | publishNull => obtain ⟨q, hq, _⟩ := ha; cases hq
    | subscribe f h =>
      obtain ⟨q, hq, ha⟩ := ha
      cases hq
      cases hb
      rcases h.cases with ⟨_, _, _, h⟩ | ⟨_, h, _⟩ | ⟨_, _, _, _, ⟨h, _⟩ | ⟨h, _⟩⟩
      · exact absurd ha h
      · exact absurd h.symm (nc _)
      all_goals cases h
    | subscribeNull => obtain ⟨q, hq, _⟩ := ha; cases hq
    | unsubscribe f h =>
      obtain ⟨q, hq, ha⟩ := ha
      cases hq
      cases hb
      rcases h.cases with ⟨_, _, _, h⟩ | ⟨_, h, _⟩ | ⟨_, _, _, _, ⟨h, _⟩ | ⟨h, _⟩⟩
      · exact absurd ha h
      · exact absurd h.symm (nc _)
      all_goals cases h
    | unsubscribeNull => obtain ⟨q, hq, _⟩ := ha; cases hq
    | ping f h =>
      cases hb
      rcases h.cases with ⟨_, _, _, h, _⟩ | ⟨_, _, _, h, _⟩ | ⟨_, _, _, h, _⟩
      · exact absurd h.symm (nc _)
      all_goals cases h
    | disconnect hd =>
      cases hb
      rcases hd.cases with ⟨_, h, _⟩ | ⟨_, _, _, _, _, ⟨h, _⟩ | ⟨h, _⟩, _⟩ <;> cases h
    | processLoop f h => exact absurd rfl hl.1
    | receiveLoop f h => exact absurd rfl hl.2
    | cancel h0 h =>
      cases h with
      | none k => exact absurd (List.eq_nil_of_length_eq_zero (by rw [hrep.1.size]; exact k)) ha
      | some k1 k2 k3 =>
        refine Or.inr ⟨_, rfl, ?_⟩
        intro x hx he
        have hs := (cancel_facts hrep k3).1
        rw [if_pos ⟨x, hx, he⟩] at hs
        simp only [ApiRet.code, Option.some.injEq] at hb
        rw [hs] at hb; cases hb
    | check h => cases hcs : w.ctx.connectStatus <;> simp [ApiRet.code, hcs, connectStatusCode] at hb
    | getId h => cases hb
    | connect hd =>
      obtain ⟨x, hx, _, ha⟩ := ha
      cases hx
      cases hb
      rcases hd.outcome with ⟨_, _, ⟨h, _⟩ | ⟨h, _⟩⟩ | ⟨_, _, h, _⟩ | ⟨_, _, _, _, _, h | h, _⟩ | ⟨_, _, ⟨h, _⟩ | ⟨_, h⟩⟩
      · exact absurd ha h
      · cases hcs : w.ctx.connectStatus <;> simp [hcs, connectStatusCode] at h
      · cases h
      · cases h
      · cases h
      · exact absurd ha h
      · simp at h
    | connectNull hn h =>
      obtain ⟨x, hx, hy, _⟩ := ha
      rcases hn with h | h
      · rw [h] at hx; cases hx
      · exact absurd h hy
  · rw [h1] at hc; cases hc

/-! ### C46 -/

/-- **C46** Whatever function returns, the critical section has been left as often as it was entered, and never before it was entered. -/
theorem C46_balanced {g : Cfg} {h : List (ApiCall × ApiRet)} {w w' : World} (hh : FromInit g h w) (e : Env) (c : ApiCall) (r : ApiRet)
    (hv : ValidCall g c) (hc : callIn g w e c = .done r w') : hookDepth 0 (callEvents g w e c) = some 0 := by
  obtain ⟨hg, hidx, s, hrep⟩ := hh.good
  rcases call_cases hg hidx hrep e hv with ⟨r', es, w1, h1, h2, hl, hd⟩ | ⟨es, w1, h1, h2, hl, hd⟩
  · rw [h2]
    by_cases hp : plainCall c = true
    · exact hookDepth_of_lock 0 (hd.usual hp).2
    · cases hd with
      | connect hd => exact hd.hooks.1
      | connectNull _ _ => rfl
      | disconnect hd => exact hookDepth_of_lock 0 hd.lock
      | _ => exact absurd rfl hp
  · rw [h1] at hc; cases hc

/-- **C46** The critical section is never entered twice, never left when it was not entered, and the send function is only called inside of it
(`lockRun`), by all functions but `MQTT_Connect`, also if the call does not return; a call that returns leaves it. -/
theorem C46_never_nested {g : Cfg} {h : List (ApiCall × ApiRet)} {w : World} (hh : FromInit g h w) (e : Env) (c : ApiCall)
    (hv : ValidCall g c) (hn : ∀ ci will t sp, c ≠ .connect ci will t sp) :
    lockRun false (callEvents g w e c) ≠ none ∧ (∀ r w', callIn g w e c = .done r w' → lockRun false (callEvents g w e c) = some false) := by
  obtain ⟨hg, hidx, s, hrep⟩ := hh.good
  rcases call_cases hg hidx hrep e hv with ⟨r', es, w1, h1, h2, hl, hd⟩ | ⟨es, w1, h1, h2, hl, hd⟩
  · rw [h2]
    suffices hs : lockRun false es = some false from ⟨by rw [hs]; simp, fun _ _ _ => hs⟩
    by_cases hp : plainCall c = true
    · exact (hd.usual hp).2
    · cases hd with
      | connect hd => exact absurd rfl (hn _ _ _ _)
      | connectNull _ _ => exact absurd rfl (hn _ _ _ _)
      | disconnect hd => exact hd.lock
      | _ => exact absurd rfl hp
  · rw [h2, h1]
    refine ⟨?_, fun r w' h => by cases h⟩
    by_cases hp : plainCall c = true
    · exact (hd.usual hp).lock
    · cases hd with
      | connect hd => exact absurd rfl (hn _ _ _ _)
      | disconnect hl' hx =>
        obtain ⟨snd, k1, k2, _⟩ := hx
        have : es = .pre :: snd := List.append_cancel_left (hl'.trace.symm.trans k1)
        rw [this]
        simp only [lockRun, Bool.false_eq_true, if_false]
        rw [lockRun_send k2]; simp
      | _ => exact absurd rfl hp

/-- **C46** The same holds for `MQTT_Connect` unless the receive function reports an error. -/
theorem C46_connect {g : Cfg} {h : List (ApiCall × ApiRet)} {w : World} (hh : FromInit g h w) (e : Env) (ci : Option ConnectInfo)
    (will : Option PublishInfo) (t : UInt32) (sp : Option Bool) (hv : ValidCall g (.connect ci will t sp))
    (hf : ∀ n, Event.recvd n none ∉ callEvents g w e (.connect ci will t sp)) :
    lockRun false (callEvents g w e (.connect ci will t sp)) ≠ none ∧
    (∀ r w', callIn g w e (.connect ci will t sp) = .done r w' → lockRun false (callEvents g w e (.connect ci will t sp)) = some false) := by
  obtain ⟨hg, hidx, s, hrep⟩ := hh.good
  rcases call_cases hg hidx hrep e hv with ⟨r', es, w1, h1, h2, hl, hd⟩ | ⟨es, w1, h1, h2, hl, hd⟩
  · rw [h2] at hf ⊢
    suffices hs : lockRun false es = some false from ⟨by rw [hs]; simp, fun _ _ _ => hs⟩
    cases hd with
    | connect hd => exact hd.hooks.2 hf
    | connectNull _ _ => rfl
  · rw [h2] at hf ⊢
    rw [h1]
    refine ⟨?_, fun r w' h => by cases h⟩
    cases hd with
    | connect hx => exact hx.hooks hf

/-! ### C48 -/

/-- **C48** Cancelling a publish that is in flight removes exactly that entry; an id that is not in flight is a bad parameter and changes
nothing.  Nothing else in the context changes, and nothing but the hooks is called. -/
theorem C48_cancel {g : Cfg} {h : List (ApiCall × ApiRet)} {w : World} (hh : FromInit g h w) (e : Env) (id : UInt16) (hid : id ≠ 0) :
    ∃ st w' T, callIn g w e (.cancelCallback id) = .done (.status st) w' ∧ w'.ctx = { w.ctx with tables := T } ∧
      (st = if (∃ x ∈ inFlight w.ctx.tables.outgoing, x.packetId = id) then .success else .badParameter) ∧
      inFlight T.outgoing = (inFlight w.ctx.tables.outgoing).filter (fun x => x.packetId ≠ id) ∧
      inFlight T.incoming = inFlight w.ctx.tables.incoming ∧
      ∀ x ∈ callEvents g w e (.cancelCallback id), x = .pre ∨ x = .post := by
  obtain ⟨hg, hidx, s, hrep⟩ := hh.good
  rcases call_cases hg hidx hrep e (c := .cancelCallback id) hid with ⟨r', es, w1, h1, h2, hl, hd⟩ | ⟨es, w1, h1, h2, hl, hd⟩
  · rw [h2]
    cases hd with
    | cancel h0 h =>
      cases h with
      | none k =>
        have hnil : inFlight w.ctx.tables.outgoing = [] := by
          rw [List.eq_nil_of_length_eq_zero (show w.ctx.tables.outgoing.length = 0 by rw [hrep.1.size]; exact k)]; rfl
        exact ⟨_, _, w.ctx.tables, h1, rfl, by rw [hnil]; simp, by rw [hnil]; rfl, rfl, by simp⟩
      | @some _ T k1 k2 k3 =>
        obtain ⟨f1, f2, f3⟩ := cancel_facts hrep k3
        exact ⟨_, _, T, h1, k2, f1, f2, f3, by simp⟩
  · cases hd

/-! ### Non-vacuity and counterexamples -/

/-- The world after the example session. -/
def Ex.after : World := (Ex.played Ex.session).2
/-- The transport fails to receive. -/
def Ex.recvError : Env := { Ex.env [] with recvs := [.fail] }
/-- The transport takes two bytes, then fails. -/
def Ex.sendError : Env := { Ex.env [] with sends := [.accept 2, .fail] }
/-- The transport delivers the fixed header of the CONNACK byte by byte, then fails. -/
def Ex.connackError : Env := { Ex.env [0x20, 2, 0, 0] with recvs := [.deliver 1, .deliver 1, .fail] }
/-- The QoS 2 publish with id 7 is in flight; send "it" again with QoS 1. -/
def Ex.dupCall : ApiCall := .publish (some { Ex.pub .qos1 with dup := true }) 7
/-- A connect description without a client id. -/
def Ex.noClientId : ApiCall := .connect (some { Ex.ci with pClientIdentifier := none }) none 1000 (some true)

/-- What a call returns, if it returns. -/
def Ex.ret : Out ApiRet → Option ApiRet
  | .done r _ => some r
  | _ => none

theorem Ex.after_fromInit : FromInit Ex.g (Ex.played Ex.session).1 Ex.after := Ex.session_fromInit

/-- Non-vacuity of C29: failing receive and send calls on the established connection of the example session, and the states they lead to. -/
example : Ex.after.ctx.connectStatus = .connected ∧
    callEvents Ex.g Ex.after Ex.recvError .processLoop = [.recvd 64 none, .pre, .post] ∧
    Ex.ret (callIn Ex.g Ex.after Ex.recvError .processLoop) = some (.status .recvFailed) ∧
    hasFail (callEvents Ex.g Ex.after Ex.sendError (Ex.publishCall .qos1 8)) = true ∧
    Ex.ret (callIn Ex.g Ex.after Ex.sendError (Ex.publishCall .qos1 8)) = some (.status .sendFailed) ∧
    (callIn Ex.g Ex.after Ex.sendError (Ex.publishCall .qos1 8)).world.ctx.connectStatus = .disconnectPending := by
  decide +kernel

/-- A session in which the connection is lost, followed by calls that leave it so. -/
def Ex.lost : List (Env × ApiCall) := Ex.session ++ [(Ex.recvError, .processLoop)]

/-- Non-vacuity of `C29_pending_stays`, C30 and of the second case of `C40_connect_again`. -/
example : (Ex.play Ex.w0 Ex.lost).isSome = true ∧ (Ex.played Ex.lost).2.ctx.connectStatus = .disconnectPending ∧
    Ex.ret (callIn Ex.g (Ex.played Ex.lost).2 (Ex.env []) (Ex.publishCall .qos1 8)) = some (.status .statusDisconnectPending) ∧
    Ex.ret (callIn Ex.g (Ex.played Ex.lost).2 (Ex.env []) Ex.connectCall) = some (.connect .statusDisconnectPending (some true)) ∧
    Ex.ret (callIn Ex.g (Ex.played Ex.lost).2 (Ex.env []) .disconnect) = some (.status .success) ∧
    Ex.ret (callIn Ex.g Ex.w0 (Ex.env []) .ping) = some (.status .statusNotConnected) := by
  decide +kernel

/-- Non-vacuity of the acceptance conditions. -/
example : ArgsOk Ex.after.ctx (Ex.publishCall .qos1 8) ∧ ArgsOk Ex.after.ctx Ex.connectCall ∧ ¬ ArgsOk Ex.after.ctx (Ex.publishCall .qos1 0) ∧
    ¬ ArgsOk Ex.after.ctx Ex.noClientId := by
  refine ⟨⟨_, rfl, ⟨⟨by decide, by decide⟩, fun _ => by decide, fun _ => by decide, fun _ => by decide +kernel, by decide +kernel⟩⟩,
    ⟨_, rfl, by decide, ⟨by decide, by decide⟩, fun _ h => by cases h⟩, ?_, ?_⟩
  · rintro ⟨q, hq, h⟩
    cases hq
    exact h.id (by decide) rfl
  · rintro ⟨q, hq, _, h⟩
    cases hq
    exact h.client.1 rfl

/-- Non-vacuity of `C29_connect`: the resumption of the session of the example fails. -/
example : let w := (Ex.played (Ex.session ++ [(Ex.env [], .disconnect)])).2
    let e : Env := { Ex.env [0x20, 2, 1, 0] with sends := List.replicate 6 (.accept 3) ++ [.fail] }
    Ex.ret (callIn Ex.g w e Ex.connectCall) = some (.connect .sendFailed (some true)) ∧
    received (callEvents Ex.g w e Ex.connectCall) = [0x20, 2, 1, 0] ∧
    (callIn Ex.g w e Ex.connectCall).world.ctx.connectStatus = .disconnectPending := by
  decide +kernel

/-- The exception in C40 and C45 is real: bad parameters given to `MQTT_Connect` on an established connection are reported, but the connection
becomes disconnect-pending, although nothing was wrong with it. -/
theorem C45_connect_on_connected : FromInit Ex.g (Ex.played Ex.session).1 Ex.after ∧ ValidCall Ex.g Ex.noClientId ∧
    Ex.after.ctx.connectStatus = .connected ∧
    Ex.ret (callIn Ex.g Ex.after (Ex.env []) Ex.noClientId) = some (.connect .badParameter (some true)) ∧
    callEvents Ex.g Ex.after (Ex.env []) Ex.noClientId = [.pre, .post] ∧
    (callIn Ex.g Ex.after (Ex.env []) Ex.noClientId).world.ctx.connectStatus = .disconnectPending := by
  refine ⟨Ex.after_fromInit, ?_, by decide +kernel, by decide +kernel, by decide +kernel, by decide +kernel⟩
  intro c h
  cases h
  exact ⟨fun h => absurd rfl h, fun h => absurd rfl h, fun h => absurd rfl h, fun _ h => by cases h⟩

/-- The exception in `C45_only_invalid` is real: MQTTBadParameter is returned after the whole packet was sent. -/
theorem C45_bad_parameter_after_sending : FromInit Ex.g (Ex.played Ex.session).1 Ex.after ∧ ValidCall Ex.g Ex.dupCall ∧
    Ex.ret (callIn Ex.g Ex.after (Ex.env []) Ex.dupCall) = some (.status .badParameter) ∧
    some (wire (callEvents Ex.g Ex.after (Ex.env []) Ex.dupCall)) = callPacket Ex.dupCall := by
  refine ⟨Ex.after_fromInit, ?_, by decide +kernel, by decide +kernel⟩
  intro c h
  cases h
  exact ⟨⟨fun _ => ⟨_, rfl, by decide⟩, fun _ => ⟨_, rfl, by decide⟩⟩, by decide⟩

/-- The restriction on receive errors in `C46_connect` is needed: `MQTT_Connect` holds the critical section while it waits for the CONNACK, and
enters it again when receiving fails. -/
theorem C46_connect_nests : lockRun false (callEvents Ex.g Ex.w0 Ex.connackError Ex.connectCall) = none ∧
    hookDepth 0 (callEvents Ex.g Ex.w0 Ex.connackError Ex.connectCall) = some 0 ∧
    Ex.ret (callIn Ex.g Ex.w0 Ex.connackError Ex.connectCall) = some (.connect .recvFailed (some true)) := by
  decide +kernel

/-- Non-vacuity of C48. -/
example : inFlight Ex.after.ctx.tables.outgoing = [⟨7, .qos2, .pubCompPending⟩] ∧
    Ex.ret (callIn Ex.g Ex.after (Ex.env []) (.cancelCallback 7)) = some (.status .success) ∧
    Ex.ret (callIn Ex.g Ex.after (Ex.env []) (.cancelCallback 8)) = some (.status .badParameter) := by
  decide +kernel

end Mqtt
