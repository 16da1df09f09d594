/-
C86: for which messages a PUBREL is answered.
-/
import Verif.Props.Silence
import Verif.Proof.Releases

namespace Mqtt
open Spec

/-- What a receive call does that takes a PUBREL. -/
theorem took_pubrel {g : Cfg} {h : List (ApiCall × ApiRet)} {w w' : World} (hh : FromInit g h w) {e : Env} {m : Bool} {r : ApiRet} {i : UInt16} (hi : i ≠ 0)
    (hc : callIn g w e (loopCall m) = .done r w') (hfit : 4 ≤ w.ctx.bufSize)
    (ht : w.ctx.buffered ++ received (callEvents g w e (loopCall m)) = idPacket 0x62 i.toNat ++ w'.ctx.buffered) :
    ∃ s ping es1 w1 w2 rst, Represents w.ctx.tables s ∧ (ping = [] ∨ ping = pingreqPacket) ∧ wire (callEvents g w e (loopCall m)) = ping ++ wire es1 ∧
      callbacks (callEvents g w e (loopCall m)) = callbacks es1 ∧ r = .status rst ∧ w1.ctx.connectStatus = w.ctx.connectStatus ∧ w1.ctx.tables = w.ctx.tables ∧
      w'.ctx.tables = w2.ctx.tables ∧ Reacted (reactAck w.ctx.retransmits s 0x62 (be16 i.toNat) .pubrel i) w1 rst es1 w2 := by
  obtain ⟨hg, hidx, s, hrep⟩ := hh.good
  have hv : ValidCall g (loopCall m) := by cases m <;> trivial
  rcases call_cases hg hidx hrep e hv with ⟨r1, es, w1, h1, h2, _, hd⟩ | ⟨es, w1, h1, h2, _, hd⟩
  · rw [hc] at h1
    cases h1
    rw [h2] at ht ⊢
    have hbytes : (ackRaw 0x62 i.toNat).bytes = idPacket 0x62 i.toNat := ackRaw_bytes _ _
    have hval : (ackRaw 0x62 i.toNat).Valid := by
      refine ⟨?_, by simp [ackRaw, be16, maxRemaining]⟩
      show ServerFirstByte (0x62 : UInt8).toNat
      unfold ServerFirstByte; decide
    rw [← hbytes] at ht
    obtain ⟨st, h3, ⟨h4, _⟩ | ⟨h4, ka, es1, w1, w2, rst, h5, h6, h7, h8, h9, h10, h11, hsub, h12⟩⟩ :=
      did_front (p := ackRaw 0x62 i.toNat) hd hval (by rw [ackRaw_length]; exact hfit) ht
    · exfalso
      have ht' : w.ctx.buffered ++ received es = (ackRaw 0x62 i.toNat).bytes ++ w'.ctx.buffered := ht
      rw [h4] at ht'
      have := congrArg List.length ht'
      rw [List.length_append (bs := _ ++ _), ackRaw_length] at this
      have he : (({ w with env := e } : World).ctx.buffered ++ received es).length = (w.ctx.buffered ++ received es).length := rfl
      omega
    · have hr : react ({ w with env := e } : World).ctx.retransmits m s (ackRaw 0x62 i.toNat).first (ackRaw 0x62 i.toNat).body =
          reactAck w.ctx.retransmits s 0x62 (be16 i.toNat) .pubrel i := by
        have : readIncoming (ackRaw 0x62 i.toNat).first (ackRaw 0x62 i.toNat).body = some (.ack .pubrel i) := by
          show readIncoming 0x62 (be16 i.toNat) = _
          rw [readIncoming_rel, (idOnly_be16_iff i.toNat_lt hi).mpr rfl]
          rfl
        unfold react
        rw [this]
        rfl
      have hst : callerStatus rst = rst := if_neg (reacted_ne h12)
      rw [hr] at h12
      exact ⟨s, wire ka, es1, w1, w2, rst, hrep, h6, h5, h7, by rw [h3, h8, hst], h9, h10, h11, h12⟩
  · rw [hc] at h1; cases h1

/-- **C86** While the exchange is open, a PUBREL is handed to the application and answered with PUBCOMP.  If PUBCOMP was sent, the exchange is over; if it could not be sent, the
exchange stays open, so that the PUBREL the server repeats will be answered. -/
theorem C86_answered {g : Cfg} {h : List (ApiCall × ApiRet)} {w w' : World} (hh : FromInit g h w) {e : Env} {m : Bool} {r : ApiRet} {i : UInt16} (hi : i ≠ 0)
    (hc : callIn g w e (loopCall m) = .done r w') (hfit : 4 ≤ w.ctx.bufSize)
    (ht : w.ctx.buffered ++ received (callEvents g w e (loopCall m)) = idPacket 0x62 i.toNat ++ w'.ctx.buffered) (ho : ExchangeOpen g i w) :
    callbacks (callEvents g w e (loopCall m)) = [.app 0x62 (be16 i.toNat) i .success none] ∧ ∃ ping, (ping = [] ∨ ping = pingreqPacket) ∧
      ((w.ctx.connectStatus = .connected ∧ r = .status .success ∧ wire (callEvents g w e (loopCall m)) = ping ++ idPacket 0x70 i.toNat ∧ ¬ ExchangeOpen g i w') ∨
       (w.ctx.connectStatus = .connected ∧ r = .status .sendFailed ∧ ExchangeOpen g i w' ∧
          ∃ part, wire (callEvents g w e (loopCall m)) = ping ++ part ∧ part <+: idPacket 0x70 i.toNat ∧ part ≠ idPacket 0x70 i.toNat) ∨
       (w.ctx.connectStatus ≠ .connected ∧ r = .status (notConnectedStatus w.ctx.connectStatus) ∧ wire (callEvents g w e (loopCall m)) = ping ∧ ExchangeOpen g i w')) := by
  have hv : ValidCall g (loopCall m) := by cases m <;> trivial
  obtain ⟨s, ping, es1, w1, w2, rst, hrep, hp, hw, hcb, rfl, hcs, _, ht2, hre⟩ := took_pubrel hh hi hc hfit ht
  have hph := (exchangeOpen_iff hi hh hrep).mp ho
  have hstep : (step s (.ack .receive .pubrel i)).1.1 = .success ∧ (step s (.ack .receive .pubrel i)).2.inc.phase i = some .sendPubcomp := by
    rcases hph with h | h <;>
      simp [step, hi, forOutgoing, ackTable, h, inAck, Effect.apply, phase_set]
  have hR : reactAck w.ctx.retransmits s 0x62 (be16 i.toNat) .pubrel i =
      ⟨.success, [.app 0x62 (be16 i.toNat) i .success none], some (.pubcomp, i), (step s (.ack .receive .pubrel i)).2, false⟩ := by
    simp only [reactAck]
    rw [if_pos hstep.1]
    rfl
  rw [hR] at hre
  have hh' := hh.snoc hv hc
  have stays : Represents w2.ctx.tables (step s (.ack .receive .pubrel i)).2 → ExchangeOpen g i w' := by
    intro h
    rw [← ht2] at h
    exact (exchangeOpen_iff hi hh' h).mpr (Or.inr hstep.2)
  refine ⟨by rw [hcb, hre.calls], ping, hp, ?_⟩
  rcases hre.cases with ⟨k1, _⟩ | ⟨_, k1, k2, _, k3, k4⟩ | ⟨_, k1, k2, k2', k3, k4, _⟩ | ⟨ty, id, k0, k1, k2, _, k3, k4⟩
  · cases k1
  · exact Or.inr (Or.inr ⟨by rw [← hcs]; exact k1, by rw [k3, hcs], by rw [hw, k2, List.append_nil], stays k4⟩)
  · exact Or.inr (Or.inl ⟨by rw [← hcs]; exact k1, by rw [k3], stays k4, wire es1, hw, k2, k2'⟩)
  · cases k0
    have hs2 : (step (step s (.ack .receive .pubrel i)).2 (.ack .send .pubcomp i)).1.1 = .success ∧
        (step (step s (.ack .receive .pubrel i)).2 (.ack .send .pubcomp i)).2.inc.phase i = none := by
      refine ⟨?_, (ackSend_inc (ty := .pubcomp) (id := i) hi).2.2.2 hstep.2⟩
      have := hstep.2
      generalize (step s (.ack .receive .pubrel i)).2 = q at this
      simp [step, hi, forOutgoing, ackTable, this, inAck]
    refine Or.inl ⟨by rw [← hcs]; exact k1, by rw [k3]; exact congrArg _ hs2.1, by rw [hw, k2]; rfl, fun h => ?_⟩
    rw [← ht2] at k4
    have := (exchangeOpen_iff hi hh' k4).mp h
    rw [OpenPhase, hs2.2] at this
    rcases this with h | h <;> cases h

/-- **C86** A PUBREL for an exchange that is not open is not answered: the application is not told, nothing but a keep-alive PINGREQ is sent, no record changes, and the call fails. -/
theorem C86_refused {g : Cfg} {h : List (ApiCall × ApiRet)} {w w' : World} (hh : FromInit g h w) {e : Env} {m : Bool} {r : ApiRet} {i : UInt16} (hi : i ≠ 0)
    (hc : callIn g w e (loopCall m) = .done r w') (hfit : 4 ≤ w.ctx.bufSize)
    (ht : w.ctx.buffered ++ received (callEvents g w e (loopCall m)) = idPacket 0x62 i.toNat ++ w'.ctx.buffered) (ho : ¬ ExchangeOpen g i w) :
    callbacks (callEvents g w e (loopCall m)) = [] ∧ (wire (callEvents g w e (loopCall m)) = [] ∨ wire (callEvents g w e (loopCall m)) = pingreqPacket) ∧
      inFlight w'.ctx.tables.incoming = inFlight w.ctx.tables.incoming ∧ inFlight w'.ctx.tables.outgoing = inFlight w.ctx.tables.outgoing ∧
      (r = .status .badResponse ∧ ¬ Receiving w.ctx.tables i ∨ r = .status .illegalState ∧ Receiving w.ctx.tables i) := by
  obtain ⟨s, ping, es1, w1, w2, rst, hrep, hp, hw, hcb, rfl, hcs, _, ht2, hre⟩ := took_pubrel hh hi hc hfit ht
  have hph : ¬ OpenPhase (s.inc.phase i) := fun h => ho ((exchangeOpen_iff hi hh hrep).mpr h)
  have hstep : (step s (.ack .receive .pubrel i)).1.1 = .badResponse ∧ s.inc.phase i = none ∨
      (step s (.ack .receive .pubrel i)).1.1 = .illegalState ∧ s.inc.phase i ≠ none := by
    unfold OpenPhase at hph
    cases hs : s.inc.phase i with
    | none => left; simp [step, hi, forOutgoing, ackTable, hs]
    | some x =>
      right
      rw [hs] at hph
      cases x <;> first | exact absurd (Or.inl rfl) hph | exact absurd (Or.inr rfl) hph | simp [step, hi, forOutgoing, ackTable, hs, inAck]
  have hR : reactAck w.ctx.retransmits s 0x62 (be16 i.toNat) .pubrel i = ⟨(step s (.ack .receive .pubrel i)).1.1, [], none, s, false⟩ := by
    simp only [reactAck]
    rw [if_neg (by rcases hstep with ⟨h, _⟩ | ⟨h, _⟩ <;> rw [h] <;> simp)]
  rw [hR] at hre
  rcases hre.cases with ⟨_, k2, _, k3, k4⟩ | ⟨k, _⟩ | ⟨k, _⟩ | ⟨ty, id, k, _⟩
  · have hrep' : Represents w'.ctx.tables s := by rw [ht2]; exact k4
    refine ⟨by rw [hcb, hre.calls], by rw [hw, k2, List.append_nil]; exact hp, hrep'.2.entries.trans hrep.2.entries.symm, hrep'.1.entries.trans hrep.1.entries.symm, ?_⟩
    rw [receiving_iff hrep, k3]
    rcases hstep with ⟨h1, h2⟩ | ⟨h1, h2⟩
    · exact Or.inl ⟨congrArg _ h1, fun h => h h2⟩
    · exact Or.inr ⟨congrArg _ h1, h2⟩
  · exact absurd rfl k
  · exact absurd rfl k
  · cases k

theorem idle_after {g : Cfg} {h0 : List (ApiCall × ApiRet)} {w : World} (hh : FromInit g h0 w) {i : UInt16} (hi : i ≠ 0) {s : InFlight} (hrep : Represents w.ctx.tables s)
    (hn : s.inc.phase i = none) {h : List (ApiCall × ApiRet)} {w' : World} (hr : Hist g w h w') :
    ∃ es, w'.trace = w.trace ++ es ∧ (presented i es = [] → ∃ s', Represents w'.ctx.tables s' ∧ s'.inc.phase i = none) := by
  induction hr with
  | start => exact ⟨[], by simp, fun _ => ⟨s, hrep, hn⟩⟩
  | @call w1 w2 h e c r hr hv hc ih =>
    obtain ⟨es, h1, h2⟩ := ih
    obtain ⟨hg, hidx, s1, hs1⟩ := (hh.append hr).good
    obtain ⟨s2, k1, k2⟩ := call_inStep hg hidx hs1 hv hc hi
    have htr : w2.trace = w1.trace ++ callEvents g w1 e c := by
      rcases call_cases hg hidx hs1 e hv with ⟨r1, es1, w3, e1, e2, e3, _⟩ | ⟨es1, w3, e1, _⟩
      · rw [hc] at e1; cases e1
        rw [e2]; exact e3.trace
      · rw [hc] at e1; cases e1
    refine ⟨es ++ callEvents g w1 e c, by rw [htr, h1, List.append_assoc], fun hp => ?_⟩
    rw [presented_append, List.append_eq_nil_iff] at hp
    obtain ⟨s', e1, e2⟩ := h2 hp.1
    rw [represents_unique e1 hs1] at e2
    exact ⟨s2, k1, k2.idle e2 hp.2⟩

/-- **C86** Once a call that was given a PUBREL has succeeded (that is: PUBCOMP was sent), no repetition of this PUBREL is answered, on whatever connection, until the application has
been given another message with this packet id: each is reported as MQTTBadResponse.  (If PUBCOMP was lost with its connection, the server repeats PUBREL in vain.) -/
theorem C86_repeated {g : Cfg} {h : List (ApiCall × ApiRet)} {w w1 : World} (hh : FromInit g h w) {e : Env} {c : ApiCall} {i : UInt16} (hi : i ≠ 0) (hv : ValidCall g c)
    (hc : callIn g w e c = .done (.status .success) w1) (hrel : relPresented i (callEvents g w e c)) {h' : List (ApiCall × ApiRet)} {w2 w' : World} (hr : Hist g w1 h' w2)
    (hn : presented i w2.trace = presented i w1.trace) {e' : Env} {m : Bool} {r : ApiRet} (hc' : callIn g w2 e' (loopCall m) = .done r w') (hfit : 4 ≤ w2.ctx.bufSize)
    (ht : w2.ctx.buffered ++ received (callEvents g w2 e' (loopCall m)) = idPacket 0x62 i.toNat ++ w'.ctx.buffered) :
    r = .status .badResponse ∧ callbacks (callEvents g w2 e' (loopCall m)) = [] ∧
      (wire (callEvents g w2 e' (loopCall m)) = [] ∨ wire (callEvents g w2 e' (loopCall m)) = pingreqPacket) := by
  obtain ⟨hg, hidx, s, hrep⟩ := hh.good
  obtain ⟨s1, k1, k2⟩ := call_inStep hg hidx hrep hv hc hi
  have hh1 := hh.snoc hv hc
  obtain ⟨es, e1, e2⟩ := idle_after hh1 hi k1 (k2.ends rfl hrel) hr
  have hes : presented i es = [] := by
    rw [e1, presented_append] at hn
    exact List.append_right_eq_self.mp hn
  obtain ⟨s2, e3, e4⟩ := e2 hes
  have hh2 := hh1.append hr
  have hno : ¬ ExchangeOpen g i w2 := by
    rw [exchangeOpen_iff hi hh2 e3, OpenPhase, e4]
    rintro (h | h) <;> cases h
  obtain ⟨a1, a2, _, _, a3⟩ := C86_refused hh2 hi hc' hfit ht hno
  refine ⟨?_, a1, a2⟩
  rcases a3 with ⟨h, _⟩ | ⟨_, h⟩
  · exact h
  · exact absurd e4 ((receiving_iff e3 i).mp h)

/-! ### Examples -/

/-- A QoS 2 message with packet id 9 arrives, then its PUBREL. -/
def Ex.rel0 : Env := { Ex.env [0x34, 6, 0, 1, 97, 0, 9, 6] with recvs := [.deliver 100] }
def Ex.rel1 : World := (callIn Ex.g Ex.after Ex.rel0 .receiveLoop).world
def Ex.relEnv : Env := { Ex.env [0x62, 2, 0, 9] with recvs := [.deliver 100] }
/-- The PUBCOMP cannot be sent. -/
def Ex.relFail : Env := { Ex.relEnv with sends := [.fail] }
def Ex.rel2 : World := (callIn Ex.g Ex.rel1 Ex.relEnv .receiveLoop).world

theorem Ex.rel0_done : callIn Ex.g Ex.after Ex.rel0 (loopCall false) = .done (.status .success) Ex.rel1 := Ex.ret_done (by decide +kernel)
theorem Ex.rel1_done : callIn Ex.g Ex.rel1 Ex.relEnv (loopCall false) = .done (.status .success) Ex.rel2 := Ex.ret_done (by decide +kernel)

theorem Ex.rel1_open : ExchangeOpen Ex.g 9 Ex.rel1 := by
  refine .acknowledged Ex.after_fromInit Ex.rel0_done ?_
  unfold pubrecSent
  decide +kernel

theorem Ex.rel1_fromInit : FromInit Ex.g ((Ex.played Ex.session).1 ++ [(loopCall false, .status .success)]) Ex.rel1 := Ex.after_fromInit.snoc (c := loopCall false) trivial Ex.rel0_done

/-- Non-vacuity of C86_answered: with the PUBCOMP sent and not sent. -/
example : (4 ≤ Ex.rel1.ctx.bufSize ∧
    Ex.rel1.ctx.buffered ++ received (callEvents Ex.g Ex.rel1 Ex.relEnv (loopCall false)) = idPacket 0x62 (9 : UInt16).toNat ++ Ex.rel2.ctx.buffered) ∧
    ¬ ExchangeOpen Ex.g 9 Ex.rel2 := by
  have h : 4 ≤ Ex.rel1.ctx.bufSize ∧
    Ex.rel1.ctx.buffered ++ received (callEvents Ex.g Ex.rel1 Ex.relEnv (loopCall false)) = idPacket 0x62 (9 : UInt16).toNat ++ Ex.rel2.ctx.buffered := by decide +kernel
  refine ⟨h, ?_⟩
  obtain ⟨_, _, _, ⟨_, _, _, h⟩ | ⟨_, h, _⟩ | ⟨_, h, _⟩⟩ := C86_answered Ex.rel1_fromInit (by decide) Ex.rel1_done h.1 h.2 Ex.rel1_open
  · exact h
  · cases h
  · unfold notConnectedStatus at h
    split at h <;> cases h

example : Ex.ret (callIn Ex.g Ex.rel1 Ex.relFail .receiveLoop) = some (.status .sendFailed) ∧
    Ex.rel1.ctx.buffered ++ received (callEvents Ex.g Ex.rel1 Ex.relFail (loopCall false)) =
      idPacket 0x62 (9 : UInt16).toNat ++ (callIn Ex.g Ex.rel1 Ex.relFail .receiveLoop).world.ctx.buffered := by
  decide +kernel

/-- Non-vacuity of C86_repeated (and of C86_refused): the connection ends, the session is resumed, PUBREL is repeated. -/
def Ex.relAgain : List (Env × ApiCall) := [(Ex.env [], .disconnect), ({ Ex.env [0x20, 2, 1, 0] with retrieves := [some [1, 2, 3, 4]] }, Ex.connectCall)]
def Ex.rel3 : World := ((Ex.play Ex.rel2 Ex.relAgain).getD ([], Ex.rel2)).2

example : ∃ h', Hist Ex.g Ex.rel2 h' Ex.rel3 ∧ relPresented 9 (callEvents Ex.g Ex.rel1 Ex.relEnv (loopCall false)) ∧ Ex.rel3.ctx.connectStatus = .connected ∧
    presented 9 Ex.rel3.trace = presented 9 Ex.rel2.trace ∧ 4 ≤ Ex.rel3.ctx.bufSize ∧
    Ex.ret (callIn Ex.g Ex.rel3 Ex.relEnv (loopCall false)) = some (.status .badResponse) ∧
    Ex.rel3.ctx.buffered ++ received (callEvents Ex.g Ex.rel3 Ex.relEnv (loopCall false)) =
      idPacket 0x62 (9 : UInt16).toNat ++ (callIn Ex.g Ex.rel3 Ex.relEnv (loopCall false)).world.ctx.buffered := by
  have hp : (Ex.play Ex.rel2 Ex.relAgain).isSome = true := by decide +kernel
  obtain ⟨⟨h, w'⟩, he⟩ := Option.isSome_iff_exists.mp hp
  refine ⟨h, ?_, ⟨[0, 9], .success, by decide +kernel⟩, by decide +kernel⟩
  have : Ex.rel3 = w' := by unfold Ex.rel3; rw [he]; rfl
  rw [this]
  refine Ex.play_hist ?_ he
  intro x hx
  rcases List.mem_cons.mp hx with rfl | hx
  · trivial
  · cases List.mem_singleton.mp hx
    exact Ex.connectValid

end Mqtt
