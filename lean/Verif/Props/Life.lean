/-
The life of an outgoing publish, from `MQTT_Publish` to its last acknowledgement: C51 and C52.

`Published g h w i q es` (Spec/Life): the history contains an `MQTT_Publish` with packet id `i` and QoS `q` that reported success and whose whole packet
went out; since then `es` happened, no new session was started and the publish was not cancelled.  `acksOf i es`: the PUBACK (0x40), PUBREC (0x50) and
PUBCOMP (0x70) for `i` with which the application was presented in `es`, in order.
-/
import Verif.Proof.CallStage
import Verif.Props.Delivery
import Verif.Props.Send

namespace Mqtt
open Spec
set_option linter.unusedSimpArgs false

/-! ### C52 -/

theorem Spec.Published.more {g : Cfg} {h : List (ApiCall × ApiRet)} {w w' : World} {i : UInt16} {q : QoS} {es es' : List Event} {e : Env} {c : ApiCall} {r : ApiRet}
    (hp : Published g h w i q es) (hv : ValidCall g c) (hc : callIn g w e c = .done r w') (ht : w'.trace = w.trace ++ es')
    (hn : ¬ (c = .cancelCallback i ∧ r = .status .success ∨ r = .connect .success (some false))) : Published g (h ++ [(c, r)]) w' i q (es ++ es') := by
  obtain ⟨h1, h2, p, w0, w1, e0, k1, k2, k3, hv0, k4, k5, k6, k7, k8, k9⟩ := hp
  refine ⟨h1, h2 ++ [(c, r)], p, w0, w1, e0, k1, by rw [k2]; simp, k3, hv0, k4, k5, .call k6 hv hc, by rw [ht, k7, List.append_assoc], ?_, ?_⟩
  · intro x hx
    rcases List.mem_append.mp hx with hx | hx
    · exact k8 x hx
    · cases List.mem_singleton.mp hx
      exact fun hf => hn (Or.inr hf)
  · intro hx
    rcases List.mem_append.mp hx with hx | hx
    · exact k9 hx
    · injection List.mem_singleton.mp hx with a b
      exact hn (Or.inl ⟨a.symm, b.symm⟩)

/-- What is known about the publish with packet id `i` from the state kept for it. -/
def Credited (g : Cfg) (h : List (ApiCall × ApiRet)) (w : World) (i : UInt16) : Option OutPhase → Prop
  | some .awaitPuback => ∃ es, Published g h w i .qos1 es ∧ acksOf i es = []
  | some .awaitPubrec => ∃ es, Published g h w i .qos2 es ∧ acksOf i es = []
  | some .sendPubrel => ∃ es, Published g h w i .qos2 es ∧ acksOf i es = [0x50]
  | some .awaitPubcomp => ∃ es, Published g h w i .qos2 es ∧ acksOf i es = [0x50] ∧ PubrelSent i es
  | _ => True

theorem Spec.PubrelSent.left {i : UInt16} {a b : List Event} (h : PubrelSent i a) : PubrelSent i (a ++ b) := by
  unfold PubrelSent at *
  rw [wire_append]
  exact infix_right _ h

theorem Spec.PubrelSent.right {i : UInt16} {a b : List Event} (h : PubrelSent i b) : PubrelSent i (a ++ b) := by
  unfold PubrelSent at *
  rw [wire_append]
  exact infix_left _ h

theorem credited {g : Cfg} {h : List (ApiCall × ApiRet)} {w : World} (hh : FromInit g h w) (i : UInt16) :
    ∃ s, Represents w.ctx.tables s ∧ Credited g h w i (s.out.phase i) := by
  obtain ⟨hg, w0, hi, ht, hs⟩ := hh
  induction hs with
  | start =>
    obtain ⟨oc, ic, _, _, h3⟩ := hi.inv
    exact ⟨⟨oc, ic, [], []⟩, by rw [h3]; exact represents_fresh oc ic, trivial⟩
  | @call w1 w2 h e c r hs hv hc ih =>
    obtain ⟨s, hrep, hcr⟩ := ih
    have hf : FromInit g h w1 := ⟨hg, w0, hi, ht, hs⟩
    obtain ⟨es, hl, hd⟩ := callIn_done hg hv hf.good.2.1 hrep hc
    have htr : w2.trace = w1.trace ++ es := hl.trace
    obtain ⟨s', hrep', hm⟩ := Did.moves (w := { w1 with env := e }) hrep hd i
    refine ⟨s', hrep', ?_⟩
    by_cases hn : c = .cancelCallback i ∧ r = .status .success ∨ r = .connect .success (some false)
    · rw [hd.drops hn hrep']; trivial
    have more : ∀ {q es0}, Published g h w1 i q es0 → Published g (h ++ [(c, r)]) w2 i q (es0 ++ es) := fun hp => hp.more hv hc htr hn
    generalize s.out.phase i = a at hcr hm
    generalize s'.out.phase i = b at hm ⊢
    cases hm with
    | same ha =>
      match a, hcr with
      | none, _ => trivial
      | some .toSend1, _ => trivial
      | some .toSend2, _ => trivial
      | some .awaitPuback, ⟨es0, k1, k2⟩ => exact ⟨_, more k1, by rw [acksOf_append, k2, ha]; rfl⟩
      | some .awaitPubrec, ⟨es0, k1, k2⟩ => exact ⟨_, more k1, by rw [acksOf_append, k2, ha]; rfl⟩
      | some .sendPubrel, ⟨es0, k1, k2⟩ => exact ⟨_, more k1, by rw [acksOf_append, k2, ha]; rfl⟩
      | some .awaitPubcomp, ⟨es0, k1, k2, k3⟩ => exact ⟨_, more k1, by rw [acksOf_append, k2, ha]; rfl, k3.left⟩
    | reserved _ _ hb => rcases hb with rfl | rfl <;> trivial
    | @sent p _ b ha hcp hr hb _ =>
      subst hcp hr
      have hnew : ∀ q, p.qos = q → Published g (h ++ [(.publish (some p) i, .status .success)]) w2 i q [] := fun q hq =>
        ⟨h, [], p, w1, w2, e, hq, rfl, hf, hv, hc, (C27_sent_bytes_are_a_prefix hf e _ hv rfl).2.1 w2 hc, .start _, by simp, by simp, by simp⟩
      rcases hb with ⟨hq, rfl⟩ | ⟨hq, rfl⟩
      · exact ⟨[], hnew _ hq, rfl⟩
      · exact ⟨[], hnew _ hq, rfl⟩
    | pubrel ha hb hp =>
      rcases hb with rfl | rfl
      · obtain ⟨es0, k1, k2⟩ := hcr
        exact ⟨_, more k1, by rw [acksOf_append, k2, ha]; rfl, hp.right⟩
      · obtain ⟨es0, k1, k2, _⟩ := hcr
        exact ⟨_, more k1, by rw [acksOf_append, k2, ha]; rfl, hp.right⟩
    | dropped _ hx => exact absurd hx hn
    | puback _ => trivial
    | pubrec ha hb =>
      obtain ⟨es0, k1, k2⟩ := hcr
      rcases hb with rfl | ⟨rfl, hp⟩
      · exact ⟨_, more k1, by rw [acksOf_append, k2, ha]; rfl⟩
      · exact ⟨_, more k1, by rw [acksOf_append, k2, ha]; rfl, hp.right⟩
    | pubcomp _ => trivial

/-- **C52** Whenever the application is presented with a PUBACK, PUBREC or PUBCOMP, in any call after any history, it belongs to a publish made with this packet id
(the right QoS, `MQTT_Publish` reported success, the whole packet went out, not cancelled and no new session since then), and it comes in the
order of the protocol: a PUBACK or PUBREC is the first acknowledgement since the publish; before a PUBCOMP there was exactly the PUBREC, and a
whole PUBREL has been sent. -/
theorem C52_acknowledged {g : Cfg} {h : List (ApiCall × ApiRet)} {w : World} (hh : FromInit g h w) (e : Env) {c : ApiCall} (hv : ValidCall g c)
    {t : UInt8} {body : List UInt8} {id : UInt16} {r : Status} (ht : t = 0x40 ∨ t = 0x50 ∨ t = 0x70)
    (hin : Event.app t body id r none ∈ callEvents g w e c) :
    ∃ es, Published g h w id (if t = 0x40 then .qos1 else .qos2) es ∧ acksOf id es = (if t = 0x70 then [0x50] else []) ∧ (t = 0x70 → PubrelSent id es) := by
  obtain ⟨hg, hidx, s0, hrep0⟩ := hh.good
  obtain ⟨s, hrep, hcr⟩ := credited hh id
  have hdue : Due t (s.out.phase id) := by
    rcases call_cases hg hidx hrep e hv with ⟨r, es, w1, h1, h2, _, hd⟩ | ⟨es, w1, h1, h2, hl, hd⟩
    · rw [h2] at hin
      obtain ⟨s', _, hm⟩ := Did.moves (w := { w with env := e }) hrep hd id
      exact hm.due (acksOf_mem ht hin)
    · rw [h2] at hin
      exact hd.due hl (acksOf_mem ht hin)
  rcases hdue with ⟨rfl, hp⟩ | ⟨rfl, hp⟩ | ⟨rfl, hp⟩ <;> rw [hp] at hcr
  · obtain ⟨es, k1, k2⟩ := hcr
    exact ⟨es, k1, k2, fun h => absurd h (by decide)⟩
  · obtain ⟨es, k1, k2⟩ := hcr
    exact ⟨es, k1, k2, fun h => absurd h (by decide)⟩
  · obtain ⟨es, k1, k2, k3⟩ := hcr
    exact ⟨es, k1, k2, fun _ => k3⟩

/-- **C52** One call presents at most one acknowledgement for a packet id. -/
theorem C52_one {g : Cfg} {h : List (ApiCall × ApiRet)} {w : World} (hh : FromInit g h w) (e : Env) {c : ApiCall} (hv : ValidCall g c) (id : UInt16) :
    (acksOf id (callEvents g w e c)).length ≤ 1 := by
  obtain ⟨hg, hidx, s, hrep⟩ := hh.good
  rcases call_cases hg hidx hrep e hv with ⟨r, es, w1, h1, h2, _, hd⟩ | ⟨es, w1, h1, h2, hl, hd⟩
  · rw [h2]
    obtain ⟨s', _, hm⟩ := Did.moves (w := { w with env := e }) hrep hd id
    generalize s.out.phase id = a at hm
    generalize s'.out.phase id = b at hm
    cases hm <;> simp_all
  · rw [h2]
    obtain ⟨es', b, h3, h4⟩ := hd.heard hl id
    have := h3.length_le
    generalize s.out.phase id = a at h4
    cases h4 <;> simp_all

/-! ### C51

The property (a publish that was handed to the transport completely, by `MQTT_Publish` or when a session is resumed, can be completed: the acknowledgements
the server owes are accepted when they arrive) does not hold, see `C51_refused`.  What holds is stated for publishes that `MQTT_Publish` sent
successfully: the history since then is arbitrary, with any errors, reconnections and resumptions of the session. -/

/-- **C51** (part) The PUBACK (QoS 1) or PUBREC (QoS 2) for a publish that was made and not acknowledged yet is presented by the call that takes it from the
stream, and the stored copy is cleared.  Missing: publishes whose first transmission failed and that were sent when the session was resumed. -/
theorem C51_acknowledgement_partial {g : Cfg} {h : List (ApiCall × ApiRet)} {w w' : World} (hh : FromInit g h w) {i : UInt16} {q : QoS} {es : List Event}
    (hq : q ≠ .qos0) (hp : Published g h w i q es) (hn : acksOf i es = []) (e : Env) (m : Bool) {r : ApiRet}
    (hc : callIn g w e (loopCall m) = .done r w') (hsz : 4 ≤ w.ctx.bufSize)
    (hb : w.ctx.buffered ++ received (callEvents g w e (loopCall m)) = idPacket (if q = .qos1 then 0x40 else 0x50) i.toNat ++ w'.ctx.buffered) :
    callbacks (callEvents g w e (loopCall m)) =
      (if w.ctx.retransmits then [.clear i] else []) ++ [.app (if q = .qos1 then 0x40 else 0x50) (be16 i.toNat) i .success none] := by
  obtain ⟨s, hrep, ht⟩ := hp.stage hq
  by_cases hq1 : q = .qos1
  · rw [if_pos hq1] at ht hb ⊢
    rw [accepts hh e m hc hrep (t := 0x40) (Or.inl ⟨rfl, ht hn⟩) hsz hb]
    simp
  · rw [if_neg hq1] at ht hb ⊢
    rw [accepts hh e m hc hrep (t := 0x50) (Or.inr (Or.inl ⟨rfl, ht.1 hn⟩)) hsz hb]
    simp

/-- **C51**, exactly: a PUBACK (QoS 1) or PUBREC (QoS 2) that a call takes from the stream is presented if and only if it is the first acknowledgement of a publish with this id
and QoS for which `MQTT_Publish` reported success.  So the refused ones are those of publishes that were sent only when a session was resumed, besides those the server
does not owe. -/
theorem C51_exact {g : Cfg} {h : List (ApiCall × ApiRet)} {w w' : World} (hh : FromInit g h w) {i : UInt16} {q : QoS} (hq : q ≠ .qos0) (e : Env) (m : Bool) {r : ApiRet}
    (hc : callIn g w e (loopCall m) = .done r w') (hsz : 4 ≤ w.ctx.bufSize)
    (hb : w.ctx.buffered ++ received (callEvents g w e (loopCall m)) = idPacket (if q = .qos1 then 0x40 else 0x50) i.toNat ++ w'.ctx.buffered) :
    (∃ body st, Event.app (if q = .qos1 then 0x40 else 0x50) body i st none ∈ callEvents g w e (loopCall m)) ↔
    ∃ es, Published g h w i q es ∧ acksOf i es = [] := by
  constructor
  · rintro ⟨body, st, hin⟩
    obtain ⟨es, h1, h2, _⟩ := C52_acknowledged hh e (c := loopCall m) (by cases m <;> trivial) (by split <;> simp) hin
    cases q with
    | qos0 => exact absurd rfl hq
    | qos1 => exact ⟨es, h1, h2⟩
    | qos2 => exact ⟨es, h1, h2⟩
  · rintro ⟨es, h1, h2⟩
    have := C51_acknowledgement_partial hh hq h1 h2 e m hc hsz hb
    refine ⟨be16 i.toNat, .success, (List.mem_filter (p := isCallback).mp ?_).1⟩
    show _ ∈ callbacks _
    rw [this]
    simp

/-- **C51** (part) The PUBCOMP is presented when it arrives any time after the PUBREC was presented by a call that reported success. -/
theorem C51_pubcomp_partial {g : Cfg} {h h' : List (ApiCall × ApiRet)} {w w1 w2 w' : World} (hh : FromInit g h w) (e1 : Env) (m1 : Bool) {i : UInt16}
    {body : List UInt8} {st : Status} (hc1 : callIn g w e1 (loopCall m1) = .done (.status .success) w1)
    (hrec : Event.app 0x50 body i st none ∈ callEvents g w e1 (loopCall m1)) (hs : Hist g w1 h' w2)
    (hr : ∀ x ∈ h', x.2 ≠ .connect .success (some false)) (hcan : (ApiCall.cancelCallback i, ApiRet.status .success) ∉ h') {es : List Event}
    (hes : w2.trace = w1.trace ++ es) (hn : acksOf i es = []) (e : Env) (m : Bool) {r : ApiRet}
    (hc : callIn g w2 e (loopCall m) = .done r w') (hsz : 4 ≤ w2.ctx.bufSize)
    (hb : w2.ctx.buffered ++ received (callEvents g w2 e (loopCall m)) = idPacket 0x70 i.toNat ++ w'.ctx.buffered) :
    callbacks (callEvents g w2 e (loopCall m)) = [.app 0x70 (be16 i.toNat) i .success none] := by
  obtain ⟨hg, hidx, s, hrep⟩ := hh.good
  have hv : ValidCall g (loopCall m1) := by cases m1 <;> trivial
  have hf1 : FromInit g (h ++ [(loopCall m1, .status .success)]) w1 := hh.append (.call (.start _) hv hc1)
  have hf2 : FromInit g _ w2 := hf1.append hs
  obtain ⟨_, _, hi⟩ := hf1.inv
  rcases call_cases hg hidx hrep e1 hv with ⟨r1, es1, w3, k1, k2, _, hd⟩ | ⟨es1, w3, k1, _⟩
  · rw [hc1] at k1
    cases k1
    rw [k2] at hrec
    obtain ⟨s', hrep', ht⟩ := Hist.track (R := Track3) hg hs hi hr hcan (fun _ _ _ _ _ _ => track3_step)
      (fun s1 h1 _ => hd.pubrelSent (acksOf_mem (by simp) hrec) h1) hes
    rw [accepts hf2 e m hc hrep' (t := 0x70) (Or.inr (Or.inr ⟨rfl, ht hn⟩)) hsz hb]
    rfl
  · rw [hc1] at k1; cases k1

/-- **C51** (part) If the PUBREL could not be sent (or its fate is unknown), it is sent when the session is resumed, and then the PUBCOMP is presented. -/
theorem C51_pubcomp_resumed_partial {g : Cfg} {h h' : List (ApiCall × ApiRet)} {w w1 w2 w' : World} (hh : FromInit g h w) {i : UInt16} {es0 : List Event}
    (hp : Published g h w i .qos2 es0) (hrec : acksOf i es0 = [0x50]) (e1 : Env) {c : ApiCall} (hv : ValidCall g c)
    (hc1 : callIn g w e1 c = .done (.connect .success (some true)) w1) (hs : Hist g w1 h' w2)
    (hr : ∀ x ∈ h', x.2 ≠ .connect .success (some false)) (hcan : (ApiCall.cancelCallback i, ApiRet.status .success) ∉ h') {es : List Event}
    (hes : w2.trace = w1.trace ++ es) (hn : acksOf i es = []) (e : Env) (m : Bool) {r : ApiRet}
    (hc : callIn g w2 e (loopCall m) = .done r w') (hsz : 4 ≤ w2.ctx.bufSize)
    (hb : w2.ctx.buffered ++ received (callEvents g w2 e (loopCall m)) = idPacket 0x70 i.toNat ++ w'.ctx.buffered) :
    callbacks (callEvents g w2 e (loopCall m)) = [.app 0x70 (be16 i.toNat) i .success none] := by
  obtain ⟨hg, hidx, _, _⟩ := hh.good
  obtain ⟨s, hrep, ht⟩ := hp.stage (by simp)
  rw [if_neg (by simp)] at ht
  have hf1 : FromInit g (h ++ [(c, .connect .success (some true))]) w1 := hh.append (.call (.start _) hv hc1)
  have hf2 : FromInit g _ w2 := hf1.append hs
  obtain ⟨_, _, hi⟩ := hf1.inv
  obtain ⟨es1, hl, hd⟩ := callIn_done hg hv hidx hrep hc1
  obtain ⟨s', hrep', ht'⟩ := Hist.track (R := Track3) hg hs hi hr hcan (fun _ _ _ _ _ _ => track3_step)
    (fun s1 h1 _ => Did.resumed (w := { w with env := e1 }) hrep hd (ht.2 hrec) h1) hes
  rw [accepts hf2 e m hc hrep' (t := 0x70) (Or.inr (Or.inr ⟨rfl, ht' hn⟩)) hsz hb]
  rfl

/-! ### Examples and the witness -/

/-- A session that exists; a QoS 1 publish with id 8 whose transmission fails; disconnect; the session is resumed, and the whole stored packet is sent. -/
def Ex.failedFirst : List (Env × ApiCall) :=
  [(Ex.env [0x20, 2, 1, 0], Ex.connectCall), ({ Ex.env [] with sends := [.fail] }, Ex.publishCall .qos1 8), (Ex.env [], .disconnect),
   ({ Ex.env [0x20, 2, 1, 0] with retrieves := [some (publishPacket ((Ex.pub .qos1).toSpec 8))] }, Ex.connectCall)]

theorem Ex.failedFirstValid : ∀ x ∈ Ex.failedFirst, ValidCall Ex.g x.2 := by
  intro x hx
  simp only [Ex.failedFirst, List.mem_cons, List.not_mem_nil, or_false] at hx
  rcases hx with rfl | rfl | rfl | rfl
  · exact Ex.connectValid
  · exact Ex.publishValid _ _
  · trivial
  · exact Ex.connectValid

def Ex.resent : World := (Ex.played Ex.failedFirst).2

/-- **C51** does not hold for a publish whose first transmission failed: when the session is resumed its whole packet is sent, but the PUBACK that the server
sends for it is then refused with MQTTIllegalState, the application is not told, and the publish stays in flight. -/
theorem C51_refused :
    FromInit Ex.g (Ex.played Ex.failedFirst).1 Ex.resent ∧
    (Ex.played Ex.failedFirst).1.map (·.2) = [.connect .success (some true), .status .sendFailed, .status .success, .connect .success (some true)] ∧
    publishPacket ((Ex.pub .qos1).toSpec 8) <:+ wire Ex.resent.trace ∧
    (let e := { Ex.env (idPacket 0x40 8) with recvs := [.deliver 4] }
     Ex.ret (callIn Ex.g Ex.resent e .processLoop) = some (.status .illegalState) ∧
     received (callEvents Ex.g Ex.resent e .processLoop) = idPacket 0x40 8 ∧
     callbacks (callEvents Ex.g Ex.resent e .processLoop) = [] ∧
     (Ex.play Ex.resent [(e, .processLoop)]).map (fun x => inFlight x.2.ctx.tables.outgoing) = some [⟨8, .qos1, .publishSend⟩]) :=
  ⟨Ex.played_fromInit Ex.failedFirstValid (by decide +kernel), by decide +kernel, by decide +kernel, by decide +kernel⟩

/-- A publish of a played session. -/
theorem Ex.published {a b : List (Env × ApiCall)} {e : Env} {q : QoS} {id : UInt16} {h1 h2 : List (ApiCall × ApiRet)} {w0 w1 w : World} {es : List Event}
    (hva : ∀ x ∈ a, ValidCall Ex.g x.2) (hvb : ∀ x ∈ b, ValidCall Ex.g x.2) (ha : Ex.play Ex.w0 a = some (h1, w0))
    (hc : callIn Ex.g w0 e (Ex.publishCall q id) = .done (.status .success) w1) (hb : Ex.play w1 b = some (h2, w)) (hes : w.trace = w1.trace ++ es)
    (hr : ∀ x ∈ h2, x.2 ≠ .connect .success (some false)) (hcan : (ApiCall.cancelCallback id, ApiRet.status .success) ∉ h2) :
    Published Ex.g (h1 ++ (Ex.publishCall q id, .status .success) :: h2) w id q es := by
  have hf : FromInit Ex.g h1 w0 := ⟨Ex.gOk, Ex.w0, Ex.ctxInit true, rfl, Ex.play_hist hva ha⟩
  exact ⟨h1, h2, Ex.pub q, w0, w1, e, rfl, rfl, hf, Ex.publishValid q id, hc,
    (C27_sent_bytes_are_a_prefix hf e _ (Ex.publishValid q id) rfl).2.1 w1 hc, Ex.play_hist hvb hb, hes, hr, hcan⟩

theorem Spec.Published.fromInit {g : Cfg} {h : List (ApiCall × ApiRet)} {w : World} {i : UInt16} {q : QoS} {es : List Event} (hp : Published g h w i q es) :
    FromInit g h w := by
  obtain ⟨h1, h2, p, w0, w1, e0, _, rfl, k3, hv, k4, _, k6, _⟩ := hp
  have := (k3.append (.call (.start _) hv k4)).append k6
  simpa using this

/-- No call of `MQTT_CancelCallback`. -/
def Ex.noCancel (h : List (ApiCall × ApiRet)) : Bool := h.all fun x => match x.1 with | .cancelCallback _ => false | _ => true

theorem Ex.noCancel_mem {h : List (ApiCall × ApiRet)} (hn : Ex.noCancel h = true) (id : UInt16) : (ApiCall.cancelCallback id, ApiRet.status .success) ∉ h := by
  intro hm
  have := List.all_eq_true.mp hn _ hm
  cases this

/-- The world in which a played session ends. -/
def Ex.endOf (w : World) (steps : List (Env × ApiCall)) : World := ((Ex.play w steps).map (·.2)).getD w
def Ex.histOf (w : World) (steps : List (Env × ApiCall)) : List (ApiCall × ApiRet) := ((Ex.play w steps).map (·.1)).getD []

theorem Ex.play_eq {w : World} {steps : List (Env × ApiCall)} (h : (Ex.play w steps).isSome = true) :
    Ex.play w steps = some (Ex.histOf w steps, Ex.endOf w steps) := by
  obtain ⟨x, hx⟩ := Option.isSome_iff_exists.mp h
  rw [Ex.histOf, Ex.endOf, hx]
  rfl

def Ex.opening : List (Env × ApiCall) := [(Ex.env [0x20, 2, 1, 0], Ex.connectCall)]
/-- Disconnect and resume; the stored packet of publish 8 is sent again. -/
def Ex.reopening : List (Env × ApiCall) :=
  [(Ex.env [], .disconnect), ({ Ex.env [0x20, 2, 1, 0] with retrieves := [some (publishPacket ((Ex.pub .qos1).toSpec 8))] }, Ex.connectCall)]
/-- The PUBREC for publish 7 arrives, but the PUBREL cannot be sent. -/
def Ex.noPubrel : List (Env × ApiCall) := [({ Ex.env (idPacket 0x50 7) with recvs := [.deliver 4], sends := [.fail] }, .processLoop)]

theorem Ex.openingValid : ∀ x ∈ Ex.opening, ValidCall Ex.g x.2 := by
  intro x hx; cases List.mem_singleton.mp hx; exact Ex.connectValid

theorem Ex.reopeningValid : ∀ x ∈ Ex.reopening, ValidCall Ex.g x.2 := by
  intro x hx
  simp only [Ex.reopening, List.mem_cons, List.not_mem_nil, or_false] at hx
  rcases hx with rfl | rfl
  · trivial
  · exact Ex.connectValid

/-- The world after the publish. -/
def Ex.made (q : QoS) (id : UInt16) : World := Ex.endOf (Ex.endOf Ex.w0 Ex.opening) [(Ex.env [], Ex.publishCall q id)]

theorem Ex.published8 : ∃ h, Published Ex.g h (Ex.endOf (Ex.made .qos1 8) Ex.reopening) 8 .qos1
    ((Ex.endOf (Ex.made .qos1 8) Ex.reopening).trace.drop (Ex.made .qos1 8).trace.length) :=
  ⟨_, Ex.published (e := Ex.env []) (q := .qos1) (id := 8) (w1 := Ex.made .qos1 8) Ex.openingValid Ex.reopeningValid (Ex.play_eq (by decide +kernel))
    (by decide +kernel) (Ex.play_eq (by decide +kernel)) (by decide +kernel) (by decide +kernel) (Ex.noCancel_mem (by decide +kernel) _)⟩

/-- Non-vacuity of `C51_acknowledgement_partial` and `C52_acknowledged`: a publish with QoS 1, then a resumed session, then the PUBACK. -/
example : let w := Ex.endOf (Ex.made .qos1 8) Ex.reopening
    let es := w.trace.drop (Ex.made .qos1 8).trace.length
    let e := { Ex.env (idPacket 0x40 8) with recvs := [.deliver 4] }
    (∃ h, FromInit Ex.g h w ∧ Published Ex.g h w 8 .qos1 es) ∧ acksOf 8 es = [] ∧ w.ctx.connectStatus = .connected ∧
    Ex.ret (callIn Ex.g w e .processLoop) = some (.status .success) ∧
    w.ctx.buffered ++ received (callEvents Ex.g w e .processLoop) = idPacket 0x40 8 ∧ (Ex.endOf w [(e, .processLoop)]).ctx.buffered = [] ∧
    callbacks (callEvents Ex.g w e .processLoop) = [.clear 8, .app 0x40 [0, 8] 8 .success none] := by
  obtain ⟨h, hp⟩ := Ex.published8
  exact ⟨⟨h, hp.fromInit, hp⟩, by decide +kernel⟩

/-- The PUBREC of publish 7 was presented, the PUBREL could not be sent, the client has disconnected. -/
def Ex.recorded : List (Env × ApiCall) := Ex.noPubrel ++ [(Ex.env [], .disconnect)]

theorem Ex.recordedValid : ∀ x ∈ Ex.recorded, ValidCall Ex.g x.2 := by
  intro x hx
  simp only [Ex.recorded, Ex.noPubrel, List.cons_append, List.nil_append, List.mem_cons, List.not_mem_nil, or_false] at hx
  rcases hx with rfl | rfl <;> trivial

theorem Ex.published7 : ∃ h, Published Ex.g h (Ex.endOf (Ex.made .qos2 7) Ex.recorded) 7 .qos2
    ((Ex.endOf (Ex.made .qos2 7) Ex.recorded).trace.drop (Ex.made .qos2 7).trace.length) :=
  ⟨_, Ex.published (e := Ex.env []) (q := .qos2) (id := 7) (w1 := Ex.made .qos2 7) Ex.openingValid Ex.recordedValid (Ex.play_eq (by decide +kernel))
    (by decide +kernel) (Ex.play_eq (by decide +kernel)) (by decide +kernel) (by decide +kernel) (Ex.noCancel_mem (by decide +kernel) _)⟩

/-- Non-vacuity of `C51_pubcomp_resumed_partial`: before the session is resumed a PUBCOMP is refused, afterwards it is presented. -/
example : let w := Ex.endOf (Ex.made .qos2 7) Ex.recorded
    let es := w.trace.drop (Ex.made .qos2 7).trace.length
    let w1 := Ex.endOf w [(Ex.env [0x20, 2, 1, 0], Ex.connectCall)]
    let e := { Ex.env (idPacket 0x70 7) with recvs := [.deliver 4] }
    (∃ h, FromInit Ex.g h w ∧ Published Ex.g h w 7 .qos2 es) ∧ acksOf 7 es = [0x50] ∧
    callbacks (callEvents Ex.g w e .processLoop) = [] ∧
    Ex.ret (callIn Ex.g w (Ex.env [0x20, 2, 1, 0]) Ex.connectCall) = some (.connect .success (some true)) ∧
    Ex.ret (callIn Ex.g w1 e .processLoop) = some (.status .success) ∧
    w1.ctx.buffered ++ received (callEvents Ex.g w1 e .processLoop) = idPacket 0x70 7 ∧ (Ex.endOf w1 [(e, .processLoop)]).ctx.buffered = [] ∧
    callbacks (callEvents Ex.g w1 e .processLoop) = [.app 0x70 [0, 7] 7 .success none] := by
  obtain ⟨h, hp⟩ := Ex.published7
  exact ⟨⟨h, hp.fromInit, hp⟩, by decide +kernel⟩

/-- Non-vacuity of `C51_pubcomp_partial`: `MQTT_ProcessLoop` presents the PUBREC and reports success; then the PUBCOMP arrives. -/
example : let w := Ex.made .qos2 7
    let e1 := { Ex.env (idPacket 0x50 7) with recvs := [.deliver 4] }
    let w1 := Ex.endOf w [(e1, .processLoop)]
    let e := { Ex.env (idPacket 0x70 7) with recvs := [.deliver 4] }
    Ex.ret (callIn Ex.g w e1 .processLoop) = some (.status .success) ∧ Event.app 0x50 [0, 7] 7 .success none ∈ callEvents Ex.g w e1 .processLoop ∧
    w1.ctx.buffered ++ received (callEvents Ex.g w1 e .processLoop) = idPacket 0x70 7 ∧
    callbacks (callEvents Ex.g w1 e .processLoop) = [.app 0x70 [0, 7] 7 .success none] := by
  decide +kernel

end Mqtt
