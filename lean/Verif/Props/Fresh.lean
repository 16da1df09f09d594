/-
C76: connecting without a session is a fresh start.
-/
import Verif.Proof.Counter
import Verif.Proof.Anew
import Verif.Props.Alive

namespace Mqtt
open Spec

theorem lastTx_noClear : ∀ (es : List Event) (x : UInt32) (p : Bool), stampRun p es = some false → lastTx (x, p) (noClear es) = lastTx (x, p) es
  | [], x, p, _ => rfl
  | z :: es, x, p, hs => by
    cases p with
    | true =>
      cases z with
      | time t =>
        show lastTx (x, true) (.time t :: noClear es) = _
        exact lastTx_noClear es _ _ hs
      | _ => cases hs
    | false =>
      cases z with
      | clear i =>
        show lastTx (x, false) (noClear es) = lastTx (x, false) es
        exact lastTx_noClear es _ _ hs
      | sent bs r =>
        cases r with
        | none => exact lastTx_noClear es _ _ hs
        | some k =>
          show lastTx (x, false) (.sent bs (some k) :: noClear es) = _
          exact lastTx_noClear es _ _ hs
      | _ => exact lastTx_noClear es _ _ hs

theorem wire_noClear : ∀ es : List Event, wire (noClear es) = wire es
  | [] => rfl
  | z :: es => by
    have ih := wire_noClear es
    cases z with
    | clear i => exact ih
    | sent bs r =>
      show wire (.sent bs r :: noClear es) = _
      cases r <;> simp only [wire, List.flatMap_cons] at ih ⊢ <;> rw [ih]
    | _ =>
      simp only [wire, noClear, List.filter_cons, isClear, Bool.not_false, if_true, List.flatMap_cons] at ih ⊢
      rw [ih]

theorem fresh_start {g : Cfg} {h : List (ApiCall × ApiRet)} {w w1 w0 : World} (hh : FromInit g h w) (hn : w.ctx.connectStatus = .notConnected)
    (hi : Initialised w0.ctx) (hs : SameSetup w.ctx w0.ctx) (e : Env) (ci : ConnectInfo) (will : Option PublishInfo) (t : UInt32) (sp0 : Bool)
    {st : Status} (hc : callIn g w e (.connect (some ci) will t (some sp0)) = .done (.connect st (some false)) w1) :
    ∃ w1', callIn g w0 e (.connect (some ci) will t (some sp0)) = .done (.connect st (some false)) w1' ∧
      callEvents g w0 e (.connect (some ci) will t (some sp0)) = noClear (callEvents g w e (.connect (some ci) will t (some sp0))) ∧
      (st = .success → ci.Valid will →
        ∃ b, w1'.ctx = { w1.ctx with nextPacketId := w0.ctx.nextPacketId, lastPacketRxTime := w0.ctx.lastPacketRxTime, controlPacketSent := b } ∧
          w1.ctx.nextPacketId = w.ctx.nextPacketId ∧ w1.ctx.lastPacketRxTime = w.ctx.lastPacketRxTime) := by
  obtain ⟨_, _, s, hrep⟩ := hh.good
  obtain ⟨oc, ic, _, hn0, ht0⟩ := hi.inv
  let B : Anew.Base := ⟨w.ctx, w0.ctx, w.trace, w0.trace, hn, hn0, hs.buffer, hs.writev⟩
  have h0 : Anew.Cn B 0 { w with env := e } { w0 with env := e } :=
    ⟨rfl, ⟨[], rfl, (List.append_nil _).symm, (List.append_nil _).symm⟩, w.ctx.netBuf, w.ctx.lastPacketTxTime, w0.ctx.netBuf, w0.ctx.lastPacketTxTime,
      rfl, rfl, rfl, hs.buffer, fun i hi => by omega⟩
  have hc0 := hc
  simp only [callIn, apiCall] at hc
  obtain ⟨⟨st1, sp1⟩, v1, d1, hd⟩ := Anew.bind_done hc
  cases hd
  obtain ⟨w1', d1', hend⟩ := Anew.connect_same (B := B) hrep (by rw [show B.c'.tables = _ from ht0]; exact represents_fresh oc ic) rfl h0 d1
  obtain ⟨es, t1, t2⟩ := hend.trace
  have hc' : callIn g w0 e (.connect (some ci) will t (some sp0)) = .done (.connect st1 (some false)) w1' := by
    simp only [callIn, apiCall]
    rw [Anew.bind_eq d1']
    rfl
  have he : callEvents g w e (.connect (some ci) will t (some sp0)) = es := by
    unfold callEvents
    rw [hc0]
    simp [newEvents, Out.world, show w1.trace = w.trace ++ es from t1]
  have he' : callEvents g w0 e (.connect (some ci) will t (some sp0)) = noClear es := by
    unfold callEvents
    rw [hc']
    simp [newEvents, Out.world, show w1'.trace = w0.trace ++ noClear es from t2]
  refine ⟨w1', hc', by rw [he, he'], fun hst hv => ?_⟩
  subst hst
  obtain ⟨tx, tx', c1, c1'⟩ := hend.ok rfl
  have htx : tx' = tx := by
    obtain ⟨p1, p2, _⟩ := call_ping hc0
    obtain ⟨q1, q2, _⟩ := call_ping hc'
    obtain ⟨_, _, _, _, _, _, _, hpre, _⟩ := C41_success hh e _ will t _ _ (fun c h => by cases h; exact hv) hc0
    rw [he] at p1 p2 hpre
    rw [he'] at q1 q2
    have hwire : wire (noClear es) ≠ [] := by
      intro hw
      rw [wire_noClear] at hw
      rw [hw] at hpre
      exact absurd (List.prefix_nil.mp hpre) (by simp [connectPacket, packet])
    have k1 := lastTx_fresh _ w.ctx.lastPacketTxTime w0.ctx.lastPacketTxTime false q1 (Or.inr hwire)
    rw [q2, lastTx_noClear _ _ _ p1, p2, c1, c1'] at k1
    exact k1.symm
  subst htx
  refine ⟨w0.ctx.controlPacketSent, ?_, by rw [c1]; rfl, by rw [c1]; rfl⟩
  rw [c1, c1']
  simp only [Anew.linkedCtx, cleanedCtx, Ctx.bufSize, B, hs.buffer, hs.outgoing, hs.incoming, hs.writev, hs.retransmits]

/-- **C76** (attempts).  Take a client with any history that is not connected, and a freshly initialised one with the same setup.  An attempt to connect that
does not find a session goes the same way for both in the same environment: the same status, and the same events but for calls of the clear callback, which
only the old client can have reason to make. -/
theorem C76_attempt {g : Cfg} {h : List (ApiCall × ApiRet)} {w w1 w0 : World} (hh : FromInit g h w) (hn : w.ctx.connectStatus = .notConnected)
    (hi : Initialised w0.ctx) (hs : SameSetup w.ctx w0.ctx) (e : Env) (ci : ConnectInfo) (will : Option PublishInfo) (t : UInt32) (sp0 : Bool)
    {st : Status} (hc : callIn g w e (.connect (some ci) will t (some sp0)) = .done (.connect st (some false)) w1) :
    ∃ w1', callIn g w0 e (.connect (some ci) will t (some sp0)) = .done (.connect st (some false)) w1' ∧
      callEvents g w0 e (.connect (some ci) will t (some sp0)) = noClear (callEvents g w e (.connect (some ci) will t (some sp0))) ∧
      (st = .success → ci.Valid will → AsFresh w1.ctx w1'.ctx) := by
  obtain ⟨w1', h1, h2, h3⟩ := fresh_start hh hn hi hs e ci will t sp0 hc
  exact ⟨w1', h1, h2, fun a b => (h3 a b).elim fun c hc => ⟨_, _, c, hc.1⟩⟩

/-- What happened before, the next packet id and the time of the last reception matter as little as stated. -/
theorem repeat_history {g : Cfg} {k r : Bool} {w w1 : World} {h : List (ApiCall × ApiRet)} (hh : Hist g w h w1) {w' : World}
    (hw : Fresh.OtherCtx k r w.ctx w'.ctx) (hk : k = true ∨ ∀ x ∈ h, x.1 ≠ .getPacketId) (hr : r = true ∨ ∀ x ∈ h, x.1 ≠ .processLoop) :
    ∃ w1' es, Hist g w' h w1' ∧ Fresh.OtherCtx k r w1.ctx w1'.ctx ∧ w1.trace = w.trace ++ es ∧ w1'.trace = w'.trace ++ es := by
  induction hh with
  | start => exact ⟨w', [], .start _, hw, (List.append_nil _).symm, (List.append_nil _).symm⟩
  | @call v1 v2 h e c ret h1 hv hc ih =>
    obtain ⟨w1', es, h2, h3, h4, h5⟩ := ih (hk.imp id fun k x hx => k x (List.mem_append_left _ hx)) (hr.imp id fun k x hx => k x (List.mem_append_left _ hx))
    have hl : Fresh.Other w.trace w'.trace k r { v1 with env := e } { w1' with env := e } := ⟨h3, rfl, es, h4, h5⟩
    have hn : c = .getPacketId → k = true := fun hc => hk.elim id fun h => absurd hc (h (c, ret) (List.mem_append_right _ List.mem_cons_self))
    have hp : c = .processLoop → r = true := fun hc => hr.elim id fun h => absurd hc (h (c, ret) (List.mem_append_right _ List.mem_cons_self))
    have h6 := Fresh.sim_api g c hn hp _ _ hl
    rw [show apiCall g c { v1 with env := e } = .done ret v2 from hc] at h6
    cases h7 : apiCall g c { w1' with env := e } with
    | done r' w2' =>
      rw [h7] at h6
      obtain ⟨rfl, h8⟩ := h6
      obtain ⟨es', k1, k2⟩ := h8.trace
      exact ⟨w2', es', .call h2 hv h7, h8.ctx, k1, k2⟩
    | stuck w2' => rw [h7] at h6; exact h6.elim
    | ub x w2' => rw [h7] at h6; exact h6.elim

/-- **C76** (histories).  A client with any history connects and the server has no session.  From then on it behaves like a freshly initialised client with the same
setup that made the same connection: whatever the application does next, the fresh client can do with the same results, and the same
things happen.  The exceptions: `MQTT_GetPacketId` goes on where it was, so the ids agree only if they did before, and `MQTT_ProcessLoop` still remembers
when the old connection last received a packet. -/
theorem C76_history {g : Cfg} {h h2 : List (ApiCall × ApiRet)} {w w1 w2 w0 : World} (hh : FromInit g h w) (hi : Initialised w0.ctx)
    (hs : SameSetup w.ctx w0.ctx) (e : Env) (ci : ConnectInfo) (will : Option PublishInfo) (t : UInt32) (sp0 : Bool) (hv : ci.Valid will)
    (hc : callIn g w e (.connect (some ci) will t (some sp0)) = .done (.connect .success (some false)) w1) (hh2 : Hist g w1 h2 w2)
    (hid : w.ctx.nextPacketId = w0.ctx.nextPacketId ∨ ∀ x ∈ h2, x.1 ≠ .getPacketId)
    (hrx : w.ctx.lastPacketRxTime = w0.ctx.lastPacketRxTime ∨ ∀ x ∈ h2, x.1 ≠ .processLoop) :
    ∃ w1' w2' es, callIn g w0 e (.connect (some ci) will t (some sp0)) = .done (.connect .success (some false)) w1' ∧ Hist g w1' h2 w2' ∧
      w2.trace = w1.trace ++ es ∧ w2'.trace = w1'.trace ++ es ∧ AsFresh w2.ctx w2'.ctx := by
  obtain ⟨_, _, _, _, _, hn, _⟩ := C41_success hh e _ will t _ _ (fun c h => by cases h; exact hv) hc
  obtain ⟨w1', h1, _, h3⟩ := fresh_start hh hn hi hs e ci will t sp0 hc
  obtain ⟨b, k1, k2, k3⟩ := h3 rfl hv
  have ho : Fresh.OtherCtx (decide (w.ctx.nextPacketId = w0.ctx.nextPacketId)) (decide (w.ctx.lastPacketRxTime = w0.ctx.lastPacketRxTime)) w1.ctx w1'.ctx :=
    ⟨_, _, b, k1, fun h => by rw [k2]; exact (of_decide_eq_true h).symm, fun h => by rw [k3]; exact (of_decide_eq_true h).symm⟩
  obtain ⟨w2', es, j1, ⟨id, rx, b', j2, _⟩, j3, j4⟩ := repeat_history hh2 ho (hid.imp (by simp) id) (hrx.imp (by simp) id)
  exact ⟨w1', w2', es, h1, j1, j3, j4, id, rx, b', j2⟩

/-! ### Example -/

/-- The example session, a QoS 1 publish that stays unacknowledged, a QoS 0 message received after 25 seconds, then the application disconnects. -/
def Ex.oldSteps : List (Env × ApiCall) :=
  Ex.session ++ [(Ex.env [], Ex.publishCall .qos1 8), (Ex.env [], .getPacketId), ({ Ex.envAt 25000 [0x30, 4, 0, 1, 97, 98] with recvs := [.deliver 6] }, .processLoop),
    (Ex.env [], .disconnect)]

def Ex.old : World := (Ex.played Ex.oldSteps).2

theorem Ex.old_fromInit : FromInit Ex.g (Ex.played Ex.oldSteps).1 Ex.old := by
  refine Ex.played_fromInit ?_ (by decide +kernel)
  intro x hx
  simp only [Ex.oldSteps, List.mem_append, List.mem_cons, List.not_mem_nil, or_false] at hx
  rcases hx with hx | rfl | rfl | rfl | rfl
  · exact Ex.sessionValid x hx
  · exact Ex.publishValid _ _
  all_goals trivial

/-- It is not connected, has two publishes in flight, and is set up like the fresh client of the example. -/
example : Ex.old.ctx.connectStatus = .notConnected ∧ inFlight Ex.old.ctx.tables.outgoing ≠ [] ∧ SameSetup Ex.old.ctx Ex.w0.ctx := by
  refine ⟨by decide +kernel, by decide +kernel, ⟨?_, ?_, ?_, ?_, ?_⟩⟩ <;> decide +kernel

/-- Connect at 31 seconds; the server has no session. -/
def Ex.anewEnv : Env := Ex.envAt 31000 [0x20, 2, 0, 0]
def Ex.anew : World := (callIn Ex.g Ex.old Ex.anewEnv Ex.connectCall).world
def Ex.anew0 : World := (callIn Ex.g Ex.w0 Ex.anewEnv Ex.connectCall).world

/-- The old client calls the clear callback for the publish it stored; all other events are the same. -/
example : callIn Ex.g Ex.old Ex.anewEnv Ex.connectCall = .done (.connect .success (some false)) Ex.anew ∧
    callbacks (callEvents Ex.g Ex.old Ex.anewEnv Ex.connectCall) = [.clear 8] ∧
    callEvents Ex.g Ex.w0 Ex.anewEnv Ex.connectCall = noClear (callEvents Ex.g Ex.old Ex.anewEnv Ex.connectCall) ∧
    12 ≤ (callEvents Ex.g Ex.w0 Ex.anewEnv Ex.connectCall).length := by
  refine ⟨Ex.ret_done (by decide +kernel), ?_, ?_, ?_⟩ <;> decide +kernel

/-- After that both can publish with the id that was in flight, with the same interactions. -/
example : Ex.ret (callIn Ex.g Ex.anew (Ex.env []) (Ex.publishCall .qos2 7)) = some (.status .success) ∧
    callEvents Ex.g Ex.anew (Ex.env []) (Ex.publishCall .qos2 7) = callEvents Ex.g Ex.anew0 (Ex.env []) (Ex.publishCall .qos2 7) := by
  refine ⟨?_, ?_⟩ <;> decide +kernel

/-- With the records of the old session it would not be accepted. -/
example : Ex.ret (callIn Ex.g { Ex.old with ctx := { Ex.old.ctx with connectStatus := .connected } } (Ex.env []) (Ex.publishCall .qos2 7)) =
    some (.status .stateCollision) := by decide +kernel

/-- The exceptions are needed.  `MQTT_GetPacketId` goes on with id 2.  And the first `MQTT_ProcessLoop` of the fresh client sends a PINGREQ because it
takes the time 0 of its context for that of the last reception (the clock shows more than 30 seconds), while the old client remembers what it received in the old connection. -/
theorem C76_exceptions : FromInit Ex.g (Ex.played Ex.oldSteps).1 Ex.old ∧ SameSetup Ex.old.ctx Ex.w0.ctx ∧
    callIn Ex.g Ex.old Ex.anewEnv Ex.connectCall = .done (.connect .success (some false)) Ex.anew ∧
    Ex.ret (callIn Ex.g Ex.anew (Ex.env []) .getPacketId) = some (.packetId 2) ∧
    Ex.ret (callIn Ex.g Ex.anew0 (Ex.env []) .getPacketId) = some (.packetId 1) ∧
    wire (callEvents Ex.g Ex.anew (Ex.envAt 31500 []) .processLoop) = [] ∧
    wire (callEvents Ex.g Ex.anew0 (Ex.envAt 31500 []) .processLoop) = pingreqPacket := by
  refine ⟨Ex.old_fromInit, ⟨?_, ?_, ?_, ?_, ?_⟩, Ex.ret_done ?_, ?_, ?_, ?_, ?_⟩ <;> decide +kernel

end Mqtt
