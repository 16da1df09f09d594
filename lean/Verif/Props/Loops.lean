/-
C81: `MQTT_ProcessLoop` and `MQTT_ReceiveLoop` differ in keep-alive only.
-/
import Verif.Spec.Loops
import Verif.Proof.Counter
import Verif.Proof.Stale
import Verif.Props.Silence

namespace Mqtt
open Spec

theorem processHeader_type {buf : List UInt8} {i : Nat} {h : HeaderRes} (hi : 0 < i) (he : processIncomingPacketTypeAndLength (some buf) i = .ok h) :
    buf[0]? = some h.type := by
  simp only [processIncomingPacketTypeAndLength] at he
  rw [if_neg (by omega)] at he
  obtain ⟨t, h1, he⟩ := Res.bind_eq_ok.1 he
  have ht : buf[0]? = some t := by
    unfold readByte at h1
    cases hb : buf[0]? with
    | none => rw [hb] at h1; cases h1
    | some x => rw [hb] at h1; cases h1; rfl
  split at he
  · obtain ⟨⟨st, n, hl⟩, _, he⟩ := Res.bind_eq_ok.1 he
    cases he
    exact ht
  · cases he
    exact ht

theorem recvInto_fails {pos n : Nat} {w : World} {rest : List RecvAns} (hp : pos + n ≤ w.ctx.bufSize) (hr : w.env.recvs = .fail :: rest) :
    recvInto pos n w = .done none { w with env := { w.env with recvs := rest }, trace := w.trace ++ [.recvd n none] } := by
  unfold recvInto
  show (if pos + n ≤ w.ctx.bufSize then _ else _ : M (Option Nat)) w = _
  rw [if_pos hp]
  show M.bind (transportRecv n) _ w = _
  unfold M.bind transportRecv
  rw [hr]
  rfl

theorem recvInto_delivers {pos n k : Nat} {w : World} {rest : List RecvAns} (hp : pos + n ≤ w.ctx.bufSize) (hr : w.env.recvs = .deliver k :: rest) :
    recvInto pos n w = .done (some (w.env.input.take (min k n)).length)
      { ctx := { w.ctx with netBuf := writeAt w.ctx.netBuf pos (w.env.input.take (min k n)) },
        env := { w.env with recvs := rest, input := w.env.input.drop (min k n) }, trace := w.trace ++ [.recvd n (some (w.env.input.take (min k n)))] } := by
  unfold recvInto
  show (if pos + n ≤ w.ctx.bufSize then _ else _ : M (Option Nat)) w = _
  rw [if_pos hp]
  show M.bind (transportRecv n) _ w = _
  unfold M.bind transportRecv
  rw [hr]
  rfl

/-- The first part of a receive function when data arrives. -/
theorem receiveHeader_data {w : World} {k : Nat} {rest : List RecvAns} (hp : w.ctx.index ≤ w.ctx.bufSize) (hr : w.env.recvs = .deliver k :: rest) (hd : arrives w w.env ≠ []) :
    receiveHeader w = M.bind (liftRes (processIncomingPacketTypeAndLength (some (writeAt w.ctx.netBuf w.ctx.index (arrives w w.env))) (w.ctx.index + (arrives w w.env).length)))
        (fun h => M.pure (some (arrives w w.env).length, h))
      { ctx := { w.ctx with netBuf := writeAt w.ctx.netBuf w.ctx.index (arrives w w.env), index := w.ctx.index + (arrives w w.env).length },
        env := { w.env with recvs := rest, input := w.env.input.drop (min k (w.ctx.bufSize - w.ctx.index)) },
        trace := w.trace ++ [.recvd (w.ctx.bufSize - w.ctx.index) (some (arrives w w.env))] } := by
  have ha : arrives w w.env = w.env.input.take (min k (w.ctx.bufSize - w.ctx.index)) := by unfold arrives; rw [hr]
  rw [ha] at hd
  rw [ha]
  have hpos : 0 < (w.env.input.take (min k (w.ctx.bufSize - w.ctx.index))).length := List.length_pos_iff.mpr hd
  unfold receiveHeader
  show M.bind (recvInto w.ctx.index (w.ctx.bufSize - w.ctx.index)) _ w = _
  conv => lhs; unfold M.bind
  rw [recvInto_delivers (by omega) hr]
  show (if _ then _ else _ : M (Option Nat × HeaderRes)) _ = _
  rw [if_neg (by omega)]
  rfl

/-- What the first part of a receive function finds if there is something to process or an error. -/
theorem receiveHeader_finds {w : World} (hd : arrives w w.env ≠ [] ∨ recvFails w.env) (ht : (w.ctx.buffered ++ arrives w w.env).head? ≠ some 0xD0)
    {rb : Option Nat} {h : HeaderRes} {w' : World} (he : receiveHeader w = .done (rb, h) w') : rb ≠ some 0 ∧ h.type ≠ ptPINGRESP := by
  by_cases hp : w.ctx.index ≤ w.ctx.bufSize
  · cases hr : w.env.recvs with
    | nil =>
      exfalso
      rcases hd with hd | ⟨r, hd⟩
      · unfold arrives at hd
        rw [hr] at hd
        exact hd rfl
      · rw [hr] at hd
        cases hd
    | cons a rest =>
      cases a with
      | fail =>
        unfold receiveHeader at he
        change M.bind (recvInto w.ctx.index (w.ctx.bufSize - w.ctx.index)) _ w = _ at he
        unfold M.bind at he
        rw [recvInto_fails (by omega) hr] at he
        cases he
        exact ⟨fun h => (by cases h), by decide⟩
      | deliver k =>
        have hne : arrives w w.env ≠ [] := by
          rcases hd with hd | ⟨r, hd⟩
          · exact hd
          · rw [hr] at hd
            cases hd
        have hl : (arrives w w.env).length ≤ w.ctx.bufSize - w.ctx.index := by
          unfold arrives
          rw [hr]
          simp only [List.length_take]
          omega
        rw [receiveHeader_data hp hr hne] at he
        unfold Ctx.buffered at ht
        generalize arrives w w.env = got at *
        have hpos : 0 < got.length := List.length_pos_iff.mpr hne
        unfold M.bind liftRes at he
        cases hx : processIncomingPacketTypeAndLength (some (writeAt w.ctx.netBuf w.ctx.index got)) (w.ctx.index + got.length) with
        | ub e => rw [hx] at he; cases he
        | ok hh =>
          rw [hx] at he
          cases he
          refine ⟨fun h0 => by simp only [Option.some.injEq] at h0; omega, fun hty => ht ?_⟩
          have := processHeader_type (by omega) hx
          rw [hty] at this
          unfold Ctx.bufSize at hp hl
          rw [Stale.writeAt_get (by omega)] at this
          rw [List.head?_eq_getElem?, List.getElem?_append, List.length_take, List.getElem?_take, Nat.min_eq_left hp]
          by_cases hi : 0 < w.ctx.index
          · rw [if_pos hi, if_pos hi]
            simpa [hi, Nat.not_le.mpr hi, ptPINGRESP] using this
          · have : w.ctx.index = 0 := by omega
            simp_all [ptPINGRESP]
  · exfalso
    unfold receiveHeader recvInto at he
    change M.bind (if _ then _ else _ : M (Option Nat)) _ w = _ at he
    rw [if_neg (by omega)] at he
    cases he

theorem handlePacket_both {g : Cfg} {h : HeaderRes} (ht : h.type ≠ ptPINGRESP) : handlePacket g true h = handlePacket g false h := by
  unfold handlePacket handleIncomingAck
  simp only [if_neg ht]

theorem iteration_both (g : Cfg) {w : World} (hd : arrives w w.env ≠ [] ∨ recvFails w.env) (ht : (w.ctx.buffered ++ arrives w w.env).head? ≠ some 0xD0) :
    receiveSingleIteration g true w = receiveSingleIteration g false w := by
  unfold receiveSingleIteration
  simp only [bind, M.bind]
  cases he : receiveHeader w with
  | stuck w' => rfl
  | ub e w' => rfl
  | done r w' =>
    obtain ⟨rb, h⟩ := r
    obtain ⟨h1, h2⟩ := receiveHeader_finds hd ht he
    have hk : ∀ b, keepAliveCheck g rb b h.status = pure h.status := fun b => by
      unfold keepAliveCheck
      rw [if_neg (fun x => h1 x.1)]
    simp only [hk, handlePacket_both h2]

/-- **C81**.  If data arrives (or receiving fails), and the packet at hand is not a PINGRESP, then `MQTT_ProcessLoop` and `MQTT_ReceiveLoop` do the same: they return the same
status after the same interactions with the transport, the clock and the callbacks, and leave the same context (but for a flag that is never read). -/
theorem C81_data (g : Cfg) (w : World) (e : Env) (hd : arrives w e ≠ [] ∨ recvFails e) (ht : (w.ctx.buffered ++ arrives w e).head? ≠ some 0xD0) :
    SameCall (callIn g w e .receiveLoop) (callIn g w e .processLoop) := by
  have h1 : callIn g w e .processLoop = callIn g { w with ctx := { w.ctx with controlPacketSent := false } } e .receiveLoop := by
    simp only [callIn, apiCall, mqttProcessLoop, mqttReceiveLoop, bind, M.bind, modifyCtx]
    rw [iteration_both g (w := { ctx := { w.ctx with controlPacketSent := false }, env := e, trace := w.trace }) hd ht]
  rw [h1]
  have h2 := Fresh.sim_api (τ := w.trace) (τ' := w.trace) (k := true) (ρ := true) g .receiveLoop (fun h => rfl) (fun h => rfl) { w with env := e }
    { w with ctx := { w.ctx with controlPacketSent := false }, env := e }
    ⟨⟨w.ctx.nextPacketId, w.ctx.lastPacketRxTime, false, rfl, fun _ => rfl, fun _ => rfl⟩, rfl, [], by simp, by simp⟩
  have same : ∀ {a b : World}, Fresh.Other w.trace w.trace true true a b → SameWorld a b := fun {a b} h => by
    obtain ⟨⟨id, rx, f, hc, k1, k2⟩, he, es, t1, t2⟩ := h
    refine ⟨he, by rw [t1, t2], f, ?_⟩
    rw [hc, k1 rfl, k2 rfl]
  unfold callIn
  cases hx : apiCall g .receiveLoop { w with env := e } <;>
    cases hy : apiCall g .receiveLoop { w with ctx := { w.ctx with controlPacketSent := false }, env := e } <;> rw [hx, hy] at h2 <;>
    simp only [Fresh.RelOut, Fresh.SameRes] at h2
  · exact ⟨h2.1, same h2.2⟩
  · exact same h2
  · exact ⟨h2.1, same h2.2⟩

/-! ### PINGRESP -/

theorem processHeader_pingresp (x : List UInt8) {i : Nat} (hi : 2 ≤ i) :
    processIncomingPacketTypeAndLength (some (0xD0 :: 0 :: x)) i = .ok ⟨.success, 0xD0, 0, 2⟩ := by
  simp only [processIncomingPacketTypeAndLength]
  rw [if_neg (by omega)]
  have h1 : readByte (0xD0 :: 0 :: x) 0 = .ok 0xD0 := rfl
  have h2 : processRemainingLengthLoop (0xD0 :: 0 :: x) i 0 1 0 = .ok (.success, 0, 1) := by
    rw [processRemainingLengthLoop, if_neg (by decide), dif_pos (by omega)]
    have : readByte (0xD0 :: 0 :: x) (0 + 1) = .ok 0 := rfl
    rw [this]
    rfl
  have h3 : processRemainingLength (0xD0 :: 0 :: x) i = .ok (.success, 0, 2) := by
    unfold processRemainingLength
    rw [h2]
    rfl
  rw [h1, h3]
  rfl

theorem bind_of_done {α β : Type} {m : M α} {f : α → M β} {w w' : World} {a : α} (h : m w = .done a w') : (m >>= f) w = f a w' := by
  show M.bind m f w = _
  unfold M.bind
  rw [h]

theorem getCtx_bind {β : Type} (f : Ctx → M β) (w : World) : (getCtx >>= f) w = f w.ctx w := rfl

theorem handlePacket_pingresp (g : Cfg) (b : Bool) {w : World} {t : UInt32} {ts : List UInt32} (h2 : 2 ≤ w.ctx.index) (hp : w.ctx.index ≤ w.ctx.bufSize)
    (hc : w.env.clock = t :: ts) : handlePacket g b ⟨.success, 0xD0, 0, 2⟩ w = .done .success
      { ctx := { w.ctx with index := w.ctx.index - 2, netBuf := writeAt w.ctx.netBuf 0 ((w.ctx.netBuf.drop 2).take (w.ctx.index - 2)), lastPacketRxTime := t,
                            waitingForPingResp := if b then false else w.ctx.waitingForPingResp },
        env := { w.env with clock := ts }, trace := w.trace ++ ((if b then [] else [.app 0xD0 [] 0 .success none]) ++ [.time t]) } := by
  have hack : ∀ pk : PacketInfo, pk.type = 0xD0 → pk.remainingLength = 0 → handleIncomingAck g pk b w = .done .success
      { w with ctx := { w.ctx with waitingForPingResp := if b then false else w.ctx.waitingForPingResp },
               trace := w.trace ++ (if b then [] else [.app 0xD0 [] 0 .success none]) } := fun pk h1 h2 => by
    have hde : mqttDeserializeAck (some pk) (some 0) none = .ok (.success, some 0, none) := by
      simp [mqttDeserializeAck, h1, h2, deserializePingresp, ptCONNACK, ptSUBACK, ptPINGRESP]
    unfold handleIncomingAck
    rw [hde]
    cases b <;> simp [h1, h2, ptPUBACK, ptPUBREC, ptPUBREL, ptPUBCOMP, ptPINGRESP, bind, M.bind, liftRes, modifyCtx, appCallback, emit, pure, M.pure]
  unfold handlePacket
  rw [getCtx_bind]
  rw [if_neg (by decide)]
  rw [bind_of_done (hack _ rfl rfl)]
  rw [getCtx_bind]
  dsimp only
  rw [if_pos (by exact ⟨h2, hp⟩)]
  simp [bind, M.bind, modifyCtx, getTime, hc, pure, M.pure]

/-- The buffer without a PINGRESP that stood before `rest`. -/
def afterPingresp (c : Ctx) (rest : List UInt8) : List UInt8 :=
  writeAt (0xD0 :: 0 :: (rest ++ c.netBuf.drop (rest.length + 2))) 0 ((rest ++ c.netBuf.drop (rest.length + 2)).take rest.length)

theorem drop_taken (l : List UInt8) (n : Nat) : l.drop (l.take n).length = l.drop n := by
  rw [List.length_take]
  by_cases h : n ≤ l.length
  · rw [Nat.min_eq_left h]
  · rw [Nat.min_eq_right (by omega), List.drop_of_length_le (Nat.le_refl _), List.drop_of_length_le (by omega)]

/-- A PINGRESP is in the buffer, and complete. -/
theorem iteration_pingresp (g : Cfg) (b : Bool) {w : World} {rest : List UInt8} {t : UInt32} {ts : List UInt32} (hp : w.ctx.index ≤ w.ctx.bufSize) (hd : arrives w w.env ≠ [])
    (hb : w.ctx.buffered ++ arrives w w.env = 0xD0 :: 0 :: rest) (hc : w.env.clock = t :: ts) :
    receiveSingleIteration g b w = .done .success
      { ctx := { w.ctx with index := rest.length, netBuf := afterPingresp w.ctx rest, lastPacketRxTime := t, waitingForPingResp := if b then false else w.ctx.waitingForPingResp },
        env := { w.env with recvs := w.env.recvs.tail, input := w.env.input.drop (arrives w w.env).length, clock := ts },
        trace := w.trace ++ (.recvd (w.ctx.bufSize - w.ctx.index) (some (arrives w w.env)) :: (if b then [] else [.app 0xD0 [] 0 .success none]) ++ [.time t]) } := by
  cases hr : w.env.recvs with
  | nil =>
    unfold arrives at hd
    rw [hr] at hd
    exact absurd rfl hd
  | cons a rs =>
    cases a with
    | fail =>
      unfold arrives at hd
      rw [hr] at hd
      exact absurd rfl hd
    | deliver k =>
      have hl : (arrives w w.env).length ≤ w.ctx.bufSize - w.ctx.index := by
        unfold arrives
        rw [hr]
        simp only [List.length_take]
        omega
      have hh := receiveHeader_data hp hr hd
      have hin : w.env.input.drop (arrives w w.env).length = w.env.input.drop (min k (w.ctx.bufSize - w.ctx.index)) := by
        unfold arrives
        rw [hr]
        exact drop_taken _ _
      generalize arrives w w.env = got at *
      have hpos : 0 < got.length := List.length_pos_iff.mpr hd
      have hi : w.ctx.index + got.length = rest.length + 2 := by
        have := congrArg List.length hb
        unfold Ctx.buffered at this
        unfold Ctx.bufSize at hp
        simp only [List.length_append, List.length_take, List.length_cons] at this
        omega
      have hbuf : writeAt w.ctx.netBuf w.ctx.index got = 0xD0 :: 0 :: (rest ++ w.ctx.netBuf.drop (w.ctx.index + got.length)) := by
        unfold Ctx.buffered at hb
        unfold writeAt
        rw [hb]
        rfl
      have hlen : (writeAt w.ctx.netBuf w.ctx.index got).length = w.ctx.netBuf.length := by
        refine writeAt_length ?_
        unfold Ctx.bufSize at hp hl
        omega
      rw [hi] at hbuf hh
      rw [hbuf] at hh hlen
      rw [processHeader_pingresp _ (by omega)] at hh
      have hh' : receiveHeader w = .done (some got.length, ⟨.success, 0xD0, 0, 2⟩)
          { ctx := { w.ctx with netBuf := 0xD0 :: 0 :: (rest ++ w.ctx.netBuf.drop (rest.length + 2)), index := rest.length + 2 },
            env := { w.env with recvs := rs, input := w.env.input.drop (min k (w.ctx.bufSize - w.ctx.index)) },
            trace := w.trace ++ [.recvd (w.ctx.bufSize - w.ctx.index) (some got)] } := hh
      have hk : ∀ b, keepAliveCheck g (some got.length) b .success = pure .success := fun b => by
        unfold keepAliveCheck
        rw [if_neg (fun x => by have := Option.some.inj x.1; omega)]
      have hsz : rest.length + 2 ≤ (0xD0 :: 0 :: (rest ++ w.ctx.netBuf.drop (rest.length + 2))).length := by
        simp only [List.length_cons, List.length_append]
        omega
      unfold receiveSingleIteration
      rw [bind_of_done hh']
      dsimp only
      rw [hk, pure_bind]
      have hcc : ∀ w' : World, 2 ≤ w'.ctx.index → w'.ctx.index ≤ w'.ctx.bufSize → checkComplete g .success (0 + 2) w' = .done .success w' := fun w' h1 h2 => by
        unfold checkComplete
        rw [getCtx_bind, if_neg (by simp), if_neg (by omega), if_neg (by omega)]
        rfl
      rw [bind_of_done (hcc _ (by simp) hsz)]
      rw [if_pos rfl]
      rw [bind_of_done (handlePacket_pingresp g b (t := t) (ts := ts) ?_ ?_ ?_)]
      · rw [if_neg (by simp), hin]
        simp [pure, M.pure, afterPingresp]
      · simp
      · exact hsz
      · exact hc

theorem receiveLoop_done {g : Cfg} {w w' : World} {e : Env} {st : Status} (h : receiveSingleIteration g false { w with env := e } = .done st w') :
    callIn g w e .receiveLoop = .done (.status st) w' := by
  unfold callIn
  simp only [apiCall, mqttReceiveLoop]
  rw [bind_of_done h]
  rfl

theorem processLoop_done {g : Cfg} {w w' : World} {e : Env} {st : Status}
    (h : receiveSingleIteration g true { w with ctx := { w.ctx with controlPacketSent := false }, env := e } = .done st w') :
    callIn g w e .processLoop = .done (.status st) w' := by
  unfold callIn
  simp only [apiCall, mqttProcessLoop, bind_assoc]
  rw [bind_of_done (show modifyCtx _ _ = .done () _ from rfl), bind_of_done h]
  rfl

/-- **C81**, the exception: a PINGRESP.  `MQTT_ReceiveLoop` hands it to the application's callback and goes on waiting for it; `MQTT_ProcessLoop` does not call the callback and
stops waiting.  Otherwise they do the same. -/
theorem C81_pingresp (g : Cfg) (w : World) (e : Env) {rest : List UInt8} {t : UInt32} {ts : List UInt32} (hp : w.ctx.index ≤ w.ctx.bufSize) (hd : arrives w e ≠ [])
    (hb : w.ctx.buffered ++ arrives w e = 0xD0 :: 0 :: rest) (hc : e.clock = t :: ts) :
    ∃ w1 w2, callIn g w e .receiveLoop = .done (.status .success) w1 ∧ callIn g w e .processLoop = .done (.status .success) w2 ∧
      callEvents g w e .receiveLoop = [.recvd (w.ctx.bufSize - w.ctx.index) (some (arrives w e)), .app 0xD0 [] 0 .success none, .time t] ∧
      callEvents g w e .processLoop = [.recvd (w.ctx.bufSize - w.ctx.index) (some (arrives w e)), .time t] ∧
      w1.ctx.waitingForPingResp = w.ctx.waitingForPingResp ∧ w2.env = w1.env ∧
      w2.ctx = { w1.ctx with waitingForPingResp := false, controlPacketSent := false } := by
  have h1 := iteration_pingresp g false (w := { w with env := e }) hp hd hb hc
  have h2 := iteration_pingresp g true (w := { w with ctx := { w.ctx with controlPacketSent := false }, env := e }) hp hd hb hc
  have k1 := receiveLoop_done h1
  have k2 := processLoop_done h2
  refine ⟨_, _, k1, k2, ?_, ?_, rfl, rfl, rfl⟩
  · unfold callEvents newEvents
    rw [k1]
    simp [Out.world]
    rfl
  · unfold callEvents newEvents
    rw [k2]
    simp [Out.world, Ctx.bufSize]
    rfl

/-- **C81**, nothing to do: if no data arrives and none is left over, `MQTT_ReceiveLoop` has no effect. -/
theorem C81_nothing (g : Cfg) (w : World) (e : Env) {k : Nat} {rest : List RecvAns} (hb : w.ctx.buffered = []) (hp : w.ctx.index ≤ w.ctx.bufSize)
    (hr : e.recvs = .deliver k :: rest) (hd : arrives w e = []) :
    ∃ w', callIn g w e .receiveLoop = .done (.status .success) w' ∧ w'.ctx = w.ctx ∧
      callEvents g w e .receiveLoop = [.recvd w.ctx.bufSize (some [])] := by
  have hi : w.ctx.index = 0 := by
    have := congrArg List.length hb
    unfold Ctx.buffered at this
    unfold Ctx.bufSize at hp
    simp only [List.length_take, List.length_nil] at this
    omega
  have ha : e.input.take (min k (w.ctx.bufSize - w.ctx.index)) = [] := by
    have := hd
    unfold arrives at this
    rw [hr] at this
    exact this
  have hh : receiveHeader { w with env := e } = .done (some 0, ⟨.noDataAvailable, 0, 0, 0⟩)
      { w with env := { e with recvs := rest, input := e.input.drop (min k (w.ctx.bufSize - w.ctx.index)) }, trace := w.trace ++ [.recvd w.ctx.bufSize (some [])] } := by
    unfold receiveHeader
    rw [getCtx_bind, bind_of_done (recvInto_delivers (k := k) (rest := rest) (by show w.ctx.index + _ ≤ w.ctx.bufSize; dsimp only; omega) hr)]
    dsimp only
    rw [ha, if_pos (by exact ⟨rfl, hi⟩), writeAt_nil]
    obtain ⟨c, e', tr⟩ := w
    cases c
    simp only at hi
    subst hi
    rfl
  have h1 : receiveSingleIteration g false { w with env := e } = .done .success
      { w with env := { e with recvs := rest, input := e.input.drop (min k (w.ctx.bufSize - w.ctx.index)) }, trace := w.trace ++ [.recvd w.ctx.bufSize (some [])] } := by
    unfold receiveSingleIteration
    rw [bind_of_done hh]
    rfl
  have k1 := receiveLoop_done h1
  refine ⟨_, k1, rfl, ?_⟩
  unfold callEvents newEvents
  rw [k1]
  simp [Out.world]

/-- **C81**, part of a packet is left over: if no data arrives and what is left over is no complete packet (nor the beginning of one too large for the buffer), `MQTT_ReceiveLoop` has no
effect either, and says what it waits for. -/
theorem C81_waiting (g : Cfg) (w : World) (e : Env) {k : Nat} {rest : List RecvAns} (hb : w.ctx.buffered ≠ []) (hp : w.ctx.index ≤ w.ctx.bufSize)
    (hw : ∀ t hl n, readHeader w.ctx.buffered = .known t hl n → hl + n ≤ w.ctx.bufSize ∧ w.ctx.buffered.length < hl + n)
    (hr : e.recvs = .deliver k :: rest) (hd : arrives w e = []) :
    ∃ w', callIn g w e .receiveLoop = .done (.status (if readHeader w.ctx.buffered = .malformed then .badResponse else .needMoreBytes)) w' ∧ w'.ctx = w.ctx ∧
      callEvents g w e .receiveLoop = [.recvd (w.ctx.bufSize - w.ctx.index) (some [])] := by
  have hlen : w.ctx.buffered.length = w.ctx.index := by
    unfold Ctx.buffered
    unfold Ctx.bufSize at hp
    rw [List.length_take]
    omega
  have hi : w.ctx.index ≠ 0 := by
    intro h
    rw [h] at hlen
    exact hb (List.eq_nil_of_length_eq_zero hlen)
  have ha : e.input.take (min k (w.ctx.bufSize - w.ctx.index)) = [] := by
    have := hd
    unfold arrives at this
    rw [hr] at this
    exact this
  obtain ⟨hr1, h1, h2⟩ := parseHeader_eq (buf := w.ctx.netBuf) (Nat.one_le_iff_ne_zero.mpr hi) hp
  have hh : receiveHeader { w with env := e } = .done (some 0, hr1)
      { w with env := { e with recvs := rest, input := e.input.drop (min k (w.ctx.bufSize - w.ctx.index)) },
               trace := w.trace ++ [.recvd (w.ctx.bufSize - w.ctx.index) (some [])] } := by
    unfold receiveHeader
    rw [getCtx_bind, bind_of_done (recvInto_delivers (k := k) (rest := rest) (by show w.ctx.index + _ ≤ w.ctx.bufSize; dsimp only; omega) hr)]
    dsimp only
    rw [ha, if_neg (by rintro ⟨_, h⟩; exact hi h), writeAt_nil]
    obtain ⟨c, e', tr⟩ := w
    cases c
    dsimp only at h1
    show M.bind (liftRes (processIncomingPacketTypeAndLength (some _) _)) (fun h => pure (some 0, h)) _ = _
    unfold M.bind liftRes
    dsimp only [List.length_nil, Nat.add_zero]
    rw [h1]
    rfl
  have h3 : receiveSingleIteration g false { w with env := e } = .done (if readHeader w.ctx.buffered = .malformed then .badResponse else .needMoreBytes)
      { w with env := { e with recvs := rest, input := e.input.drop (min k (w.ctx.bufSize - w.ctx.index)) },
               trace := w.trace ++ [.recvd (w.ctx.bufSize - w.ctx.index) (some [])] } := by
    unfold receiveSingleIteration
    rw [bind_of_done hh]
    obtain ⟨st, t0, n0, hl0⟩ := hr1
    rcases h2 with ⟨k1, k2⟩ | ⟨k1, k2⟩ | ⟨t, hl, n, k1, k2⟩
    · cases k2
      rw [show readHeader w.ctx.buffered = _ from k1]
      rfl
    · cases k2
      rw [show readHeader w.ctx.buffered = _ from k1]
      rfl
    · cases k2
      obtain ⟨q1, q2⟩ := hw _ _ _ k1
      rw [hlen] at q2
      rw [show readHeader w.ctx.buffered = _ from k1]
      show M.bind (checkComplete g .success (n0 + hl0)) _ _ = _
      have hcc : ∀ e1 tr, checkComplete g .success (n0 + hl0) ⟨w.ctx, e1, tr⟩ = .done .needMoreBytes ⟨w.ctx, e1, tr⟩ := by
        intro e1 tr
        unfold checkComplete
        rw [getCtx_bind, if_neg (by simp), if_neg (by show ¬ _ > w.ctx.bufSize; omega), if_pos (by show _ > w.ctx.index; omega)]
        rfl
      unfold M.bind
      rw [hcc]
      rfl
  have k1 := receiveLoop_done h3
  refine ⟨_, k1, rfl, ?_⟩
  unfold callEvents newEvents
  rw [k1]
  simp [Out.world]

/-! ### Examples -/

/-- Non-vacuity of `C81_data`: the PUBCOMP of the example session arrives; both functions present it to the application. -/
def Ex.pubcomp : Env := { Ex.env [0x70, 2, 0, 7] with recvs := [.deliver 4] }

example : SameCall (callIn Ex.g Ex.after Ex.pubcomp .receiveLoop) (callIn Ex.g Ex.after Ex.pubcomp .processLoop) :=
  C81_data Ex.g Ex.after Ex.pubcomp (.inl (by decide +kernel)) (by decide +kernel)

example : (callEvents Ex.g Ex.after Ex.pubcomp .processLoop).contains (.app 0x70 [0, 7] 7 .success none) = true := by decide +kernel

/-- Non-vacuity of `C81_pingresp`: the session is waiting for a PINGRESP, and it arrives together with half of a PUBCOMP. -/
example : Ex.quiet2.ctx.waitingForPingResp = true ∧ Ex.quiet2.ctx.index ≤ Ex.quiet2.ctx.bufSize ∧
    Ex.quiet2.ctx.buffered ++ arrives Ex.quiet2 { Ex.env [0xD0, 0, 0x70, 2] with recvs := [.deliver 4] } = 0xD0 :: 0 :: [0x70, 2] ∧
    callEvents Ex.g Ex.quiet2 { Ex.env [0xD0, 0, 0x70, 2] with recvs := [.deliver 4] } .receiveLoop = [.recvd 64 (some [0xD0, 0, 0x70, 2]), .app 0xD0 [] 0 .success none, .time 0] := by
  decide +kernel

/-- Non-vacuity of `C81_waiting`: half a PUBCOMP has arrived. -/
example : (Ex.feed [[0x70, 2]]).2.ctx.buffered = [0x70, 2] ∧ readHeader [0x70, 2] = .known 0x70 2 2 ∧ (Ex.feed [[0x70, 2]]).2.ctx.index ≤ (Ex.feed [[0x70, 2]]).2.ctx.bufSize ∧
    arrives (Ex.feed [[0x70, 2]]).2 (Ex.env []) = [] := by decide +kernel

/-- Non-vacuity of `C81_nothing`. -/
example : Ex.after.ctx.buffered = [] ∧ arrives Ex.after (Ex.env []) = [] ∧ Ex.after.ctx.index ≤ Ex.after.ctx.bufSize := by decide +kernel

end Mqtt
