/-
C84: how large the network buffer must be.  Two bytes to connect, five bytes to keep receiving.
-/
import Verif.Props.Parts
import Verif.Proof.Anew
import Verif.Props.Transport

namespace Mqtt
open Spec

/-! ### Two bytes to connect -/

section
open Anew Parts

private theorem keepsSize {α : Type} {m : M α} (hm : Touch (fun p => p ≠ .setup) m) {w w' : World} {x : α} (h : m w = .done x w') :
    w'.ctx.bufSize = w.ctx.bufSize := by
  have := (hm w .setup (by simp)).1
  rw [h] at this
  exact this

private theorem receivePacket_fits {g : Cfg} {n : Nat} {t : UInt32} {w w' : World} (h : receivePacket g n t w = .done .success w') : n ≤ w.ctx.bufSize := by
  unfold receivePacket at h
  rw [bind_eq (m := getCtx) (x := w.ctx) (w1 := w) rfl] at h
  by_cases hn : n > w.ctx.bufSize
  · rw [if_pos hn] at h
    unfold discardPacket at h
    obtain ⟨_, _, _, h⟩ := bind_done h
    obtain ⟨_, _, _, h⟩ := bind_done h
    obtain ⟨_, _, _, h⟩ := bind_done h
    obtain ⟨l, _, _, h⟩ := bind_done h
    by_cases hl : l = 0
    · rw [if_pos hl] at h; cases h
    · rw [if_neg hl] at h; cases h
  · omega

private theorem connack_two {pk : PacketInfo} {sp0 sp : Bool} (h : deserializeConnack pk sp0 = .ok (.success, sp)) : pk.remainingLength = 2 := by
  refine Classical.byContradiction fun hn => ?_
  unfold deserializeConnack at h
  rw [if_pos hn] at h
  cases h

private theorem finishConnack_fits {g : Cfg} {t a : UInt32} {cs sp0 sp : Bool} {hd : HeaderRes} {w w' : World}
    (h : finishConnack g t a cs hd sp0 w = .done (.success, sp) w') : 2 ≤ w.ctx.bufSize := by
  unfold finishConnack at h
  obtain ⟨_, w1, h1, h⟩ := bind_done h
  dsimp only at h
  by_cases ht : hd.type = ptCONNACK
  · rw [if_pos ht] at h
    obtain ⟨st, w2, h2, h⟩ := bind_done h
    by_cases hst : st ≠ .success
    · rw [if_pos hst] at h; cases h; exact absurd rfl hst
    · rw [if_neg hst] at h
      have hst : st = .success := Classical.byContradiction hst
      subst hst
      have hf := receivePacket_fits h2
      rw [keepsSize touch_getTime h1] at hf
      rw [bind_eq (m := getCtx) (x := w2.ctx) (w1 := w2) rfl] at h
      obtain ⟨⟨st3, id3, sp3⟩, w3, h3, h⟩ := bind_done h
      dsimp only at h
      have hs3 : st3 = .success := by
        split at h
        · cases h
        · cases h; rfl
      subst hs3
      have h4 : mqttDeserializeAck (some ⟨hd.type, some w2.ctx.netBuf, hd.remainingLength, hd.headerLength⟩) none (some sp0) = .ok (.success, id3, sp3) := by
        unfold liftRes at h3
        cases hr : mqttDeserializeAck (some ⟨hd.type, some w2.ctx.netBuf, hd.remainingLength, hd.headerLength⟩) none (some sp0) with
        | ok x => rw [hr] at h3; cases h3; rfl
        | ub e => rw [hr] at h3; cases h3
      simp only [mqttDeserializeAck, ht] at h4
      rw [if_neg (by simp), if_neg (by simp), if_neg (by simp), if_pos trivial] at h4
      cases hk : deserializeConnack ⟨ptCONNACK, some w2.ctx.netBuf, hd.remainingLength, hd.headerLength⟩ sp0 with
      | ok x =>
        rw [hk] at h4
        obtain ⟨a, b⟩ := x
        cases h4
        have := connack_two hk
        dsimp only at this
        omega
      | ub e => rw [hk] at h4; cases h4
  · rw [if_neg ht] at h; cases h

private theorem connectLocked_fits {g : Cfg} {ci : ConnectInfo} {will : Option PublishInfo} {n : Nat} {t : UInt32} {sp0 sp : Bool} {w w' : World}
    (h : connectLocked g ci will n t sp0 w = .done (.success, sp) w') : 2 ≤ w.ctx.bufSize := by
  unfold connectLocked at h
  rw [bind_eq (m := getCtx) (x := w.ctx) (w1 := w) rfl] at h
  by_cases hc : w.ctx.connectStatus ≠ .notConnected
  · rw [if_pos hc] at h
    exfalso
    split at h <;> cases h
  · rw [if_neg hc] at h
    obtain ⟨st, w1, h1, h⟩ := bind_done h
    by_cases hst : st ≠ .success
    · rw [if_pos hst] at h; cases h; exact absurd rfl hst
    · rw [if_neg hst] at h
      obtain ⟨⟨st2, sp2⟩, w2, h2, h⟩ := bind_done h
      dsimp only at h
      by_cases hs2 : st2 ≠ .success
      · rw [if_pos hs2] at h; cases h; exact absurd rfl hs2
      · have hs2 : st2 = .success := Classical.byContradiction hs2
        subst hs2
        rw [← keepsSize (touch_sendConnect (by simp) (by simp) g ci will n) h1]
        unfold receiveConnack at h2
        obtain ⟨_, v1, e1, h2⟩ := bind_done h2
        obtain ⟨_, v2, e2, h2⟩ := bind_done h2
        obtain ⟨hd, v3, e3, h2⟩ := bind_done h2
        by_cases hh : hd.status ≠ .success
        · rw [if_pos hh] at h2; exact absurd (congrArg (fun o => match o with | Out.done (a, _) _ => a | _ => hd.status) h2) hh
        · rw [if_neg hh] at h2
          have := finishConnack_fits h2
          rwa [keepsSize (touch_connackLoop _ _ _ _ _) e3, keepsSize touch_recvFuel e2, keepsSize touch_getTime e1] at this

end

/-- **C84** No CONNACK fits a network buffer of fewer than two bytes: `MQTT_Connect` never succeeds, in any state, whatever the server sends. -/
theorem C84_connect {g : Cfg} {w w' : World} {e : Env} {ci : Option ConnectInfo} {will : Option PublishInfo} {t : UInt32} {sp0 sp : Option Bool}
    (h : callIn g w e (.connect ci will t sp0) = .done (.connect .success sp) w') : 2 ≤ w.ctx.bufSize := by
  have h : mqttConnect g ci will t sp0 { w with env := e } = .done (.success, sp) w' := by
    change (mqttConnect g ci will t sp0 >>= _) { w with env := e } = _ at h
    obtain ⟨⟨a, b⟩, w1, h1, h2⟩ := Anew.bind_done h
    cases h2
    exact h1
  cases ci with
  | none =>
    simp only [mqttConnect] at h
    obtain ⟨_, _, _, h⟩ := Anew.bind_done h
    cases h
  | some ci =>
    cases sp0 with
    | none =>
      simp only [mqttConnect] at h
      obtain ⟨_, _, _, h⟩ := Anew.bind_done h
      cases h
    | some sp0 =>
      simp only [mqttConnect] at h
      obtain ⟨⟨st, sp1⟩, w1, h1, h⟩ := Anew.bind_done h
      obtain ⟨_, _, _, h⟩ := Anew.bind_done h
      have hst : st = .success := by cases h; rfl
      subst hst
      by_cases hz : (getConnectPacketSize (some ci) will).status = .success
      · rw [if_pos hz] at h1
        unfold connectCore at h1
        obtain ⟨_, w2, h2, h1⟩ := Anew.bind_done h1
        obtain ⟨⟨st3, sp3⟩, w3, h3, h1⟩ := Anew.bind_done h1
        obtain ⟨_, w4, h4, h1⟩ := Anew.bind_done h1
        have hst : st3 = .success := by
          by_cases hs : st3 = .success ∧ sp3 = true
          · exact hs.1
          · rw [if_neg hs] at h1; cases h1; rfl
        subst hst
        have := connectLocked_fits h3
        rwa [keepsSize Parts.touch_pre h2] at this
      · rw [if_neg hz] at h1
        exact absurd (congrArg (fun o => match o with | Out.done (a, _) _ => a | _ => .success) h1) hz

/-- The other direction is `C41_accepted`: two bytes are enough.  Here the smallest buffers, a server that accepts, and what `MQTT_Connect` makes of it. -/
def Ex.small (n : Nat) : World := { Ex.w0 with ctx := { Ex.ctx true with netBuf := List.replicate n 0 } }

theorem C84_two :
    [1, 2, 3].map (fun n => Ex.ret (callIn Ex.g (Ex.small n) (Ex.env [0x20, 2, 0, 0]) Ex.connectCall)) =
      [some (.connect .noDataAvailable (some true)),
       some (.connect .success (some false)), some (.connect .success (some false))] := by
  decide +kernel

/-! ### Five bytes to keep receiving -/

/-- **C84** A network buffer that is full before the header of the next packet is complete is never emptied again by the receive loops: whatever the transport delivers, no call
succeeds, nothing is handed to the application, and the buffer stays as it is. -/
theorem C84_stalls {g : Cfg} {h0 h : List (ApiCall × ApiRet)} {w w' : World} (hh : FromInit g h0 w) (hfull : w.ctx.buffered.length = w.ctx.bufSize)
    (hne : w.ctx.buffered ≠ []) (hk : readHeader w.ctx.buffered = .incomplete) (hs : Hist g w h w') (hl : ∀ x ∈ h, ∃ m, x.1 = loopCall m) :
    w'.ctx.buffered = w.ctx.buffered ∧ w'.ctx.bufSize = w.ctx.bufSize ∧ (∀ x ∈ h, x.2 ≠ .status .success) ∧
    ∃ es, w'.trace = w.trace ++ es ∧ callbacks es = [] := by
  induction hs with
  | start => exact ⟨rfl, rfl, by simp, [], by simp, rfl⟩
  | @call w1 w2 h e c r h1 hv hc ih =>
    obtain ⟨k1, k2, k3, es, k4, k5⟩ := ih fun x hx => hl x (List.mem_append_left _ hx)
    obtain ⟨m, rfl⟩ := hl (c, r) (by simp)
    have hh1 := hh.append h1
    obtain ⟨j1, j2, j3, _⟩ := C71_locked hh1 (by rw [k1, k2, hfull]) (by rw [k1]; exact hne) (by rw [k1, hk]; simp) e m hc
    have hset := (C83_unchanged g w1 e (loopCall m) (p := .setup) (by cases m <;> simp [loopCall, changes])).1
    rw [hc] at hset
    refine ⟨j1.trans k1, hset.trans k2, ?_, es ++ callEvents g w1 e (loopCall m), ?_, ?_⟩
    · intro x hx
      rcases List.mem_append.mp hx with hx | hx
      · exact k3 x hx
      · rw [List.mem_singleton.mp hx]; exact j2
    · obtain ⟨hg, hidx, s, hrep⟩ := hh1.good
      rcases call_cases hg hidx hrep e hv with ⟨r', es2, w', i1, i2, i3, _⟩ | ⟨_, _, i1, _⟩
      · rw [hc] at i1
        cases i1
        have i4 : w2.trace = w1.trace ++ es2 := i3.trace
        rw [i4, i2, k4, List.append_assoc]
      · rw [hc] at i1; cases i1
    · rw [callbacks_append, k5, j3]; rfl

/-- A PUBLISH of QoS 0 with `k` bytes after the fixed header. -/
def Ex.long (k : Nat) : Raw := ⟨0x30, List.replicate k 0⟩

/-- Connect, then receive the first bytes of a packet of 2097157 bytes. -/
def Ex.longStart : List (Env × ApiCall) :=
  [(Codes.at 0 [0x20, 2, 0, 0], Ex.connectCall), (Codes.at 0 [0x30, 0x80, 0x80, 0x80, 0x01], .receiveLoop)]

def Ex.longRun (n : Nat) : List (ApiCall × ApiRet) × World := (Ex.play (Ex.small n) Ex.longStart).getD ([], Ex.small n)

theorem Ex.smallInit (n : Nat) : Initialised (Ex.small n).ctx :=
  .retransmits (s := true) (r := true) (k := true)
    (.stateful (out := some (List.replicate 2 Rec.empty)) (outCount := 2) (inc := some (List.replicate 2 Rec.empty)) (incCount := 2)
      (.init (a := ⟨true, true, true, true, true, true, true⟩) (hasWritev := true) (buf := List.replicate n 0) rfl)
      (fun recs h => by cases h; exact ⟨Nat.le_refl _, fun r hr => (List.mem_replicate.mp hr).2⟩)
      (fun recs h => by cases h; exact ⟨Nat.le_refl _, fun r hr => (List.mem_replicate.mp hr).2⟩) rfl) rfl

/-- **C84** Every buffer of fewer than five bytes runs into this: a client that is connected and receives the first bytes of a long PUBLISH. -/
theorem C84_four (n : Nat) (h2 : 2 ≤ n) (h4 : n ≤ 4) : ∃ h w tail, FromInit Ex.g h w ∧ w.ctx.connectStatus = .connected ∧ w.ctx.bufSize = n ∧
    (Ex.long 2097152).Valid ∧ received w.trace ++ tail = [0x20, 2, 0, 0] ++ (Ex.long 2097152).bytes ∧
    w.ctx.buffered.length = w.ctx.bufSize ∧ w.ctx.buffered ≠ [] ∧ readHeader w.ctx.buffered = .incomplete := by
  have hn : n = 2 ∨ n = 3 ∨ n = 4 := by omega
  have hv : ∀ x ∈ Ex.longStart, ValidCall Ex.g x.2 := by
    intro x hx
    simp only [Ex.longStart, List.mem_cons, List.not_mem_nil, or_false] at hx
    rcases hx with rfl | rfl
    · exact Ex.connectValid
    · trivial
  have hlen : (Ex.long 2097152).body.length = 2097152 := List.length_replicate
  have hb : (Ex.long 2097152).bytes = [0x30, 0x80, 0x80, 0x80, 0x01] ++ (Ex.long 2097152).body := by
    unfold Raw.bytes packet
    rw [hlen, varInt, varInt, varInt, varInt]
    rfl
  have hvalid : (Ex.long 2097152).Valid := ⟨by decide, by rw [hlen]; decide⟩
  have fin : ∀ n, (Ex.play (Ex.small n) Ex.longStart).isSome = true → (Ex.longRun n).2.ctx.connectStatus = .connected → (Ex.longRun n).2.ctx.bufSize = n →
      received (Ex.longRun n).2.trace = [0x20, 2, 0, 0] ++ [0x30, 0x80, 0x80, 0x80, 0x01].take n →
      (Ex.longRun n).2.ctx.buffered = [0x30, 0x80, 0x80, 0x80, 0x01].take n → n = 2 ∨ n = 3 ∨ n = 4 →
      ∃ h w tail, FromInit Ex.g h w ∧ w.ctx.connectStatus = .connected ∧ w.ctx.bufSize = n ∧
        (Ex.long 2097152).Valid ∧ received w.trace ++ tail = [0x20, 2, 0, 0] ++ (Ex.long 2097152).bytes ∧
        w.ctx.buffered.length = w.ctx.bufSize ∧ w.ctx.buffered ≠ [] ∧ readHeader w.ctx.buffered = .incomplete := by
    intro n h1 k1 k2 k3 k4 hn
    obtain ⟨⟨h, w'⟩, he⟩ := Option.isSome_iff_exists.mp h1
    have hw : Ex.longRun n = (h, w') := by rw [Ex.longRun, he]; rfl
    refine ⟨h, w', [0x30, 0x80, 0x80, 0x80, 0x01].drop n ++ (Ex.long 2097152).body, ⟨Ex.gOk, Ex.small n, Ex.smallInit n, rfl, Ex.play_hist hv he⟩, ?_⟩
    rw [hw] at k1 k2 k3 k4
    refine ⟨k1, k2, hvalid, ?_, ?_, ?_, ?_⟩
    · rw [k3, hb, List.append_assoc, ← List.append_assoc (List.take n _), List.take_append_drop]
    · rw [k2, k4]; rcases hn with rfl | rfl | rfl <;> decide
    · rw [k4]; rcases hn with rfl | rfl | rfl <;> decide
    · rw [k4]; rcases hn with rfl | rfl | rfl <;> decide +kernel
  rcases hn with rfl | rfl | rfl
  · exact fin 2 (by decide +kernel) (by decide +kernel) (by decide +kernel) (by decide +kernel) (by decide +kernel) (by simp)
  · exact fin 3 (by decide +kernel) (by decide +kernel) (by decide +kernel) (by decide +kernel) (by decide +kernel) (by simp)
  · exact fin 4 (by decide +kernel) (by decide +kernel) (by decide +kernel) (by decide +kernel) (by decide +kernel) (by simp)

/-- Non-vacuity of `C84_stalls`: with four bytes, further calls of the client of `C84_four`. -/
example : (Ex.longRun 4).2.ctx.buffered.length = (Ex.longRun 4).2.ctx.bufSize ∧ readHeader (Ex.longRun 4).2.ctx.buffered = .incomplete ∧
    (Ex.play (Ex.longRun 4).2 [(Codes.at 5 [0x01, 0, 0, 0, 0], .receiveLoop), (Codes.at 10 [0x01, 0, 0, 0, 0], .processLoop)]).map (fun x => (x.1.map (·.2), x.2.ctx.buffered)) =
      some ([.status .needMoreBytes, .status .needMoreBytes], [0x30, 0x80, 0x80, 0x80]) := by
  decide +kernel

/-- **C84** Five bytes are enough: as long as the bytes received are those of valid packets, however long these are, and no receive call reports a failure, the buffer is
never full when a receive call begins. -/
theorem C84_five {g : Cfg} {h0 h : List (ApiCall × ApiRet)} {w w' : World} (hh : FromInit g h0 w) (hs : Hist g w h w')
    (hp : ∀ x ∈ h, plainCall x.1 = true) (hroom : w.ctx.buffered.length < w.ctx.bufSize) (h5 : 5 ≤ w.ctx.bufSize) {es : List Event}
    (hes : w'.trace = w.trace ++ es) {pkts : List Raw} {tail : List UInt8} (hv : ∀ p ∈ pkts, p.Valid)
    (hstream : w.ctx.buffered ++ received es ++ tail = pkts.flatMap Raw.bytes) (hf : ∀ x ∈ h, x.2 ≠ .status .recvFailed) :
    w'.ctx.buffered.length < w'.ctx.bufSize := by
  have key := (stream_room hh hs hp hroom hes hv hstream (Or.inr ⟨h5, hf⟩)).2.1
  rw [buffered_length (Nat.le_of_lt key)]
  exact key

/-- Non-vacuity of `C84_five`: a client with five bytes receives, in pieces of two bytes, a PUBLISH of 12 bytes, which it drops, and a PINGRESP, which it handles. -/
example : let w := (Ex.play (Ex.small 5) [(Codes.at 0 [0x20, 2, 0, 0], Ex.connectCall)]).map (·.2)
    let steps := [(Ex.env ([0x30, 10] ++ List.replicate 10 0), .receiveLoop), (Ex.env [0xD0, 0], .processLoop)]
    (w.map fun w => (w.ctx.bufSize, w.ctx.buffered.length)) = some (5, 0) ∧
    ((w.bind fun w => Ex.play w steps).map fun x => (x.1.map (·.2), x.2.ctx.buffered, callbacks x.2.trace)) =
      some ([.status .success, .status .success], [], []) := by
  decide +kernel

end Mqtt
