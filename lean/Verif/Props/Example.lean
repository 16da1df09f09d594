/-
A concrete configuration, context and environment.  The examples beside the theorems about core_mqtt.c use them to show that the
hypotheses are met by non-trivial runs.
-/
import Verif.Spec.Calls

namespace Mqtt.Ex
open Mqtt Spec

def g : Cfg := ⟨2 ^ 32, 4, 5, 5000, 30000, 30000, 10, 20000⟩

theorem gOk : CfgOk g := ⟨by decide, by decide⟩

/-- Initialised with a buffer of 64 bytes, room for two publishes in each direction, and the callbacks for retransmission. -/
def ctx (writev : Bool) : Ctx :=
  { connectStatus := .notConnected, keepAliveIntervalSec := 0, pingReqSendTimeMs := 0, lastPacketTxTime := 0,
    lastPacketRxTime := 0, waitingForPingResp := false, controlPacketSent := false, nextPacketId := 1, index := 0,
    netBuf := List.replicate 64 0, tables := ⟨List.replicate 2 Rec.empty, List.replicate 2 Rec.empty⟩, hasWritev := writev,
    retransmits := true }

theorem ctxInit (writev : Bool) : Initialised (ctx writev) :=
  .retransmits (s := true) (r := true) (k := true)
    (.stateful (out := some (List.replicate 2 Rec.empty)) (outCount := 2) (inc := some (List.replicate 2 Rec.empty)) (incCount := 2)
      (.init (a := ⟨true, true, true, true, true, true, true⟩) (hasWritev := writev) (buf := List.replicate 64 0) rfl)
      (fun recs h => by cases h; exact ⟨Nat.le_refl _, fun r hr => (List.mem_replicate.mp hr).2⟩)
      (fun recs h => by cases h; exact ⟨Nat.le_refl _, fun r hr => (List.mem_replicate.mp hr).2⟩) rfl) rfl

/-- The transport takes three bytes and delivers two bytes at a time; the clock counts milliseconds; storing succeeds. -/
def env (input : List UInt8) : Env :=
  ⟨List.replicate 40 (.accept 3), List.replicate 40 (.deliver 2), input, (List.range 100).map UInt32.ofNat, List.replicate 4 true, []⟩

def w0 : World := ⟨ctx true, env [], []⟩

/-- Keep the session; client id "AB". -/
def ci : ConnectInfo := ⟨false, 60, some [65, 66], 2, none, 0, none, 0⟩
/-- Topic "ab", payload 1 2 3. -/
def pub (q : QoS) : PublishInfo := ⟨q, false, false, some [97, 98], 2, some [1, 2, 3], 3⟩

theorem pubValid (q : QoS) : (pub q).Valid := ⟨fun _ => ⟨_, rfl, by cases q <;> decide⟩, fun _ => ⟨_, rfl, by simp [pub]⟩⟩

theorem ciValid : ci.Valid none := ⟨fun _ => ⟨_, rfl, by decide⟩, fun h => absurd rfl h, fun h => absurd rfl h, fun _ h => by cases h⟩

def connectCall : ApiCall := .connect (some ci) none 1000 (some true)
def publishCall (q : QoS) (id : UInt16) : ApiCall := .publish (some (pub q)) id

theorem connectValid : ValidCall g connectCall := fun c h => by cases h; exact ciValid
theorem publishValid (q : QoS) (id : UInt16) : ValidCall g (publishCall q id) :=
  fun c h => by cases h; exact ⟨pubValid q, by simp [pub, g]⟩

/-- Run calls one after the other. -/
def play (w : World) : List (Env × ApiCall) → Option (List (ApiCall × ApiRet) × World)
  | [] => some ([], w)
  | (e, c) :: rest =>
    match callIn g w e c with
    | .done r w' => (play w' rest).map fun x => ((c, r) :: x.1, x.2)
    | _ => none

theorem Hist.cons {w w1 w2 : World} {h : List (ApiCall × ApiRet)} {e : Env} {c : ApiCall} {r : ApiRet} (hv : ValidCall g c)
    (h1 : callIn g w e c = .done r w1) (h2 : Hist g w1 h w2) : Hist g w ((c, r) :: h) w2 := by
  induction h2 with
  | start => exact Hist.call (.start _) hv h1
  | call h3 h4 h5 ih => exact Hist.call ih h4 h5

theorem play_hist {steps : List (Env × ApiCall)} : ∀ {w w' : World} {h : List (ApiCall × ApiRet)}, (∀ x ∈ steps, ValidCall g x.2) →
    play w steps = some (h, w') → Hist g w h w' := by
  induction steps with
  | nil => intro w w' h _ hp; cases hp; exact .start _
  | cons x rest ih =>
    intro w w' h hv hp
    obtain ⟨e, c⟩ := x
    simp only [play] at hp
    cases hc : callIn g w e c with
    | done r w1 =>
      rw [hc] at hp
      simp only at hp
      cases hq : play w1 rest with
      | none => rw [hq] at hp; cases hp
      | some y =>
        rw [hq] at hp
        cases hp
        exact Hist.cons (hv (e, c) List.mem_cons_self) hc (ih (fun y hy => hv y (List.mem_cons_of_mem _ hy)) hq)
    | stuck w1 => rw [hc] at hp; cases hp
    | ub er w1 => rw [hc] at hp; cases hp

/-- A session that exists: connect, publish with QoS 2, receive the PUBREC. -/
def session : List (Env × ApiCall) :=
  [(env [0x20, 2, 1, 0], connectCall), (env [], publishCall .qos2 7), (env [0x50, 2, 0, 7], .processLoop), (env [0, 7], .processLoop)]

/-- The history and the world it leads to. -/
def played (steps : List (Env × ApiCall)) : List (ApiCall × ApiRet) × World := (play w0 steps).getD ([], w0)

theorem played_fromInit {steps : List (Env × ApiCall)} (hv : ∀ x ∈ steps, ValidCall g x.2) (hp : (play w0 steps).isSome = true) :
    FromInit g (played steps).1 (played steps).2 := by
  obtain ⟨⟨h, w'⟩, he⟩ := Option.isSome_iff_exists.mp hp
  refine ⟨gOk, w0, ctxInit true, rfl, ?_⟩
  rw [played, he]
  exact play_hist hv he

theorem sessionValid : ∀ x ∈ session, ValidCall g x.2 := by
  intro x hx
  simp only [session, List.mem_cons, List.not_mem_nil, or_false] at hx
  rcases hx with rfl | rfl | rfl | rfl
  · exact connectValid
  · exact publishValid _ _
  · trivial
  · trivial

theorem session_fromInit : FromInit g (played session).1 (played session).2 :=
  played_fromInit sessionValid (by decide +kernel)

/-- It ends with PUBREL sent and PUBCOMP awaited. -/
theorem session_end : (played session).2.ctx.connectStatus = .connected ∧ (played session).2.ctx.index = 0 ∧
    (played session).1.map (·.2) = [.connect .success (some true), .status .success, .status .needMoreBytes, .status .success] ∧
    (played session).2.ctx.tables.outgoing = [⟨7, .qos2, .pubCompPending⟩, Rec.empty] := by
  decide +kernel

end Mqtt.Ex
