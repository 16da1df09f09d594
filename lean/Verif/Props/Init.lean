/-
The functions that prepare a context: C45 for `MQTT_Init`, `MQTT_InitStatefulQoS` and `MQTT_InitRetransmits`.
-/
import Verif.Props.Example

namespace Mqtt
open Spec

/-- Everything `MQTT_Init` needs is there. -/
def InitPtrs.Complete (a : InitPtrs) : Prop :=
  a.pContext = true ∧ a.pTransportInterface = true ∧ a.getTimeFunction = true ∧ a.userCallback = true ∧ a.pNetworkBuffer = true ∧
  a.recv = true ∧ a.send = true

/-- A record array is given exactly when its number of records is not zero. -/
def ArrayOk (recs : Option Records) (count : Nat) : Prop := recs ≠ none ↔ count ≠ 0

/-- **C45** for `MQTT_Init`: it refuses a missing pointer and leaves the context alone, and it refuses nothing else. -/
theorem C45_init (a : InitPtrs) (writev : Bool) (buf : List UInt8) :
    (¬ a.Complete → mqttInit a writev buf = (.badParameter, none)) ∧
    (a.Complete → ∃ c, mqttInit a writev buf = (.success, some c) ∧ c.connectStatus = .notConnected ∧ c.nextPacketId = 1 ∧
      inFlight c.tables.outgoing = [] ∧ inFlight c.tables.incoming = [] ∧ c.netBuf = buf ∧ c.index = 0 ∧ c.retransmits = false) := by
  obtain ⟨p1, p2, p3, p4, p5, p6, p7⟩ := a
  constructor
  · intro h
    cases p1 <;> cases p2 <;> cases p3 <;> cases p4 <;> cases p5 <;> cases p6 <;> cases p7 <;>
      first | rfl | exact absurd ⟨rfl, rfl, rfl, rfl, rfl, rfl, rfl⟩ h
  · rintro ⟨h1, h2, h3, h4, h5, h6, h7⟩
    cases h1; cases h2; cases h3; cases h4; cases h5; cases h6; cases h7
    exact ⟨_, rfl, rfl, rfl, rfl, rfl, rfl, rfl, rfl⟩

/-- **C45** for `MQTT_InitStatefulQoS`: a count without an array, or an array without a count, is refused and the context is left alone;
otherwise the context has the arrays, and nothing else changes. -/
theorem C45_init_records (c : Ctx) (out inc : Option Records) (outCount incCount : Nat) :
    (¬ (ArrayOk out outCount ∧ ArrayOk inc incCount) → mqttInitStatefulQoS c out outCount inc incCount = (.badParameter, c)) ∧
    (ArrayOk out outCount ∧ ArrayOk inc incCount → mqttInitStatefulQoS c out outCount inc incCount =
      (.success, { c with tables := ⟨(out.getD []).take outCount, (inc.getD []).take incCount⟩ })) := by
  have e : ∀ (x : Option Records) (n : Nat), (decide (n = 0) ≠ x.isNone) ↔ ¬ ArrayOk x n := by
    intro x n
    unfold ArrayOk
    cases x <;> by_cases hn : n = 0 <;> simp [hn]
  unfold mqttInitStatefulQoS
  constructor
  · intro h
    by_cases h1 : ArrayOk out outCount
    · rw [if_neg (fun x => (e _ _).mp x h1), if_pos ((e _ _).mpr fun x => h ⟨h1, x⟩)]
    · rw [if_pos ((e _ _).mpr h1)]
  · rintro ⟨h1, h2⟩
    rw [if_neg (fun x => (e _ _).mp x h1), if_neg (fun x => (e _ _).mp x h2)]

/-- **C45** for `MQTT_InitRetransmits`: unless all three callbacks are there it refuses and leaves the context alone; otherwise copies are kept
from now on, and nothing else changes. -/
theorem C45_init_retransmits (c : Ctx) (store retrieve clear : Bool) :
    (¬ (store = true ∧ retrieve = true ∧ clear = true) → mqttInitRetransmits c store retrieve clear = (.badParameter, c)) ∧
    (store = true ∧ retrieve = true ∧ clear = true → mqttInitRetransmits c store retrieve clear = (.success, { c with retransmits := true })) := by
  cases store <;> cases retrieve <;> cases clear <;>
    first
    | exact ⟨fun _ => rfl, fun h => by simp at h⟩
    | exact ⟨fun h => absurd ⟨rfl, rfl, rfl⟩ h, fun _ => rfl⟩

/-- Both cases of the three theorems occur. -/
example : (⟨true, true, true, true, true, true, true⟩ : InitPtrs).Complete ∧ ¬ (⟨true, true, true, true, true, false, true⟩ : InitPtrs).Complete ∧
    ArrayOk (some [Rec.empty]) 1 ∧ ArrayOk none 0 ∧ ¬ ArrayOk none 2 ∧ ¬ ArrayOk (some [Rec.empty]) 0 := by
  simp [InitPtrs.Complete, ArrayOk]

end Mqtt
