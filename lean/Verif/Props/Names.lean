/-
C66: the text for an enumerator names that enumerator and no other.
-/
import Verif.Model.Names
import Verif.Spec.Names

namespace Mqtt
open Spec

/-- An integer outside the first `n` values. -/
private theorem nameAt_out (names : List String) (other : String) (v : Int) (h : v < 0 ∨ names.length ≤ v) : nameAt names other v = other := by
  unfold nameAt
  split
  · rw [List.getD_eq_getElem?_getD, List.getElem?_eq_none (by omega)]; rfl
  · rfl

/-- **C66** For every integer, `MQTT_Status_strerror` returns the name of the enumerator of `MQTTStatus_t` with that value, and
"Invalid MQTT Status code" if there is none. -/
theorem C66_status (v : Int) : mqttStatusStrerror v = nameAt statusEnumerators "Invalid MQTT Status code" v := by
  by_cases h : 0 ≤ v ∧ v < 17
  · obtain ⟨n, rfl⟩ := Int.eq_ofNat_of_zero_le h.1
    have hn : n < 17 := by omega
    have : ∀ n : Fin 17, mqttStatusStrerror (n.val : Int) = nameAt statusEnumerators "Invalid MQTT Status code" (n.val : Int) := by decide +kernel
    exact this ⟨n, hn⟩
  · rw [nameAt_out _ _ _ (by simp [statusEnumerators]; omega)]
    have hs : v ≠ 0 ∧ v ≠ 1 ∧ v ≠ 2 ∧ v ≠ 3 ∧ v ≠ 4 ∧ v ≠ 5 ∧ v ≠ 6 ∧ v ≠ 7 ∧ v ≠ 8 ∧ v ≠ 9 ∧ v ≠ 10 ∧ v ≠ 11 ∧ v ≠ 12 ∧ v ≠ 13 ∧ v ≠ 14 ∧ v ≠ 15 ∧ v ≠ 16 := by omega
    simp [mqttStatusStrerror, Status.code, hs]

/-- **C66** The same for `MQTT_State_strerror` and `MQTTPublishState_t`. -/
theorem C66_state (v : Int) : mqttStateStrerror v = nameAt stateEnumerators "Invalid MQTT State" v := by
  by_cases h : 0 ≤ v ∧ v < 11
  · obtain ⟨n, rfl⟩ := Int.eq_ofNat_of_zero_le h.1
    have hn : n < 11 := by omega
    have : ∀ n : Fin 11, mqttStateStrerror (n.val : Int) = nameAt stateEnumerators "Invalid MQTT State" (n.val : Int) := by decide +kernel
    exact this ⟨n, hn⟩
  · rw [nameAt_out _ _ _ (by simp [stateEnumerators]; omega)]
    have hs : v ≠ 0 ∧ v ≠ 1 ∧ v ≠ 2 ∧ v ≠ 3 ∧ v ≠ 4 ∧ v ≠ 5 ∧ v ≠ 6 ∧ v ≠ 7 ∧ v ≠ 8 ∧ v ≠ 9 ∧ v ≠ 10 := by omega
    simp [mqttStateStrerror, PubState.toNat, hs]

/-- **C66** Two status codes have the same text only if they are the same code or neither is a status code; so a log line identifies the code
that was returned. -/
theorem C66_status_distinct (v v' : Int) (h : mqttStatusStrerror v = mqttStatusStrerror v') :
    v = v' ∨ ((v < 0 ∨ 17 ≤ v) ∧ (v' < 0 ∨ 17 ≤ v')) := by
  have key : ∀ a b : Fin 17, nameAt statusEnumerators "Invalid MQTT Status code" a.val = nameAt statusEnumerators "Invalid MQTT Status code" b.val →
    a = b := by decide +kernel
  have inv : ∀ a : Fin 17, nameAt statusEnumerators "Invalid MQTT Status code" a.val ≠ "Invalid MQTT Status code" := by decide +kernel
  rw [C66_status, C66_status] at h
  by_cases hv : 0 ≤ v ∧ v < 17 <;> by_cases hv' : 0 ≤ v' ∧ v' < 17
  · obtain ⟨n, rfl⟩ := Int.eq_ofNat_of_zero_le hv.1
    obtain ⟨n', rfl⟩ := Int.eq_ofNat_of_zero_le hv'.1
    have := key ⟨n, by omega⟩ ⟨n', by omega⟩ h
    left; cases this; rfl
  · obtain ⟨n, rfl⟩ := Int.eq_ofNat_of_zero_le hv.1
    rw [nameAt_out _ _ v' (by simp [statusEnumerators]; omega)] at h
    exact absurd h (inv ⟨n, by omega⟩)
  · obtain ⟨n, rfl⟩ := Int.eq_ofNat_of_zero_le hv'.1
    rw [nameAt_out _ _ v (by simp [statusEnumerators]; omega)] at h
    exact absurd h.symm (inv ⟨n, by omega⟩)
  · right; omega

/-- **C66** The same for the states of a publish. -/
theorem C66_state_distinct (v v' : Int) (h : mqttStateStrerror v = mqttStateStrerror v') :
    v = v' ∨ ((v < 0 ∨ 11 ≤ v) ∧ (v' < 0 ∨ 11 ≤ v')) := by
  have key : ∀ a b : Fin 11, nameAt stateEnumerators "Invalid MQTT State" a.val = nameAt stateEnumerators "Invalid MQTT State" b.val →
    a = b := by decide +kernel
  have inv : ∀ a : Fin 11, nameAt stateEnumerators "Invalid MQTT State" a.val ≠ "Invalid MQTT State" := by decide +kernel
  rw [C66_state, C66_state] at h
  by_cases hv : 0 ≤ v ∧ v < 11 <;> by_cases hv' : 0 ≤ v' ∧ v' < 11
  · obtain ⟨n, rfl⟩ := Int.eq_ofNat_of_zero_le hv.1
    obtain ⟨n', rfl⟩ := Int.eq_ofNat_of_zero_le hv'.1
    have := key ⟨n, by omega⟩ ⟨n', by omega⟩ h
    left; cases this; rfl
  · obtain ⟨n, rfl⟩ := Int.eq_ofNat_of_zero_le hv.1
    rw [nameAt_out _ _ v' (by simp [stateEnumerators]; omega)] at h
    exact absurd h (inv ⟨n, by omega⟩)
  · obtain ⟨n, rfl⟩ := Int.eq_ofNat_of_zero_le hv'.1
    rw [nameAt_out _ _ v (by simp [stateEnumerators]; omega)] at h
    exact absurd h.symm (inv ⟨n, by omega⟩)
  · right; omega

example : mqttStatusStrerror Status.keepAliveTimeout.code = "MQTTKeepAliveTimeout" := by decide +kernel
example : mqttStatusStrerror 17 = "Invalid MQTT Status code" ∧ mqttStatusStrerror (-1) = "Invalid MQTT Status code" := by decide +kernel
example : mqttStateStrerror PubState.pubRelPending.toNat = "MQTTPubRelPending" := by decide +kernel
example : mqttStatusStrerror 17 = mqttStatusStrerror 99 := by decide +kernel

end Mqtt
