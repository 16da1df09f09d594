/- Properties C08 and C09: SUBSCRIBE and UNSUBSCRIBE packets. -/
import Verif.Proof.Subscribe

namespace Mqtt
set_option linter.unusedSimpArgs false
open Spec

/-- The true body length of a (UN)SUBSCRIBE for a list: two bytes of packet id, and for each filter two length bytes, the
filter, and for SUBSCRIBE the requested QoS. -/
def Spec.subscriptionLength (ty : SubType) (subs : List SubscribeInfo) : Nat :=
  2 + (subs.map fun s => 2 + s.topicFilterLength.toNat + (if ty = .subscribe then 1 else 0)).sum

theorem subscriptionLength_eq (ty : SubType) (subs : List SubscribeInfo) :
    Spec.subscriptionLength ty subs = 2 + filtersLen ty subs := by
  unfold Spec.subscriptionLength
  congr 1
  induction subs with
  | nil => rfl
  | cons s rest ih => simp only [List.map_cons, List.sum_cons, filtersLen, ih]; omega

/-- **C08** (SUBSCRIBE). -/
theorem C08_subscribe_lossless {W : Nat} (hW : 2 ^ 32 ≤ W) (subs : List SubscribeInfo) (id : UInt16)
    (buf : List UInt8) (size r s : Nat) (hv : ValidSubs subs) (hid : id ≠ 0)
    (hnw : subscriptionLength .subscribe subs < W) (hbuf : size ≤ buf.length)
    (hsize : getSubscriptionPacketSize W .subscribe (some subs) = ⟨.success, r, s⟩) (hfit : s ≤ size) :
    ∃ out body, serializeSubscription W .subscribe (some subs) id r (some ⟨some buf, size⟩) = .ok (.success, some out) ∧
      out.length = buf.length ∧ out.drop s = buf.drop s ∧
      readPacket (out.take s) = some (0x82, body, []) ∧ body.length = r ∧
      parseSubscribe body = some (id.toNat,
        subs.map fun s => (bytesOf s.pTopicFilter s.topicFilterLength.toNat, s.qos.toFin)) := by
  rw [subscriptionLength_eq] at hnw
  obtain ⟨h1, h2, h3, h4, h5, h6⟩ := serializeSubscription_eq (id := id) hW hv hnw hbuf hsize
  rw [if_neg hid, if_neg (by omega)] at h1
  refine ⟨_, subBody .subscribe id subs, h1, ?_, ?_, ?_, h2.symm, ?_⟩
  · simp only [List.length_append, List.length_drop, ← h3]; omega
  · conv => lhs; rw [h3]
    rw [List.drop_left, ← h3]
  · conv => lhs; rw [h3]
    rw [List.take_left, subPacket_eq]
    have := readPacket_packet (t := 0x82) (by decide) (body := subBody .subscribe id subs) (by omega) []
    rwa [List.append_nil] at this
  · refine parseSubscribe_body id.toNat_lt (fun h => hid (UInt16.toNat.inj h)) ?_ ?_
    · simpa [subsSpec] using h5
    · intro f hf
      simp only [subsSpec, List.mem_map] at hf
      obtain ⟨x, hx, rfl⟩ := hf
      have := x.topicFilterLength.toNat_lt
      simp only [bytesOf, List.length_take]; omega

/-- **C08** (UNSUBSCRIBE). -/
theorem C08_unsubscribe_lossless {W : Nat} (hW : 2 ^ 32 ≤ W) (subs : List SubscribeInfo) (id : UInt16)
    (buf : List UInt8) (size r s : Nat) (hv : ValidSubs subs) (hid : id ≠ 0)
    (hnw : subscriptionLength .unsubscribe subs < W) (hbuf : size ≤ buf.length)
    (hsize : getSubscriptionPacketSize W .unsubscribe (some subs) = ⟨.success, r, s⟩) (hfit : s ≤ size) :
    ∃ out body, serializeSubscription W .unsubscribe (some subs) id r (some ⟨some buf, size⟩) = .ok (.success, some out) ∧
      out.length = buf.length ∧ out.drop s = buf.drop s ∧
      readPacket (out.take s) = some (0xA2, body, []) ∧ body.length = r ∧
      parseUnsubscribe body = some (id.toNat,
        subs.map fun s => bytesOf s.pTopicFilter s.topicFilterLength.toNat) := by
  rw [subscriptionLength_eq] at hnw
  obtain ⟨h1, h2, h3, h4, h5, h6⟩ := serializeSubscription_eq (id := id) hW hv hnw hbuf hsize
  rw [if_neg hid, if_neg (by omega)] at h1
  refine ⟨_, subBody .unsubscribe id subs, h1, ?_, ?_, ?_, h2.symm, ?_⟩
  · simp only [List.length_append, List.length_drop, ← h3]; omega
  · conv => lhs; rw [h3]
    rw [List.drop_left, ← h3]
  · conv => lhs; rw [h3]
    rw [List.take_left, subPacket_eq]
    have := readPacket_packet (t := 0xA2) (by decide) (body := subBody .unsubscribe id subs) (by omega) []
    rwa [List.append_nil] at this
  · have := parseUnsubscribe_body (fs := (subsSpec subs).map Prod.fst) id.toNat_lt (fun h => hid (UInt16.toNat.inj h)) ?_ ?_
    · simpa [subsSpec, subBody, Function.comp_def] using this
    · simpa [subsSpec] using h5
    · intro f hf
      simp only [subsSpec, List.map_map, List.mem_map, Function.comp] at hf
      obtain ⟨x, hx, rfl⟩ := hf
      have := x.topicFilterLength.toNat_lt
      simp only [bytesOf, List.length_take]; omega

/-- Non-vacuity of C08: two filters. -/
example :
    let subs : List SubscribeInfo := [⟨.qos1, some [0x61], 1⟩, ⟨.qos2, some [0x62, 0x2F, 0x23], 3⟩]
    ValidSubs subs ∧ getSubscriptionPacketSize (2 ^ 32) .subscribe (some subs) = ⟨.success, 12, 14⟩ ∧
    serializeSubscription (2 ^ 32) .subscribe (some subs) 258 12 (some ⟨some (List.replicate 15 9), 15⟩) =
      .ok (.success, some [0x82, 12, 1, 2, 0, 1, 0x61, 1, 0, 3, 0x62, 0x2F, 0x23, 2, 9]) ∧
    getSubscriptionPacketSize (2 ^ 32) .unsubscribe (some subs) = ⟨.success, 10, 12⟩ ∧
    serializeSubscription (2 ^ 32) .unsubscribe (some subs) 258 10 (some ⟨some (List.replicate 13 9), 13⟩) =
      .ok (.success, some [0xA2, 10, 1, 2, 0, 1, 0x61, 0, 3, 0x62, 0x2F, 0x23, 9]) := by
  refine ⟨?_, by decide +kernel, by decide +kernel, by decide +kernel, by decide +kernel⟩
  intro s hs _
  simp only [List.mem_cons, List.not_mem_nil, or_false] at hs
  rcases hs with rfl | rfl
  · exact ⟨_, rfl, by decide⟩
  · exact ⟨_, rfl, by decide⟩

/-- **C09**, proved for lists whose true length does not reach the `size_t` range `W` (always the case when fewer than
`W / 65538` filters are given): the size functions succeed exactly when every filter is present and non-empty and the true length
is within the protocol limit, with exact sizes, and return `MQTTBadParameter` otherwise.
Missing from the full C09: lists whose true length is at least `W`; for these the claim is false, see `C09_wraps`. -/
theorem C09_subscription_size_exact_partial {W : Nat} (hW : 2 ^ 32 ≤ W) (ty : SubType) (subs : List SubscribeInfo)
    (hnw : subscriptionLength ty subs < W) :
    let n := subscriptionLength ty subs
    let ok := subs ≠ [] ∧ (∀ s ∈ subs, s.topicFilterLength ≠ 0 ∧ s.pTopicFilter ≠ none) ∧ n ≤ 268435455
    (ok → getSubscriptionPacketSize W ty (some subs) = ⟨.success, n, 1 + (varInt n).length + n⟩) ∧
    (¬ ok → (getSubscriptionPacketSize W ty (some subs)).status = .badParameter) := by
  intro n ok
  have hn : n = 2 + filtersLen ty subs := subscriptionLength_eq ty subs
  have hmod : (2 + filtersLen ty subs) % W = n := by rw [← hn]; exact Nat.mod_eq_of_lt hnw
  rw [getSubscriptionPacketSize_eq hW, hmod]
  constructor
  · rintro ⟨h1, h2, h3⟩
    rw [if_neg, varInt_length h3]
    rintro (h | ⟨s, hs, hb⟩ | h)
    · exact h1 h
    · rcases hb with hb | hb
      · exact (h2 s hs).1 hb
      · exact (h2 s hs).2 hb
    · simp only [maxRemaining] at h; omega
  · intro hok
    rw [if_pos]
    apply Classical.byContradiction
    intro hc
    simp only [not_or, not_exists, not_and] at hc
    apply hok
    refine ⟨hc.1, fun s hs => ?_, by have := hc.2.2; simp only [maxRemaining] at this; omega⟩
    have := hc.2.1 s hs
    simp only [SubscribeInfo.bad, not_or] at this
    exact this

/-- Fewer than `W / 65538` filters never wrap. -/
theorem C09_no_wrap_for_short_lists {W : Nat} (ty : SubType) (subs : List SubscribeInfo)
    (h : 2 + subs.length * 65538 < W) : subscriptionLength ty subs < W := by
  rw [subscriptionLength_eq]
  have : filtersLen ty subs ≤ subs.length * 65538 := by
    clear h
    induction subs with
    | nil => simp [filtersLen]
    | cons s rest ih =>
      have := s.topicFilterLength.toNat_lt
      simp only [filtersLen, List.length_cons]
      split <;> omega
  omega

/-- What the size functions report for every list, also for those on which they are wrong: they count modulo the `size_t` range. -/
theorem C09_exact {W : Nat} (hW : 2 ^ 32 ≤ W) (ty : SubType) (subs : List SubscribeInfo) :
    let n := subscriptionLength ty subs % W
    let ok := subs ≠ [] ∧ (∀ s ∈ subs, s.topicFilterLength ≠ 0 ∧ s.pTopicFilter ≠ none) ∧ n ≤ 268435455
    (ok → getSubscriptionPacketSize W ty (some subs) = ⟨.success, n, 1 + (varInt n).length + n⟩) ∧
    (¬ ok → (getSubscriptionPacketSize W ty (some subs)).status = .badParameter) := by
  intro n ok
  have hmod : (2 + filtersLen ty subs) % W = n := by rw [← subscriptionLength_eq]
  rw [getSubscriptionPacketSize_eq hW, hmod]
  constructor
  · rintro ⟨h1, h2, h3⟩
    rw [if_neg, varInt_length h3]
    rintro (h | ⟨s, hs, hb⟩ | h)
    · exact h1 h
    · rcases hb with hb | hb
      · exact (h2 s hs).1 hb
      · exact (h2 s hs).2 hb
    · simp only [maxRemaining] at h; omega
  · intro hok
    rw [if_pos]
    apply Classical.byContradiction
    intro hc
    simp only [not_or, not_exists, not_and] at hc
    apply hok
    refine ⟨hc.1, fun s hs => ?_, by have := hc.2.2; simp only [maxRemaining] at this; omega⟩
    have := hc.2.1 s hs
    simp only [SubscribeInfo.bad, not_or] at this
    exact this

/-- So the lists whose size is accepted although their packet would be too large are exactly those, without a bad filter, whose true length wraps to a permitted one. -/
theorem C09_wrong_iff {W : Nat} (hW : 2 ^ 32 ≤ W) (ty : SubType) (subs : List SubscribeInfo) :
    ((getSubscriptionPacketSize W ty (some subs)).status = .success ∧ 268435455 < subscriptionLength ty subs) ↔
    ((∀ s ∈ subs, s.topicFilterLength ≠ 0 ∧ s.pTopicFilter ≠ none) ∧ W ≤ subscriptionLength ty subs ∧ subscriptionLength ty subs % W ≤ 268435455) := by
  obtain ⟨h1, h2⟩ := C09_exact hW ty subs
  constructor
  · rintro ⟨h3, h4⟩
    have hok := Classical.byContradiction fun h => absurd (h3.symm.trans (h2 h)) (by decide)
    refine ⟨hok.2.1, ?_, hok.2.2⟩
    apply Classical.byContradiction
    intro hlt
    have := hok.2.2
    rw [Nat.mod_eq_of_lt (by omega)] at this
    omega
  · rintro ⟨h3, h4, h5⟩
    refine ⟨?_, by omega⟩
    rw [h1 ⟨?_, h3, h5⟩]
    rintro rfl
    have : subscriptionLength ty [] = 2 := by rw [subscriptionLength_eq]; rfl
    omega

/-- Non-vacuity of C09. -/
example : subscriptionLength .subscribe [⟨.qos1, some [0x61], 1⟩] < 2 ^ 32 ∧
    getSubscriptionPacketSize (2 ^ 32) .subscribe (some [⟨.qos1, some [0x61], 1⟩]) = ⟨.success, 6, 8⟩ := by decide +kernel

theorem filtersLen_replicate (ty : SubType) (s : SubscribeInfo) (k : Nat) :
    filtersLen ty (List.replicate k s) = k * (s.topicFilterLength.toNat + 2 + (if ty = .subscribe then 1 else 0)) := by
  induction k with
  | zero => simp [filtersLen]
  | succ k ih => rw [List.replicate_succ, filtersLen, ih, Nat.succ_mul]; omega

/-- The negation of the full C09 for a 32-bit `size_t`: 65535 filters of 65535 bytes each have a true length of 4294967297
bytes, far beyond the protocol limit, yet `MQTT_GetUnsubscribePacketSize` reports success and a length of 1. -/
theorem C09_wraps : ∃ subs : List SubscribeInfo, ValidSubs subs ∧
    subscriptionLength .unsubscribe subs = 4294967297 ∧
    getSubscriptionPacketSize (2 ^ 32) .unsubscribe (some subs) = ⟨.success, 1, 3⟩ := by
  refine ⟨List.replicate 65535 ⟨.qos0, some (List.replicate 65535 0x61), 65535⟩, ?_, ?_, ?_⟩
  · intro s hs _
    rw [List.eq_of_mem_replicate hs]
    exact ⟨_, rfl, by rw [List.length_replicate]; decide⟩
  · rw [subscriptionLength_eq, filtersLen_replicate]; rfl
  · rw [getSubscriptionPacketSize_eq (by decide), filtersLen_replicate]
    rw [if_neg]
    · rfl
    · rintro (h | ⟨s, hs, hb⟩ | h)
      · exact absurd (congrArg List.length h) (by rw [List.length_replicate]; decide)
      · rw [List.eq_of_mem_replicate hs] at hb
        rcases hb with hb | hb
        · exact absurd hb (by decide)
        · cases hb
      · exact absurd h (by decide)

end Mqtt
