/- Helper lemmas for SUBSCRIBE and UNSUBSCRIBE. -/
import Verif.Proof.Connect

namespace Mqtt
open Spec
set_option linter.unusedSimpArgs false

def SubscribeInfo.bad (s : SubscribeInfo) : Prop := s.topicFilterLength = 0 ∨ s.pTopicFilter = none

instance (s : SubscribeInfo) : Decidable s.bad := by unfold SubscribeInfo.bad; infer_instance

theorem subscriptionSizeLoop_eq {W : Nat} (hW : 0 < W) (ty : SubType) (subs : List SubscribeInfo) :
    ∀ n st, n < W → subscriptionSizeLoop W ty subs n st =
      ((n + filtersLen ty subs) % W, if ∃ s ∈ subs, s.bad then .badParameter else st) := by
  induction subs with
  | nil => intro n st hn; simp [subscriptionSizeLoop, filtersLen, Nat.mod_eq_of_lt hn]
  | cons s rest ih =>
    intro n st hn
    rw [subscriptionSizeLoop]
    have hsz : (if ty = .subscribe then ((n + (s.topicFilterLength.toNat + 2)) % W + 1) % W
        else (n + (s.topicFilterLength.toNat + 2)) % W)
        = (n + (s.topicFilterLength.toNat + 2 + (if ty = .subscribe then 1 else 0))) % W := by
      split
      · rw [Nat.mod_add_mod]; congr 1
      · rfl
    rw [hsz, ih _ _ (Nat.mod_lt _ hW)]
    rw [Nat.mod_add_mod, Nat.add_assoc]
    simp only [filtersLen, List.mem_cons, exists_eq_or_imp, Prod.mk.injEq, true_and]
    by_cases h1 : s.bad
    · have h1' : s.topicFilterLength = 0 ∨ s.pTopicFilter = none := h1
      simp [h1, h1']
    · have h1' : ¬ (s.topicFilterLength = 0 ∨ s.pTopicFilter = none) := h1
      simp [h1, h1']

def filterBytes (ty : SubType) (s : SubscribeInfo) : List UInt8 :=
  str (bytesOf s.pTopicFilter s.topicFilterLength.toNat) ++
    (match ty with | .subscribe => [s.qos.toByte] | .unsubscribe => [])

theorem subBody_eq (ty : SubType) (id : UInt16) (subs : List SubscribeInfo) :
    subBody ty id subs = be16 id.toNat ++ subs.flatMap (filterBytes ty) := by
  cases ty
  · simp only [subBody, subscribeBody, subsSpec, List.flatMap_map]
    congr 2
    funext s
    simp only [filterBytes]
    cases s.qos <;> rfl
  · simp only [subBody, unsubscribeBody, subsSpec, List.map_map, List.flatMap_map]
    congr 2
    funext s
    simp [filterBytes]

theorem subPacket_eq (ty : SubType) (id : UInt16) (subs : List SubscribeInfo) :
    subPacket ty id subs = packet (match ty with | .subscribe => 0x82 | .unsubscribe => 0xA2) (subBody ty id subs) := by
  cases ty <;> rfl

theorem filterBytes_length {ty : SubType} {s : SubscribeInfo} (h : HasBytes s.pTopicFilter s.topicFilterLength.toNat) :
    (filterBytes ty s).length = s.topicFilterLength.toNat + 2 + (if ty = .subscribe then 1 else 0) := by
  unfold filterBytes
  rw [List.length_append, str_length, h.length]
  cases ty <;> simp <;> omega

theorem filters_length {ty : SubType} : ∀ {subs : List SubscribeInfo},
    (∀ s ∈ subs, HasBytes s.pTopicFilter s.topicFilterLength.toNat) →
    (subs.flatMap (filterBytes ty)).length = filtersLen ty subs
  | [], _ => rfl
  | s :: rest, h => by
    rw [List.flatMap_cons, List.length_append, filterBytes_length (h s (by simp)), filtersLen,
      filters_length fun s' hs' => h s' (by simp [hs'])]

theorem serializeFilters_cur {ty : SubType} {buf : List UInt8} : ∀ (subs : List SubscribeInfo) (pre : List UInt8),
    (∀ s ∈ subs, HasBytes s.pTopicFilter s.topicFilterLength.toNat) →
    pre.length + filtersLen ty subs ≤ buf.length →
    serializeFilters ty (cur buf pre) subs = .ok (cur buf (pre ++ subs.flatMap (filterBytes ty)))
  | [], pre, _, _ => by simp [serializeFilters]
  | s :: rest, pre, h, hfit => by
    have hs := h s (by simp)
    have hl := hs.length
    simp only [filtersLen] at hfit
    rw [serializeFilters, encodeString_cur hs (by omega), Res.ok_bind]
    have hrest := serializeFilters_cur (ty := ty) (buf := buf) rest (pre ++ filterBytes ty s)
      (fun s' hs' => h s' (by simp [hs'])) (by rw [List.length_append, filterBytes_length hs]; omega)
    cases ty
    · simp only at hfit ⊢
      rw [put_cur (by simp [str_length, hl] at hfit ⊢; omega), Res.ok_bind]
      rw [show pre ++ str (bytesOf s.pTopicFilter s.topicFilterLength.toNat) ++ [s.qos.toByte]
        = pre ++ filterBytes .subscribe s by simp [filterBytes], hrest]
      simp
    · simp only
      rw [Res.pure_eq, Res.ok_bind]
      rw [show pre ++ str (bytesOf s.pTopicFilter s.topicFilterLength.toNat)
        = pre ++ filterBytes .unsubscribe s by simp [filterBytes], hrest]
      simp

/-- What the size functions return, with and without wrap-around. -/
theorem getSubscriptionPacketSize_eq {W : Nat} (hW : 4294967296 ≤ W) (ty : SubType) (subs : List SubscribeInfo) :
    getSubscriptionPacketSize W ty (some subs) =
      if subs = [] ∨ (∃ s ∈ subs, s.bad) ∨ (2 + filtersLen ty subs) % W > maxRemaining then ⟨.badParameter, 0, 0⟩
      else ⟨.success, (2 + filtersLen ty subs) % W,
        1 + remainingLengthEncodedSize ((2 + filtersLen ty subs) % W) + (2 + filtersLen ty subs) % W⟩ := by
  unfold getSubscriptionPacketSize
  simp only [List.length_eq_zero_iff]
  by_cases h0 : subs = []
  · simp [h0]
  · simp only [h0, if_false, false_or]
    unfold calculateSubscriptionPacketSize
    rw [Nat.mod_eq_of_lt (show 2 < W by omega), subscriptionSizeLoop_eq (by omega) _ _ _ _ (by omega)]
    simp only []
    generalize (2 + filtersLen ty subs) % W = n
    have hen := encodedSize_le n
    by_cases hm : n > maxRemaining
    · have : n > maxRemainingLength := hm
      simp [hm, this]
    · have hm' : ¬ n > maxRemainingLength := hm
      simp only [hm, hm', if_false, or_false]
      by_cases hb : ∃ s ∈ subs, s.bad
      · simp [hb]
      · simp only [hb, if_false, if_true]
        simp only [maxRemaining] at hm
        rw [Nat.mod_eq_of_lt (by omega)]
        simp only [SizeRes.mk.injEq, true_and]
        omega

/-- `MQTT_SerializeSubscribe` / `MQTT_SerializeUnsubscribe` completely described, for a size obtained from the size
function when that did not wrap. -/
theorem serializeSubscription_eq {W : Nat} (hW : 4294967296 ≤ W) {ty : SubType} {subs : List SubscribeInfo}
    {id : UInt16} {buf : List UInt8} {size r s : Nat} (hv : ValidSubs subs)
    (hnw : 2 + filtersLen ty subs < W) (hbuf : size ≤ buf.length)
    (hs : getSubscriptionPacketSize W ty (some subs) = ⟨.success, r, s⟩) :
    serializeSubscription W ty (some subs) id r (some ⟨some buf, size⟩) =
      (if id = 0 then .ok (.badParameter, some buf)
      else if size < s then .ok (.noMemory, some buf)
      else .ok (.success, some (subPacket ty id subs ++ buf.drop s))) ∧
    r = (subBody ty id subs).length ∧ s = (subPacket ty id subs).length ∧ r ≤ maxRemaining ∧ subs ≠ [] ∧
    (∀ s ∈ subs, HasBytes s.pTopicFilter s.topicFilterLength.toNat ∧ s.topicFilterLength ≠ 0) := by
  rw [getSubscriptionPacketSize_eq hW, Nat.mod_eq_of_lt hnw] at hs
  split at hs
  · cases hs
  next hc =>
  simp only [not_or, not_exists, not_and] at hc
  obtain ⟨c1, c2, c3⟩ := hc
  simp only [SizeRes.mk.injEq, true_and] at hs
  obtain ⟨rfl, rfl⟩ := hs
  simp only [maxRemaining] at c3 ⊢
  have hall : ∀ s ∈ subs, HasBytes s.pTopicFilter s.topicFilterLength.toNat ∧ s.topicFilterLength ≠ 0 := by
    intro s hs
    have := c2 s hs
    simp only [SubscribeInfo.bad, not_or] at this
    exact ⟨hv s hs this.2, this.1⟩
  have hall' := fun s hs => (hall s hs).1
  have hbl : (subBody ty id subs).length = 2 + filtersLen ty subs := by
    rw [subBody_eq, List.length_append, be16_length, filters_length hall']
  have hpl : (subPacket ty id subs).length =
      1 + remainingLengthEncodedSize (2 + filtersLen ty subs) + (2 + filtersLen ty subs) := by
    rw [subPacket_eq, packet_length (by omega), hbl]
  refine ⟨?_, hbl.symm, hpl.symm, by omega, c1, hall⟩
  have hen := encodedSize_le (2 + filtersLen ty subs)
  unfold serializeSubscription validateSubscriptionSerializeParams
  simp only [reduceCtorEq, if_false, List.length_eq_zero_iff, c1]
  by_cases hid : id = 0
  · simp [hid]
  · rw [Nat.mod_eq_of_lt (by omega)]
    simp only [hid, if_false, gt_iff_lt]
    by_cases hfit : size < 1 + remainingLengthEncodedSize (2 + filtersLen ty subs) + (2 + filtersLen ty subs)
    · simp [hfit]
    · simp only [hfit, if_false]
      unfold serializeSubscriptionHeader
      rw [cur_nil]
      simp only [encodeRemainingLength_eq]
      have hvl := varInt_length (n := 2 + filtersLen ty subs) (by omega)
      rw [put_cur (by simp; omega), Res.ok_bind, put_cur (by simp; omega), Res.ok_bind,
        put_cur (by simp; omega), Res.ok_bind, put_cur (by simp; omega), Res.ok_bind,
        serializeFilters_cur _ _ hall' (by simp; omega), Res.ok_bind]
      have : ([] ++ [match ty with | .subscribe => ptSUBSCRIBE | .unsubscribe => ptUNSUBSCRIBE] ++ varInt (2 + filtersLen ty subs)
          ++ [highByte id] ++ [lowByte id] ++ subs.flatMap (filterBytes ty)) = subPacket ty id subs := by
        rw [subPacket_eq, packet, hbl, subBody_eq, ← hl_be16]
        cases ty <;> simp [ptSUBSCRIBE, ptUNSUBSCRIBE]
      rw [show ∀ x y : List UInt8, x = y → (pure (Status.success, some (cur buf x).mem) : Res (Status × Ptr))
        = .ok (.success, some (y ++ buf.drop y.length)) by rintro x _ rfl; rfl]
      case y => exact subPacket ty id subs
      · rw [hpl]
      · exact this

/-! ### The independent decoder reads the filters back -/

theorem parseFilters_flat : ∀ (fs : List (List UInt8 × Fin 3)) (fuel : Nat),
    (∀ f ∈ fs, f.1.length < 65536) → fs.length ≤ fuel →
    parseFilters fuel (fs.flatMap fun f => str f.1 ++ [UInt8.ofNat f.2.val]) = some fs
  | [], fuel, _, _ => by cases fuel <;> rfl
  | (f, q) :: fs, fuel, h, hf => by
    obtain ⟨k, rfl⟩ : ∃ k, fuel = k + 1 := ⟨fuel - 1, by simp at hf; omega⟩
    have ih := parseFilters_flat fs k (fun x hx => h x (by simp [hx])) (by simpa using hf)
    have hf' := h (f, q) (by simp)
    simp only [List.flatMap_cons, List.append_assoc, List.cons_append, List.nil_append]
    have hne : ∃ a l, str f ++ UInt8.ofNat q.val :: (fs.flatMap fun f => str f.1 ++ [UInt8.ofNat f.2.val]) = a :: l := by
      simp [str, be16]
    have hq : qosOfNat (UInt8.ofNat q.val).toNat = some q := by
      have : ∀ q : Fin 3, qosOfNat (UInt8.ofNat q.val).toNat = some q := by decide
      exact this q
    obtain ⟨a, l, hal⟩ := hne
    rw [hal, parseFilters, ← hal]
    · simp only [readStr_str hf', Option.bind_eq_bind, Option.bind_some, hq, ih]
    · simp

theorem parseUnsub_flat : ∀ (fs : List (List UInt8)) (fuel : Nat),
    (∀ f ∈ fs, f.length < 65536) → fs.length ≤ fuel →
    parseUnsubFilters fuel (fs.flatMap str) = some fs
  | [], fuel, _, _ => by cases fuel <;> rfl
  | f :: fs, fuel, h, hf => by
    obtain ⟨k, rfl⟩ : ∃ k, fuel = k + 1 := ⟨fuel - 1, by simp at hf; omega⟩
    have ih := parseUnsub_flat fs k (fun x hx => h x (by simp [hx])) (by simpa using hf)
    have hf' := h f (by simp)
    simp only [List.flatMap_cons]
    obtain ⟨a, l, hal⟩ : ∃ a l, str f ++ fs.flatMap str = a :: l := by simp [str, be16]
    rw [hal, parseUnsubFilters, ← hal]
    · simp [readStr_str hf', ih]
    · simp

theorem length_le_flat {α : Type} (g : α → List UInt8) (hg : ∀ a, 1 ≤ (g a).length) :
    ∀ l : List α, l.length ≤ (l.flatMap g).length
  | [] => by simp
  | a :: l => by
    have := hg a
    have := length_le_flat g hg l
    simp only [List.flatMap_cons, List.length_append, List.length_cons]; omega

theorem parseSubscribe_body {id : Nat} {fs : List (List UInt8 × Fin 3)} (hid : id < 65536) (h0 : id ≠ 0)
    (hne : fs ≠ []) (h : ∀ f ∈ fs, f.1.length < 65536) :
    parseSubscribe (subscribeBody id fs) = some (id, fs) := by
  unfold parseSubscribe subscribeBody
  rw [read16_be16 hid]
  simp only [Option.bind_eq_bind, Option.bind_some, h0, if_false]
  rw [parseFilters_flat fs _ h (length_le_flat _ (by intro a; simp) fs)]
  simp [hne]

theorem parseUnsubscribe_body {id : Nat} {fs : List (List UInt8)} (hid : id < 65536) (h0 : id ≠ 0)
    (hne : fs ≠ []) (h : ∀ f ∈ fs, f.length < 65536) :
    parseUnsubscribe (unsubscribeBody id fs) = some (id, fs) := by
  unfold parseUnsubscribe unsubscribeBody
  rw [read16_be16 hid]
  simp only [Option.bind_eq_bind, Option.bind_some, h0, if_false]
  rw [parseUnsub_flat fs _ h (length_le_flat _ (by intro a; simp [str, be16]) fs)]
  simp [hne]

end Mqtt
