/-
The bytes behind the vectors built by the zero-copy senders.
-/
import Verif.Proof.SendLoop
import Verif.Proof.Connect
import Verif.Proof.Subscribe

namespace Mqtt
open Spec
set_option linter.unusedSimpArgs false

/-- Every vector is readable and together they hold `bs`. -/
def VecBytes (vec : List IoVec) (bs : List UInt8) : Prop := ∃ vecs, resolveVec vec = .ok vecs ∧ vecs.flatten = bs

theorem VecBytes.nil : VecBytes [] [] := ⟨[], rfl, rfl⟩

theorem resolveVec_append (a b : List IoVec) :
    resolveVec (a ++ b) = (do let x ← resolveVec a; let y ← resolveVec b; pure (x ++ y)) := by
  induction a with
  | nil => simp only [List.nil_append, resolveVec]; cases resolveVec b <;> rfl
  | cons v vs ih =>
    simp only [List.cons_append, resolveVec, ih]
    cases readMem v.iov_base v.iov_len with
    | ub e => rfl
    | ok x => cases resolveVec vs <;> cases resolveVec b <;> rfl

theorem VecBytes.append {a b : List IoVec} {x y : List UInt8} (ha : VecBytes a x) (hb : VecBytes b y) : VecBytes (a ++ b) (x ++ y) := by
  obtain ⟨va, h1, rfl⟩ := ha
  obtain ⟨vb, h2, rfl⟩ := hb
  exact ⟨va ++ vb, by rw [resolveVec_append, h1, h2]; rfl, by simp⟩

theorem VecBytes.one {p : Ptr} {n : Nat} (h : HasBytes p n) : VecBytes [⟨p, n⟩] (bytesOf p n) :=
  ⟨[bytesOf p n], by simp [resolveVec, readMem_ok h], by simp⟩

theorem VecBytes.lit {m : List UInt8} {n : Nat} (h : n ≤ m.length) : VecBytes [⟨some m, n⟩] (m.take n) :=
  VecBytes.one ⟨m, rfl, h⟩

theorem VecBytes.length {vec : List IoVec} {bs : List UInt8} (h : VecBytes vec bs) : vecLength vec = bs.length := by
  obtain ⟨vecs, hr, rfl⟩ := h
  induction vec generalizing vecs with
  | nil => cases hr; rfl
  | cons v vs ih =>
    simp only [resolveVec, Res.bind_eq_ok] at hr
    obtain ⟨b, hb, bs, hbs, h⟩ := hr
    cases h
    have : b.length = v.iov_len := by
      unfold readMem at hb
      split at hb
      · cases hb
      · split at hb
        · cases hb; simp; omega
        · cases hb
    have := ih bs hbs
    simp only [vecLength, List.map_cons, List.sum_cons, List.flatten_cons, List.length_append] at this ⊢
    omega

/-- An encoded string: two length bytes, then the string. -/
theorem addEncodedString_bytes {p : Ptr} {len : UInt16} (h : HasBytes p len.toNat ∨ (p = none ∧ len.toNat = 0)) :
    ∃ v, addEncodedStringToVector p len = .ok v ∧ VecBytes v (str (bytesOf p len.toNat)) ∧ 1 ≤ v.length ∧ v.length ≤ 2 := by
  unfold addEncodedStringToVector
  have hz : len = 0 ↔ len.toNat = 0 := by rw [← UInt16.toNat_inj]; rfl
  have hlen : (bytesOf p len.toNat).length = len.toNat := by
    rcases h with h | ⟨rfl, h⟩
    · exact h.length
    · simp [bytesOf, h]
  have hs : str (bytesOf p len.toNat) = [highByte len, lowByte len] ++ bytesOf p len.toNat := by
    rw [str, hlen, hl_be16]
  rw [hs]
  have hfirst : VecBytes [⟨some [highByte len, lowByte len], 2⟩] [highByte len, lowByte len] := VecBytes.lit (by simp)
  have hc : (len == 0 || p.isSome) = true := by
    rcases h with ⟨m, rfl, _⟩ | ⟨_, h⟩
    · simp
    · simp [hz.mpr h]
  rw [hc]
  simp only [cassert_true, Res.ok_bind]
  by_cases hp : p ≠ none ∧ len ≠ 0
  · rw [if_pos hp]
    refine ⟨_, rfl, ?_, by simp, by simp⟩
    rcases h with h | ⟨h, _⟩
    · exact hfirst.append (VecBytes.one h)
    · exact absurd h hp.1
  · rw [if_neg hp]
    refine ⟨_, rfl, ?_, by simp, by simp⟩
    have h0 : len.toNat = 0 := by
      rcases h with ⟨m, rfl, _⟩ | ⟨_, h⟩
      · have : ¬ len ≠ 0 := fun hl => hp ⟨by simp, hl⟩
        exact hz.mp (Classical.not_not.mp this)
      · exact h
    have : bytesOf p len.toNat = [] := by simp [bytesOf, h0]
    rw [this, List.append_nil]
    exact hfirst

/-- The header array written by `MQTT_SerializePublishHeaderWithoutTopic`. -/
theorem publishHeader_eq {p : PublishInfo} {n : Nat} (hn : n ≤ 268435455) :
    ∃ zs, serializePublishHeaderWithoutTopic p n (List.replicate 7 0) =
      .ok (UInt8.ofNat (publishFirst p.dup p.qos.toFin p.retain) :: (varInt n ++ be16 p.topicNameLength.toNat ++ zs),
        1 + (varInt n).length + 2) := by
  have hvl := varInt_length hn
  have hen := encodedSize_le n
  unfold serializePublishHeaderWithoutTopic
  rw [cur_nil]
  simp only [encodeRemainingLength_eq, publishFlags_eq]
  rw [put_cur (by simp), Res.ok_bind, put_cur (by simp; omega), Res.ok_bind,
    put_cur (by simp; omega), Res.ok_bind, put_cur (by simp; omega), Res.ok_bind]
  refine ⟨(List.replicate 7 (0 : UInt8)).drop (1 + (varInt n).length + 2), ?_⟩
  have e : remainingLengthEncodedSize n = (varInt n).length := hvl.symm
  rw [e]
  simp only [cur, ← hl_be16, Res.pure_eq, List.nil_append, List.append_assoc, List.cons_append, List.length_append,
    List.length_cons, List.length_nil, Nat.zero_add]
  rw [show (varInt n).length + (1 + 1) + 1 = 1 + (varInt n).length + 2 by omega]

/-- The vectors of a PUBLISH hold the packet whose DUP flag is the one in the header array. -/
theorem publishVectors_bytes {p : PublishInfo} {id : UInt16} {zs : List UInt8} {dup : Bool} (hv : p.Valid) (ht : p.pTopicName ≠ none)
    (hpl : p.pPayload ≠ none ∨ p.payloadLength = 0) :
    VecBytes (publishVectors p
      (UInt8.ofNat (publishFirst dup p.qos.toFin p.retain) :: (varInt (pubLen p) ++ be16 p.topicNameLength.toNat ++ zs))
      (1 + (varInt (pubLen p)).length + 2) id) (publishPacket { p.toSpec id with dup := dup }) := by
  have hb := publishBody_length (id := id) hv ht hpl
  have hb' : (publishBody { p.toSpec id with dup := dup }).length = pubLen p := hb
  unfold publishPacket packet
  rw [hb']
  have hT := (hv.topic ht)
  have e : UInt8.ofNat (publishFirst dup p.qos.toFin p.retain) :: (varInt (pubLen p) ++ publishBody { p.toSpec id with dup := dup }) =
      ((UInt8.ofNat (publishFirst dup p.qos.toFin p.retain) :: (varInt (pubLen p) ++ be16 p.topicNameLength.toNat)) ++
        bytesOf p.pTopicName p.topicNameLength.toNat) ++ (if p.qos ≠ .qos0 then [highByte id, lowByte id] else []) ++
        (if p.payloadLength > 0 then bytesOf p.pPayload p.payloadLength else []) := by
    simp only [publishBody, PublishInfo.toSpec, str, hT.length]
    have hp0 : (if p.payloadLength > 0 then bytesOf p.pPayload p.payloadLength else []) = bytesOf p.pPayload p.payloadLength := by
      by_cases h0 : p.payloadLength > 0
      · rw [if_pos h0]
      · rw [if_neg h0]
        have : p.payloadLength = 0 := by omega
        simp [bytesOf, this]
    rw [hp0]
    have hq : ∀ b : List UInt8, p.qos.toFin.val = 0 ∧ ¬ p.qos ≠ .qos0 ∨ ¬ p.qos.toFin.val = 0 ∧ p.qos ≠ .qos0 := by
      intro _; cases p.qos <;> simp [QoS.toFin]
    rcases hq [] with ⟨h1, h2⟩ | ⟨h1, h2⟩
    · simp only [h1, if_true, if_neg h2]; simp
    · simp only [h1, if_false, if_pos h2, hl_be16]; simp
  show VecBytes _ (UInt8.ofNat (publishFirst dup p.qos.toFin p.retain) :: (varInt (pubLen p) ++ publishBody { p.toSpec id with dup := dup }))
  rw [e]
  unfold publishVectors
  refine VecBytes.append (VecBytes.append ?_ ?_) ?_
  · refine VecBytes.append (a := [_]) (b := [_]) ?_ (VecBytes.one hT)
    have := VecBytes.lit (m := UInt8.ofNat (publishFirst dup p.qos.toFin p.retain) ::
      (varInt (pubLen p) ++ be16 p.topicNameLength.toNat ++ zs)) (n := 1 + (varInt (pubLen p)).length + 2)
      (by simp [be16_length]; omega)
    have ht : List.take (1 + (varInt (pubLen p)).length + 2) (UInt8.ofNat (publishFirst dup p.qos.toFin p.retain) ::
      (varInt (pubLen p) ++ be16 p.topicNameLength.toNat ++ zs)) = UInt8.ofNat (publishFirst dup p.qos.toFin p.retain) ::
      (varInt (pubLen p) ++ be16 p.topicNameLength.toNat) := by
      rw [show 1 + (varInt (pubLen p)).length + 2 = (varInt (pubLen p) ++ be16 p.topicNameLength.toNat).length + 1 by
        simp [be16_length]; omega]
      rw [List.take_succ_cons, List.take_left]
    rw [ht] at this
    exact this
  · split
    · exact VecBytes.lit (by simp)
    · exact VecBytes.nil
  · split
    · next h0 =>
      rcases hpl with hp | hp
      · exact VecBytes.one (hv.payload hp)
      · omega
    · exact VecBytes.nil

theorem filterVectors_bytes {ty : SubType} {s : SubscribeInfo} (h : HasBytes s.pTopicFilter s.topicFilterLength.toNat) :
    ∃ v, filterVectors ty s = .ok v ∧ VecBytes v (filterBytes ty s) ∧ 1 ≤ v.length ∧ v.length ≤ perTopicVectors ty := by
  obtain ⟨v, h1, h2, h3, h4⟩ := addEncodedString_bytes (Or.inl h)
  unfold filterVectors filterBytes
  rw [h1]
  cases ty with
  | subscribe =>
    exact ⟨_, rfl, h2.append (VecBytes.lit (m := [s.qos.toByte]) (n := 1) (by simp)), by simp, by simp [perTopicVectors]; omega⟩
  | unsubscribe => exact ⟨v, rfl, by simpa using h2, h3, h4⟩

/-- Filling the vector array takes some of the filters, at least one if the array was empty. -/
theorem fillVectors_bytes {g : Cfg} {ty : SubType} (subs : List SubscribeInfo) (vec : List IoVec) (bs : List UInt8)
    (hall : ∀ s ∈ subs, HasBytes s.pTopicFilter s.topicFilterLength.toNat) (hmax : perTopicVectors ty ≤ g.subUnsubMaxVectors)
    (hv : VecBytes vec bs) :
    ∃ vec' rest taken, fillVectors g ty vec subs = .ok (vec', rest) ∧ subs = taken ++ rest ∧
      VecBytes vec' (bs ++ taken.flatMap (filterBytes ty)) ∧ (vec ≠ [] → vec' ≠ []) ∧ (vec = [] → subs ≠ [] → vec' ≠ [] ∧ taken ≠ []) := by
  induction subs generalizing vec bs with
  | nil => exact ⟨vec, [], [], rfl, rfl, by simpa using hv, fun h => h, fun _ h => absurd rfl h⟩
  | cons s rest ih =>
    unfold fillVectors
    by_cases hfit : vec.length ≤ g.subUnsubMaxVectors - perTopicVectors ty
    · rw [if_pos hfit]
      obtain ⟨v, h1, h2, h3, h4⟩ := filterVectors_bytes (ty := ty) (hall s (by simp))
      rw [h1, Res.ok_bind, if_pos (show vec.length + v.length ≤ g.subUnsubMaxVectors by omega)]
      obtain ⟨vec', rest', taken, h5, h6, h7, h8, h9⟩ := ih (vec ++ v) (bs ++ filterBytes ty s)
        (fun s' hs' => hall s' (by simp [hs'])) (hv.append h2)
      have hne : vec ++ v ≠ [] := by
        intro h; have h0 := (List.append_eq_nil_iff.mp h).2; subst h0; simp at h3
      exact ⟨vec', rest', s :: taken, h5, by simp [h6], by simpa using h7, fun _ => h8 hne, fun _ _ => ⟨h8 hne, by simp⟩⟩
    · rw [if_neg hfit]
      refine ⟨vec, s :: rest, [], rfl, rfl, by simpa using hv, fun h => h, fun h => ?_⟩
      subst h
      simp at hfit

/-- First byte of SUBSCRIBE / UNSUBSCRIBE. -/
def subFirst : SubType → UInt8
  | .subscribe => 0x82
  | .unsubscribe => 0xA2

/-- The header array of SUBSCRIBE / UNSUBSCRIBE. -/
theorem subscriptionHeader_eq {ty : SubType} {id : UInt16} {n : Nat} (hn : n ≤ 268435455) :
    ∃ c, serializeSubscriptionHeader ty n ⟨List.replicate 7 0, 0⟩ id = .ok c ∧ c.pos ≤ c.mem.length ∧
      c.mem.take c.pos = subFirst ty :: (varInt n ++ be16 id.toNat) := by
  have hvl := varInt_length hn
  have hen := encodedSize_le n
  unfold serializeSubscriptionHeader
  rw [cur_nil]
  simp only [encodeRemainingLength_eq]
  rw [put_cur (by simp), Res.ok_bind, put_cur (by simp; omega), Res.ok_bind,
    put_cur (by simp; omega), Res.ok_bind, put_cur (by simp; omega)]
  refine ⟨_, rfl, by simp [cur], ?_⟩
  simp only [cur, List.take_left, ← hl_be16]
  cases ty <;> simp [ptSUBSCRIBE, ptUNSUBSCRIBE, subFirst]

theorem willVectors_bytes {will : Option PublishInfo} (hw : ∀ w, will = some w → w.Valid ∧ (w.pPayload = none → w.payloadLength = 0))
    (ht : ∀ w, will = some w → w.pTopicName ≠ none) (hl : ∀ w, will = some w → w.payloadLength ≤ 65535) :
    ∃ v, willVectors will = .ok v ∧ VecBytes v (willStr (will.map fun w =>
      ⟨bytesOf w.pTopicName w.topicNameLength.toNat, bytesOf w.pPayload w.payloadLength, w.qos.toFin, w.retain⟩)) := by
  cases will with
  | none => exact ⟨[], rfl, VecBytes.nil⟩
  | some w =>
    obtain ⟨hv, hp⟩ := hw w rfl
    have hlen : (UInt16.ofNat w.payloadLength).toNat = w.payloadLength := by
      rw [UInt16.toNat_ofNat']; have := hl w rfl; omega
    obtain ⟨a, a1, a2, -⟩ := addEncodedString_bytes (Or.inl (hv.topic (ht w rfl)))
    obtain ⟨b, b1, b2, -⟩ := addEncodedString_bytes (p := w.pPayload) (len := UInt16.ofNat w.payloadLength) (by
      rw [hlen]
      by_cases h : w.pPayload = none
      · exact Or.inr ⟨h, hp h⟩
      · exact Or.inl (hv.payload h))
    rw [hlen] at b2
    exact ⟨a ++ b, by simp [willVectors, a1, b1], a2.append b2⟩

theorem optionalVectors_bytes {p : Ptr} {len : UInt16} (h : p ≠ none → HasBytes p len.toNat) :
    ∃ v, optionalVectors p len = .ok v ∧ VecBytes v (optStr (p.map fun u => u.take len.toNat)) := by
  cases p with
  | none => exact ⟨[], rfl, VecBytes.nil⟩
  | some m =>
    obtain ⟨a, a1, a2, -⟩ := addEncodedString_bytes (Or.inl (h (by simp)))
    exact ⟨a, a1, a2⟩

/-- The vectors of a CONNECT hold the packet. -/
theorem connectVectors_bytes {ci : ConnectInfo} {will : Option PublishInfo} {r s : Nat}
    (hs : getConnectPacketSize (some ci) will = ⟨.success, r, s⟩) (hv : ci.Valid will)
    (hw : ∀ w, will = some w → w.pTopicName ≠ none) :
    ∃ vec, connectVectors ci will r = .ok vec ∧ VecBytes vec (connectPacket (ci.toSpec will)) ∧ vec ≠ [] := by
  obtain ⟨h1, h2, h3, h4, h5, h6, h7⟩ := getConnectPacketSize_ok hs hv hw
  have hvl := varInt_length (n := r) (by omega)
  have hen := encodedSize_le r
  obtain ⟨i, i1, i2, -⟩ := addEncodedString_bytes (Or.inl (hv.cid h1))
  obtain ⟨wv, w1, w2⟩ := willVectors_bytes hv.will hw h3
  obtain ⟨u, u1, u2⟩ := optionalVectors_bytes hv.user
  obtain ⟨p, p1, p2⟩ := optionalVectors_bytes hv.pass
  have hname : HasBytes (some mqttName) (4 : UInt16).toNat := ⟨mqttName, rfl, by decide⟩
  have hstr : (str (bytesOf (some mqttName) (4 : UInt16).toNat)).length = 6 := by decide
  have hh : ∃ c, serializeConnectFixedHeader ⟨List.replicate 15 0, 0⟩ ci will r = .ok c ∧ c.pos ≤ 15 ∧ c.pos ≤ c.mem.length ∧
      c.mem.take c.pos = (0x10 : UInt8) :: (varInt r ++ (str [0x4D, 0x51, 0x54, 0x54] ++ [4, UInt8.ofNat (connectFlagsByte (ci.toSpec will))]
        ++ be16 ci.keepAliveSeconds.toNat)) := by
    unfold serializeConnectFixedHeader
    rw [cur_nil]
    simp only [encodeRemainingLength_eq, encodeString_eq hname]
    have hnm : bytesOf (some mqttName) (4 : UInt16).toNat = [0x4D, 0x51, 0x54, 0x54] := by decide
    rw [hnm] at hstr ⊢
    generalize str [0x4D, 0x51, 0x54, 0x54] = N at hstr ⊢
    rw [put_cur (by simp), Res.ok_bind, put_cur (by simp; omega), Res.ok_bind,
      put_cur (by simp [hstr]; omega), Res.ok_bind, put_cur (by simp [hstr]; omega), Res.ok_bind, put_cur (by simp [hstr]; omega), Res.ok_bind,
      put_cur (by simp [hstr]; omega), Res.ok_bind, put_cur (by simp [hstr]; omega)]
    refine ⟨_, rfl, by simp [cur, hstr]; omega, by simp [cur], ?_⟩
    simp only [cur, List.take_left, ← hl_be16, (connectFlags_eq ci will).1]
    simp [ptCONNECT]
  obtain ⟨c, c1, c2, c3, c4⟩ := hh
  refine ⟨[⟨some c.mem, c.pos⟩] ++ i ++ wv ++ u ++ p, ?_, ?_, by simp⟩
  · unfold connectVectors
    rw [c1, Res.ok_bind, decide_eq_true c2, cassert_true, Res.ok_bind, i1, Res.ok_bind, w1, Res.ok_bind, u1, Res.ok_bind, p1, Res.ok_bind]
    rfl
  · have hc := VecBytes.lit c3
    rw [c4] at hc
    have := (((hc.append i2).append w2).append u2).append p2
    have e : connectPacket (ci.toSpec will) = (0x10 : UInt8) :: (varInt r ++ connectBody (ci.toSpec will)) := by
      rw [connectPacket, packet, h4]; rfl
    rw [e]
    unfold connectBody
    simpa [ConnectInfo.toSpec, str] using this

end Mqtt
