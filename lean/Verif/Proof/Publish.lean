/- Helper lemmas for PUBLISH sizing, writing and reading. -/
import Verif.Proof.VarInt

namespace Mqtt
set_option linter.unusedSimpArgs false
open Spec

theorem publishFlags_eq (p : PublishInfo) :
    publishFlags p = UInt8.ofNat (publishFirst p.dup p.qos.toFin p.retain) := by
  obtain ⟨q, r, d, _, _, _, _⟩ := p
  cases q <;> cases r <;> cases d <;> (simp only [publishFlags, publishFirst, QoS.toFin]; decide)

theorem be16_length (n : Nat) : (be16 n).length = 2 := rfl

theorem str_length (s : List UInt8) : (str s).length = 2 + s.length := by
  simp [str, be16_length]

/-- Length of the PUBLISH variable header plus payload. -/
def pubLen (p : PublishInfo) : Nat :=
  p.topicNameLength.toNat + 2 + (if p.qos = .qos0 then 0 else 2) + p.payloadLength

theorem bytesOf_length_payload {p : PublishInfo} (h : p.pPayload ≠ none ∨ p.payloadLength = 0)
    (hv : p.Valid) : (bytesOf p.pPayload p.payloadLength).length = p.payloadLength := by
  rcases h with h | h
  · exact (hv.payload h).length
  · simp [bytesOf, h]

theorem publishBody_length {p : PublishInfo} {id : UInt16} (hv : p.Valid) (ht : p.pTopicName ≠ none)
    (h : p.pPayload ≠ none ∨ p.payloadLength = 0) :
    (publishBody (p.toSpec id)).length = pubLen p := by
  have h1 := (hv.topic ht).length
  have h2 := bytesOf_length_payload h hv
  cases hq : p.qos <;>
    simp [publishBody, PublishInfo.toSpec, str_length, h1, h2, pubLen, hq, QoS.toFin, be16_length] <;> omega

theorem calculatePublishPacketSize_eq {W : Nat} (hW : 4294967296 ≤ W) (p : PublishInfo)
    (hp : p.payloadLength < W) :
    calculatePublishPacketSize W p =
      if pubLen p + 1 + remainingLengthEncodedSize (pubLen p) ≤ maxRemaining then
        some (pubLen p, pubLen p + 1 + remainingLengthEncodedSize (pubLen p))
      else none := by
  have ht := p.topicNameLength.toNat_lt
  unfold calculatePublishPacketSize
  generalize hb : p.topicNameLength.toNat + 2 + (if p.qos = .qos0 then 0 else 2) = b
  have hbl : b ≤ 65539 := by rw [← hb]; split <;> omega
  have hb' : (if p.qos ≠ .qos0 then ((p.topicNameLength.toNat + 2) % W + 2) % W
      else (p.topicNameLength.toNat + 2) % W) = b := by
    rw [← hb]
    by_cases hq : p.qos = .qos0
    · simp only [hq, ne_eq, not_true, if_false, if_true]; rw [Nat.mod_eq_of_lt (by omega)]
    · simp only [hq, ne_eq, not_false_iff, if_false, if_true]
      rw [Nat.mod_eq_of_lt (a := p.topicNameLength.toNat + 2) (by omega), Nat.mod_eq_of_lt (by omega)]
  simp only []
  rw [hb']
  have hpl : pubLen p = b + p.payloadLength := by rw [pubLen, hb]
  rw [hpl]
  have hlim : (maxRemainingLength + W - b + W - 1) % W = 268435454 - b := by
    have : maxRemainingLength + W - b + W - 1 = (268435454 - b) + W + W := by
      simp only [maxRemainingLength]; omega
    rw [this, Nat.add_mod_right, Nat.add_mod_right, Nat.mod_eq_of_lt (by omega)]
  rw [hlim]
  have he1 := encodedSize_pos ((b + p.payloadLength))
  by_cases h1 : p.payloadLength > 268435454 - b
  · rw [if_pos h1, if_neg]
    simp only [maxRemaining]; omega
  · rw [if_neg h1]
    rw [Nat.mod_eq_of_lt (a := b + p.payloadLength) (by omega)]
    have he2 := encodedSize_le (b + p.payloadLength)
    have hlim2 : (268435454 - b + W - remainingLengthEncodedSize (b + p.payloadLength)) % W
        = 268435454 - b - remainingLengthEncodedSize (b + p.payloadLength) := by
      have : 268435454 - b + W - remainingLengthEncodedSize (b + p.payloadLength)
          = (268435454 - b - remainingLengthEncodedSize (b + p.payloadLength)) + W := by omega
      rw [this, Nat.add_mod_right, Nat.mod_eq_of_lt (by omega)]
    rw [hlim2]
    by_cases h2 : p.payloadLength > 268435454 - b - remainingLengthEncodedSize (b + p.payloadLength)
    · rw [if_pos h2, if_neg]
      simp only [maxRemaining]; omega
    · rw [if_neg h2, if_pos (by simp only [maxRemaining]; omega)]
      rw [Nat.mod_eq_of_lt (by omega)]
      simp only [Option.some.injEq, Prod.mk.injEq, true_and]; omega

/-- The cursor after writing `pre` at the start of `buf`. -/
def cur (buf pre : List UInt8) : Cur := ⟨pre ++ buf.drop pre.length, pre.length⟩

theorem cur_nil (buf : List UInt8) : (⟨buf, 0⟩ : Cur) = cur buf [] := by simp [cur]

theorem put_cur {buf pre bs : List UInt8} (h : pre.length + bs.length ≤ buf.length) :
    put (cur buf pre) bs = .ok (cur buf (pre ++ bs)) := by
  rw [put_ok (by simp [cur]; omega)]
  simp [cur]

/-- The PUBLISH writer (with or without payload) writes exactly the packet (or its header part). -/
theorem serializePublishCommon_eq {p : PublishInfo} {id : UInt16} {buf : List UInt8} {size n : Nat}
    {pl : Bool} (hv : p.Valid) (ht : p.pTopicName ≠ none)
    (hpl : pl = false ∨ p.pPayload ≠ none ∨ p.payloadLength = 0)
    (hid : p.qos = .qos0 ∨ id ≠ 0) (hdup : p.dup = false ∨ p.qos ≠ .qos0)
    (pk : List UInt8)
    (hpk : pk = [UInt8.ofNat (publishFirst p.dup p.qos.toFin p.retain)] ++ varInt n ++
      str (bytesOf p.pTopicName p.topicNameLength.toNat) ++
      (if p.qos.toFin.val = 0 then [] else be16 id.toNat) ++
      (if pl then bytesOf p.pPayload p.payloadLength else []))
    (hfit : pk.length ≤ size) (hsz : size ≤ buf.length) :
    serializePublishCommon p n id buf size pl = .ok (pk ++ buf.drop pk.length) := by
  have a1 : (p.qos == .qos0 || id != 0) = true := by
    rcases hid with h | h <;> simp [h]
  have a2 : (p.dup != true || p.qos != .qos0) = true := by
    rcases hdup with h | h <;> simp [h]
  unfold serializePublishCommon
  rw [a1, a2, cur_nil]
  simp only [cassert_true, Res.ok_bind, encodeRemainingLength_eq, encodeString_eq (hv.topic ht),
    publishFlags_eq]
  generalize publishFirst p.dup p.qos.toFin p.retain = F at *
  generalize str (bytesOf p.pTopicName p.topicNameLength.toNat) = T at *
  have hl : 1 + (varInt n).length + T.length + (if p.qos.toFin.val = 0 then 0 else 2) +
      (if pl then (bytesOf p.pPayload p.payloadLength).length else 0) = pk.length := by
    rw [hpk]; simp only [List.length_append]
    congr 1
    · congr 1
      split <;> rfl
    · split <;> rfl
  rw [put_cur (by simp; omega), Res.ok_bind, put_cur (by simp; omega), Res.ok_bind,
    put_cur (by simp; omega), Res.ok_bind]
  have hpay : pl = true → p.payloadLength > 0 → readMem p.pPayload p.payloadLength
      = .ok (bytesOf p.pPayload p.payloadLength) := by
    intro h1 h2
    apply readMem_ok
    rcases hpl with h | h | h
    · simp [h] at h1
    · exact hv.payload h
    · omega
  have hz : p.payloadLength = 0 → bytesOf p.pPayload p.payloadLength = [] := by
    intro h; simp [bytesOf, h]
  have fin : ∀ c : Cur, c = cur buf pk → (do cassert (c.pos ≤ size); Res.ok c.mem : Res (List UInt8))
      = .ok (pk ++ buf.drop pk.length) := by
    rintro c rfl
    simp [cur, hfit]
  cases hq : p.qos <;> cases hb : pl <;> rcases Nat.eq_zero_or_pos p.payloadLength with h0 | h0
  all_goals
    have hz' := hz
    simp [h0, hq, hb, QoS.toFin, be16] at hl hpk hpay hz'
    simp [h0]
    try rw [put_cur (by simp; omega), Res.ok_bind, put_cur (by simp; omega), Res.ok_bind]
    try rw [hpay, Res.ok_bind, put_cur (by simp; omega), Res.ok_bind]
    rw [fin]
    simp [hpk, highByte_eq, lowByte_eq, hz']

theorem decode16_toNat (h l : UInt8) : (decode16 h l).toNat = 256 * h.toNat + l.toNat := by
  have hh := h.toNat_lt
  have hl := l.toNat_lt
  simp only [decode16, UInt16.toNat_or, UInt16.toNat_shiftLeft, UInt8.toNat_toUInt16]
  have : (8 : UInt16).toNat % 16 = 8 := rfl
  rw [this, Nat.mod_eq_of_lt (by rw [Nat.shiftLeft_eq]; omega), ← Nat.shiftLeft_add_eq_or_of_lt (by omega : l.toNat < 2 ^ 8), Nat.shiftLeft_eq]
  omega

theorem isPublish_iff (t : UInt8) : (t &&& 0xF0) = ptPUBLISH ↔ t.toNat / 16 = 3 := by
  have : ∀ t : UInt8, (t &&& 0xF0) = ptPUBLISH ↔ t.toNat / 16 = 3 := by decide +kernel
  exact this t

theorem flags_spec (t : UInt8) :
    match processPublishFlags (t &&& 0x0F) with
    | none => qosOfNat (t.toNat / 2 % 4) = none
    | some (q, r, d) => qosOfNat (t.toNat / 2 % 4) = some q.toFin ∧
        d = decide (t.toNat / 8 % 2 = 1) ∧ r = decide (t.toNat % 2 = 1) := by
  have : ∀ t : UInt8, match processPublishFlags (t &&& 0x0F) with
    | none => qosOfNat (t.toNat / 2 % 4) = none
    | some (q, r, d) => qosOfNat (t.toNat / 2 % 4) = some q.toFin ∧
        d = decide (t.toNat / 8 % 2 = 1) ∧ r = decide (t.toNat % 2 = 1) := by
    intro t
    have h : ∀ t : UInt8, (match processPublishFlags (t &&& 0x0F) with
      | none => decide (qosOfNat (t.toNat / 2 % 4) = none)
      | some (q, r, d) => decide (qosOfNat (t.toNat / 2 % 4) = some q.toFin ∧
        d = decide (t.toNat / 8 % 2 = 1) ∧ r = decide (t.toNat % 2 = 1))) = true := by decide +kernel
    have := h t
    split at this <;> simp_all
  exact this t

theorem check_ne (n m : Nat) (q : QoS) : (checkPublishRemainingLength n q m ≠ .success) =
    (n < m + (if q = .qos0 then 0 else 2)) := by
  unfold checkPublishRemainingLength
  split <;> split <;> simp_all

theorem sizeSub_eq {W a b : Nat} (h1 : b ≤ a) (h2 : a < W) : sizeSub W a b = a - b := by
  unfold sizeSub
  rw [show a + W - b = (a - b) + W by omega, Nat.add_mod_right, Nat.mod_eq_of_lt (by omega)]

/-- What a reader of MQTT 3.1.1 expects `MQTT_DeserializePublish` to return for a body. -/
theorem deserializePublish_spec {W : Nat} {t : UInt8} {body extra : List UInt8} {hl : Nat} {id0 : UInt16}
    (ht : t.toNat / 16 = 3) (hW : body.length < W) :
    match parsePublish t.toNat body with
    | none => deserializePublish W ⟨t, some (body ++ extra), body.length, hl⟩ id0 = .ok (.badResponse, none)
    | some s =>
      if body.length < (if s.qos.val = 0 then 3 else 5) then
        deserializePublish W ⟨t, some (body ++ extra), body.length, hl⟩ id0 = .ok (.badResponse, none)
      else ∃ id q, deserializePublish W ⟨t, some (body ++ extra), body.length, hl⟩ id0 = .ok (.success, some (id, q))
        ∧ q.qos.toFin = s.qos ∧ q.dup = s.dup ∧ q.retain = s.retain
        ∧ (if s.qos.val = 0 then id = id0 else id.toNat = s.id)
        ∧ q.pTopicName = some ((body ++ extra).drop 2) ∧ bytesOf q.pTopicName q.topicNameLength.toNat = s.topic
        ∧ q.topicNameLength.toNat = s.topic.length
        ∧ q.payloadLength = s.payload.length
        ∧ q.pPayload = (if s.payload = [] then none
            else some ((body ++ extra).drop (2 + s.topic.length + (if s.qos.val = 0 then 0 else 2)))) := by
  have hf := flags_spec t
  unfold parsePublish deserializePublish
  cases hpf : processPublishFlags (t &&& 0x0F) with
  | none =>
    rw [hpf] at hf
    simp only at hf
    simp [ht, hf]
  | some x =>
    obtain ⟨q, r, d⟩ := x
    rw [hpf] at hf
    simp only at hf
    obtain ⟨hf1, hf2, hf3⟩ := hf
    have hkle : ∀ q : QoS, q.toFin.val = 0 ↔ q = .qos0 := by intro q; cases q <;> decide
    simp only [check_ne]
    simp only [ht, hf1, ne_eq, not_true, if_false, Option.bind_eq_bind, Option.bind_some]
    match body, hW with
    | [], _ => cases q <;> simp [readStr, read16]
    | [a], _ => cases q <;> simp [readStr, read16]
    | a :: b :: rest, hW =>
      have hd := decode16_toNat a b
      generalize htl : 256 * a.toNat + b.toNat = tl at hd
      simp only [List.length_cons] at hW
      simp only [readStr, read16, htl]
      by_cases h1 : tl ≤ rest.length
      · simp only [if_pos h1, Option.bind_some]
        have htake : (rest ++ extra).take tl = rest.take tl := by
          rw [List.take_append_of_le_length h1]
        by_cases hq : q = .qos0
        · subst hq
          simp only [QoS.toFin, if_true]
          have e1 : sizeSub W (sizeSub W (rest.length + 1 + 1) tl) 2 = rest.length - tl := by
            rw [sizeSub_eq (a := rest.length + 1 + 1) (by omega) (by omega), sizeSub_eq (by omega) (by omega)]
            omega
          by_cases h3 : rest.length + 1 + 1 < 3
          · simp [h3]
          · simp [h3, readByte, hd, show ¬ (rest.length < tl) by omega, e1, bytesOf,
              hf2, hf3, h1, show (rest.length - tl = 0) = (rest.length ≤ tl) by simp; omega,
              Nat.add_comm 2 tl]
            exact ⟨_, _, ⟨rfl, rfl⟩, rfl, rfl, rfl, rfl, rfl, by simp [hd, htake], hd, rfl, rfl⟩
        · have hq' : ¬ q.toFin.val = 0 := by rw [hkle]; exact hq
          have hspl : rest = rest.take tl ++ rest.drop tl := (List.take_append_drop tl rest).symm
          have hdl : (rest.drop tl).length = rest.length - tl := by simp
          simp only [hq', hq, if_false]
          match hrd : rest.drop tl with
          | [] =>
            rw [hrd] at hdl
            simp at hdl
            simp [readByte, hd]
            omega
          | [x] =>
            rw [hrd] at hdl
            simp at hdl
            simp [readByte, hd]
            omega
          | x :: y :: pl =>
            rw [hrd] at hdl
            simp at hdl
            have hx : readByte (a :: b :: (rest ++ extra)) (2 + tl) = .ok x := by
              unfold readByte
              rw [hspl, hrd]
              rw [show 2 + tl = tl + 1 + 1 by omega]
              simp [h1]
            have hy : readByte (a :: b :: (rest ++ extra)) (2 + tl + 1) = .ok y := by
              unfold readByte
              rw [hspl, hrd]
              rw [show 2 + tl + 1 = tl + 1 + 1 + 1 by omega]
              simp [h1]
            have hdx := decode16_toNat x y
            have hz : (decode16 x y = 0) ↔ 256 * x.toNat + y.toNat = 0 := by
              rw [← hdx]; exact ⟨fun h => by rw [h]; rfl, fun h => UInt16.toNat.inj h⟩
            have e1 : sizeSub W (sizeSub W (sizeSub W (rest.length + 1 + 1) tl) 2) 2 = pl.length := by
              rw [sizeSub_eq (a := rest.length + 1 + 1) (by omega) (by omega),
                sizeSub_eq (a := rest.length + 1 + 1 - tl) (by omega) (by omega),
                sizeSub_eq (by omega) (by omega)]; omega
            have r0 : readByte (a :: b :: (rest ++ extra)) 0 = .ok a := rfl
            have r1 : readByte (a :: b :: (rest ++ extra)) 1 = .ok b := rfl
            simp only [Option.bind_some, List.cons_append, List.length_cons]
            by_cases h5 : rest.length + 1 + 1 < 3 + 2
            · by_cases hid : 256 * x.toNat + y.toNat = 0
              · simp [h5, hid]
              · simp only [if_pos h5, if_neg hid, Option.bind_some, hq', if_false]
            · by_cases hid : 256 * x.toNat + y.toNat = 0
              · simp only [if_neg h5, hid, if_true, Option.bind_none]
                simp only [r0, r1, Res.ok_bind, hd, hx, hy]
                rw [if_neg (by omega)]
                simp [hz.mpr hid, hq]
              · simp only [if_neg h5, hid, if_false, Option.bind_some, hq']
                simp only [r0, r1, Res.ok_bind, hd, hx, hy]
                rw [if_neg (by omega)]
                have hz' : ¬ decode16 x y = 0 := fun h => hid (hz.mp h)
                simp [hz', e1]
                refine ⟨_, _, ⟨rfl, rfl⟩, rfl, hf2, hf3, hdx, rfl, by simp [hd, htake, bytesOf], by simp [hd]; omega,
                  rfl, ?_⟩
                simp [show min tl rest.length = tl by omega, show 2 + tl + 2 = tl + 2 + 1 + 1 by omega]
      · simp only [if_neg h1, Option.bind_none]
        simp only [List.length_cons]
        by_cases h3 : rest.length + 1 + 1 < 3 + (if q = .qos0 then 0 else 2)
        · rw [if_pos h3]
        · rw [if_neg h3]
          simp only [readByte, List.cons_append, List.getElem?_cons_zero, List.getElem?_cons_succ, Res.ok_bind, hd]
          rw [if_pos (by split <;> omega)]
          rfl

/-! ### Spec-level round trip -/

theorem read16_be16 {n : Nat} (h : n < 65536) (rest : List UInt8) : read16 (be16 n ++ rest) = some (n, rest) := by
  simp [be16, read16]
  omega

theorem readStr_str {t : List UInt8} (h : t.length < 65536) (rest : List UInt8) :
    readStr (str t ++ rest) = some (t, rest) := by
  unfold readStr str
  rw [List.append_assoc, read16_be16 h]
  simp

theorem parsePublish_body {s : Spec.Publish} (ht : s.topic.length < 65536) (hid : s.id < 65536)
    (h0 : if s.qos.val = 0 then s.id = 0 else s.id ≠ 0) :
    parsePublish (publishFirst s.dup s.qos s.retain) (publishBody s) = some s := by
  obtain ⟨d, q, r, t, id, pl⟩ := s
  simp only at ht hid h0
  unfold parsePublish publishBody
  simp only [List.append_assoc]
  have e1 : publishFirst d q r / 16 = 3 ∧ qosOfNat (publishFirst d q r / 2 % 4) = some q ∧
      (publishFirst d q r / 8 % 2 = 1 ↔ d = true) ∧ (publishFirst d q r % 2 = 1 ↔ r = true) := by
    clear h0; revert d q r; decide
  obtain ⟨e1, e2, e3, e4⟩ := e1
  simp only [e1, e2, e3, e4, readStr_str ht, ne_eq, not_true, if_false, Option.bind_eq_bind, Option.bind_some]
  by_cases hq : q.val = 0
  · rw [if_pos hq] at h0
    simp [hq, h0]
  · rw [if_neg hq] at h0
    simp [hq, h0, read16_be16 hid]

theorem packet_length {t : Nat} {b : List UInt8} (h : b.length ≤ 268435455) :
    (packet t b).length = 1 + remainingLengthEncodedSize b.length + b.length := by
  simp [packet, varInt_length h]; omega

theorem getPublishPacketSize_ok {W : Nat} (hW : 4294967296 ≤ W) {p : PublishInfo}
    (hp : p.payloadLength < W) {r s : Nat} (h : getPublishPacketSize W (some p) = ⟨.success, r, s⟩) :
    p.pTopicName ≠ none ∧ p.topicNameLength ≠ 0 ∧ r = pubLen p ∧
      s = 1 + remainingLengthEncodedSize (pubLen p) + pubLen p ∧ s ≤ maxRemaining := by
  unfold getPublishPacketSize at h
  simp only at h
  rw [calculatePublishPacketSize_eq hW p hp] at h
  split at h
  · cases h
  · next hn =>
    by_cases hm : pubLen p + 1 + remainingLengthEncodedSize (pubLen p) ≤ maxRemaining
    · rw [if_pos hm] at h
      simp only [SizeRes.mk.injEq, true_and] at h
      simp only [not_or] at hn
      refine ⟨hn.1, hn.2, h.1.symm, ?_, ?_⟩ <;> omega
    · rw [if_neg hm] at h
      cases h

/-- `MQTT_SerializePublish` completely described, for a size obtained from `MQTT_GetPublishPacketSize`. -/
theorem serializePublish_eq {W : Nat} (hW : 4294967296 ≤ W) {p : PublishInfo} {id : UInt16}
    {buf : List UInt8} {size r s : Nat} (hv : p.Valid) (hp : p.payloadLength < W)
    (hbuf : size ≤ buf.length) (hs : getPublishPacketSize W (some p) = ⟨.success, r, s⟩) :
    serializePublish W (some p) id r (some ⟨some buf, size⟩) =
      if (p.payloadLength > 0 ∧ p.pPayload = none) ∨ (p.qos ≠ .qos0 ∧ id = 0) ∨ (p.dup = true ∧ p.qos = .qos0) then
        .ok (.badParameter, some buf)
      else if size < s then .ok (.noMemory, some buf)
      else .ok (.success, some (publishPacket (p.toSpec id) ++ buf.drop s)) := by
  obtain ⟨h1, h2, rfl, rfl, h5⟩ := getPublishPacketSize_ok hW hp hs
  simp only [maxRemaining] at h5
  unfold serializePublish serializePublishParams
  simp only [h1, h2]
  by_cases c1 : p.payloadLength > 0 ∧ p.pPayload = none
  · simp [c1]
  · have c1' : (decide (p.payloadLength > 0) && p.pPayload.isNone) = false := by
      simp at c1 ⊢
      intro h; exact Option.isSome_iff_ne_none.mpr (c1 h)
    simp only [c1', Bool.and_false, c1, false_or]
    by_cases c2 : p.qos ≠ .qos0 ∧ id = 0
    · simp [c2]
    · simp only [c2, false_or]
      by_cases c3 : p.dup = true ∧ p.qos = .qos0
      · simp [c3]
      · simp only [c3]
        rw [Nat.mod_eq_of_lt (by omega)]
        simp only [reduceCtorEq, if_false, Bool.false_eq_true, or_self, gt_iff_lt]
        split
        · rfl
        · next hfit =>
          have hpl : p.pPayload ≠ none ∨ p.payloadLength = 0 := by
            by_cases hh : p.pPayload = none
            · right; simp [hh] at c1; exact c1
            · exact .inl hh
          have hb := publishBody_length (id := id) hv h1 hpl
          have hlen : (publishPacket (p.toSpec id)).length = 1 + remainingLengthEncodedSize (pubLen p) + pubLen p := by
            rw [publishPacket, packet_length (by omega), hb]
          rw [serializePublishCommon_eq hv h1 (.inr hpl) (by
              by_cases hq : p.qos = .qos0
              · exact .inl hq
              · exact .inr fun h => c2 ⟨hq, h⟩) (by
              by_cases hd : p.dup = true
              · exact .inr fun h => c3 ⟨hd, h⟩
              · exact .inl (by simpa using hd))
            (publishPacket (p.toSpec id)) (by
              rw [publishPacket, packet, hb]
              simp [PublishInfo.toSpec, publishBody]) (by omega) hbuf]
          simp [hlen]

theorem read16_some {bs rest : List UInt8} {n : Nat} (h : read16 bs = some (n, rest)) :
    bs = be16 n ++ rest ∧ n < 65536 := by
  match bs, h with
  | a :: b :: r, h =>
    simp only [read16, Option.some.injEq, Prod.mk.injEq] at h
    obtain ⟨rfl, rfl⟩ := h
    have ha := a.toNat_lt
    have hb := b.toNat_lt
    refine ⟨?_, by omega⟩
    have h1 : (256 * a.toNat + b.toNat) / 256 = a.toNat := by omega
    have h2 : (256 * a.toNat + b.toNat) % 256 = b.toNat := by omega
    simp [be16, h1, h2]

theorem readStr_some {bs s rest : List UInt8} (h : readStr bs = some (s, rest)) :
    bs = str s ++ rest ∧ s.length < 65536 := by
  unfold readStr at h
  cases h1 : read16 bs with
  | none => simp [h1] at h
  | some x =>
    obtain ⟨n, r⟩ := x
    simp only [h1] at h
    split at h
    · next hle =>
      simp only [Option.some.injEq, Prod.mk.injEq] at h
      obtain ⟨rfl, rfl⟩ := h
      obtain ⟨e1, e2⟩ := read16_some h1
      have hl : (r.take n).length = n := by simp; omega
      refine ⟨?_, by omega⟩
      rw [e1, str, hl, List.append_assoc, List.take_append_drop]
    · cases h

theorem parsePublish_some {t : Nat} {body : List UInt8} {s : Spec.Publish} (ht : t < 256)
    (h : parsePublish t body = some s) :
    body = publishBody s ∧ (s.qos.val ≠ 0 → s.id ≠ 0) ∧ s.topic.length < 65536 ∧
      t = publishFirst s.dup s.qos s.retain := by
  unfold parsePublish at h
  have hflag : ∀ t : Fin 256, t.val / 16 = 3 → ∀ q, qosOfNat (t.val / 2 % 4) = some q →
      t.val = publishFirst (decide (t.val / 8 % 2 = 1)) q (decide (t.val % 2 = 1)) := by decide +kernel
  by_cases h16 : t / 16 = 3
  · simp only [h16, ne_eq, not_true, if_false] at h
    cases hq : qosOfNat (t / 2 % 4) with
    | none => simp [hq] at h
    | some q =>
      cases hs : readStr body with
      | none => simp [hq, hs] at h
      | some x =>
        obtain ⟨topic, rest⟩ := x
        obtain ⟨e1, e2⟩ := readStr_some hs
        simp only [hq, hs, Option.bind_eq_bind, Option.bind_some] at h
        by_cases h0 : q.val = 0
        · rw [if_pos h0] at h
          simp only [Option.some.injEq] at h
          subst h
          exact ⟨by simp [publishBody, h0, e1], by simp [h0], e2, hflag ⟨t, ht⟩ h16 q hq⟩
        · rw [if_neg h0] at h
          cases h6 : read16 rest with
          | none => simp [h6] at h
          | some y =>
            obtain ⟨id, r2⟩ := y
            obtain ⟨f1, f2⟩ := read16_some h6
            simp only [h6, Option.bind_some] at h
            by_cases hid : id = 0
            · simp [hid] at h
            · simp only [hid, if_false, Option.some.injEq] at h
              subst h
              exact ⟨by simp [publishBody, h0, e1, f1], by simp [hid], e2, hflag ⟨t, ht⟩ h16 q hq⟩
  · simp [h16] at h

end Mqtt
