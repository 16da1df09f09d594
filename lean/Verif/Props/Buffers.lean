/- Property C06: serializers and the caller's buffer. -/
import Verif.Proof.Subscribe

namespace Mqtt
set_option linter.unusedSimpArgs false
open Spec

/-- What a caller may rely on when a serializer is given the memory `buf` and told that `size` bytes of it may be used:
with unacceptable arguments `MQTTBadParameter` and no write; otherwise `MQTTNoMemory` and no write exactly when `pkt` does
not fit in `size` bytes; otherwise success, the packet at the start, and every later byte as before. -/
def Spec.FramedWrite (r : Res (Status × Ptr)) (buf : List UInt8) (size : Nat) (good : Prop) (pkt : List UInt8) : Prop :=
  (¬ good → r = .ok (.badParameter, some buf)) ∧
  (good → size < pkt.length → r = .ok (.noMemory, some buf)) ∧
  (good → pkt.length ≤ size → ∃ out, r = .ok (.success, some out) ∧ out.length = buf.length ∧
    out.take pkt.length = pkt ∧ ∀ i, pkt.length ≤ i → out[i]? = buf[i]?)

theorem framedWrite_of {r : Res (Status × Ptr)} {buf : List UInt8} {size : Nat} {bad : Prop} [Decidable bad]
    {pkt : List UInt8} (hbuf : size ≤ buf.length)
    (h : r = if bad then .ok (.badParameter, some buf) else if size < pkt.length then .ok (.noMemory, some buf)
      else .ok (.success, some (pkt ++ buf.drop pkt.length))) : FramedWrite r buf size (¬ bad) pkt := by
  refine ⟨?_, ?_, ?_⟩
  · intro hb
    rw [h, if_pos (Classical.not_not.mp hb)]
  · intro hb hs
    rw [h, if_neg hb, if_pos hs]
  · intro hb hs
    refine ⟨_, by rw [h, if_neg hb, if_neg (by omega)], ?_, by simp, ?_⟩
    · simp only [List.length_append, List.length_drop]; omega
    · intro i hi
      rw [List.getElem?_append_right hi, List.getElem?_drop]
      congr 1; omega

/-- **C06** `MQTT_SerializePublish`, with the remaining length that `MQTT_GetPublishPacketSize` reported. -/
theorem C06_publish_buffer {W : Nat} (hW : 2 ^ 32 ≤ W) (p : PublishInfo) (id : UInt16) (buf : List UInt8) (size r s : Nat)
    (hv : p.Valid) (hp : p.payloadLength < W) (hbuf : size ≤ buf.length)
    (hsize : getPublishPacketSize W (some p) = ⟨.success, r, s⟩) :
    FramedWrite (serializePublish W (some p) id r (some ⟨some buf, size⟩)) buf size
      (¬ ((p.payloadLength > 0 ∧ p.pPayload = none) ∨ (p.qos ≠ .qos0 ∧ id = 0) ∨ (p.dup = true ∧ p.qos = .qos0)))
      (publishPacket
        { dup := p.dup, qos := p.qos.toFin, retain := p.retain,
          topic := bytesOf p.pTopicName p.topicNameLength.toNat, id := id.toNat,
          payload := bytesOf p.pPayload p.payloadLength }) := by
  have hser := serializePublish_eq (id := id) hW hv hp hbuf hsize
  obtain ⟨h1, h2, rfl, hs, h5⟩ := getPublishPacketSize_ok hW hp hsize
  by_cases hc : (p.payloadLength > 0 ∧ p.pPayload = none) ∨ (p.qos ≠ .qos0 ∧ id = 0) ∨ (p.dup = true ∧ p.qos = .qos0)
  · rw [if_pos hc] at hser
    exact ⟨fun _ => hser, fun h => absurd hc h, fun h => absurd hc h⟩
  · have hpl : p.pPayload ≠ none ∨ p.payloadLength = 0 := by
      rcases Nat.eq_zero_or_pos p.payloadLength with h | h
      · exact .inr h
      · exact .inl fun h' => hc (.inl ⟨h, h'⟩)
    have hlen : (publishPacket (p.toSpec id)).length = s := by
      simp only [maxRemaining] at h5
      rw [publishPacket, packet_length (by rw [publishBody_length hv h1 hpl]; omega), publishBody_length hv h1 hpl, hs]
    rw [← hlen] at hser
    exact framedWrite_of hbuf hser

/-- **C06** `MQTT_SerializePublishHeader`: the same for the packet without its payload; the reported header size is the
number of bytes written. -/
theorem C06_publish_header_buffer {W : Nat} (hW : 2 ^ 32 ≤ W) (p : PublishInfo) (id : UInt16) (buf : List UInt8)
    (size r s : Nat) (hv : p.Valid) (hp : p.payloadLength < W) (hbuf : size ≤ buf.length)
    (hpay : p.pPayload ≠ none ∨ p.payloadLength = 0)
    (hsize : getPublishPacketSize W (some p) = ⟨.success, r, s⟩) :
    let header := (publishPacket
        { dup := p.dup, qos := p.qos.toFin, retain := p.retain,
          topic := bytesOf p.pTopicName p.topicNameLength.toNat, id := id.toNat,
          payload := bytesOf p.pPayload p.payloadLength }).take (s - p.payloadLength)
    FramedWrite ((fun x : Status × Ptr × Nat => (x.1, x.2.1)) <$> serializePublishHeader W (some p) id r (some ⟨some buf, size⟩)) buf size
      (¬ ((p.qos ≠ .qos0 ∧ id = 0) ∨ (p.dup = true ∧ p.qos = .qos0))) header ∧
    header.length = s - p.payloadLength ∧
    (∀ m h, serializePublishHeader W (some p) id r (some ⟨some buf, size⟩) = .ok (.success, m, h) → h = s - p.payloadLength) := by
  intro header
  obtain ⟨h1, h2, rfl, hs, h5⟩ := getPublishPacketSize_ok hW hp hsize
  simp only [maxRemaining] at h5
  have hen := encodedSize_le (pubLen p)
  have hple : p.payloadLength ≤ pubLen p := by unfold pubLen; omega
  have hb := publishBody_length (id := id) hv h1 hpay
  have hlen : (publishPacket (p.toSpec id)).length = s := by
    rw [publishPacket, packet_length (by omega), hb, hs]
  have hhl : header.length = s - p.payloadLength := by
    simp only [header, List.length_take]
    have : (publishPacket (p.toSpec id)).length = s := hlen
    simp only [PublishInfo.toSpec] at this
    omega
  have hsub : ((1 + remainingLengthEncodedSize (pubLen p) + pubLen p) % W + W - p.payloadLength % W) % W = s - p.payloadLength := by
    rw [Nat.mod_eq_of_lt (a := 1 + _ + _) (by omega), Nat.mod_eq_of_lt hp, ← hs,
      show s + W - p.payloadLength = (s - p.payloadLength) + W by omega, Nat.add_mod_right, Nat.mod_eq_of_lt (by omega)]
  have hcommon : ∀ (c2 : ¬ (p.qos ≠ .qos0 ∧ id = 0)) (c3 : ¬ (p.dup = true ∧ p.qos = .qos0)) (hfit : s - p.payloadLength ≤ size),
      serializePublishCommon p (pubLen p) id buf size false = .ok (header ++ buf.drop header.length) := by
    intro c2 c3 hfit
    refine serializePublishCommon_eq hv h1 (.inl rfl) ?_ ?_ header ?_ (by omega) hbuf
    · by_cases hq : p.qos = .qos0
      · exact .inl hq
      · exact .inr fun h => c2 ⟨hq, h⟩
    · by_cases hd : p.dup = true
      · exact .inr fun h => c3 ⟨hd, h⟩
      · exact .inl (by simpa using hd)
    · have hpl := bytesOf_length_payload hpay hv
      have hsplit : publishPacket (p.toSpec id) =
          ([UInt8.ofNat (publishFirst p.dup p.qos.toFin p.retain)] ++ varInt (pubLen p) ++
            str (bytesOf p.pTopicName p.topicNameLength.toNat) ++
            (if p.qos.toFin.val = 0 then [] else be16 id.toNat)) ++ bytesOf p.pPayload p.payloadLength := by
        rw [publishPacket, packet, hb]
        simp [PublishInfo.toSpec, publishBody]
      have hl2 := congrArg List.length hsplit
      rw [hlen, List.length_append, hpl] at hl2
      show List.take _ (publishPacket (p.toSpec id)) = _
      rw [hsplit, show s - p.payloadLength = _ from (Nat.sub_eq_of_eq_add hl2), List.take_left]
      simp
  have key : serializePublishHeader W (some p) id (pubLen p) (some ⟨some buf, size⟩) =
      if (p.qos ≠ .qos0 ∧ id = 0) ∨ (p.dup = true ∧ p.qos = .qos0) then .ok (.badParameter, some buf, 0)
      else if size < header.length then .ok (.noMemory, some buf, 0)
      else .ok (.success, some (header ++ buf.drop header.length), s - p.payloadLength) := by
    unfold serializePublishHeader serializePublishParams
    simp only [h1, h2]
    by_cases c2 : p.qos ≠ .qos0 ∧ id = 0
    · simp [c2]
    · by_cases c3 : p.dup = true ∧ p.qos = .qos0
      · simp [c3]
      · simp only [c2, c3, reduceCtorEq, if_false, Bool.false_and, Bool.false_eq_true, or_self, gt_iff_lt, hsub, hhl]
        split
        · rfl
        · next hfit =>
          rw [hcommon c2 c3 (by omega)]
          simp [hhl]
  refine ⟨?_, hhl, ?_⟩
  · rw [key]
    apply framedWrite_of hbuf
    split
    · rfl
    · split <;> rfl
  · intro m h hh
    rw [key] at hh
    split at hh
    · cases hh
    · split at hh
      · cases hh
      · simp only [Res.ok.injEq, Prod.mk.injEq] at hh
        exact hh.2.2.symm

/-- **C06** `MQTT_SerializeConnect`. -/
theorem C06_connect_buffer {W : Nat} (hW : 2 ^ 32 ≤ W) (ci : ConnectInfo) (will : Option PublishInfo) (buf : List UInt8)
    (size r s : Nat) (hv : ci.Valid will) (hwt : ∀ w, will = some w → w.pTopicName ≠ none) (hbuf : size ≤ buf.length)
    (hsize : getConnectPacketSize (some ci) will = ⟨.success, r, s⟩) :
    FramedWrite (serializeConnect W (some ci) will r (some ⟨some buf, size⟩)) buf size True
      (connectPacket (ci.toSpec will)) := by
  have hser := serializeConnect_eq hW hv hwt hbuf hsize
  obtain ⟨h1, h2, h3, h4, h5, h6, h7⟩ := getConnectPacketSize_ok hsize hv hwt
  rw [h5] at hser
  have := framedWrite_of (bad := False) (pkt := connectPacket (ci.toSpec will)) hbuf (hser.trans (if_neg id).symm)
  simpa using this

/-- **C06** A will without topic is refused by `MQTT_SerializeConnect` without any write. -/
theorem C06_connect_will_without_topic {W : Nat} (ci : ConnectInfo) (w : PublishInfo) (buf : List UInt8) (size r : Nat)
    (hw : w.pTopicName = none) :
    serializeConnect W (some ci) (some w) r (some ⟨some buf, size⟩) = .ok (.badParameter, some buf) := by
  simp [serializeConnect, hw]

/-- **C06** `MQTT_SerializeSubscribe` and `MQTT_SerializeUnsubscribe`. -/
theorem C06_subscription_buffer {W : Nat} (hW : 2 ^ 32 ≤ W) (ty : SubType) (subs : List SubscribeInfo) (id : UInt16)
    (buf : List UInt8) (size r s : Nat) (hv : ValidSubs subs) (hnw : 2 + filtersLen ty subs < W) (hbuf : size ≤ buf.length)
    (hsize : getSubscriptionPacketSize W ty (some subs) = ⟨.success, r, s⟩) :
    FramedWrite (serializeSubscription W ty (some subs) id r (some ⟨some buf, size⟩)) buf size (¬ id = 0)
      (subPacket ty id subs) := by
  obtain ⟨h1, h2, h3, h4, h5, h6⟩ := serializeSubscription_eq (id := id) hW hv hnw hbuf hsize
  rw [h3] at h1
  exact framedWrite_of hbuf h1

/-- **C06** `MQTT_SerializeAck` (the buffer size is checked before the other arguments). -/
theorem C06_ack_buffer (t : UInt8) (id : UInt16) (buf : List UInt8) (size : Nat) (hbuf : size ≤ buf.length) :
    (size < 4 → serializeAck (some ⟨some buf, size⟩) t id = .ok (.noMemory, some buf)) ∧
    (4 ≤ size → FramedWrite (serializeAck (some ⟨some buf, size⟩) t id) buf size
      (¬ (id = 0 ∨ ¬ (t = 0x40 ∨ t = 0x50 ∨ t = 0x62 ∨ t = 0x70))) (idPacket t.toNat id.toNat)) := by
  constructor
  · intro h; simp [serializeAck, h]
  · intro h
    have hpk : idPacket t.toNat id.toNat = [t, 2, highByte id, lowByte id] := by
      have h2 : varInt 2 = [2] := by decide +kernel
      simp [idPacket, packet, be16_length, h2, ← hl_be16]
    apply framedWrite_of hbuf
    rw [hpk]
    unfold serializeAck
    simp only [if_neg (show ¬ size < 4 by omega)]
    by_cases hid : id = 0
    · simp [hid]
    · simp only [hid, if_false, false_or]
      by_cases ht : t = 0x40 ∨ t = 0x50 ∨ t = 0x62 ∨ t = 0x70
      · have ht' : t = ptPUBACK ∨ t = ptPUBREC ∨ t = ptPUBREL ∨ t = ptPUBCOMP := ht
        rw [if_pos ht', if_neg (by simp [ht]), cur_nil]
        rw [put_cur (by simp; omega), Res.ok_bind, put_cur (by simp; omega), Res.ok_bind,
        put_cur (by simp; omega), Res.ok_bind, put_cur (by simp; omega), Res.ok_bind]
        rw [if_neg (by simp; omega)]
        simp [cur]
      · have ht' : ¬ (t = ptPUBACK ∨ t = ptPUBREC ∨ t = ptPUBREL ∨ t = ptPUBCOMP) := ht
        rw [if_neg ht', if_pos ht]

/-- **C06** `MQTT_SerializeDisconnect` and `MQTT_SerializePingreq`. -/
theorem C06_two_byte_buffers (buf : List UInt8) (size : Nat) (hbuf : size ≤ buf.length) :
    FramedWrite (serializeDisconnect (some ⟨some buf, size⟩)) buf size True disconnectPacket ∧
    FramedWrite (serializePingreq (some ⟨some buf, size⟩)) buf size True pingreqPacket := by
  have key : ∀ b : UInt8, FramedWrite (serializeTwoBytes b (some ⟨some buf, size⟩)) buf size True [b, 0] := by
    intro b
    have := framedWrite_of (bad := False) (pkt := [b, 0]) (r := serializeTwoBytes b (some ⟨some buf, size⟩)) hbuf (by
      rw [if_neg id]
      unfold serializeTwoBytes
      simp only [List.length_cons, List.length_nil]
      split
      · rfl
      · rw [cur_nil, put_cur (by simp; omega), Res.ok_bind, put_cur (by simp; omega), Res.ok_bind]
        simp [cur])
    simpa using this
  have h0 : varInt 0 = [0] := by decide +kernel
  constructor
  · simpa [disconnectPacket, packet, h0, serializeDisconnect, ptDISCONNECT] using key 0xE0
  · simpa [pingreqPacket, packet, h0, serializePingreq, ptPINGREQ] using key 0xC0

/-- **C06** A missing buffer is refused by every serializer. -/
theorem C06_no_buffer (W : Nat) (p : Option PublishInfo) (ci : Option ConnectInfo) (will : Option PublishInfo)
    (ty : SubType) (subs : Option (List SubscribeInfo)) (id : UInt16) (t : UInt8) (r size : Nat) :
    ∀ fb, fb = none ∨ fb = some ⟨none, size⟩ →
    serializePublish W p id r fb = .ok (.badParameter, none) ∧
    serializePublishHeader W p id r fb = .ok (.badParameter, none, 0) ∧
    serializeConnect W ci will r fb = .ok (.badParameter, none) ∧
    serializeSubscription W ty subs id r fb = .ok (.badParameter, none) ∧
    serializeAck fb t id = .ok (.badParameter, none) ∧
    serializeDisconnect fb = .ok (.badParameter, none) ∧ serializePingreq fb = .ok (.badParameter, none) := by
  rintro fb (rfl | rfl)
  · refine ⟨?_, ?_, ?_, ?_, rfl, rfl, rfl⟩
    · cases p <;> rfl
    · cases p <;> rfl
    · cases ci <;> rfl
    · cases subs <;> rfl
  · refine ⟨?_, ?_, ?_, ?_, rfl, rfl, rfl⟩
    · cases p <;> rfl
    · cases p <;> rfl
    · cases ci <;> rfl
    · cases subs <;> rfl

/-- Non-vacuity of C06: the two outcomes of a four-byte packet in buffers of 4 and 3 bytes, and a PUBLISH into exactly
its size. -/
example : serializeAck (some ⟨some [1, 2, 3, 4, 5], 4⟩) 0x40 513 = .ok (.success, some [0x40, 2, 2, 1, 5]) ∧
    serializeAck (some ⟨some [1, 2, 3, 4, 5], 3⟩) 0x40 513 = .ok (.noMemory, some [1, 2, 3, 4, 5]) ∧
    serializePublish (2 ^ 32) (some ⟨.qos0, false, false, some [0x61], 1, none, 0⟩) 0 3 (some ⟨some [9, 9, 9, 9, 9, 9], 5⟩) =
      .ok (.success, some [0x30, 3, 0, 1, 0x61, 9]) := by decide +kernel

/-- The remaining length must come from the size function: with a smaller one the writer leaves the buffer. -/
theorem C06_needs_matching_length :
    serializePublish (2 ^ 32) (some ⟨.qos0, false, false, some [0x61], 1, none, 0⟩) 0 0 (some ⟨some [9, 9], 2⟩)
      = .ub .oobWrite := by decide +kernel

end Mqtt
