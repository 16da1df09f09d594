/- Properties C04, C05, C10: PUBLISH packets. -/
import Verif.Proof.Publish
import Verif.Props.Header

namespace Mqtt
set_option linter.unusedSimpArgs false
open Spec

/-- **C04** PUBLISH round trip.  `p` is any description whose pointers really refer to the memory it claims
(`p.Valid`), sized by `MQTT_GetPublishPacketSize` and written by `MQTT_SerializePublish` into a buffer of at least
the claimed size.  Then the first `s` bytes are the MQTT 3.1.1 PUBLISH for `p`, the rest of the buffer is as before,
the header parser finds the packet, and `MQTT_DeserializePublish` returns what was given. -/
theorem C04_publish_roundtrip {W : Nat} (hW : 2 ^ 32 ≤ W) (p : PublishInfo) (id id0 : UInt16)
    (buf out : List UInt8) (size r s : Nat)
    (hv : p.Valid) (hp : p.payloadLength < W) (hbuf : size ≤ buf.length)
    (hsize : getPublishPacketSize W (some p) = ⟨.success, r, s⟩)
    (hser : serializePublish W (some p) id r (some ⟨some buf, size⟩) = .ok (.success, some out)) :
    out.take s = publishPacket
        { dup := p.dup, qos := p.qos.toFin, retain := p.retain,
          topic := bytesOf p.pTopicName p.topicNameLength.toNat, id := id.toNat,
          payload := bytesOf p.pPayload p.payloadLength } ∧
    out.drop s = buf.drop s ∧
    ∃ t h, processIncomingPacketTypeAndLength (some out) s = .ok ⟨.success, t, r, h⟩ ∧ h + r = s ∧
      ∃ id' q, mqttDeserializePublish W (some ⟨t, some ((out.take s).drop h), r, h⟩) id0 = .ok (.success, some (id', q)) ∧
        q.qos = p.qos ∧ q.dup = p.dup ∧ q.retain = p.retain ∧
        q.topicNameLength = p.topicNameLength ∧
        bytesOf q.pTopicName q.topicNameLength.toNat = bytesOf p.pTopicName p.topicNameLength.toNat ∧
        q.payloadLength = p.payloadLength ∧
        bytesOf q.pPayload q.payloadLength = bytesOf p.pPayload p.payloadLength ∧
        (p.qos ≠ .qos0 → id' = id) := by
  obtain ⟨h1, h2, rfl, hs, h5⟩ := getPublishPacketSize_ok hW hp hsize
  rw [serializePublish_eq hW hv hp hbuf hsize] at hser
  split at hser
  · cases hser
  split at hser
  · cases hser
  next hc hfit =>
  simp only [Res.ok.injEq, Prod.mk.injEq, Option.some.injEq, true_and] at hser
  subst hser
  simp only [not_or, not_and] at hc
  obtain ⟨hc1, hc2, hc3⟩ := hc
  have hpl : p.pPayload ≠ none ∨ p.payloadLength = 0 := by
    rcases Nat.eq_zero_or_pos p.payloadLength with h | h
    · exact .inr h
    · exact .inl (hc1 h)
  have hb := publishBody_length (id := id) hv h1 hpl
  simp only [maxRemaining] at h5
  have hlen : (publishPacket (p.toSpec id)).length = s := by
    rw [publishPacket, packet_length (by omega), hb, hs]
  have htake : (publishPacket (p.toSpec id) ++ buf.drop s).take s = publishPacket (p.toSpec id) := by
    rw [← hlen, List.take_left]
  refine ⟨htake, by rw [← hlen, List.drop_left], UInt8.ofNat (publishFirst p.dup p.qos.toFin p.retain),
    1 + remainingLengthEncodedSize (pubLen p), ?_, by omega, ?_⟩
  · obtain ⟨f, hf, -, -, hfl, -, hpar⟩ := C01_remaining_length_roundtrip (pubLen p) (by simp only [maxRemaining]; omega)
    have hf' := (canonical_iff.mp hf).2
    subst hf'
    have hty : ServerFirstByte (UInt8.ofNat (publishFirst p.dup p.qos.toFin p.retain)).toNat := by
      generalize p.dup = d; generalize p.qos = q; generalize p.retain = r
      cases q <;> revert d r <;> decide
    obtain ⟨hp1, -⟩ := hpar _ hty (publishBody (p.toSpec id) ++ buf.drop s)
    have := hp1 s (by omega) (by simp [hb]; omega)
    rw [hfl, ← this, publishPacket, packet, hb]
    simp [PublishInfo.toSpec]
  · rw [htake]
    have hdrop : (publishPacket (p.toSpec id)).drop (1 + remainingLengthEncodedSize (pubLen p))
        = publishBody (p.toSpec id) := by
      rw [publishPacket, packet, hb, ← varInt_length (by omega), Nat.add_comm]
      simp
    rw [hdrop]
    have hft : (UInt8.ofNat (publishFirst p.dup p.qos.toFin p.retain)).toNat = publishFirst p.dup p.qos.toFin p.retain := by
      generalize p.dup = d; generalize p.qos = q; generalize p.retain = r
      cases q <;> revert d r <;> decide
    have ht16 : (UInt8.ofNat (publishFirst p.dup p.qos.toFin p.retain)).toNat / 16 = 3 := by
      generalize p.dup = d; generalize p.qos = q; generalize p.retain = r
      cases q <;> revert d r <;> decide
    have htl := (hv.topic h1).length
    have htlt := p.topicNameLength.toNat_lt
    have hqf : ∀ q q' : QoS, q.toFin = q'.toFin → q = q' := by intro q q'; cases q <;> cases q' <;> decide
    have hq0 : p.qos.toFin.val = 0 ↔ p.qos = .qos0 := by cases p.qos <;> decide
    -- the spec parser reads the packet back, up to the id that QoS 0 does not carry
    have hid0 : parsePublish (publishFirst p.dup p.qos.toFin p.retain) (publishBody (p.toSpec id)) =
        some ⟨p.dup, p.qos.toFin, p.retain, bytesOf p.pTopicName p.topicNameLength.toNat,
          if p.qos = .qos0 then 0 else id.toNat, bytesOf p.pPayload p.payloadLength⟩ := by
      have e : publishBody (p.toSpec id)
          = publishBody ⟨p.dup, p.qos.toFin, p.retain, bytesOf p.pTopicName p.topicNameLength.toNat,
            if p.qos = .qos0 then 0 else id.toNat, bytesOf p.pPayload p.payloadLength⟩ := by
        by_cases hq : p.qos = .qos0
        · simp [publishBody, PublishInfo.toSpec, hq, QoS.toFin]
        · simp [PublishInfo.toSpec, if_neg hq]
      rw [e]
      have hid := id.toNat_lt
      refine parsePublish_body (s := ⟨p.dup, p.qos.toFin, p.retain, bytesOf p.pTopicName p.topicNameLength.toNat,
            if p.qos = .qos0 then 0 else id.toNat, bytesOf p.pPayload p.payloadLength⟩) ?_ ?_ ?_
      · simp only [htl]; omega
      · simp only; split <;> omega
      · simp only [hq0]
        split
        · rfl
        · next hq => exact fun hz => hc2 hq (UInt16.toNat.inj hz)
    have hspec := deserializePublish_spec (extra := []) (hl := 1 + remainingLengthEncodedSize (pubLen p))
      (id0 := id0) (W := W) ht16 (body := publishBody (p.toSpec id)) (by omega)
    rw [hft, hid0] at hspec
    simp only [List.append_nil, hb] at hspec
    rw [if_neg] at hspec
    · obtain ⟨id', q, e1, e2, e3, e4, e5, e6, e7, e8, e9, e10⟩ := hspec
      have htl0 : p.topicNameLength.toNat ≠ 0 := fun h => h2 (UInt16.toNat.inj h)
      refine ⟨id', q, ?_, hqf _ _ e2, e3, e4, ?_, e7, ?_, ?_, ?_⟩
      · unfold mqttDeserializePublish
        simp only [(isPublish_iff _).mpr ht16]
        simpa using e1
      · apply UInt16.toNat.inj; rw [e8]; exact htl
      · rw [e9]; exact bytesOf_length_payload hpl hv
      · have hpll := bytesOf_length_payload hpl hv
        rw [e9, e10]
        simp only [htl, hq0, hpll]
        split
        · next h => rw [h]; simp [bytesOf]
        · have hsplit : publishBody (p.toSpec id) =
              (str (bytesOf p.pTopicName p.topicNameLength.toNat) ++
              (if p.qos.toFin.val = 0 then [] else be16 id.toNat)) ++ bytesOf p.pPayload p.payloadLength := rfl
          have hl2 : (str (bytesOf p.pTopicName p.topicNameLength.toNat) ++
              (if p.qos.toFin.val = 0 then [] else be16 id.toNat)).length =
              2 + p.topicNameLength.toNat + (if p.qos = .qos0 then 0 else 2) := by
            simp only [List.length_append, str_length, htl, hq0]
            split <;> rfl
          rw [hsplit, ← hl2]
          unfold bytesOf
          simp only [Option.getD_some, List.drop_left]
          rw [List.take_of_length_le]
          exact Nat.le_of_eq (bytesOf_length_payload hpl hv)
      · intro hq
        simp only [PublishInfo.toSpec, hq0, hq, if_false] at e5
        exact UInt16.toNat.inj e5
    · have htl0 : p.topicNameLength.toNat ≠ 0 := fun h => h2 (UInt16.toNat.inj h)
      simp only [PublishInfo.toSpec, hq0]
      unfold pubLen
      split <;> omega

/-- Non-vacuity of C04: a QoS 2, retained, duplicate PUBLISH of "hi" to "a/b" with id 513. -/
example :
    let p : PublishInfo := ⟨.qos2, true, true, some [0x61, 0x2F, 0x62], 3, some [0x68, 0x69], 2⟩
    p.Valid ∧ getPublishPacketSize (2 ^ 32) (some p) = ⟨.success, 9, 11⟩ ∧
    serializePublish (2 ^ 32) (some p) 513 9 (some ⟨some (List.replicate 12 0), 12⟩)
      = .ok (.success, some [0x3D, 9, 0, 3, 0x61, 0x2F, 0x62, 2, 1, 0x68, 0x69, 0]) :=
  ⟨⟨fun _ => ⟨_, rfl, by decide⟩, fun _ => ⟨_, rfl, by decide⟩⟩, by decide +kernel, by decide +kernel⟩

/-- **C05** The size computation, for every payload length that `size_t` can hold and every `size_t` width of at
least 32 bits: it succeeds exactly when a topic is given and the whole packet (first byte, length field, body)
is at most 268435455 bytes, and then it reports exactly the true body and packet length; there is no wrap-around. -/
theorem C05_publish_size_exact {W : Nat} (hW : 2 ^ 32 ≤ W) (p : PublishInfo) (hp : p.payloadLength < W) :
    let body := 2 + p.topicNameLength.toNat + (if p.qos = .qos0 then 0 else 2) + p.payloadLength
    let total := 1 + (varInt body).length + body
    (p.pTopicName ≠ none ∧ p.topicNameLength ≠ 0 ∧ total ≤ 268435455 →
      getPublishPacketSize W (some p) = ⟨.success, body, total⟩) ∧
    (¬ (p.pTopicName ≠ none ∧ p.topicNameLength ≠ 0 ∧ total ≤ 268435455) →
      (getPublishPacketSize W (some p)).status = .badParameter) := by
  intro body total
  have hbody : pubLen p = body := by simp only [pubLen, body]; omega
  have hvl : body ≤ 268435455 → (varInt body).length = remainingLengthEncodedSize body := varInt_length
  constructor
  · rintro ⟨a, b, c⟩
    have hb : body ≤ 268435455 := by simp only [total] at c; omega
    unfold getPublishPacketSize
    simp only [a, b, false_or, if_false]
    rw [calculatePublishPacketSize_eq hW p hp, hbody]
    simp only [total, hvl hb] at c ⊢
    rw [if_pos (by simp only [maxRemaining]; omega)]
    simp only [SizeRes.mk.injEq, true_and]
    omega
  · intro hn
    unfold getPublishPacketSize
    simp only
    split
    · rfl
    · next hab =>
      rw [calculatePublishPacketSize_eq hW p hp, hbody]
      simp only [not_or] at hab
      rw [if_neg]
      simp only [maxRemaining]
      intro hle
      apply hn
      refine ⟨hab.1, hab.2, ?_⟩
      simp only [total]
      rw [hvl (by omega)]
      omega

/-- **C05** (second part) The reported packet size is the number of bytes written: on success exactly the first `s`
bytes may differ from the old buffer, and they are the packet. -/
theorem C05_publish_size_is_bytes_written {W : Nat} (hW : 2 ^ 32 ≤ W) (p : PublishInfo) (id : UInt16)
    (buf out : List UInt8) (size r s : Nat)
    (hv : p.Valid) (hp : p.payloadLength < W) (hbuf : size ≤ buf.length)
    (hsize : getPublishPacketSize W (some p) = ⟨.success, r, s⟩)
    (hser : serializePublish W (some p) id r (some ⟨some buf, size⟩) = .ok (.success, some out)) :
    ∃ pkt, pkt.length = s ∧ pkt = publishPacket (p.toSpec id) ∧ out = pkt ++ buf.drop s := by
  obtain ⟨h1, h2, -⟩ := C04_publish_roundtrip hW p id 0 buf out size r s hv hp hbuf hsize hser
  have h2' : out = publishPacket (p.toSpec id) ++ buf.drop s := by
    have h1' : out.take s = publishPacket (p.toSpec id) := h1
    rw [← h2, ← h1', List.take_append_drop]
  refine ⟨_, ?_, rfl, h2'⟩
  obtain ⟨g1, g2, rfl, hs, h5⟩ := getPublishPacketSize_ok hW hp hsize
  rw [serializePublish_eq hW hv hp hbuf hsize] at hser
  split at hser
  · cases hser
  split at hser
  · cases hser
  next hc hfit =>
  simp only [not_or, not_and] at hc
  have hpl : p.pPayload ≠ none ∨ p.payloadLength = 0 := by
    rcases Nat.eq_zero_or_pos p.payloadLength with h | h
    · exact .inr h
    · exact .inl (hc.1 h)
  have hb := publishBody_length (id := id) hv g1 hpl
  simp only [maxRemaining] at h5
  rw [publishPacket, packet_length (by omega), hb, hs]

/-- Non-vacuity of C05: a topic of maximal length and the largest accepted payload. -/
example : (getPublishPacketSize (2 ^ 32) (some ⟨.qos1, false, false, some [], 65535, none, 268369911⟩)).status = .success ∧
    (getPublishPacketSize (2 ^ 32) (some ⟨.qos1, false, false, some [], 65535, none, 268369912⟩)).status = .badParameter := by
  decide +kernel

/-- **C10** Parsing a PUBLISH.  `body` is the memory of the declared remaining length, `extra` whatever follows it in
the caller's buffer (the result does not depend on it, and `extra = []` shows that no byte beyond is read; every
out-of-bounds read would make the result `ub`).  The outcome is success exactly when the independent grammar
`parsePublish` reads the body (and it has at least 3, with packet id 5, bytes), and then the reported parts partition the body. -/
theorem C10_publish_parsing {W : Nat} (t : UInt8) (body extra : List UInt8) (h : Nat) (id0 : UInt16)
    (ht : t.toNat / 16 = 3) (hW : body.length < W) :
    ∃ st res, mqttDeserializePublish W (some ⟨t, some (body ++ extra), body.length, h⟩) id0 = .ok (st, res) ∧
      (st = .success ∨ st = .badResponse) ∧ (st = .success ↔ res.isSome) ∧
      (st = .success ↔ ∃ s, parsePublish t.toNat body = some s ∧ (if s.qos.val = 0 then 3 else 5) ≤ body.length) ∧
      ∀ id q, res = some (id, q) →
        let topic := bytesOf q.pTopicName q.topicNameLength.toNat
        let payload := bytesOf q.pPayload q.payloadLength
        body = be16 q.topicNameLength.toNat ++ topic ++ (if q.qos = .qos0 then [] else be16 id.toNat) ++ payload ∧
        topic.length = q.topicNameLength.toNat ∧ payload.length = q.payloadLength ∧
        (q.qos = .qos0 → id = id0) ∧ (q.qos ≠ .qos0 → id ≠ 0) ∧
        t.toNat = publishFirst q.dup q.qos.toFin q.retain := by
  have hspec := deserializePublish_spec (extra := extra) (hl := h) (id0 := id0) ht hW
  have hmq : mqttDeserializePublish W (some ⟨t, some (body ++ extra), body.length, h⟩) id0 =
      deserializePublish W ⟨t, some (body ++ extra), body.length, h⟩ id0 := by
    unfold mqttDeserializePublish
    simp [(isPublish_iff _).mpr ht]
  rw [hmq]
  cases hp : parsePublish t.toNat body with
  | none =>
    rw [hp] at hspec
    exact ⟨_, _, hspec, by simp, by simp, by simp, by simp⟩
  | some s =>
    rw [hp] at hspec
    simp only at hspec
    by_cases hsh : body.length < (if s.qos.val = 0 then 3 else 5)
    · rw [if_pos hsh] at hspec
      refine ⟨_, _, hspec, by simp, by simp, ⟨by simp, ?_⟩, by simp⟩
      rintro ⟨s', hs', hl⟩
      cases hs'
      exact absurd hsh (Nat.not_lt.mpr hl)
    · rw [if_neg hsh] at hspec
      obtain ⟨id, q, e1, e2, e3, e4, e5, e6, e7, e8, e9, e10⟩ := hspec
      refine ⟨_, _, e1, by simp, by simp, ⟨fun _ => ⟨s, rfl, Nat.not_lt.mp hsh⟩, fun _ => rfl⟩, ?_⟩
      rintro _ _ ⟨⟩
      simp only
      -- what the spec parser read
      have hq0 : q.qos = .qos0 ↔ s.qos.val = 0 := by rw [← e2]; cases q.qos <;> decide
      have hbody : body = publishBody s ∧ (s.qos.val ≠ 0 → s.id ≠ 0) ∧ t.toNat = publishFirst s.dup s.qos s.retain := by
        obtain ⟨a, b, -, d⟩ := parsePublish_some t.toNat_lt hp
        exact ⟨a, b, d⟩
      obtain ⟨hb1, hb2, hb3⟩ := hbody
      have hpay : bytesOf q.pPayload q.payloadLength = s.payload := by
        rw [e9, e10]
        split
        · next h0 => simp [h0, bytesOf]
        · rw [hb1]
          have : publishBody s ++ extra = (str s.topic ++ (if s.qos.val = 0 then [] else be16 s.id)) ++
              (s.payload ++ extra) := by simp [publishBody]
          rw [this]
          have hl : (str s.topic ++ (if s.qos.val = 0 then [] else be16 s.id)).length =
              2 + s.topic.length + (if s.qos.val = 0 then 0 else 2) := by
            simp only [List.length_append, str_length]
            split <;> rfl
          rw [← hl]
          simp [bytesOf]
      refine ⟨?_, by rw [e7, e8], by rw [hpay, e9], ?_, ?_, ?_⟩
      · rw [e7, hpay, e8]
        conv => lhs; rw [hb1]
        unfold publishBody str
        by_cases h0 : s.qos.val = 0
        · simp [h0, hq0]
        · rw [if_neg h0] at e5
          simp [h0, hq0, e5]
      · intro h0
        rw [if_pos (hq0.mp h0)] at e5; exact e5
      · intro h0
        have h0' := fun h => h0 (hq0.mpr h)
        rw [if_neg h0'] at e5
        intro hz
        apply hb2 h0'
        rw [← e5, hz]; rfl
      · rw [e2, e3, e4]; exact hb3

/-- Non-vacuity of C10: an accepted QoS 1 body; QoS 3, id 0 and a topic longer than the body are rejected. -/
example :
    (∃ q, mqttDeserializePublish (2 ^ 32) (some ⟨0x32, some [0, 1, 0x61, 0, 7, 0x68], 6, 2⟩) 0 = .ok (.success, some (7, q))) ∧
    mqttDeserializePublish (2 ^ 32) (some ⟨0x36, some [0, 1, 0x61, 0, 7, 0x68], 6, 2⟩) 0 = .ok (.badResponse, none) ∧
    mqttDeserializePublish (2 ^ 32) (some ⟨0x32, some [0, 1, 0x61, 0, 0, 0x68], 6, 2⟩) 0 = .ok (.badResponse, none) ∧
    mqttDeserializePublish (2 ^ 32) (some ⟨0x32, some [0, 9, 0x61, 0, 7, 0x68], 6, 2⟩) 0 = .ok (.badResponse, none) :=
  ⟨⟨_, rfl⟩, by decide +kernel, by decide +kernel, by decide +kernel⟩

end Mqtt
