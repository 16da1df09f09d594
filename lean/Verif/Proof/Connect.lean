/- Helper lemmas for CONNECT, SUBSCRIBE and UNSUBSCRIBE. -/
import Verif.Proof.Publish

namespace Mqtt
open Spec
set_option linter.unusedSimpArgs false

/-- `encodeString` on the canonical cursor. -/
theorem encodeString_cur {p : Ptr} {len : UInt16} (h : HasBytes p len.toNat) {buf pre : List UInt8}
    (hfit : pre.length + 2 + len.toNat ≤ buf.length) :
    encodeString (cur buf pre) p len = .ok (cur buf (pre ++ str (bytesOf p len.toNat))) := by
  rw [encodeString_eq h, put_cur]
  rw [str_length, h.length]; omega

theorem connectFlags_eq (ci : ConnectInfo) (will : Option PublishInfo) :
    connectFlags ci will = UInt8.ofNat (connectFlagsByte (ci.toSpec will)) ∧
    connectFlagsByte (ci.toSpec will) < 256 := by
  obtain ⟨cl, ka, cid, cl2, u, ul, p, pl⟩ := ci
  rcases will with _ | ⟨q, r, d, t, tl, pp, ppl⟩
  · cases cl <;> cases u <;> cases p <;>
      simp only [connectFlags, connectFlagsByte, ConnectInfo.toSpec, Option.map_none, Option.map_some,
        Option.isSome_none, Option.isSome_some, ne_eq, reduceCtorEq, not_true, not_false_eq_true, if_true, if_false] <;> decide
  · cases cl <;> cases u <;> cases p <;> cases q <;> cases r <;>
      simp only [connectFlags, connectFlagsByte, ConnectInfo.toSpec, Option.map_none, Option.map_some,
        Option.isSome_none, Option.isSome_some, ne_eq, reduceCtorEq, not_true, not_false_eq_true, if_true, if_false, QoS.toFin] <;> decide

theorem encodeString_cur' {p : Ptr} {len : UInt16} (h : HasBytes p len.toNat ∨ (p = none ∧ len.toNat = 0))
    {buf pre : List UInt8} (hfit : pre.length + 2 + len.toNat ≤ buf.length) :
    encodeString (cur buf pre) p len = .ok (cur buf (pre ++ str (bytesOf p len.toNat))) := by
  rcases h with h | ⟨rfl, h⟩
  · exact encodeString_cur h hfit
  · unfold encodeString
    rw [put_cur (by simp; omega), Res.ok_bind, put_cur (by simp; omega), Res.ok_bind]
    simp only [skip, h, bytesOf]
    rw [if_pos (by simp [cur])]
    have hh : highByte len = 0 := by rw [highByte_eq, h]; rfl
    have hl : lowByte len = 0 := by rw [lowByte_eq, h]; rfl
    simp [str, be16, hh, hl, cur]

theorem bytesOf_some (m : List UInt8) (n : Nat) : bytesOf (some m) n = m.take n := rfl

/-- Bytes taken by the will in a CONNECT body. -/
def willLen : Option PublishInfo → Nat
  | none => 0
  | some w => 4 + w.topicNameLength.toNat + w.payloadLength

theorem optStr_length {p : Ptr} {len : Nat} (h : p ≠ none → HasBytes p len) :
    (optStr (p.map fun u => u.take len)).length = if p = none then 0 else 2 + len := by
  cases p with
  | none => rfl
  | some m =>
    have := (h (by simp)).length
    rw [bytesOf_some] at this
    simp only [Option.map_some, optStr, str_length, this]
    simp

theorem optStr_eq {p : Ptr} {len : Nat} :
    optStr (p.map fun u => u.take len) = if p ≠ none then str (bytesOf p len) else [] := by
  cases p <;> simp [optStr, bytesOf]

/-- Length of the CONNECT body. -/
theorem connectBody_length {ci : ConnectInfo} {will : Option PublishInfo} (hv : ci.Valid will)
    (hc : ci.pClientIdentifier ≠ none) (hw : ∀ w, will = some w → w.pTopicName ≠ none) :
    (connectBody (ci.toSpec will)).length =
      12 + ci.clientIdentifierLength.toNat
      + willLen will
      + (if ci.pUserName = none then 0 else 2 + ci.userNameLength.toNat)
      + (if ci.pPassword = none then 0 else 2 + ci.passwordLength.toNat) := by
  have h1 := (hv.cid hc).length
  unfold connectBody ConnectInfo.toSpec
  simp only [List.length_append, str_length, be16_length, h1]
  rw [optStr_length hv.user, optStr_length hv.pass]
  cases will with
  | none => simp [willStr, willLen]; omega
  | some w =>
    obtain ⟨hwv, hwp⟩ := hv.will w rfl
    have h2 := (hwv.topic (hw w rfl)).length
    have h3 := bytesOf_length_payload (p := w) (by
      by_cases h : w.pPayload = none
      · exact .inr (hwp h)
      · exact .inl h) hwv
    simp only [Option.map_some, willStr, List.length_append, str_length, h2, h3, willLen, List.length_cons, List.length_nil]
    omega

theorem getConnectPacketSize_ok {ci : ConnectInfo} {will : Option PublishInfo} {r s : Nat}
    (hs : getConnectPacketSize (some ci) will = ⟨.success, r, s⟩) (hv : ci.Valid will)
    (hw : ∀ w, will = some w → w.pTopicName ≠ none) :
    ci.pClientIdentifier ≠ none ∧ ci.clientIdentifierLength ≠ 0 ∧
    (∀ w, will = some w → w.payloadLength ≤ 65535) ∧
    r = (connectBody (ci.toSpec will)).length ∧ s = (connectPacket (ci.toSpec will)).length ∧ r ≤ 327695 ∧
    s = 1 + remainingLengthEncodedSize r + r := by
  unfold getConnectPacketSize at hs
  simp only [reduceCtorEq, if_false, Bool.true_eq_false] at hs
  split at hs
  · cases hs
  next hc =>
  simp only [not_or] at hc
  have hb := connectBody_length hv hc.2 hw
  have l1 := ci.clientIdentifierLength.toNat_lt
  have l2 := ci.userNameLength.toNat_lt
  have l3 := ci.passwordLength.toNat_lt
  by_cases hwl : will.any (fun w => decide (w.payloadLength > 65535)) = true
  · rw [if_pos hwl] at hs
    cases hs
  rw [if_neg hwl] at hs
  simp only [SizeRes.mk.injEq, true_and] at hs
  obtain ⟨e1, e2⟩ := hs
  have hwl' : ∀ w, will = some w → w.payloadLength ≤ 65535 := by
    rintro w rfl
    simpa using hwl
  have hr : r = (connectBody (ci.toSpec will)).length := by
    rw [hb, ← e1]
    cases will with
    | none =>
      by_cases hu : ci.pUserName = none <;> by_cases hp : ci.pPassword = none <;> simp [hu, hp, willLen] <;> omega
    | some w =>
      by_cases hu : ci.pUserName = none <;> by_cases hp : ci.pPassword = none <;> simp [hu, hp, willLen] <;> omega
  have hle : r ≤ 327695 := by
    rw [hr, hb]
    cases will with
    | none => simp only [willLen]; split <;> split <;> omega
    | some w =>
      have := hwl' w rfl
      have := w.topicNameLength.toNat_lt
      simp only [willLen]; split <;> split <;> omega
  have hs2 : s = 1 + remainingLengthEncodedSize r + r := by
    rw [← e2, e1]; omega
  refine ⟨hc.2, hc.1, hwl', hr, ?_, hle, hs2⟩
  rw [connectPacket, packet_length (by omega), ← hr, hs2]

/-- `MQTT_SerializeConnect` completely described, for a size obtained from `MQTT_GetConnectPacketSize`. -/
theorem serializeConnect_eq {W : Nat} (hW : 4294967296 ≤ W) {ci : ConnectInfo} {will : Option PublishInfo}
    {buf : List UInt8} {size r s : Nat} (hv : ci.Valid will) (hw : ∀ w, will = some w → w.pTopicName ≠ none)
    (hbuf : size ≤ buf.length) (hs : getConnectPacketSize (some ci) will = ⟨.success, r, s⟩) :
    serializeConnect W (some ci) will r (some ⟨some buf, size⟩) =
      if size < s then .ok (.noMemory, some buf)
      else .ok (.success, some (connectPacket (ci.toSpec will) ++ buf.drop s)) := by
  obtain ⟨h1, h2, h3, h4, h5, h6, h7⟩ := getConnectPacketSize_ok hs hv hw
  unfold serializeConnect
  have hwt : will.any (fun w => w.pTopicName.isNone) = false := by
    cases will with
    | none => rfl
    | some w => simpa using Option.isSome_iff_ne_none.mpr (hw w rfl)
  simp only [hwt, Bool.false_eq_true, if_false]
  have he := encodedSize_le r
  rw [Nat.mod_eq_of_lt (by omega)]
  rw [show r + remainingLengthEncodedSize r + 1 = s by omega]
  simp only [gt_iff_lt]
  split
  · rfl
  next hfit =>
  have hlen : (connectPacket (ci.toSpec will)).length ≤ buf.length := by omega
  -- the writes, one after the other
  have hvl := varInt_length (n := r) (by omega)
  have hb := connectBody_length hv h1 hw
  have hpkt : connectPacket (ci.toSpec will) =
      [ptCONNECT] ++ varInt r ++ str mqttName ++ [4] ++ [connectFlags ci will]
      ++ [highByte ci.keepAliveSeconds] ++ [lowByte ci.keepAliveSeconds]
      ++ str (bytesOf ci.pClientIdentifier ci.clientIdentifierLength.toNat)
      ++ (match will with
          | none => []
          | some w => str (bytesOf w.pTopicName w.topicNameLength.toNat) ++ str (bytesOf w.pPayload w.payloadLength))
      ++ (if ci.pUserName ≠ none then str (bytesOf ci.pUserName ci.userNameLength.toNat) else [])
      ++ (if ci.pPassword ≠ none then str (bytesOf ci.pPassword ci.passwordLength.toNat) else []) := by
    rw [connectPacket, packet, ← h4, connectBody, (connectFlags_eq ci will).1]
    have e1 : willStr (ci.toSpec will).will = (match will with
          | none => []
          | some w => str (bytesOf w.pTopicName w.topicNameLength.toNat) ++ str (bytesOf w.pPayload w.payloadLength)) := by
      cases will <;> rfl
    have e2 : optStr (ci.toSpec will).user
        = (if ci.pUserName ≠ none then str (bytesOf ci.pUserName ci.userNameLength.toNat) else []) := optStr_eq
    have e3 : optStr (ci.toSpec will).pass
        = (if ci.pPassword ≠ none then str (bytesOf ci.pPassword ci.passwordLength.toNat) else []) := optStr_eq
    rw [e1, e2, e3]
    have e4 : be16 (ci.toSpec will).keepAlive = [highByte ci.keepAliveSeconds, lowByte ci.keepAliveSeconds] := by
      rw [hl_be16]; rfl
    rw [e4]
    simp [mqttName, ptCONNECT, ConnectInfo.toSpec]
  have hcid := (hv.cid h1).length
  have hsum : s = 1 + (varInt r).length + (12 + ci.clientIdentifierLength.toNat + willLen will
      + (if ci.pUserName = none then 0 else 2 + ci.userNameLength.toNat)
      + (if ci.pPassword = none then 0 else 2 + ci.passwordLength.toNat)) := by
    rw [hvl, ← hb, ← h4]; exact h7
  unfold serializeConnectPacket serializeConnectFixedHeader
  rw [cur_nil]
  simp only [encodeRemainingLength_eq]
  have hmq : HasBytes (some mqttName) (4 : UInt16).toNat := ⟨_, rfl, by decide⟩
  have hms : bytesOf (some mqttName) (4 : UInt16).toNat = mqttName := by decide
  have hmql : mqttName.length = 4 := rfl
  have hkey : ∀ (c : Cur), c = cur buf (connectPacket (ci.toSpec will)) →
      (do cassert (c.pos ≤ size); pure c.mem : Res (List UInt8))
        = .ok (connectPacket (ci.toSpec will) ++ buf.drop s) := by
    rintro c rfl
    have : (connectPacket (ci.toSpec will)).length ≤ size := by omega
    simp [cur, h5, this]
  rw [put_cur (by simp; omega), Res.ok_bind, put_cur (by simp; omega), Res.ok_bind,
    encodeString_cur hmq (by simp; omega), Res.ok_bind, hms,
    put_cur (by simp [str_length, hmql]; omega), Res.ok_bind,
    put_cur (by simp [str_length, hmql]; omega), Res.ok_bind,
    put_cur (by simp [str_length, hmql]; omega), Res.ok_bind,
    put_cur (by simp [str_length, hmql]; omega), Res.ok_bind,
    encodeString_cur (hv.cid h1) (by simp [str_length, hmql]; omega), Res.ok_bind]
  -- the optional fields
  have hfin : ∀ pre : List UInt8, pre.length = 1 + (varInt r).length + 12 + ci.clientIdentifierLength.toNat + willLen will →
      connectPacket (ci.toSpec will) = pre
        ++ (if ci.pUserName ≠ none then str (bytesOf ci.pUserName ci.userNameLength.toNat) else [])
        ++ (if ci.pPassword ≠ none then str (bytesOf ci.pPassword ci.passwordLength.toNat) else []) →
      (do let c ← if ci.pUserName ≠ none then encodeString (cur buf pre) ci.pUserName ci.userNameLength else pure (cur buf pre)
          let c ← if ci.pPassword ≠ none then encodeString c ci.pPassword ci.passwordLength else pure c
          cassert (c.pos ≤ size); pure c.mem : Res (List UInt8))
        = .ok (connectPacket (ci.toSpec will) ++ buf.drop s) := by
    intro pre hl hpre
    by_cases hu : ci.pUserName = none <;> by_cases hp : ci.pPassword = none <;>
      simp only [hu, hp, if_true, if_false, ne_eq, not_true, not_false_eq_true, List.append_nil] at hpre hsum ⊢
    · simp only [Res.pure_eq, Res.ok_bind]
      exact hkey _ (by rw [hpre])
    · rw [Res.pure_eq, Res.ok_bind, encodeString_cur (hv.pass hp) (by omega), Res.ok_bind]
      exact hkey _ (by rw [hpre])
    · rw [encodeString_cur (hv.user hu) (by omega), Res.ok_bind, Res.pure_eq, Res.ok_bind]
      exact hkey _ (by rw [hpre])
    · have := (hv.user hu).length
      rw [encodeString_cur (hv.user hu) (by omega), Res.ok_bind,
        encodeString_cur (hv.pass hp) (by simp [str_length, this]; omega), Res.ok_bind]
      exact hkey _ (by rw [hpre])
  cases will with
  | none =>
    have := hfin ([] ++ [ptCONNECT] ++ varInt r ++ str mqttName ++ [4] ++ [connectFlags ci none]
      ++ [highByte ci.keepAliveSeconds] ++ [lowByte ci.keepAliveSeconds]
      ++ str (bytesOf ci.pClientIdentifier ci.clientIdentifierLength.toNat))
      (by simp [str_length, hmql, hcid, willLen]; omega) (by rw [hpkt]; simp)
    simp only [Res.pure_eq, Res.ok_bind] at this ⊢
    rw [this]
    rfl
  | some w =>
    obtain ⟨hwv, hwp⟩ := hv.will w rfl
    have g1 := (hwv.topic (hw w rfl)).length
    have g2 : w.payloadLength ≤ 65535 := h3 w rfl
    have g3 : (UInt16.ofNat w.payloadLength).toNat = w.payloadLength := by
      simp; omega
    have g4 : HasBytes w.pPayload (UInt16.ofNat w.payloadLength).toNat ∨
        (w.pPayload = none ∧ (UInt16.ofNat w.payloadLength).toNat = 0) := by
      rw [g3]
      by_cases h : w.pPayload = none
      · exact .inr ⟨h, hwp h⟩
      · exact .inl (hwv.payload h)
    have g5 : (bytesOf w.pPayload w.payloadLength).length = w.payloadLength :=
      bytesOf_length_payload (by
        by_cases h : w.pPayload = none
        · exact .inr (hwp h)
        · exact .inl h) hwv
    have hwl : willLen (some w) = 4 + w.topicNameLength.toNat + w.payloadLength := rfl
    have := hfin ([] ++ [ptCONNECT] ++ varInt r ++ str mqttName ++ [4] ++ [connectFlags ci (some w)]
      ++ [highByte ci.keepAliveSeconds] ++ [lowByte ci.keepAliveSeconds]
      ++ str (bytesOf ci.pClientIdentifier ci.clientIdentifierLength.toNat)
      ++ str (bytesOf w.pTopicName w.topicNameLength.toNat) ++ str (bytesOf w.pPayload w.payloadLength))
      (by simp [str_length, hmql, hcid, hwl, g1, g5]; omega) (by rw [hpkt]; simp)
    simp only
    rw [encodeString_cur (hwv.topic (hw w rfl)) (by simp [str_length, hmql, hcid]; omega), Res.ok_bind,
      encodeString_cur' g4 (by simp [str_length, hmql, hcid, g1, g3]; omega), Res.ok_bind, g3]
    simp only [Res.pure_eq, Res.ok_bind] at this ⊢
    rw [this]
    rfl

/-! ### The independent decoder reads packets back -/

theorem readVarInt_varInt {n k : Nat} (hk : n < 128 ^ (k + 1)) (rest : List UInt8) :
    readVarInt (k + 1) (varInt n ++ rest) = some (n, rest) := by
  induction k generalizing n with
  | zero =>
    have hk' : n < 128 := by simpa using hk
    rw [varInt, if_pos hk']
    simp [readVarInt, toNat_ofNat_lt (show n < 256 by omega), hk']
  | succ k ih =>
    rw [varInt]
    by_cases h : n < 128
    · simp [h, readVarInt, toNat_ofNat_lt (show n < 256 by omega)]
    · rw [if_neg h, List.cons_append, readVarInt]
      have h1 : (UInt8.ofNat (128 + n % 128)).toNat = 128 + n % 128 := toNat_ofNat_lt (by omega)
      rw [h1, if_neg (by omega), ih (by rw [Nat.pow_succ] at hk; omega)]
      simp
      omega

theorem readPacket_packet {t : Nat} {body : List UInt8} (ht : t < 256) (hb : body.length ≤ maxRemaining)
    (rest : List UInt8) : readPacket (packet t body ++ rest) = some (t, body, rest) := by
  unfold packet
  simp only [List.cons_append, List.append_assoc, readPacket]
  rw [readVarInt_varInt (by simp only [maxRemaining] at hb; omega)]
  simp [toNat_ofNat_lt ht]

/-- Flags as a function of the presence bits. -/
theorem connectFlags_table (cl u p : Bool) (w : Option (Bool × Fin 3)) :
    let f := 128 * b2n u + 64 * b2n p + (match w with | none => 0 | some (r, q) => 32 * b2n r + 8 * q.val + 4) + 2 * b2n cl
    f < 256 ∧ f % 2 ≠ 1 ∧ (f / 4 % 2 = 1 ↔ w.isSome) ∧
      (∀ r q, w = some (r, q) → qosOfNat (f / 8 % 4) = some q ∧ decide (f / 32 % 2 = 1) = r) ∧
      (w = none → f / 8 % 8 = 0) ∧
      decide (f / 128 % 2 = 1) = u ∧ decide (f / 64 % 2 = 1) = p ∧ decide (f / 2 % 2 = 1) = cl := by
  rcases w with _ | ⟨r, q⟩
  · cases cl <;> cases u <;> cases p <;> simp [b2n]
  · cases cl <;> cases u <;> cases p <;> cases r <;> revert q <;> simp [b2n] <;> decide

/-- Fields fit their two-byte length prefixes. -/
structure Spec.Connect.Small (c : Spec.Connect) : Prop where
  ka : c.keepAlive < 65536
  cid : c.clientId.length < 65536
  will : ∀ w, c.will = some w → w.topic.length < 65536 ∧ w.payload.length < 65536
  user : ∀ u, c.user = some u → u.length < 65536
  pass : ∀ u, c.pass = some u → u.length < 65536

theorem parseConnect_body {c : Spec.Connect} (h : c.Small) : parseConnect (connectBody c) = some c := by
  obtain ⟨cl, ka, cid, will, user, pass⟩ := c
  obtain ⟨h1, h2, h3, h4, h5⟩ := h
  simp only at h1 h2 h3 h4 h5
  have ht := connectFlags_table cl user.isSome pass.isSome (will.map fun w => (w.retain, w.qos))
  simp only at ht
  have hF : connectFlagsByte ⟨cl, ka, cid, will, user, pass⟩ = 128 * b2n user.isSome + 64 * b2n pass.isSome
      + (match (will.map fun w => (w.retain, w.qos)) with | none => 0 | some (r, q) => 32 * b2n r + 8 * q.val + 4) + 2 * b2n cl := by
    cases will <;> rfl
  rw [← hF] at ht
  unfold connectBody
  simp only
  generalize connectFlagsByte ⟨cl, ka, cid, will, user, pass⟩ = F at ht
  obtain ⟨t1, t2, t3, t4, t5, t6, t7, t8⟩ := ht
  unfold parseConnect
  simp only [List.append_assoc, List.cons_append, List.nil_append]
  rw [readStr_str (by decide)]
  simp only [Option.bind_eq_bind, Option.bind_some, ne_eq, not_true, if_false, toNat_ofNat_lt t1, t2]
  rw [read16_be16 h1]
  simp only [Option.bind_some]
  rw [readStr_str h2]
  simp only [Option.bind_some, t8]
  have hu : ∀ rest, (if F / 128 % 2 = 1 then (readStr (optStr user ++ rest)).bind fun x => some (some x.1, x.2)
      else some (none, optStr user ++ rest)) = some (user, rest) := by
    intro rest
    cases user with
    | none =>
      simp only [Option.isSome_none, decide_eq_false_iff_not] at t6
      simp [t6, optStr]
    | some u =>
      simp only [Option.isSome_some, decide_eq_true_eq] at t6
      simp [t6, optStr, readStr_str (h4 u rfl)]
  have hp : (if F / 64 % 2 = 1 then (readStr (optStr pass)).bind fun x => some (some x.1, x.2)
      else some (none, optStr pass)) = some (pass, []) := by
    cases pass with
    | none =>
      simp only [Option.isSome_none, decide_eq_false_iff_not] at t7
      simp [t7, optStr]
    | some u =>
      simp only [Option.isSome_some, decide_eq_true_eq] at t7
      have := readStr_str (h5 u rfl) []
      rw [List.append_nil] at this
      simp [t7, optStr, this]
  cases will with
  | none =>
    have t3' : ¬ F / 4 % 2 = 1 := by simpa using t3
    simp only [t3', t5 rfl, willStr, if_true, if_false, Option.bind_some, List.nil_append]
    rw [hu (optStr pass)]
    simp only [Option.bind_some]
    rw [hp]
    simp
  | some w =>
    have t3' : F / 4 % 2 = 1 := by simpa using t3
    obtain ⟨q1, q2⟩ := t4 w.retain w.qos rfl
    obtain ⟨w1, w2⟩ := h3 w rfl
    simp only [t3', q1, willStr, if_true, Option.bind_some, List.append_assoc]
    rw [readStr_str w1]
    simp only [Option.bind_some]
    rw [readStr_str w2]
    simp only [Option.bind_some]
    rw [hu (optStr pass)]
    simp only [Option.bind_some]
    rw [hp]
    simp [q2]

end Mqtt
