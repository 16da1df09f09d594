/- Properties C11-C16: acknowledgements, DUP flag, packet identifiers. -/
import Verif.Proof.Subscribe
import Verif.Props.Publish
import Verif.Model.Util

namespace Mqtt
set_option linter.unusedSimpArgs false
open Spec

theorem decode16_be16 (hi lo : UInt8) : [hi, lo] = be16 (decode16 hi lo).toNat := by
  rw [decode16_toNat]
  have := hi.toNat_lt
  have := lo.toNat_lt
  simp only [be16, show (256 * hi.toNat + lo.toNat) / 256 = hi.toNat by omega,
    show (256 * hi.toNat + lo.toNat) % 256 = lo.toNat by omega, UInt8.ofNat_toNat]

/-- An MQTT packet identifier. -/
def Spec.IsPacketId (n : Nat) : Prop := 0 < n ∧ n < 65536

theorem be16_inj {a b : Nat} (ha : a < 65536) (hb : b < 65536) {x y : List UInt8} (h : be16 a ++ x = be16 b ++ y) : a = b ∧ x = y := by
  have h1 := read16_be16 ha (rest := x)
  rw [h, read16_be16 hb] at h1
  simp at h1
  exact ⟨h1.1.symm, h1.2.symm⟩

theorem length_two {l : List UInt8} (h : l.length = 2) : ∃ a b, l = [a, b] := by
  match l, h with
  | [a, b], _ => exact ⟨a, b, rfl⟩

/-- **C11** Acknowledgements that carry only a packet id.  `body` is the memory of the declared remaining length,
`extra` whatever follows it. -/
theorem C11_id_acks (t : UInt8) (body extra : List UInt8) (h : Nat) (id0 : UInt16) (sp : Option Bool)
    (ht : t = 0x40 ∨ t = 0x50 ∨ t = 0x62 ∨ t = 0x70 ∨ t = 0xB0) :
    ∃ st id, mqttDeserializeAck (some ⟨t, some (body ++ extra), body.length, h⟩) (some id0) sp = .ok (st, some id, sp) ∧
      (st = .success ∨ st = .badResponse) ∧
      (st = .success ↔ ∃ n, IsPacketId n ∧ body = be16 n) ∧
      (st = .success → body = be16 id.toNat) := by
  have hm : mqttDeserializeAck (some ⟨t, some (body ++ extra), body.length, h⟩) (some id0) sp =
      (do let (st, id) ← deserializeSimpleAck ⟨t, some (body ++ extra), body.length, h⟩ id0; pure (st, some id, sp)) := by
    rcases ht with rfl | rfl | rfl | rfl | rfl <;>
      simp [mqttDeserializeAck, ptCONNACK, ptSUBACK, ptPINGRESP, ptUNSUBACK, ptPUBACK, ptPUBREC, ptPUBREL, ptPUBCOMP]
  rw [hm]
  unfold deserializeSimpleAck
  by_cases hl : body.length = 2
  · obtain ⟨a, b, rfl⟩ := length_two hl
    have h0 : readPtr (some ([a, b] ++ extra)) 0 = .ok a := by simp [readPtr, readByte]
    have h1 : readPtr (some ([a, b] ++ extra)) 1 = .ok b := by simp [readPtr, readByte]
    simp only [hl, ne_eq, not_true, if_false, h0, h1, Res.ok_bind]
    by_cases hz : decode16 a b = 0
    · rw [if_pos hz]
      refine ⟨_, _, rfl, .inr rfl, ⟨by simp, ?_⟩, by simp⟩
      rintro ⟨n, ⟨n1, n2⟩, hn⟩
      have := decode16_be16 a b
      rw [hz] at this
      rw [this] at hn
      have := (be16_inj (a := 0) (b := n) (x := []) (y := []) (by decide) n2 (by simpa using hn)).1
      omega
    · rw [if_neg hz]
      have hb := decode16_be16 a b
      refine ⟨_, _, rfl, .inl rfl, ⟨fun _ => ⟨_, ⟨?_, (decode16 a b).toNat_lt⟩, hb⟩, fun _ => rfl⟩, fun _ => hb⟩
      exact Nat.pos_of_ne_zero fun h => hz (UInt16.toNat.inj h)
  · rw [if_pos hl]
    refine ⟨_, _, rfl, .inr rfl, ⟨by simp, ?_⟩, by simp⟩
    rintro ⟨n, -, rfl⟩
    exact absurd rfl hl

/-- **C11** PINGRESP, and types that are no acknowledgement: outputs are left alone and no byte is read. -/
theorem C11_other_types (t : UInt8) (data : Ptr) (n h : Nat) (id : UInt16) (sp : Bool) :
    (t = 0xD0 → mqttDeserializeAck (some ⟨t, data, n, h⟩) (some id) (some sp) =
      .ok (if n = 0 then .success else .badResponse, some id, some sp)) ∧
    (¬ (t = 0x20 ∨ t = 0x40 ∨ t = 0x50 ∨ t = 0x62 ∨ t = 0x70 ∨ t = 0x90 ∨ t = 0xB0 ∨ t = 0xD0) → data ≠ none →
      mqttDeserializeAck (some ⟨t, data, n, h⟩) (some id) (some sp) = .ok (.badResponse, some id, some sp)) := by
  constructor
  · rintro rfl
    by_cases hn : n = 0 <;> simp [mqttDeserializeAck, ptCONNACK, ptSUBACK, ptPINGRESP, deserializePingresp, hn]
  · intro ht hd
    simp only [not_or] at ht
    obtain ⟨a, b, c, d, e, f, g, i⟩ := ht
    unfold mqttDeserializeAck
    simp [ptCONNACK, ptSUBACK, ptPINGRESP, ptUNSUBACK, ptPUBACK, ptPUBREC, ptPUBREL, ptPUBCOMP, a, b, c, d, e, f, g, i, hd]

/-- Non-vacuity of C11. -/
example : mqttDeserializeAck (some ⟨0x62, some [1, 2, 99], 2, 2⟩) (some 0) none = .ok (.success, some 258, none) ∧
    mqttDeserializeAck (some ⟨0x40, some [0, 0], 2, 2⟩) (some 5) none = .ok (.badResponse, some 0, none) ∧
    mqttDeserializeAck (some ⟨0x60, some [1, 2], 2, 2⟩) (some 5) (some true) = .ok (.badResponse, some 5, some true) := by
  decide +kernel

/-- **C12** The CONNACK table. -/
theorem C12_connack (body extra : List UInt8) (h : Nat) (id : Option UInt16) (sp0 : Bool) :
    ∃ st sp, mqttDeserializeAck (some ⟨0x20, some (body ++ extra), body.length, h⟩) id (some sp0) = .ok (st, id, some sp) ∧
      (st = .success ↔ body = [0, 0] ∨ body = [1, 0]) ∧
      (st = .serverRefused ↔ ∃ code : UInt8, 1 ≤ code.toNat ∧ code.toNat ≤ 5 ∧ body = [0, code]) ∧
      (st = .success ∨ st = .serverRefused ∨ st = .badResponse) ∧
      (∀ code, body = [0, code] → sp = false) ∧ (∀ code, body = [1, code] → sp = true) ∧
      ((∀ f code, body = [f, code] → 1 < f.toNat) → sp = sp0) := by
  have hm : mqttDeserializeAck (some ⟨0x20, some (body ++ extra), body.length, h⟩) id (some sp0) =
      (do let (st, sp) ← deserializeConnack ⟨0x20, some (body ++ extra), body.length, h⟩ sp0; pure (st, id, some sp)) := by
    cases id <;> simp [mqttDeserializeAck, ptCONNACK]
  rw [hm]
  unfold deserializeConnack
  by_cases hl : body.length = 2
  · obtain ⟨a, b, rfl⟩ := length_two hl
    have h0 : readPtr (some ([a, b] ++ extra)) 0 = .ok a := by simp [readPtr, readByte]
    have h1 : readPtr (some ([a, b] ++ extra)) 1 = .ok b := by simp [readPtr, readByte]
    simp only [hl, ne_eq, not_true, if_false, h0, h1, Res.ok_bind]
    have hor : (a ||| 1 = 1) ↔ (a = 0 ∨ a = 1) := by
      have : ∀ a : UInt8, (a ||| 1 = 1) ↔ (a = 0 ∨ a = 1) := by decide +kernel
      exact this a
    simp only [hor]
    have hgt : b > 5 ↔ 5 < b.toNat := UInt8.lt_iff_toNat_lt
    have hle : b ≤ 5 ↔ b.toNat ≤ 5 := UInt8.le_iff_toNat_le
    have hpos : b > 0 ↔ 0 < b.toNat := UInt8.lt_iff_toNat_lt
    have hb0 : b = 0 ↔ b.toNat = 0 := ⟨fun h => by rw [h]; rfl, fun h => UInt8.toNat.inj h⟩
    by_cases ha : a = 0 ∨ a = 1
    · rw [if_neg (Classical.not_not.mpr ha)]
      rcases ha with rfl | rfl
      · simp only [show ((0 : UInt8) &&& 1 = 1) = False by decide, if_false, if_true, hgt, hpos]
        by_cases hb : 5 < b.toNat
        · rw [if_pos hb]
          refine ⟨_, _, rfl, ?_, ?_, by simp, ?_, ?_, ?_⟩
          · simp [hb0]; omega
          · simp; omega
          · intros; rfl
          · intro c hc; simp at hc
          · intro hh; have := hh 0 b rfl; simp at this
        · rw [if_neg hb]
          simp only [hle, show b.toNat ≤ 5 by omega, decide_true, cassert_true, Res.ok_bind]
          by_cases hb1 : 0 < b.toNat
          · rw [if_pos hb1]
            refine ⟨_, _, rfl, ?_, ?_, by simp, ?_, ?_, ?_⟩
            · simp [hb0]; omega
            · simp; omega
            · intros; rfl
            · intro c hc; simp at hc
            · intro hh; have := hh 0 b rfl; simp at this
          · rw [if_neg hb1]
            have hb2 : b = 0 := hb0.mpr (by omega)
            subst hb2
            refine ⟨_, _, rfl, by simp, ?_, by simp, ?_, ?_, ?_⟩
            · simp
            · intros; rfl
            · intro c hc; simp at hc
            · intro hh; have := hh 0 0 rfl; simp at this
      · by_cases hb : b = 0
        · subst hb
          refine ⟨_, _, rfl, by simp, ?_, by simp, ?_, ?_, ?_⟩
          · simp
          · intro c hc; simp at hc
          · intros; rfl
          · intro hh; have := hh 1 0 rfl; simp at this
        · simp only [show ((1 : UInt8) &&& 1 = 1) = True by decide, if_true, hb, not_false_eq_true, reduceCtorEq, if_false]
          refine ⟨_, _, rfl, ?_, ?_, by simp, ?_, ?_, ?_⟩
          · simp [hb]
          · simp
          · intro c hc; simp at hc
          · intros; rfl
          · intro hh; have := hh 1 b rfl; simp at this
    · rw [if_pos ha]
      simp only [not_or] at ha
      refine ⟨_, _, rfl, ?_, ?_, by simp, ?_, ?_, by simp⟩
      · simp [ha]
      · simp [ha]
      · intro c hc; simp [ha.1] at hc
      · intro c hc; simp [ha.2] at hc
  · rw [if_pos hl]
    have hno : ∀ a b, body ≠ [a, b] := by rintro a b rfl; exact hl rfl
    refine ⟨_, _, rfl, ?_, ?_, by simp, ?_, ?_, by simp⟩
    · simp [hno]
    · simp [hno]
    · intro c hc; exact absurd hc (hno _ _)
    · intro c hc; exact absurd hc (hno _ _)

/-- Non-vacuity of C12. -/
example : mqttDeserializeAck (some ⟨0x20, some [1, 0], 2, 2⟩) none (some false) = .ok (.success, none, some true) ∧
    mqttDeserializeAck (some ⟨0x20, some [0, 5], 2, 2⟩) none (some false) = .ok (.serverRefused, none, some false) ∧
    mqttDeserializeAck (some ⟨0x20, some [0, 6], 2, 2⟩) none (some false) = .ok (.badResponse, none, some false) ∧
    mqttDeserializeAck (some ⟨0x20, some [2, 0], 2, 2⟩) none (some false) = .ok (.badResponse, none, some false) := by
  decide +kernel

/-! ### SUBACK -/

/-- Requested subscription granted (3.9.3). -/
def Spec.Granted (c : UInt8) : Prop := c = 0 ∨ c = 1 ∨ c = 2

instance (c : UInt8) : Decidable (Granted c) := by unfold Granted; infer_instance

theorem readSubackStatusLoop_eq (codes : List UInt8) : ∀ (pre extra : List UInt8) (st : Status),
    st = .success ∨ st = .serverRefused →
    readSubackStatusLoop (pre ++ codes ++ extra) codes.length pre.length st =
      .ok (if ∃ c ∈ codes, ¬ Granted c ∧ c ≠ 0x80 then .badResponse
        else if (0x80 : UInt8) ∈ codes then .serverRefused else st) := by
  induction codes with
  | nil => intro pre extra st _; simp [readSubackStatusLoop]
  | cons c rest ih =>
    intro pre extra st hst
    have hread : readByte (pre ++ (c :: rest) ++ extra) pre.length = .ok c := by
      simp [readByte]
    rw [List.length_cons, readSubackStatusLoop, hread, Res.ok_bind]
    have hstep := fun st hst => ih (pre ++ [c]) extra st hst
    simp only [List.append_assoc, List.cons_append, List.nil_append, List.length_append, List.length_cons, List.length_nil,
      Nat.zero_add] at hstep ⊢
    by_cases hg : c = 0x00 ∨ c = 0x01 ∨ c = 0x02
    · have hg' : Granted c := hg
      have h80 : c ≠ 0x80 := by rcases hg with rfl | rfl | rfl <;> decide
      have h80' : (0x80 : UInt8) ≠ c := fun h => h80 h.symm
      simp only [hg, if_true]
      rw [if_neg (by rcases hst with rfl | rfl <;> simp), hstep st hst]
      simp [hg', h80']
    · have hg' : ¬ Granted c := hg
      simp only [hg, if_false]
      by_cases h80 : c = 0x80
      · simp only [h80, if_true]
        rw [if_neg (by simp), ← h80, hstep _ (.inr rfl)]
        simp [h80]
      · simp only [h80, if_false, if_true]
        simp [hg', h80]

/-- **C13** The SUBACK status.  `body` is the memory of the declared remaining length. -/
theorem C13_suback (body extra : List UInt8) (h : Nat) (id0 : UInt16) (sp : Option Bool) :
    ∃ st id, mqttDeserializeAck (some ⟨0x90, some (body ++ extra), body.length, h⟩) (some id0) sp = .ok (st, some id, sp) ∧
      (st = .success ↔ ∃ n codes, IsPacketId n ∧ codes ≠ [] ∧ body = be16 n ++ codes ∧ ∀ c ∈ codes, Granted c) ∧
      (st = .serverRefused ↔ ∃ n codes, IsPacketId n ∧ body = be16 n ++ codes ∧
        (∀ c ∈ codes, Granted c ∨ c = 0x80) ∧ (0x80 : UInt8) ∈ codes) ∧
      (st = .success ∨ st = .serverRefused ∨ st = .badResponse) ∧
      (st = .success ∨ st = .serverRefused → body.take 2 = be16 id.toNat) := by
  have hm : mqttDeserializeAck (some ⟨0x90, some (body ++ extra), body.length, h⟩) (some id0) sp =
      (do let (st, id) ← deserializeSuback ⟨0x90, some (body ++ extra), body.length, h⟩ id0; pure (st, some id, sp)) := by
    simp [mqttDeserializeAck, ptCONNACK, ptSUBACK]
  rw [hm]
  unfold deserializeSuback
  by_cases hl : body.length < 3
  · simp only [hl, if_true]
    refine ⟨_, _, rfl, ?_, ?_, by simp, by simp⟩
    · simp only [reduceCtorEq, false_iff]
      rintro ⟨n, codes, -, hc, rfl, -⟩
      have : codes.length ≠ 0 := fun h => hc (List.length_eq_zero_iff.mp h)
      simp [be16_length] at hl; omega
    · simp only [reduceCtorEq, false_iff]
      rintro ⟨n, codes, -, rfl, -, hc⟩
      have : codes.length ≠ 0 := fun h => by rw [List.length_eq_zero_iff.mp h] at hc; cases hc
      simp [be16_length] at hl; omega
  · match body, hl with
    | [], hl => exact absurd (by simp) hl
    | [_], hl => exact absurd (by simp) hl
    | a :: b :: codes, hl =>
      simp only [List.length_cons] at hl
      have h0 : readPtr (some (a :: b :: codes ++ extra)) 0 = .ok a := by simp [readPtr, readByte]
      have h1 : readPtr (some (a :: b :: codes ++ extra)) 1 = .ok b := by simp [readPtr, readByte]
      simp only [List.length_cons, hl, if_false, h0, h1, Res.ok_bind]
      have hb := decode16_be16 a b
      have hsplit : ∀ n codes', IsPacketId n → (a :: b :: codes = be16 n ++ codes' ↔ n = (decode16 a b).toNat ∧ codes' = codes) := by
        intro n codes' hn
        rw [show a :: b :: codes = be16 (decode16 a b).toNat ++ codes by rw [← hb]; rfl]
        constructor
        · intro h
          have := be16_inj (decode16 a b).toNat_lt hn.2 h
          exact ⟨this.1.symm, this.2.symm⟩
        · rintro ⟨rfl, rfl⟩; rfl
      by_cases hz : decode16 a b = 0
      · rw [if_pos hz]
        refine ⟨_, _, rfl, ?_, ?_, by simp, by simp⟩
        · simp only [reduceCtorEq, false_iff]
          rintro ⟨n, codes', hn, -, hc, -⟩
          rw [hsplit n codes' hn] at hc
          rw [hz] at hc
          exact absurd hc.1 (by have := hn.1; simp; omega)
        · simp only [reduceCtorEq, false_iff]
          rintro ⟨n, codes', hn, hc, -⟩
          rw [hsplit n codes' hn] at hc
          rw [hz] at hc
          exact absurd hc.1 (by have := hn.1; simp; omega)
      · rw [if_neg hz]
        have hid : IsPacketId (decode16 a b).toNat :=
          ⟨Nat.pos_of_ne_zero fun h => hz (UInt16.toNat.inj h), (decode16 a b).toNat_lt⟩
        have hloop := readSubackStatusLoop_eq codes [] extra .success (.inl rfl)
        simp only [List.nil_append, List.length_nil] at hloop
        have hdrop : (a :: b :: codes ++ extra).drop 2 = codes ++ extra := rfl
        rw [show codes.length + 1 + 1 - 2 = codes.length by omega]
        simp only [readSubackStatus, hdrop, hloop, Res.ok_bind]
        have hne : codes ≠ [] := fun h => by rw [h] at hl; simp at hl
        refine ⟨_, _, rfl, ?_, ?_, ?_, fun _ => hb⟩
        · constructor
          · intro hs
            split at hs
            · cases hs
            · next h1 =>
              split at hs
              · cases hs
              · next h2 =>
                refine ⟨_, codes, hid, hne, (hsplit _ _ hid).mpr ⟨rfl, rfl⟩, fun c hc => ?_⟩
                apply Classical.byContradiction
                intro hg
                exact h1 ⟨c, hc, hg, fun h => h2 (h ▸ hc)⟩
          · rintro ⟨n, codes', hn, -, hc, hg⟩
            obtain ⟨-, rfl⟩ := (hsplit n codes' hn).mp hc
            rw [if_neg, if_neg]
            · intro h; have := hg _ h; revert this; decide
            · rintro ⟨c, hc, hg', -⟩; exact hg' (hg c hc)
        · constructor
          · intro hs
            split at hs
            · cases hs
            · next h1 =>
              split at hs
              · next h2 =>
                refine ⟨_, codes, hid, (hsplit _ _ hid).mpr ⟨rfl, rfl⟩, fun c hc => ?_, h2⟩
                apply Classical.byContradiction
                intro hg
                simp only [not_or] at hg
                exact h1 ⟨c, hc, hg.1, hg.2⟩
              · cases hs
          · rintro ⟨n, codes', hn, hc, hg, h80⟩
            obtain ⟨-, rfl⟩ := (hsplit n codes' hn).mp hc
            rw [if_neg, if_pos h80]
            rintro ⟨c, hc, hg', h8⟩
            rcases hg c hc with h | h
            · exact hg' h
            · exact h8 h
        · split
          · simp
          · split <;> simp

/-- **C13** `MQTT_GetSubAckStatusCodes` returns exactly the status bytes of a SUBACK with at least one of them. -/
theorem C13_status_codes (t : UInt8) (body extra : List UInt8) (h : Nat) :
    (t = 0x90 ∧ 3 ≤ body.length → ∃ p n, getSubAckStatusCodes (some ⟨t, some (body ++ extra), body.length, h⟩) true
        = (.success, some (p, n)) ∧ bytesOf p n = body.drop 2 ∧ n = (body.drop 2).length) ∧
    (¬ (t = 0x90 ∧ 3 ≤ body.length) →
      getSubAckStatusCodes (some ⟨t, some (body ++ extra), body.length, h⟩) true = (.badParameter, none)) := by
  unfold getSubAckStatusCodes
  constructor
  · rintro ⟨rfl, hl⟩
    simp only [ptSUBACK, ne_eq, not_true, if_false, Bool.true_eq_false, show ¬ body.length < 3 by omega]
    refine ⟨_, _, rfl, ?_, by simp⟩
    match body, hl with
    | a :: b :: codes, _ => simp [bytesOf]
  · intro hn
    by_cases ht : t = 0x90
    · subst ht
      simp at hn
      simp [ptSUBACK, show body.length < 3 by omega]
    · simp [ptSUBACK, ht]

/-- Non-vacuity of C13. -/
example : mqttDeserializeAck (some ⟨0x90, some [0, 9, 1, 0x80, 2, 77], 5, 2⟩) (some 0) none = .ok (.serverRefused, some 9, none) ∧
    mqttDeserializeAck (some ⟨0x90, some [0, 9, 1, 0, 2, 77], 5, 2⟩) (some 0) none = .ok (.success, some 9, none) ∧
    mqttDeserializeAck (some ⟨0x90, some [0, 9, 0x80, 3, 2, 77], 5, 2⟩) (some 0) none = .ok (.badResponse, some 9, none) ∧
    getSubAckStatusCodes (some ⟨0x90, some [0, 9, 1, 0x80, 2, 77], 5, 2⟩) true = (.success, some (some [1, 0x80, 2, 77], 3)) :=
  ⟨by decide +kernel, by decide +kernel, by decide +kernel, rfl⟩

/-! ### Ack serialization -/

/-- **C14** What `MQTT_SerializeAck` writes is the MQTT packet, and the header parser and `MQTT_DeserializeAck` read
back the same type and id; it refuses packet id 0 and other types. -/
theorem C14_ack_roundtrip (t : UInt8) (id id0 : UInt16) (buf : List UInt8) (size : Nat) (sp : Option Bool)
    (hbuf : size ≤ buf.length) (h4 : 4 ≤ size) :
    ((t = 0x40 ∨ t = 0x50 ∨ t = 0x62 ∨ t = 0x70) ∧ id ≠ 0 →
      ∃ out, serializeAck (some ⟨some buf, size⟩) t id = .ok (.success, some out) ∧
        out.take 4 = packet t.toNat (be16 id.toNat) ∧
        processIncomingPacketTypeAndLength (some out) 4 = .ok ⟨.success, t, 2, 2⟩ ∧
        mqttDeserializeAck (some ⟨t, some (out.drop 2), 2, 2⟩) (some id0) sp = .ok (.success, some id, sp)) ∧
    (¬ ((t = 0x40 ∨ t = 0x50 ∨ t = 0x62 ∨ t = 0x70) ∧ id ≠ 0) →
      serializeAck (some ⟨some buf, size⟩) t id = .ok (.badParameter, some buf)) := by
  constructor
  · rintro ⟨ht, hid⟩
    have ht' : t = ptPUBACK ∨ t = ptPUBREC ∨ t = ptPUBREL ∨ t = ptPUBCOMP := ht
    have h2 : varInt 2 = [2] := by decide +kernel
    refine ⟨[t, 2, highByte id, lowByte id] ++ buf.drop 4, ?_, ?_, ?_, ?_⟩
    · unfold serializeAck
      simp only [show ¬ size < 4 by omega, if_false, hid, ht', if_true]
      rw [cur_nil, put_cur (by simp; omega), Res.ok_bind, put_cur (by simp; omega), Res.ok_bind,
        put_cur (by simp; omega), Res.ok_bind, put_cur (by simp; omega), Res.ok_bind]
      simp [cur]
    · simp [packet, be16_length, h2, ← hl_be16]
    · have hty : ServerFirstByte t.toNat := by
        rcases ht with rfl | rfl | rfl | rfl <;> decide
      obtain ⟨f, hf, -, -, hfl, -, hpar⟩ := C01_remaining_length_roundtrip 2 (by decide)
      have hf' := (canonical_iff.mp hf).2
      subst hf'
      rw [h2] at hpar hfl
      obtain ⟨hp1, -⟩ := hpar t hty ([highByte id, lowByte id] ++ buf.drop 4)
      have := hp1 4 (by simp) (by simp; omega)
      simpa using this
    · have hb : [highByte id, lowByte id] = be16 id.toNat := hl_be16 id
      have hd : ([t, 2, highByte id, lowByte id] ++ buf.drop 4).drop 2 = be16 id.toNat ++ buf.drop 4 := by
        rw [← hb]; rfl
      obtain ⟨st, id', e1, -, e3, e4⟩ := C11_id_acks t (be16 id.toNat) (buf.drop 4) 2 id0 sp (by
        rcases ht with h | h | h | h <;> simp [h])
      have hs : st = .success := e3.mpr ⟨_, ⟨Nat.pos_of_ne_zero fun h => hid (UInt16.toNat.inj h), id.toNat_lt⟩, rfl⟩
      have := be16_inj (x := []) (y := []) id.toNat_lt id'.toNat_lt (by simpa using e4 hs)
      rw [hd, show (2 : Nat) = (be16 id.toNat).length from rfl]
      rw [be16_length] at e1 ⊢
      rw [e1, hs, UInt16.toNat.inj this.1]
  · intro hn
    unfold serializeAck
    simp only [show ¬ size < 4 by omega, if_false]
    by_cases hid : id = 0
    · simp [hid]
    · have ht : ¬ (t = ptPUBACK ∨ t = ptPUBREC ∨ t = ptPUBREL ∨ t = ptPUBCOMP) := fun h => hn ⟨h, hid⟩
      simp only [hid, ht, if_false]

/-- Non-vacuity of C14. -/
example : serializeAck (some ⟨some [9, 9, 9, 9], 4⟩) 0x50 258 = .ok (.success, some [0x50, 2, 1, 2]) ∧
    serializeAck (some ⟨some [9, 9, 9, 9], 4⟩) 0x60 258 = .ok (.badParameter, some [9, 9, 9, 9]) := by decide +kernel

/-! ### DUP flag -/

/-- **C15** `MQTT_UpdateDuplicatePublishFlag` changes only bit 3 of a PUBLISH first byte and refuses anything else;
the packet with the changed byte parses to the same message except for DUP. -/
theorem C15_dup_flag (b : UInt8) (set : Bool) :
    (b.toNat / 16 = 3 → ∃ b', updateDuplicatePublishFlag (some b) set = (.success, some b') ∧
      (∀ i < 8, i ≠ 3 → b'.toNat.testBit i = b.toNat.testBit i) ∧ b'.toNat.testBit 3 = set ∧
      ∀ body p, parsePublish b.toNat body = some p → parsePublish b'.toNat body = some { p with dup := set }) ∧
    (b.toNat / 16 ≠ 3 → updateDuplicatePublishFlag (some b) set = (.badParameter, some b)) := by
  constructor
  · intro hb
    have htab : ∀ (b : UInt8) (set : Bool), b.toNat / 16 = 3 → ∃ b', updateDuplicatePublishFlag (some b) set = (.success, some b') ∧
      (∀ i < 8, i ≠ 3 → b'.toNat.testBit i = b.toNat.testBit i) ∧ b'.toNat.testBit 3 = set ∧
      b'.toNat / 16 = 3 ∧ b'.toNat / 2 % 4 = b.toNat / 2 % 4 ∧ b'.toNat % 2 = b.toNat % 2 ∧
      decide (b'.toNat / 8 % 2 = 1) = set := by
      have h1 : ∀ b : UInt8, b.toNat / 16 = 3 → ∀ set : Bool,
        (b &&& 0xF0) = ptPUBLISH ∧
        (let b' := if set then setBit b 3 else clearBit b 3
         (∀ i < 8, i ≠ 3 → b'.toNat.testBit i = b.toNat.testBit i) ∧ b'.toNat.testBit 3 = set ∧
         b'.toNat / 16 = 3 ∧ b'.toNat / 2 % 4 = b.toNat / 2 % 4 ∧ b'.toNat % 2 = b.toNat % 2 ∧
         decide (b'.toNat / 8 % 2 = 1) = set) := by decide +kernel
      intro b set hb
      obtain ⟨h2, h3⟩ := h1 b hb set
      refine ⟨if set then setBit b 3 else clearBit b 3, ?_, h3⟩
      unfold updateDuplicatePublishFlag
      cases set <;> simp [h2]
    obtain ⟨b', e1, e2, e3, e4, e5, e6, e7⟩ := htab b set hb
    refine ⟨b', e1, e2, e3, ?_⟩
    intro body p hp
    unfold parsePublish at hp ⊢
    simp only [e4, e5, e6, e7, hb, ne_eq, not_true, if_false] at hp ⊢
    cases hq : qosOfNat (b.toNat / 2 % 4) with
    | none => rw [hq] at hp; cases hp
    | some q =>
      rw [hq] at hp
      simp only [Option.bind_eq_bind, Option.bind_some] at hp ⊢
      cases hr : readStr body with
      | none => rw [hr] at hp; cases hp
      | some tr =>
        obtain ⟨tp, rest⟩ := tr
        rw [hr] at hp
        simp only [Option.bind_some] at hp ⊢
        split at hp
        · next h0 => rw [if_pos h0]; cases hp; rfl
        · next h0 =>
          rw [if_neg h0]
          cases hi : read16 rest with
          | none => rw [hi] at hp; cases hp
          | some ir =>
            obtain ⟨i, rest'⟩ := ir
            rw [hi] at hp
            simp only [Option.bind_some] at hp ⊢
            split at hp
            · cases hp
            · next h1 => rw [if_neg h1]; cases hp; rfl
  · intro hb
    have : ∀ b : UInt8, b.toNat / 16 ≠ 3 → (b &&& 0xF0) ≠ ptPUBLISH := by decide +kernel
    simp [updateDuplicatePublishFlag, this b hb]

/-- Non-vacuity of C15. -/
example : updateDuplicatePublishFlag (some 0x32) true = (.success, some 0x3A) ∧
    updateDuplicatePublishFlag (some 0x3D) false = (.success, some 0x35) ∧
    updateDuplicatePublishFlag (some 0x42) true = (.badParameter, some 0x42) := by decide +kernel

/-! ### Packet identifiers -/

/-- The context's `nextPacketId` after `k` calls. -/
def nextAfter (next : UInt16) : Nat → UInt16
  | 0 => next
  | k + 1 => (getPacketId (nextAfter next k)).2

/-- The id returned by the `k`-th call (counting from 0). -/
def idOfCall (next : UInt16) (k : Nat) : UInt16 := (getPacketId (nextAfter next k)).1

theorem nextAfter_toNat {next : UInt16} (h : next ≠ 0) (k : Nat) :
    (nextAfter next k).toNat = (next.toNat - 1 + k) % 65535 + 1 := by
  have h1 : next.toNat ≠ 0 := fun h' => h (UInt16.toNat.inj h')
  have h2 := next.toNat_lt
  induction k with
  | zero => simp only [nextAfter]; omega
  | succ k ih =>
    rw [nextAfter]
    generalize hn : nextAfter next k = n at ih
    unfold getPacketId
    simp only
    by_cases h65 : n = 65535
    · rw [if_pos h65]
      have : n.toNat = 65535 := by rw [h65]; rfl
      have h1' : (1 : UInt16).toNat = 1 := rfl
      omega
    · rw [if_neg h65]
      have : n.toNat ≠ 65535 := fun h => h65 (UInt16.toNat.inj h)
      have hlt := n.toNat_lt
      rw [UInt16.toNat_add, show (1 : UInt16).toNat = 1 from rfl]
      omega

/-- **C16** From any non-zero `nextPacketId` (in particular 1, the value after `MQTT_Init`): no id is 0, two calls return
the same id exactly when their distance is a multiple of 65535. -/
theorem C16_packet_ids (next : UInt16) (h : next ≠ 0) :
    (∀ k, idOfCall next k ≠ 0) ∧
    (∀ j k, idOfCall next j = idOfCall next k ↔ j % 65535 = k % 65535) := by
  constructor
  · intro k hk
    have := nextAfter_toNat h k
    rw [show nextAfter next k = 0 from hk] at this
    simp at this
  · intro j k
    have hj := nextAfter_toNat h j
    have hk := nextAfter_toNat h k
    have hid : ∀ i, idOfCall next i = nextAfter next i := fun _ => rfl
    rw [hid, hid]
    constructor
    · intro e; rw [e] at hj; omega
    · intro e; apply UInt16.toNat.inj; omega

/-- Consequence: any 65535 consecutive calls return pairwise distinct ids. -/
theorem C16_consecutive_distinct (next : UInt16) (h : next ≠ 0) (start i j : Nat) (hi : i < 65535) (hj : j < 65535)
    (hij : i ≠ j) : idOfCall next (start + i) ≠ idOfCall next (start + j) := by
  intro e
  have := (C16_packet_ids next h).2 (start + i) (start + j) |>.mp e
  omega

/-- Non-vacuity of C16: the wrap-around. -/
example : idOfCall 65534 0 = 65534 ∧ idOfCall 65534 1 = 65535 ∧ idOfCall 65534 2 = 1 := by decide

end Mqtt
