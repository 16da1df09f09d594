/- Variable-length integers: the specification's encoder, the two decoders of the code. -/
import Verif.Proof.Put

namespace Mqtt
open Spec

theorem toNat_ofNat_lt {n : Nat} (h : n < 256) : (UInt8.ofNat n).toNat = n := by
  simp [UInt8.toNat_ofNat', Nat.mod_eq_of_lt h]

theorem varInt_ne_nil (n : Nat) : varInt n ≠ [] := by
  rw [varInt]; split <;> simp

theorem varInt_shape (n : Nat) : VarIntShape (varInt n) := by
  induction n using Nat.strongRecOn with
  | _ n ih =>
    rw [varInt]
    split
    · next h => simp only [VarIntShape]; rw [toNat_ofNat_lt (by omega)]; exact h
    · next h =>
      have := ih (n / 128) (by omega)
      match hv : varInt (n / 128), this with
      | [], _ => exact absurd hv (varInt_ne_nil _)
      | x :: xs, this =>
        simp only [VarIntShape]
        exact ⟨by rw [toNat_ofNat_lt (by omega)]; omega, this⟩

theorem varInt_value (n : Nat) : varIntValue (varInt n) = n := by
  induction n using Nat.strongRecOn with
  | _ n ih =>
    rw [varInt]
    split
    · next h => simp only [varIntValue]; rw [toNat_ofNat_lt (by omega)]; omega
    · next h =>
      simp only [varIntValue, ih (n / 128) (by omega)]
      rw [toNat_ofNat_lt (by omega)]; omega

theorem varInt_length_succ {n : Nat} (h : ¬ n < 128) :
    (varInt n).length = (varInt (n / 128)).length + 1 := by
  rw [varInt, if_neg h]; rfl

theorem varInt_length_one {n : Nat} (h : n < 128) : (varInt n).length = 1 := by
  rw [varInt, if_pos h]; rfl

theorem varInt_length {n : Nat} (h : n ≤ 268435455) :
    (varInt n).length = remainingLengthEncodedSize n := by
  unfold remainingLengthEncodedSize
  split
  · exact varInt_length_one ‹_›
  · rw [varInt_length_succ ‹_›]
    split
    · rw [varInt_length_one (by omega)]
    · rw [varInt_length_succ (by omega)]
      split
      · rw [varInt_length_one (by omega)]
      · rw [varInt_length_succ (by omega), varInt_length_one (by omega)]

theorem encodedSize_pos (n : Nat) : 1 ≤ remainingLengthEncodedSize n := by
  unfold remainingLengthEncodedSize; repeat' split
  all_goals omega

theorem encodedSize_le (n : Nat) : remainingLengthEncodedSize n ≤ 4 := by
  unfold remainingLengthEncodedSize; repeat' split
  all_goals omega

theorem varIntValue_lt (f : List UInt8) : varIntValue f < 128 ^ f.length := by
  induction f with
  | nil => simp [varIntValue]
  | cons b rest ih =>
    simp only [varIntValue, List.length_cons, Nat.pow_succ]
    omega

/-- Number of base-128 digits: any field for `n` is at least as long as the encoder's. -/
theorem varInt_length_le (f : List UInt8) (hf : f ≠ []) : (varInt (varIntValue f)).length ≤ f.length := by
  induction f with
  | nil => exact absurd rfl hf
  | cons b rest ih =>
    by_cases h : varIntValue (b :: rest) < 128
    · rw [varInt_length_one h]; simp
    · rw [varInt_length_succ h]
      have hr : rest ≠ [] := by
        rintro rfl
        simp [varIntValue] at h; omega
      have e : varIntValue (b :: rest) / 128 = varIntValue rest := by
        simp only [varIntValue]; omega
      rw [e]
      have := ih hr
      simp; omega

theorem shape_ne_nil {f : List UInt8} (h : VarIntShape f) : f ≠ [] := by
  rintro rfl; exact h

theorem varInt_canonical {n : Nat} (h : n ≤ 268435455) : CanonicalVarInt (varInt n) n := by
  refine ⟨⟨varInt_shape n, ?_, varInt_value n⟩, ?_⟩
  · rw [varInt_length h]; exact encodedSize_le n
  · rintro g ⟨hs, _, rfl⟩
    exact varInt_length_le g (shape_ne_nil hs)

theorem shape_cons {b : UInt8} {rest : List UInt8} (hr : rest ≠ []) :
    VarIntShape (b :: rest) ↔ 128 ≤ b.toNat ∧ VarIntShape rest := by
  match rest with
  | [] => exact absurd rfl hr
  | x :: xs => simp [VarIntShape]

/-- A field of the length the encoder uses is the encoder's field. -/
theorem shape_eq_varInt : ∀ {f : List UInt8}, VarIntShape f →
    f.length = (varInt (varIntValue f)).length → f = varInt (varIntValue f) := by
  intro f
  induction f with
  | nil => intro h; exact absurd h (by simp [VarIntShape])
  | cons b rest ih =>
    intro hs hl
    by_cases hr : rest = []
    · subst hr
      simp only [VarIntShape] at hs
      simp only [varIntValue]
      rw [varInt, if_pos (by omega)]
      simp
      apply UInt8.toNat.inj
      rw [toNat_ofNat_lt (by omega)]; omega
    · rw [shape_cons hr] at hs
      have hb := UInt8.toNat_lt b
      have hge : ¬ varIntValue (b :: rest) < 128 := by
        intro hlt
        rw [varInt_length_one hlt] at hl
        cases rest with
        | nil => exact hr rfl
        | cons x xs => simp at hl
      have e : varIntValue (b :: rest) / 128 = varIntValue rest := by
        simp only [varIntValue]; omega
      rw [varInt_length_succ hge, e] at hl
      have ih' := ih hs.2 (by simpa using hl)
      rw [varInt, if_neg hge, e, ← ih']
      congr 1
      apply UInt8.toNat.inj
      simp only [varIntValue]
      rw [toNat_ofNat_lt (by omega)]; omega

theorem isVarInt_le {f : List UInt8} {n : Nat} (h : IsVarInt f n) : n ≤ 268435455 := by
  obtain ⟨_, hl, rfl⟩ := h
  have := varIntValue_lt f
  have h4 : (128 : Nat) ^ f.length ≤ 128 ^ 4 := Nat.pow_le_pow_right (by omega) hl
  omega

/-- The canonical field is unique and is the encoder's. -/
theorem canonical_iff {f : List UInt8} {n : Nat} :
    CanonicalVarInt f n ↔ n ≤ 268435455 ∧ f = varInt n := by
  constructor
  · rintro ⟨hi, hmin⟩
    have hn := isVarInt_le hi
    refine ⟨hn, ?_⟩
    obtain ⟨hs, hl, rfl⟩ := hi
    have h1 := hmin (varInt (varIntValue f)) (varInt_canonical hn).1
    have h2 := varInt_length_le f (shape_ne_nil hs)
    exact shape_eq_varInt hs (by omega)
  · rintro ⟨hn, rfl⟩
    exact varInt_canonical hn

/-- What a scan of at most `k` bytes for a variable-length integer finds. -/
inductive Scan where
  | done (n len : Nat)
  | more
  | bad
  deriving DecidableEq, Repr

def Scan.shift (b : Nat) : Scan → Scan
  | .done n l => .done (b + 128 * n) (l + 1)
  | .more => .more
  | .bad => .bad

def scan : Nat → List UInt8 → Scan
  | 0, _ => .bad
  | _ + 1, [] => .more
  | k + 1, b :: rest =>
    if b.toNat < 128 then .done b.toNat 1
    else (scan k rest).shift (b.toNat - 128)

theorem scan_done_iff {k : Nat} {bs : List UInt8} {n l : Nat} :
    scan k bs = .done n l ↔
      l ≤ k ∧ l ≤ bs.length ∧ VarIntShape (bs.take l) ∧ varIntValue (bs.take l) = n := by
  induction k generalizing bs n l with
  | zero =>
    simp only [scan]
    constructor
    · intro h; cases h
    · rintro ⟨h0, _, hs, _⟩
      have : l = 0 := by omega
      subst this; simp [VarIntShape] at hs
  | succ k ih =>
    cases bs with
    | nil =>
      simp only [scan]
      constructor
      · intro h; cases h
      · rintro ⟨_, _, hs, _⟩; simp [VarIntShape] at hs
    | cons b rest =>
      have hb := UInt8.toNat_lt b
      simp only [scan]
      by_cases h : b.toNat < 128
      · rw [if_pos h]
        constructor
        · intro h'; cases h'
          refine ⟨by omega, by simp, ?_, ?_⟩
          · simpa [VarIntShape] using h
          · simp [varIntValue]; omega
        · rintro ⟨h1, h2, hs, hv⟩
          cases l with
          | zero => simp [VarIntShape] at hs
          | succ l =>
            by_cases ht : rest.take l = []
            · simp only [List.take_succ_cons, ht, varIntValue] at hv
              simp only [List.length_cons] at h2
              have hl : l = 0 := by
                have := congrArg List.length ht
                simp only [List.length_take, List.length_nil] at this
                omega
              subst hl
              congr 1; omega
            · simp only [List.take_succ_cons] at hs
              rw [shape_cons ht] at hs
              omega
      · rw [if_neg h]
        constructor
        · intro h'
          cases hsc : scan k rest with
          | more => rw [hsc] at h'; cases h'
          | bad => rw [hsc] at h'; cases h'
          | done n' l' =>
            rw [hsc] at h'
            simp only [Scan.shift, Scan.done.injEq] at h'
            obtain ⟨rfl, rfl⟩ := h'
            obtain ⟨a1, a2, a3, a4⟩ := ih.mp hsc
            refine ⟨by omega, by simp; omega, ?_, ?_⟩
            · simp only [List.take_succ_cons]
              rw [shape_cons (shape_ne_nil a3)]
              exact ⟨by omega, a3⟩
            · simp only [List.take_succ_cons, varIntValue, a4]; omega
        · rintro ⟨h1, h2, hs, hv⟩
          cases l with
          | zero => simp [VarIntShape] at hs
          | succ l =>
            by_cases ht : rest.take l = []
            · simp only [List.take_succ_cons, ht, VarIntShape] at hs
              omega
            · simp only [List.take_succ_cons] at hs
              rw [shape_cons ht] at hs
              simp only [List.take_succ_cons, varIntValue] at hv
              have := (ih (bs := rest) (n := varIntValue (rest.take l)) (l := l)).mpr
                ⟨by omega, by simp at h2; omega, hs.2, rfl⟩
              rw [this]
              simp only [Scan.shift, Scan.done.injEq]
              exact ⟨by omega, trivial⟩

theorem scan_more_iff {k : Nat} {bs : List UInt8} :
    scan k bs = .more ↔ bs.length < k ∧ ∀ b ∈ bs, 128 ≤ b.toNat := by
  induction k generalizing bs with
  | zero => simp [scan]
  | succ k ih =>
    cases bs with
    | nil => simp [scan]
    | cons b rest =>
      simp only [scan]
      by_cases h : b.toNat < 128
      · rw [if_pos h]
        constructor
        · intro h'; cases h'
        · rintro ⟨_, h2⟩
          have := h2 b (by simp); omega
      · rw [if_neg h]
        have : (scan k rest).shift (b.toNat - 128) = .more ↔ scan k rest = .more := by
          cases scan k rest <;> simp [Scan.shift]
        rw [this, ih]
        simp only [List.length_cons, List.mem_cons, forall_eq_or_imp]
        constructor
        · rintro ⟨a, b'⟩; exact ⟨by omega, by omega, b'⟩
        · rintro ⟨a, _, b'⟩; exact ⟨by omega, b'⟩

/-! ### The code's decoders in terms of `scan` -/

theorem and7f (b : UInt8) : (b &&& 0x7F).toNat = b.toNat % 128 := by
  have : ∀ b : UInt8, (b &&& 0x7F).toNat = b.toNat % 128 := by decide +kernel
  exact this b

theorem and80 (b : UInt8) : (b &&& 0x80) ≠ 0 ↔ ¬ b.toNat < 128 := by
  have : ∀ b : UInt8, (b &&& 0x80) ≠ 0 ↔ ¬ b.toNat < 128 := by decide +kernel
  exact this b

/-- Result of the byte-wise loop given the scan of the remaining bytes. -/
def loopRes (acc mult dec : Nat) : Scan → Status × Nat × Nat
  | .done n l => (.success, acc + mult * n, dec + l)
  | .more => (.needMoreBytes, 0, 0)
  | .bad => (.badResponse, remainingLengthInvalid, 0)

theorem readByte_drop {buf : List UInt8} {i : Nat} {b : UInt8} {rest : List UInt8}
    (h : buf.drop i = b :: rest) : readByte buf i = .ok b := by
  have : buf[i]? = some b := by
    rw [← List.head?_drop, h]; rfl
  simp [readByte, this]

theorem readByte_ok {buf : List UInt8} {i : Nat} (h : i < buf.length) :
    readByte buf i = .ok buf[i] := by
  simp [readByte, List.getElem?_eq_getElem h]

theorem processLoop_eq (buf : List UInt8) (index : Nat) (hidx : index ≤ buf.length) :
    ∀ (k acc dec : Nat), dec + k = 4 → acc < 128 ^ dec →
    ∃ st n d, processRemainingLengthLoop buf index acc (128 ^ dec) dec = .ok (st, n, d) ∧
      (match scan k ((buf.take index).drop (dec + 1)) with
       | .done m l => st = .success ∧ n = acc + 128 ^ dec * m ∧ d = dec + l
       | .more => st = .needMoreBytes
       | .bad => st = .badResponse) := by
  intro k
  induction k with
  | zero =>
    intro acc dec hk hacc
    have : dec = 4 := by omega
    subst this
    rw [processRemainingLengthLoop]
    simp [scan]
  | succ k ih =>
    intro acc dec hk hacc
    rw [processRemainingLengthLoop]
    have hm : ¬ (128 ^ dec > 2097152) := by
      have : (128 : Nat) ^ dec ≤ 128 ^ 3 := Nat.pow_le_pow_right (by omega) (by omega)
      omega
    rw [if_neg hm]
    by_cases hd : index > dec + 1
    · rw [dif_pos hd]
      have hlt : dec + 1 < buf.length := by omega
      rw [readByte_ok hlt]
      have hcons : (buf.take index).drop (dec + 1) = buf[dec + 1] :: (buf.take index).drop (dec + 1 + 1) := by
        rw [List.drop_eq_getElem_cons (by simp; omega)]
        simp
      rw [hcons]
      simp only [Res.bind, scan]
      generalize hb : buf[dec + 1] = b
      have hbl := UInt8.toNat_lt b
      have hbound : acc + (b &&& 0x7F).toNat * 128 ^ dec < 128 ^ (dec + 1) := by
        rw [and7f, Nat.pow_succ]
        have : b.toNat % 128 ≤ 127 := by omega
        have := Nat.mul_le_mul_right (128 ^ dec) this
        omega
      have h128 : (128 : Nat) ^ (dec + 1) ≤ 128 ^ 4 := Nat.pow_le_pow_right (by omega) (by omega)
      have hinv : ¬ (acc + (b &&& 0x7F).toNat * 128 ^ dec = remainingLengthInvalid) := by
        unfold remainingLengthInvalid; omega
      rw [if_neg hinv]
      by_cases hb128 : b.toNat < 128
      · have : ¬ ((b &&& 0x80) ≠ 0) := by rw [and80]; omega
        rw [if_neg this, if_pos hb128]
        refine ⟨_, _, _, rfl, rfl, ?_, rfl⟩
        rw [and7f, Nat.mod_eq_of_lt hb128, Nat.mul_comm]
      · rw [if_pos ((and80 b).mpr hb128), if_neg hb128]
        have := ih (acc + (b &&& 0x7F).toNat * 128 ^ dec) (dec + 1) (by omega) hbound
        rw [Nat.pow_succ] at this
        obtain ⟨st, n, d, h1, h2⟩ := this
        refine ⟨st, n, d, h1, ?_⟩
        cases hs : scan k ((buf.take index).drop (dec + 1 + 1)) with
        | more => rw [hs] at h2; exact h2
        | bad => rw [hs] at h2; exact h2
        | done m l =>
          rw [hs] at h2
          simp only [Scan.shift]
          obtain ⟨a, e, c⟩ := h2
          refine ⟨a, ?_, by omega⟩
          rw [e, and7f]
          have : b.toNat % 128 = b.toNat - 128 := by omega
          rw [this, Nat.mul_add, Nat.add_assoc, Nat.mul_comm (b.toNat - 128), Nat.mul_assoc]
    · rw [dif_neg hd]
      have : (buf.take index).drop (dec + 1) = [] := by
        apply List.drop_eq_nil_of_le
        simp; omega
      rw [this]
      refine ⟨_, _, _, rfl, ?_⟩
      simp [scan]

/-- The header parser's length part, characterised by the scan of the available bytes. -/
theorem processRemainingLength_eq {buf : List UInt8} {index : Nat} (hidx : index ≤ buf.length) :
    ∃ st n h, processRemainingLength buf index = .ok (st, n, h) ∧
      (match scan 4 ((buf.take index).drop 1) with
       | .done m l => if l = remainingLengthEncodedSize m then
            st = .success ∧ n = m ∧ h = l + 1 else st = .badResponse
       | .more => st = .needMoreBytes
       | .bad => st = .badResponse) := by
  obtain ⟨st, n, d, h1, h2⟩ := processLoop_eq buf index hidx 4 0 0 rfl (by simp)
  simp only [Nat.zero_add, Nat.pow_zero, Nat.one_mul] at h1 h2
  unfold processRemainingLength
  rw [h1]
  simp only [Res.ok_bind, Res.pure_eq]
  cases hs : scan 4 ((buf.take index).drop 1) with
  | more => rw [hs] at h2; simp only at h2; subst h2; exact ⟨_, _, _, rfl, rfl⟩
  | bad => rw [hs] at h2; simp only at h2; subst h2; exact ⟨_, _, _, rfl, rfl⟩
  | done m l =>
    rw [hs] at h2
    simp only at h2
    obtain ⟨rfl, rfl, rfl⟩ := h2
    by_cases he : d = remainingLengthEncodedSize n
    · refine ⟨.success, n, d + 1, by simp [he], by simp [he]⟩
    · refine ⟨.badResponse, 0, 0, by simp [he], by simp [he]⟩

/-- The byte-wise decoder in terms of `scan`. -/
theorem getLoop_eq : ∀ (k acc dec : Nat) (bs : List UInt8), dec + k = 4 → acc < 128 ^ dec →
    ∃ n d rest, getRemainingLengthLoop (bs.map .byte) acc (128 ^ dec) dec = (n, d, rest) ∧
      (match scan k bs with
       | .done m l => n = acc + 128 ^ dec * m ∧ d = dec + l ∧ rest = (bs.drop l).map .byte ∧
            n ≠ remainingLengthInvalid
       | .more => n = remainingLengthInvalid
       | .bad => n = remainingLengthInvalid) := by
  intro k
  induction k with
  | zero =>
    intro acc dec bs hk hacc
    have : dec = 4 := by omega
    subst this
    unfold getRemainingLengthLoop
    simp [scan]
  | succ k ih =>
    intro acc dec bs hk hacc
    unfold getRemainingLengthLoop
    have hm : ¬ (128 ^ dec > 2097152) := by
      have : (128 : Nat) ^ dec ≤ 128 ^ 3 := Nat.pow_le_pow_right (by omega) (by omega)
      omega
    rw [if_neg hm]
    cases bs with
    | nil => exact ⟨_, _, _, rfl, by simp [scan]⟩
    | cons b bs =>
      have hbl := UInt8.toNat_lt b
      simp only [List.map_cons, scan]
      have hbound : acc + (b &&& 0x7F).toNat * 128 ^ dec < 128 ^ (dec + 1) := by
        rw [and7f, Nat.pow_succ]
        have : b.toNat % 128 ≤ 127 := by omega
        have := Nat.mul_le_mul_right (128 ^ dec) this
        omega
      have h128 : (128 : Nat) ^ (dec + 1) ≤ 128 ^ 4 := Nat.pow_le_pow_right (by omega) (by omega)
      have hinv : ¬ (acc + (b &&& 0x7F).toNat * 128 ^ dec = remainingLengthInvalid) := by
        unfold remainingLengthInvalid; omega
      rw [if_neg hinv]
      by_cases hb128 : b.toNat < 128
      · have : ¬ ((b &&& 0x80) ≠ 0) := by rw [and80]; omega
        rw [if_neg this, if_pos hb128]
        refine ⟨_, _, _, rfl, ?_, rfl, rfl, hinv⟩
        rw [and7f, Nat.mod_eq_of_lt hb128, Nat.mul_comm]
      · rw [if_pos ((and80 b).mpr hb128), if_neg hb128]
        have := ih (acc + (b &&& 0x7F).toNat * 128 ^ dec) (dec + 1) bs (by omega) hbound
        rw [Nat.pow_succ] at this
        obtain ⟨n, d, rest, h1, h2⟩ := this
        refine ⟨n, d, rest, h1, ?_⟩
        cases hs : scan k bs with
        | more => rw [hs] at h2; exact h2
        | bad => rw [hs] at h2; exact h2
        | done m l =>
          rw [hs] at h2
          simp only [Scan.shift]
          obtain ⟨a, e, c, f⟩ := h2
          refine ⟨?_, by omega, by simpa using c, f⟩
          rw [a, and7f]
          have : b.toNat % 128 = b.toNat - 128 := by omega
          rw [this, Nat.mul_add, Nat.add_assoc, Nat.mul_comm (b.toNat - 128), Nat.mul_assoc]

theorem getRemainingLength_eq (bs : List UInt8) :
    ∃ n rest, getRemainingLength (bs.map .byte) = (n, rest) ∧
      (match scan 4 bs with
       | .done m l => if l = remainingLengthEncodedSize m then
            n = m ∧ n ≠ remainingLengthInvalid ∧ rest = (bs.drop l).map .byte
            else n = remainingLengthInvalid
       | .more => n = remainingLengthInvalid
       | .bad => n = remainingLengthInvalid) := by
  obtain ⟨n, d, rest, h1, h2⟩ := getLoop_eq 4 0 0 bs rfl (by simp)
  simp only [Nat.zero_add, Nat.pow_zero, Nat.one_mul] at h1 h2
  unfold getRemainingLength
  rw [h1]
  simp only
  cases hs : scan 4 bs with
  | more => rw [hs] at h2; simp only at h2; subst h2; exact ⟨_, _, rfl, rfl⟩
  | bad => rw [hs] at h2; simp only at h2; subst h2; exact ⟨_, _, rfl, rfl⟩
  | done m l =>
    rw [hs] at h2
    simp only at h2
    obtain ⟨rfl, rfl, rfl, hne⟩ := h2
    rw [if_pos hne]
    by_cases he : d = remainingLengthEncodedSize n
    · rw [if_neg (by simpa using he)]
      refine ⟨_, _, rfl, ?_⟩
      simp [he, hne]
    · rw [if_pos he]
      refine ⟨_, _, rfl, ?_⟩
      simp [he]

theorem scan_varInt {n : Nat} (h : n ≤ 268435455) (rest : List UInt8) :
    scan 4 (varInt n ++ rest) = .done n (remainingLengthEncodedSize n) := by
  rw [scan_done_iff, ← varInt_length h]
  refine ⟨?_, by simp, ?_, ?_⟩
  · rw [varInt_length h]; exact encodedSize_le n
  · simpa using varInt_shape n
  · simpa using varInt_value n

end Mqtt
