/- Algebra of checked writes. -/
import Verif.Model.Serializer
import Verif.Spec.Wire
import Verif.Spec.Args

namespace Mqtt
open Spec

theorem put_nil {c : Cur} (h : c.pos ≤ c.mem.length) : put c [] = .ok c := by
  simp [put, h]

theorem put_ok {c : Cur} {bs : List UInt8} (h : c.pos + bs.length ≤ c.mem.length) :
    put c bs = .ok ⟨c.mem.take c.pos ++ bs ++ c.mem.drop (c.pos + bs.length), c.pos + bs.length⟩ := by
  simp [put, h]

/-- Two successive writes are one write of the concatenation. -/
theorem put_put (c : Cur) (a b : List UInt8) :
    (put c a >>= fun c' => put c' b) = put c (a ++ b) := by
  unfold put
  by_cases h : c.pos + (a ++ b).length ≤ c.mem.length
  · have h1 : c.pos + a.length ≤ c.mem.length := by simp at h; omega
    rw [if_pos h1, if_pos h]
    simp only [List.length_append] at h
    have hp : min c.pos c.mem.length = c.pos := by omega
    have hl : (c.mem.take c.pos ++ a).length = c.pos + a.length := by
      simp [hp]
    simp only [Res.ok_bind]
    rw [if_pos (by simp [hp]; omega)]
    congr 1
    have e1 : List.take (c.pos + a.length) (c.mem.take c.pos ++ a ++ c.mem.drop (c.pos + a.length))
        = c.mem.take c.pos ++ a := by
      rw [← hl, List.take_left]
    have e2 : List.drop (c.pos + a.length + b.length)
        (c.mem.take c.pos ++ a ++ c.mem.drop (c.pos + a.length))
        = c.mem.drop (c.pos + (a ++ b).length) := by
      rw [← hl, ← List.drop_drop, List.drop_left, List.drop_drop]
      simp only [hl, List.length_append, Nat.add_assoc]
    rw [e1, e2]
    simp [Nat.add_assoc]
  · rw [if_neg h]
    split
    · next h1 =>
      simp only [Res.ok_bind]
      rw [if_neg]
      simp only [List.length_append] at h ⊢
      simp
      omega
    · rfl

theorem ofNat_mod_or (n : Nat) :
    setBit (UInt8.ofNat (n % 128)) 7 = UInt8.ofNat (128 + n % 128) := by
  have : ∀ k : Fin 128, setBit (UInt8.ofNat k.val) 7 = UInt8.ofNat (128 + k.val) := by decide +kernel
  exact this ⟨n % 128, Nat.mod_lt _ (by decide)⟩

theorem encodeRemainingLength_eq (n : Nat) : ∀ c : Cur, encodeRemainingLength c n = put c (varInt n) := by
  induction n using Nat.strongRecOn with
  | _ n ih =>
    intro c
    rw [encodeRemainingLength, varInt]
    by_cases h : n < 128
    · have : ¬ n / 128 > 0 := by omega
      simp [h, this, Nat.mod_eq_of_lt h]
    · have h2 : n / 128 > 0 := by omega
      simp only [h2, if_true, h, if_false, ofNat_mod_or]
      have := ih (n / 128) (by omega)
      simp only [this]
      rw [put_put]; rfl

theorem highByte_eq (x : UInt16) : highByte x = UInt8.ofNat (x.toNat / 256) := by
  apply UInt8.toNat.inj
  simp [highByte, Nat.shiftRight_eq_div_pow]

theorem lowByte_eq (x : UInt16) : lowByte x = UInt8.ofNat (x.toNat % 256) := by
  apply UInt8.toNat.inj
  simp only [lowByte, UInt16.toNat_toUInt8, UInt16.toNat_and, UInt8.toNat_ofNat']
  have : (255 : UInt16).toNat = 2 ^ 8 - 1 := rfl
  simp only [show (0x00ff : UInt16).toNat = 2 ^ 8 - 1 from rfl, Nat.and_two_pow_sub_one_eq_mod]

theorem hl_be16 (x : UInt16) : [highByte x, lowByte x] = be16 x.toNat := by
  simp [be16, highByte_eq, lowByte_eq]

theorem HasBytes.length {p : Ptr} {n : Nat} (h : HasBytes p n) : (bytesOf p n).length = n := by
  obtain ⟨m, rfl, hm⟩ := h
  simp [bytesOf, hm]

theorem readMem_ok {p : Ptr} {n : Nat} (h : HasBytes p n) : readMem p n = .ok (bytesOf p n) := by
  obtain ⟨m, rfl, hm⟩ := h
  simp [readMem, bytesOf, hm]

theorem encodeString_eq {p : Ptr} {len : UInt16} (h : HasBytes p len.toNat) (c : Cur) :
    encodeString c p len = put c (str (bytesOf p len.toNat)) := by
  obtain ⟨m, rfl, hm⟩ := h
  have hb : HasBytes (some m) len.toNat := ⟨m, rfl, hm⟩
  have hlen := hb.length
  unfold encodeString
  simp only [readMem_ok hb, Res.ok_bind]
  have : str (bytesOf (some m) len.toNat) =
      [highByte len] ++ ([lowByte len] ++ bytesOf (some m) len.toNat) := by
    simp [str, hlen, ← hl_be16]
  rw [this, ← put_put, ]
  congr 1
  funext c
  exact put_put c _ _

end Mqtt
