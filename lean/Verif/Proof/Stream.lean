/-
The header parser of core_mqtt_serializer.c, related to `Spec.readHeader`.
-/
import Verif.Props.Header
import Verif.Proof.Connect

namespace Mqtt
open Spec
set_option linter.unusedSimpArgs false

theorem readVarInt_scan (k : Nat) (bs : List UInt8) :
    readVarInt k bs = (match scan k bs with | .done n l => some (n, bs.drop l) | _ => none) := by
  induction k generalizing bs with
  | zero => rfl
  | succ k ih =>
    cases bs with
    | nil => rfl
    | cons b rest =>
      rw [readVarInt, scan]
      by_cases h : b.toNat < 128
      · simp [h]
      · rw [if_neg h, if_neg h, ih]
        cases scan k rest <;> simp [Scan.shift]

theorem scan_bad_length {k : Nat} {bs : List UInt8} (h : scan k bs = .bad) : k ≤ bs.length := by
  induction k generalizing bs with
  | zero => exact Nat.zero_le _
  | succ k ih =>
    cases bs with
    | nil => simp [scan] at h
    | cons b rest =>
      rw [scan] at h
      by_cases hb : b.toNat < 128
      · simp [hb] at h
      · rw [if_neg hb] at h
        have : scan k rest = .bad := by cases hs : scan k rest <;> simp_all [Scan.shift]
        have := ih this
        simp; omega

theorem scan_more_length {k : Nat} {bs : List UInt8} (h : scan k bs = .more) : bs.length < k := (scan_more_iff.mp h).1

/-- A canonical length at the front of the bytes. -/
theorem scan_canonical {bs : List UInt8} {n l : Nat} (h : scan 4 bs = .done n l) :
    n ≤ maxRemaining ∧ (l = remainingLengthEncodedSize n ↔ bs = varInt n ++ bs.drop l) := by
  obtain ⟨a, b, c, d⟩ := scan_done_iff.mp h
  have hi : IsVarInt (bs.take l) n := ⟨c, by simp; omega, d⟩
  have hm := isVarInt_le hi
  refine ⟨hm, ?_⟩
  constructor
  · intro hl
    have : bs.take l = varInt n := by
      rw [← d]
      apply shape_eq_varInt c
      rw [d, varInt_length hm]; simp; omega
    rw [← this, List.take_append_drop]
  · intro he
    have : bs.length = (varInt n).length + (bs.length - l) := by
      have := congrArg List.length he
      simpa using this
    rw [varInt_length hm] at this
    omega

theorem parseHeader_eq {buf : List UInt8} {index : Nat} (h1 : 1 ≤ index) (hidx : index ≤ buf.length) :
    ∃ hr, processIncomingPacketTypeAndLength (some buf) index = .ok hr ∧
      (readHeader (buf.take index) = .incomplete ∧ hr.status = .needMoreBytes ∨
       readHeader (buf.take index) = .malformed ∧ hr.status = .badResponse ∨
       ∃ t hl n, readHeader (buf.take index) = .known t hl n ∧ hr = ⟨.success, t, n, hl⟩) := by
  cases buf with
  | nil => simp at hidx; omega
  | cons t rest =>
    have htake : (t :: rest).take index = t :: rest.take (index - 1) := by
      obtain ⟨k, rfl⟩ : ∃ k, index = k + 1 := ⟨index - 1, by omega⟩
      simp
    have hrb : readByte (t :: rest) 0 = .ok t := rfl
    rw [htake, readHeader]
    by_cases ht : ServerFirstByte t.toNat
    · have hv := (incomingPacketValid_iff t).mpr ht
      obtain ⟨st, n, h, e1, e2⟩ := processRemainingLength_eq hidx
      have hproc : processIncomingPacketTypeAndLength (some (t :: rest)) index = .ok ⟨st, t, n, h⟩ := by
        unfold processIncomingPacketTypeAndLength
        simp [hrb, show ¬ index = 0 by omega, hv, e1]
      refine ⟨_, hproc, ?_⟩
      rw [htake] at e2
      simp only [List.drop_succ_cons, List.drop_zero] at e2
      rw [if_pos ht, readVarInt_scan]
      generalize rest.take (index - 1) = av at *
      cases hs : scan 4 av with
      | more =>
        rw [hs] at e2
        have := scan_more_length hs
        exact Or.inl ⟨by simp [this], e2⟩
      | bad =>
        rw [hs] at e2
        have := scan_bad_length hs
        exact Or.inr (Or.inl ⟨by simp; omega, e2⟩)
      | done m l =>
        rw [hs] at e2
        simp only at e2 ⊢
        obtain ⟨hm, hc⟩ := scan_canonical hs
        by_cases hl : l = remainingLengthEncodedSize m
        · rw [if_pos hl] at e2
          obtain ⟨rfl, rfl, rfl⟩ := e2
          refine Or.inr (Or.inr ⟨t, 1 + (varInt n).length, n, ?_, ?_⟩)
          · rw [if_pos (hc.mp hl)]
          · rw [varInt_length hm, hl, Nat.add_comm]
        · rw [if_neg hl] at e2
          refine Or.inr (Or.inl ⟨?_, e2⟩)
          rw [if_neg (fun h => hl (hc.mpr h))]
    · have hv : incomingPacketValid t = false := by
        cases h : incomingPacketValid t with
        | false => rfl
        | true => exact absurd ((incomingPacketValid_iff t).mp h) ht
      refine ⟨⟨.badResponse, t, 0, 0⟩, ?_, Or.inr (Or.inl ⟨by rw [if_neg ht], rfl⟩)⟩
      unfold processIncomingPacketTypeAndLength
      simp [hrb, show ¬ index = 0 by omega, hv]

theorem readHeader_known {bs : List UInt8} {t : UInt8} {hl n : Nat} (h : readHeader bs = .known t hl n) :
    ServerFirstByte t.toNat ∧ n ≤ maxRemaining ∧ hl = 1 + (varInt n).length ∧ ∃ rest, bs = t :: (varInt n ++ rest) := by
  cases bs with
  | nil => simp [readHeader] at h
  | cons b rest =>
    rw [readHeader] at h
    by_cases ht : ServerFirstByte b.toNat
    · rw [if_pos ht, readVarInt_scan] at h
      cases hs : scan 4 rest with
      | more => rw [hs] at h; simp only at h; split at h <;> simp at h
      | bad => rw [hs] at h; simp only at h; split at h <;> simp at h
      | done m l =>
        rw [hs] at h
        simp only at h
        obtain ⟨hm, _⟩ := scan_canonical hs
        split at h
        · rename_i hr
          simp only [Header.known.injEq] at h
          obtain ⟨rfl, rfl, rfl⟩ := h
          exact ⟨ht, hm, rfl, _, by rw [← hr]⟩
        · simp at h
    · rw [if_neg ht] at h; simp at h

theorem readHeader_intro {t : UInt8} {n : Nat} (ht : ServerFirstByte t.toNat) (hn : n ≤ maxRemaining) (rest : List UInt8) :
    readHeader (t :: (varInt n ++ rest)) = .known t (1 + (varInt n).length) n := by
  have : readVarInt 4 (varInt n ++ rest) = some (n, rest) :=
    readVarInt_varInt (k := 3) (by unfold maxRemaining at hn; omega) rest
  rw [readHeader, if_pos ht, this]
  simp

theorem Raw.bytes_eq (p : Raw) : p.bytes = p.first :: (varInt p.body.length ++ p.body) := by
  unfold Raw.bytes packet
  simp

theorem readHeader_bytes {p : Raw} (hp : p.Valid) (rest : List UInt8) :
    readHeader (p.bytes ++ rest) = .known p.first (1 + (varInt p.body.length).length) p.body.length := by
  rw [Raw.bytes_eq, List.cons_append, List.append_assoc]
  exact readHeader_intro hp.1 hp.2 _

/-- A header at the front of the buffered bytes together with enough bytes is a packet. -/
theorem known_packet {bs : List UInt8} {t : UInt8} {hl n : Nat} (h : readHeader bs = .known t hl n) (hlen : hl + n ≤ bs.length) :
    let p : Raw := ⟨t, (bs.drop hl).take n⟩
    p.Valid ∧ p.body.length = n ∧ p.bytes.length = hl + n ∧ bs = p.bytes ++ bs.drop (hl + n) := by
  obtain ⟨h1, h2, h3, rest, rfl⟩ := readHeader_known h
  have hd : (t :: (varInt n ++ rest)).drop hl = rest := by
    rw [h3, Nat.add_comm, List.drop_succ_cons, List.drop_left]
  have hr : n ≤ rest.length := by simp at hlen; omega
  intro p
  have hb : p.body = rest.take n := by show List.take n _ = _; rw [hd]
  have hbl : p.body.length = n := by rw [hb]; simp; omega
  have hbytes : p.bytes = t :: (varInt n ++ rest.take n) := by
    rw [Raw.bytes_eq, hbl, hb]
  refine ⟨⟨h1, by rw [hbl]; exact h2⟩, hbl, ?_, ?_⟩
  · rw [hbytes]; simp; omega
  · rw [← List.drop_drop, hd, hbytes]
    simp

end Mqtt
