/- Properties C01, C02, C03: fixed header encoding and parsing. -/
import Verif.Proof.VarInt
import Verif.Spec.Stream

namespace Mqtt
open Spec

theorem incomingPacketValid_iff (t : UInt8) : incomingPacketValid t = true ↔ ServerFirstByte t.toNat := by
  have : ∀ t : UInt8, incomingPacketValid t = true ↔ ServerFirstByte t.toNat := by decide +kernel
  exact this t

/-- **C01** Remaining-length round trip.  For every `n` the serializers write one fixed field
`f`, which is the shortest legal encoding of `n` (1 to 4 bytes); both header parsers read it back as `n` after any
server packet type byte and whatever follows. -/
theorem C01_remaining_length_roundtrip (n : Nat) (hn : n ≤ maxRemaining) :
    ∃ f : List UInt8, CanonicalVarInt f n ∧ 1 ≤ f.length ∧ f.length ≤ 4 ∧
      remainingLengthEncodedSize n = f.length ∧
      (∀ c : Cur, encodeRemainingLength c n = put c f) ∧
      ∀ (t : UInt8), ServerFirstByte t.toNat → ∀ (tail : List UInt8),
        (∀ index, 1 + f.length ≤ index → index ≤ 1 + f.length + tail.length →
          processIncomingPacketTypeAndLength (some (t :: (f ++ tail))) index
            = .ok ⟨.success, t, n, 1 + f.length⟩) ∧
        getIncomingPacketTypeAndLength ((t :: (f ++ tail)).map .byte)
          = (⟨.success, t, n, 0⟩, tail.map .byte) := by
  have hn' : n ≤ 268435455 := hn
  refine ⟨varInt n, varInt_canonical hn', ?_, ?_, (varInt_length hn').symm,
    encodeRemainingLength_eq n, ?_⟩
  · rw [varInt_length hn']; exact encodedSize_pos n
  · rw [varInt_length hn']; exact encodedSize_le n
  intro t ht tail
  have hv := (incomingPacketValid_iff t).mpr ht
  constructor
  · intro index h1 h2
    unfold processIncomingPacketTypeAndLength
    have hl : (t :: (varInt n ++ tail)).length = 1 + (varInt n).length + tail.length := by
      simp; omega
    obtain ⟨st, m, h, e1, e2⟩ :=
      processRemainingLength_eq (buf := t :: (varInt n ++ tail)) (index := index) (by omega)
    have ht : ((t :: (varInt n ++ tail)).take index).drop 1
        = varInt n ++ tail.take (index - 1 - (varInt n).length) := by
      obtain ⟨i, rfl⟩ : ∃ i, index = i + 1 := ⟨index - 1, by omega⟩
      simp only [List.take_succ_cons, List.drop_succ_cons, List.drop_zero]
      rw [List.take_append, List.take_of_length_le (by omega)]
      congr 2
    rw [ht, scan_varInt hn'] at e2
    simp only [if_true] at e2
    obtain ⟨rfl, rfl, rfl⟩ := e2
    simp [readByte, e1, hv, show ¬ index = 0 by omega, varInt_length hn', Nat.add_comm]
  · simp only [List.map_cons, getIncomingPacketTypeAndLength, hv, if_true]
    obtain ⟨m, rest, e1, e2⟩ := getRemainingLength_eq (varInt n ++ tail)
    rw [scan_varInt hn'] at e2
    simp only [if_true] at e2
    obtain ⟨rfl, hne, rfl⟩ := e2
    rw [e1]
    simp [hne]
    rw [← varInt_length hn']; simp

/-- Non-vacuity: 321 is encoded as `C1 02`. -/
example : (321 : Nat) ≤ maxRemaining ∧ CanonicalVarInt [0xC1, 0x02] 321 ∧ ServerFirstByte (0x30 : UInt8).toNat :=
  ⟨by decide, canonical_iff.mpr ⟨by decide, by decide +kernel⟩, by decide⟩

/-- **C02** Decoding accepts exactly canonical fields.  `avail` are the bytes received after the
type byte.  The parser is defined on every input, and:
success iff `avail` starts with a canonical field (then number and header length are those of that
field); need-more-bytes iff `avail` is a proper prefix of a canonical field; bad response
in all other cases. -/
theorem C02_decoding_exact (buf : List UInt8) (index : Nat) (h1 : 1 ≤ index) (hidx : index ≤ buf.length)
    (ht : ServerFirstByte (buf[0]'(by omega)).toNat) :
    let avail := (buf.take index).drop 1
    ∃ st n h, processIncomingPacketTypeAndLength (some buf) index = .ok ⟨st, buf[0]'(by omega), n, h⟩ ∧
      (st = .success ↔ ∃ f m, f <+: avail ∧ CanonicalVarInt f m) ∧
      (st = .success → ∃ f, f <+: avail ∧ CanonicalVarInt f n ∧ h = 1 + f.length) ∧
      (st = .needMoreBytes ↔ ∃ g m, g ≠ [] ∧ CanonicalVarInt (avail ++ g) m) ∧
      (st = .badResponse ↔ (¬ ∃ f m, f <+: avail ∧ CanonicalVarInt f m) ∧
        ¬ ∃ g m, g ≠ [] ∧ CanonicalVarInt (avail ++ g) m) := by
  intro avail
  have hv := (incomingPacketValid_iff (buf[0]'(by omega))).mpr ht
  obtain ⟨st, n, h, e1, e2⟩ := processRemainingLength_eq hidx
  have hproc : processIncomingPacketTypeAndLength (some buf) index = .ok ⟨st, buf[0]'(by omega), n, h⟩ := by
    unfold processIncomingPacketTypeAndLength
    have hrb : readByte buf 0 = .ok (buf[0]'(by omega)) := readByte_ok (by omega)
    simp [hrb, show ¬ index = 0 by omega, hv, e1]
  -- the two existential conditions in terms of the scan
  have hpre : (∃ f m, f <+: avail ∧ CanonicalVarInt f m) ↔
      ∃ m l, scan 4 avail = .done m l ∧ l = remainingLengthEncodedSize m := by
    constructor
    · rintro ⟨f, m, ⟨t, ht⟩, hc⟩
      obtain ⟨hm, rfl⟩ := canonical_iff.mp hc
      exact ⟨m, _, by rw [← ht, scan_varInt hm], rfl⟩
    · rintro ⟨m, l, hs, hl⟩
      obtain ⟨a, b, c, d⟩ := scan_done_iff.mp hs
      refine ⟨avail.take l, m, List.take_prefix _ _, ?_⟩
      have hi : IsVarInt (avail.take l) m := ⟨c, by simp; omega, d⟩
      have hm := isVarInt_le hi
      rw [canonical_iff]
      refine ⟨hm, ?_⟩
      rw [← d]
      apply shape_eq_varInt c
      rw [d, varInt_length hm]; simp; omega
  have hmore : (∃ g m, g ≠ [] ∧ CanonicalVarInt (avail ++ g) m) ↔ scan 4 avail = .more := by
    rw [scan_more_iff]
    constructor
    · rintro ⟨g, m, hg, hc⟩
      obtain ⟨⟨hs, hl, _⟩, _⟩ := hc
      have hgl : 0 < g.length := List.length_pos_iff.mpr hg
      refine ⟨by simp at hl; omega, ?_⟩
      have key : ∀ (l : List UInt8), VarIntShape (l ++ g) → ∀ b ∈ l, 128 ≤ b.toNat := by
        intro l
        induction l with
        | nil => simp
        | cons x xs ih =>
          intro hs b hb
          rw [List.cons_append, shape_cons (by simp [hg])] at hs
          rcases List.mem_cons.mp hb with rfl | hb
          · exact hs.1
          · exact ih hs.2 b hb
      exact key avail hs
    · rintro ⟨hl, hall⟩
      have key : ∀ (l : List UInt8), (∀ b ∈ l, 128 ≤ b.toNat) → VarIntShape (l ++ [1]) := by
        intro l
        induction l with
        | nil => intro _; simp [VarIntShape]
        | cons x xs ih =>
          intro hall
          rw [List.cons_append, shape_cons (by simp)]
          exact ⟨hall x (by simp), ih fun b hb => hall b (by simp [hb])⟩
      have hsh := key avail hall
      have hval : 128 ^ avail.length ≤ varIntValue (avail ++ [1]) := by
        have : ∀ (l : List UInt8), 128 ^ l.length ≤ varIntValue (l ++ [1]) := by
          intro l
          induction l with
          | nil => decide
          | cons x xs ih =>
            simp only [List.cons_append, varIntValue, List.length_cons, Nat.pow_succ]
            omega
        exact this avail
      have hi : IsVarInt (avail ++ [1]) (varIntValue (avail ++ [1])) := ⟨hsh, by simp; omega, rfl⟩
      refine ⟨[1], varIntValue (avail ++ [1]), by simp, hi, ?_⟩
      rintro g ⟨_, _, hg⟩
      have := varIntValue_lt g
      rw [hg] at this
      have hlt : (128 : Nat) ^ avail.length < 128 ^ g.length := by omega
      have := (Nat.pow_lt_pow_iff_right (a := 128) (by omega)).mp hlt
      simp; omega
  refine ⟨st, n, h, hproc, ?_⟩
  rw [hpre, hmore]
  change (match scan 4 avail with
       | .done m l => if l = remainingLengthEncodedSize m then
            st = .success ∧ n = m ∧ h = l + 1 else st = .badResponse
       | .more => st = .needMoreBytes
       | .bad => st = .badResponse) at e2
  cases hs : scan 4 avail with
  | more =>
    rw [hs] at e2; simp only at e2; subst e2
    simp
  | bad =>
    rw [hs] at e2; simp only at e2; subst e2
    simp
  | done m l =>
    rw [hs] at e2; simp only at e2
    by_cases he : l = remainingLengthEncodedSize m
    · rw [if_pos he] at e2
      obtain ⟨rfl, rfl, rfl⟩ := e2
      obtain ⟨a, b, c, d⟩ := scan_done_iff.mp hs
      refine ⟨by simp [he], ?_, by simp, by simp [he]⟩
      intro _
      have hm : n ≤ 268435455 := isVarInt_le (f := avail.take l) ⟨c, by simp; omega, d⟩
      refine ⟨avail.take l, List.take_prefix _ _, ?_, by simp; omega⟩
      rw [canonical_iff]
      refine ⟨hm, ?_⟩
      rw [← d]
      apply shape_eq_varInt c
      rw [d, varInt_length hm]; simp; omega
    · rw [if_neg he] at e2
      subst e2
      simp [he]

/-- Non-vacuity of C02: a non-canonical field, an incomplete one, a complete one. -/
example :
    (processIncomingPacketTypeAndLength (some [0x30, 0x80, 0x00]) 3 = .ok ⟨.badResponse, 0x30, 0, 0⟩) ∧
    (processIncomingPacketTypeAndLength (some [0x30, 0x80, 0x01]) 2 = .ok ⟨.needMoreBytes, 0x30, 0, 0⟩) ∧
    (processIncomingPacketTypeAndLength (some [0x30, 0x80, 0x01]) 3 = .ok ⟨.success, 0x30, 128, 3⟩) := by
  decide +kernel

/-- **C02** (second part) The one-byte-at-a-time parser agrees with the buffered one on every stream that is
completely available: same success, type and length, and it leaves exactly the bytes after
the header unread; whenever the buffered parser does not succeed it reports a bad response. -/
theorem C02_parsers_agree (t : UInt8) (bs : List UInt8) :
    ∃ hr, processIncomingPacketTypeAndLength (some (t :: bs)) (1 + bs.length) = .ok hr ∧
      (hr.status = .success → getIncomingPacketTypeAndLength ((t :: bs).map .byte)
          = (⟨.success, t, hr.remainingLength, 0⟩, (bs.drop (hr.headerLength - 1)).map .byte)) ∧
      (hr.status ≠ .success → (getIncomingPacketTypeAndLength ((t :: bs).map .byte)).1.status = .badResponse) := by
  obtain ⟨st, n, h, e1, e2⟩ :=
    processRemainingLength_eq (buf := t :: bs) (index := 1 + bs.length) (by simp; omega)
  obtain ⟨m, rest, g1, g2⟩ := getRemainingLength_eq bs
  have htk : ((t :: bs).take (1 + bs.length)).drop 1 = bs := by
    rw [List.take_of_length_le (by simp; omega)]; rfl
  rw [htk] at e2
  unfold processIncomingPacketTypeAndLength
  simp only [readByte, List.getElem?_cons_zero, List.map_cons, getIncomingPacketTypeAndLength]
  by_cases hv : incomingPacketValid t = true
  · simp only [hv, if_true, e1, g1, Res.ok_bind, Res.pure_eq, if_neg (show ¬ 1 + bs.length < 1 by omega)]
    refine ⟨_, rfl, ?_, ?_⟩
    · intro hs
      simp only at hs
      subst hs
      cases hsc : scan 4 bs with
      | more => rw [hsc] at e2; simp at e2
      | bad => rw [hsc] at e2; simp at e2
      | done k l =>
        rw [hsc] at e2 g2; simp only at e2 g2
        by_cases he : l = remainingLengthEncodedSize k
        · rw [if_pos he] at e2 g2
          obtain ⟨_, rfl, rfl⟩ := e2
          obtain ⟨rfl, hne, rfl⟩ := g2
          simp [hne]
        · rw [if_neg he] at e2; cases e2
    · intro hs
      simp only at hs
      cases hsc : scan 4 bs with
      | more => rw [hsc] at g2; simp only at g2; simp [g2]
      | bad => rw [hsc] at g2; simp only at g2; simp [g2]
      | done k l =>
        rw [hsc] at e2 g2; simp only at e2 g2
        by_cases he : l = remainingLengthEncodedSize k
        · rw [if_pos he] at e2
          exact absurd e2.1 hs
        · rw [if_neg he] at g2; simp [g2]
  · simp only [hv, Res.ok_bind, Res.pure_eq, if_neg (show ¬ 1 + bs.length < 1 by omega)]
    exact ⟨_, rfl, by simp, by simp⟩

/-- **C03** A first byte is accepted exactly when it is a server-to-client type: such a byte is parsed successfully
with some continuation; any other byte gives a bad response in both parsers whatever follows, and
nothing after it is consumed. -/
theorem C03_packet_type_table (t : UInt8) :
    (ServerFirstByte t.toNat ↔ ∃ bs index n h,
      processIncomingPacketTypeAndLength (some (t :: bs)) index = .ok ⟨.success, t, n, h⟩) ∧
    (ServerFirstByte t.toNat ↔ ∃ script n rest,
      getIncomingPacketTypeAndLength (.byte t :: script) = (⟨.success, t, n, 0⟩, rest)) ∧
    (¬ ServerFirstByte t.toNat → ∀ bs script index, 1 ≤ index →
      processIncomingPacketTypeAndLength (some (t :: bs)) index = .ok ⟨.badResponse, t, 0, 0⟩ ∧
      getIncomingPacketTypeAndLength (.byte t :: script) = (⟨.badResponse, t, 0, 0⟩, script)) := by
  by_cases hs : ServerFirstByte t.toNat
  · obtain ⟨f, -, h1, h4, -, -, h⟩ := C01_remaining_length_roundtrip 0 (by decide)
    obtain ⟨ha, hb⟩ := h t hs []
    refine ⟨⟨fun _ => ⟨_, _, _, _, ha (1 + f.length) (by omega) (by simp)⟩, fun _ => hs⟩,
      ⟨fun _ => ⟨_, _, _, hb⟩, fun _ => hs⟩, fun hn => absurd hs hn⟩
  · have hv : incomingPacketValid t = false := by
      have := mt (incomingPacketValid_iff t).mp hs
      simpa using this
    refine ⟨⟨fun h => absurd h hs, ?_⟩, ⟨fun h => absurd h hs, ?_⟩, ?_⟩
    · rintro ⟨bs, index, n, h, e⟩
      by_cases hi : index = 0 <;>
        simp [processIncomingPacketTypeAndLength, hv, readByte, hi] at e
    · rintro ⟨script, n, rest, e⟩
      simp [getIncomingPacketTypeAndLength, hv] at e
    · intro _ bs script index hi
      simp [processIncomingPacketTypeAndLength, getIncomingPacketTypeAndLength, hv, readByte,
        show ¬ index = 0 by omega]

example : ¬ ServerFirstByte (0x60 : UInt8).toNat ∧ ServerFirstByte (0x62 : UInt8).toNat ∧
    ¬ ServerFirstByte (0x10 : UInt8).toNat ∧ ServerFirstByte (0x3B : UInt8).toNat := by decide

end Mqtt
