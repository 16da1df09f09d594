/-
What the client, the server and the connection between them know about the publishes with one packet id, and how the server changes it.
-/
import Verif.Proof.BrokerNet

namespace Mqtt
open Spec
set_option linter.unusedSimpArgs false

variable {strict : Bool}

/-! ### Packets about one packet id -/

inductive UpNote where
  | pub (m : Publish)
  | rel

inductive DownNote where
  | puback
  | pubrec
  | pubcomp

def upNote (i : UInt16) (u : Raw) : Option UpNote :=
  if u.first = 0x62 then (if read16 u.body = some (i.toNat, []) then some .rel else none)
  else match parsePublish u.first.toNat u.body with
    | some m => if m.id = i.toNat ∧ m.qos ≠ 0 then some (.pub m.message) else none
    | none => none

def downNote (i : UInt16) (d : Raw) : Option DownNote :=
  if idOnly d.body = some i then
    if d.first = 0x40 then some .puback else if d.first = 0x50 then some .pubrec else if d.first = 0x70 then some .pubcomp else none
  else none

theorem idOnly_be16' {n : Nat} (h : n < 65536) (h0 : n ≠ 0) : idOnly (be16 n) = some (UInt16.ofNat n) := by
  unfold be16 idOnly
  dsimp only
  rw [toNat_ofNat_lt (show n / 256 < 256 by omega), toNat_ofNat_lt (show n % 256 < 256 by omega)]
  rw [show 256 * (n / 256) + n % 256 = n from by omega, if_neg h0]

theorem idOnly_be16_iff {n : Nat} {i : UInt16} (h : n < 65536) (hi : i ≠ 0) : idOnly (be16 n) = some i ↔ n = i.toNat := by
  by_cases h0 : n = 0
  · subst h0
    have : i.toNat ≠ 0 := fun h => hi (by rw [← UInt16.toNat_inj]; simpa using h)
    constructor
    · intro h; simp [be16, idOnly] at h
    · intro h; exact absurd h.symm this
  · rw [idOnly_be16' h h0]
    constructor
    · intro h2
      injection h2 with h2
      rw [← h2, UInt16.toNat_ofNat_of_lt' h]
    · rintro rfl
      simp

theorem read16_lt {b r : List UInt8} {n : Nat} (h : read16 b = some (n, r)) : n < 65536 := by
  unfold read16 at h
  split at h
  · cases h
    rename_i a c
    have := a.toNat_lt
    have := c.toNat_lt
    omega
  · cases h

theorem parsePublish_facts {t : Nat} {b : List UInt8} {m : Publish} (h : parsePublish t b = some m) :
    t / 16 = 3 ∧ m.id < 65536 ∧ (m.qos ≠ 0 → m.id ≠ 0) := by
  unfold parsePublish at h
  by_cases ht : t / 16 = 3
  rotate_left
  · simp [ht] at h
  refine ⟨ht, ?_⟩
  simp only [ht, ne_eq, not_true, if_false, Option.bind_eq_bind] at h
  cases hq : qosOfNat (t / 2 % 4) with
  | none => rw [hq] at h; cases h
  | some qq =>
    rw [hq] at h
    cases hs : readStr b with
    | none => rw [hs] at h; cases h
    | some x =>
      obtain ⟨tp, rest⟩ := x
      rw [hs] at h
      simp only [Option.bind_some] at h
      by_cases h0 : qq.val = 0
      · rw [if_pos h0] at h
        injection h with h
        subst h
        refine ⟨by simp, fun hne => absurd (Fin.ext h0) hne⟩
      · rw [if_neg h0] at h
        cases hr : read16 rest with
        | none => rw [hr] at h; cases h
        | some y =>
          obtain ⟨id, r2⟩ := y
          rw [hr] at h
          simp only [Option.bind_some] at h
          by_cases hid : id = 0
          · simp [hid] at h
          · simp only [hid, if_false] at h
            injection h with h
            subst h
            exact ⟨read16_lt hr, fun _ => hid⟩

/-- An acknowledgement of the server. -/
def ackRaw (t : UInt8) (id : Nat) : Raw := ⟨t, be16 id⟩

theorem ackRaw_bytes (t : UInt8) (id : Nat) : (ackRaw t id).bytes = idPacket t.toNat id := rfl

theorem ackRaw_valid {t : UInt8} (ht : t = 0x40 ∨ t = 0x50 ∨ t = 0x70) (id : Nat) : (ackRaw t id).Valid := by
  refine ⟨?_, by simp [ackRaw, be16, maxRemaining]⟩
  show ServerFirstByte t.toNat
  rcases ht with rfl | rfl | rfl <;> (unfold ServerFirstByte; decide)

theorem ackRaw_length (t : UInt8) (id : Nat) : (ackRaw t id).bytes.length = 4 := by
  rw [Raw.bytes_eq]
  have : varInt 2 = [2] := varInt_two
  simp [ackRaw, be16, this]

theorem ackRaw_note {t : UInt8} {id : Nat} {i : UInt16} (hid : id < 65536) (hi : i ≠ 0) :
    downNote i (ackRaw t id) = if id = i.toNat then
      (if t = 0x40 then some .puback else if t = 0x50 then some .pubrec else if t = 0x70 then some .pubcomp else none) else none := by
  unfold downNote
  show (if idOnly (be16 id) = some i then _ else _) = _
  by_cases h : id = i.toNat
  · rw [if_pos h, if_pos ((idOnly_be16_iff hid hi).mpr h)]; rfl
  · rw [if_neg h, if_neg (fun h2 => h ((idOnly_be16_iff hid hi).mp h2))]

theorem Unasked.note {cap : Nat} {p : Raw} (h : Unasked strict cap p) (i : UInt16) : downNote i p = none := by
  unfold downNote
  rw [if_neg h.2.2.1, if_neg h.2.2.2.1, if_neg h.2.2.2.2.1]
  split <;> rfl

theorem rel_unasked {cap : Nat} (hcap : 4 ≤ cap) (j : UInt16) : Unasked false cap ⟨0x62, be16 j.toNat⟩ :=
  ⟨⟨by show ServerFirstByte (0x62 : UInt8).toNat; unfold ServerFirstByte; decide, by simp [be16, maxRemaining]⟩, by have := ackRaw_length 0x62 j.toNat; unfold ackRaw at this; omega, by show (0x62 : UInt8) ≠ _; decide,
    by show (0x62 : UInt8) ≠ _; decide, by show (0x62 : UInt8) ≠ _; decide, fun h => by cases h⟩

theorem Spec.Offers.unasked {cap : Nat} {o o' : Outbox} {p : Raw} (h : Offers cap o p o') : Unasked false cap p := by
  have key : ∀ {p : Raw} {m : Publish}, p.Valid → p.bytes.length ≤ cap → parsePublish p.first.toNat p.body = some m → Unasked false cap p := by
    intro p m h1 h2 h3
    have := (parsePublish_facts h3).1
    refine ⟨h1, h2, ?_, ?_, ?_, fun h => by cases h⟩ <;> (intro hf; rw [hf] at this; revert this; decide)
  cases h with
  | offer h1 h2 h3 => exact key h1 h2 h3
  | offerAgain h1 h2 h3 => exact key h1 h2 h3
  | releaseAgain h1 _ => exact rel_unasked h1 _

theorem Spec.Settles.unasked {cap : Nat} (hcap : 4 ≤ cap) {o o' : Outbox} {t : Nat} {j : UInt16} {outs : List Raw} (h : Settles o t j o' outs) :
    ∀ p ∈ outs, Unasked false cap p := by
  cases h with
  | pubrec => intro p hp; rw [List.mem_singleton.mp hp]; exact rel_unasked hcap j
  | _ => simp

theorem Spec.Settles.type {o o' : Outbox} {t : Nat} {j : UInt16} {outs : List Raw} (h : Settles o t j o' outs) : t = 0x40 ∨ t = 0x50 ∨ t = 0x70 := by
  cases h with
  | puback => exact Or.inl rfl
  | pubrec => exact Or.inr (Or.inl rfl)
  | pubcomp => exact Or.inr (Or.inr rfl)
  | stray h => exact h

/-! ### One packet id -/

/-- The packet kept for the retransmission of message `m` with packet id `j`. -/
def Copy (j : UInt16) (m : Publish) (x : List UInt8) : Prop :=
  ∃ u : Raw, u.bytes = x ∧ Small u ∧ ∀ i, upNote i u = if i = j then some (.pub m) else none

/-- The exchange about packet id `i`: `P` was published, the server took over `L`, `k` of the messages are acknowledged, `c` completed.  `kept` is what the
application keeps for retransmission.  The other arguments: the state of the client, what is under way in both directions, and whether the server holds
the id.  The numbers matter only if `q`: the server has not lost the session. -/
inductive Tie (i : UInt16) (q : Prop) (P L : List Publish) (k c : Nat) (kept : Option (List UInt8)) :
    Option OutPhase → List UpNote → List DownNote → Bool → Prop
  | idle : kept = none → (q → Arrived P L ∧ k ≤ P.length ∧ c ≤ k) → Tie i q P L k c kept none [] [] false
  | one {ph : OutPhase} {m : Publish} {U : List UpNote} {D : List DownNote} : ph = .toSend1 ∨ ph = .awaitPuback → m.qos = 1 →
      (∀ x, kept = some x → Copy i m x) →
      (q → ∃ P', P = P' ++ [m] ∧ k ≤ P'.length ∧ c ≤ k ∧ (Arrived P L ∨ D = [] ∧ Arrived P' L)) →
      U = [] ∧ D = [] ∨ U = [.pub m] ∧ D = [] ∨ U = [] ∧ D = [.puback] → Tie i q P L k c kept (some ph) U D false
  | two {ph : OutPhase} {m : Publish} {U : List UpNote} {D : List DownNote} {held : Bool} : ph = .toSend2 ∨ ph = .awaitPubrec → m.qos = 2 →
      (∀ x, kept = some x → Copy i m x) →
      (q → ∃ P', P = P' ++ [m] ∧ k ≤ P'.length ∧ c ≤ k ∧ (held = true ∧ Arrived P L ∨ held = false ∧ Arrived P' L)) →
      U = [] ∧ D = [] ∨ U = [.pub m] ∧ D = [] ∨ U = [] ∧ D = [.pubrec] ∧ held = true → Tie i q P L k c kept (some ph) U D held
  | rel {held : Bool} : kept = none → (q → Arrived P L ∧ k ≤ P.length ∧ c + 1 ≤ k) → Tie i q P L k c kept (some .sendPubrel) [] [] held
  | comp {U : List UpNote} {D : List DownNote} {held : Bool} : kept = none → (q → Arrived P L ∧ k ≤ P.length ∧ c + 1 ≤ k) →
      U = [] ∧ D = [] ∨ U = [.rel] ∧ D = [] ∨ U = [] ∧ D = [.pubcomp] ∧ held = false → Tie i q P L k c kept (some .awaitPubcomp) U D held

section
variable {i : UInt16} {q q' : Prop} {P L : List Publish} {k c : Nat} {kept : Option (List UInt8)} {ph : Option OutPhase} {U : List UpNote}
  {D : List DownNote} {held : Bool} {m : Publish}

theorem Tie.weaken (h : Tie i q P L k c kept ph U D held) (hq : q' → q) : Tie i q' P L k c kept ph U D held := by
  cases h with
  | idle h1 h2 => exact .idle h1 (fun h => h2 (hq h))
  | one h1 h2 h3 h4 h5 => exact .one h1 h2 h3 (fun h => h4 (hq h)) h5
  | two h1 h2 h3 h4 h5 => exact .two h1 h2 h3 (fun h => h4 (hq h)) h5
  | rel h1 h2 => exact .rel h1 (fun h => h2 (hq h))
  | comp h1 h2 h3 => exact .comp h1 (fun h => h2 (hq h)) h3

/-- The server takes over a QoS 1 message. -/
theorem Tie.gotQos1 (h : Tie i q P L k c kept ph (.pub m :: U) D held) (hm : m.qos = 1) :
    Tie i q P (L ++ [m]) k c kept ph U (D ++ [.puback]) held := by
  generalize hU : UpNote.pub m :: U = V at h
  cases h with
  | idle => cases hU
  | rel => cases hU
  | comp h1 h2 h3 =>
    rcases h3 with ⟨rfl, _⟩ | ⟨rfl, _⟩ | ⟨rfl, _⟩ <;> cases hU
  | two h1 h2 h3 h4 h5 =>
    rcases h5 with ⟨rfl, _⟩ | ⟨rfl, _⟩ | ⟨rfl, _⟩
    · cases hU
    · cases hU
      rw [hm] at h2
      exact absurd h2 (by decide)
    · cases hU
  | one h1 h2 h3 h4 h5 =>
    rcases h5 with ⟨rfl, _⟩ | ⟨rfl, rfl⟩ | ⟨rfl, _⟩
    · cases hU
    · cases hU
      refine .one h1 h2 h3 (fun hq => ?_) (Or.inr (Or.inr ⟨rfl, rfl⟩))
      obtain ⟨P', rfl, e2, e3, e4⟩ := h4 hq
      refine ⟨P', rfl, e2, e3, Or.inl ?_⟩
      rcases e4 with e4 | ⟨_, e4⟩
      · exact .repeated e4 h2
      · exact .next m e4
    · cases hU

/-- The server takes over a QoS 2 message. -/
theorem Tie.gotQos2 (h : Tie i q P L k c kept ph (.pub m :: U) D false) (hm : m.qos = 2) :
    Tie i q P (L ++ [m]) k c kept ph U (D ++ [.pubrec]) true := by
  generalize hU : UpNote.pub m :: U = V at h
  generalize hh : false = hd at h
  cases h with
  | idle => cases hU
  | rel => cases hU
  | comp h1 h2 h3 =>
    rcases h3 with ⟨rfl, _⟩ | ⟨rfl, _⟩ | ⟨rfl, _⟩ <;> cases hU
  | one h1 h2 h3 h4 h5 =>
    rcases h5 with ⟨rfl, _⟩ | ⟨rfl, _⟩ | ⟨rfl, _⟩
    · cases hU
    · cases hU
      rw [hm] at h2
      exact absurd h2 (by decide)
    · cases hU
  | two h1 h2 h3 h4 h5 =>
    subst hh
    rcases h5 with ⟨rfl, _⟩ | ⟨rfl, rfl⟩ | ⟨rfl, _⟩
    · cases hU
    · cases hU
      refine .two h1 h2 h3 (fun hq => ?_) (Or.inr (Or.inr ⟨rfl, rfl, rfl⟩))
      obtain ⟨P', rfl, e2, e3, e4⟩ := h4 hq
      refine ⟨P', rfl, e2, e3, Or.inl ⟨rfl, ?_⟩⟩
      rcases e4 with ⟨e4, _⟩ | ⟨_, e4⟩
      · cases e4
      · exact .next m e4
    · cases hU

/-- The server gets a QoS 2 message again. -/
theorem Tie.gotAgain (h : Tie i q P L k c kept ph (.pub m :: U) D true) :
    Tie i q P L k c kept ph U (D ++ [.pubrec]) true := by
  generalize hU : UpNote.pub m :: U = V at h
  generalize hh : true = hd at h
  cases h with
  | idle => cases hU
  | rel => cases hU
  | comp h1 h2 h3 =>
    rcases h3 with ⟨rfl, _⟩ | ⟨rfl, _⟩ | ⟨rfl, _⟩ <;> cases hU
  | one => cases hh
  | two h1 h2 h3 h4 h5 =>
    subst hh
    rcases h5 with ⟨rfl, _⟩ | ⟨rfl, rfl⟩ | ⟨rfl, _⟩
    · cases hU
    · cases hU
      exact .two h1 h2 h3 h4 (Or.inr (Or.inr ⟨rfl, rfl, rfl⟩))
    · cases hU

/-- The server gets a PUBREL. -/
theorem Tie.gotRel (h : Tie i q P L k c kept ph (.rel :: U) D held) : Tie i q P L k c kept ph U (D ++ [.pubcomp]) false := by
  generalize hU : UpNote.rel :: U = V at h
  cases h with
  | idle => cases hU
  | rel => cases hU
  | one h1 h2 h3 h4 h5 => rcases h5 with ⟨rfl, _⟩ | ⟨rfl, _⟩ | ⟨rfl, _⟩ <;> cases hU
  | two h1 h2 h3 h4 h5 => rcases h5 with ⟨rfl, _⟩ | ⟨rfl, _⟩ | ⟨rfl, _⟩ <;> cases hU
  | comp h1 h2 h3 =>
    rcases h3 with ⟨rfl, _⟩ | ⟨rfl, rfl⟩ | ⟨rfl, _⟩
    · cases hU
    · cases hU
      exact .comp h1 h2 (Or.inr (Or.inr ⟨rfl, rfl, rfl⟩))
    · cases hU

/-- The server begins a new session. -/
theorem Tie.begun (h : Tie i q P L k c kept ph [] [] held) (hq : ¬ q') : Tie i q' P L k c kept ph [] [] false := by
  cases h with
  | idle h1 h2 => exact .idle h1 (fun h => absurd h hq)
  | one h1 h2 h3 h4 h5 => exact .one h1 h2 h3 (fun h => absurd h hq) h5
  | two h1 h2 h3 h4 h5 => exact .two h1 h2 h3 (fun h => absurd h hq) (Or.inl ⟨rfl, rfl⟩)
  | rel h1 h2 => exact .rel h1 (fun h => absurd h hq)
  | comp h1 h2 h3 => exact .comp h1 (fun h => absurd h hq) (Or.inl ⟨rfl, rfl⟩)

/-- What was under way is lost. -/
theorem Tie.dropped (h : Tie i q P L k c kept ph U D held) : Tie i q P L k c kept ph [] [] held := by
  cases h with
  | idle h1 h2 => exact .idle h1 h2
  | one h1 h2 h3 h4 h5 =>
    refine .one h1 h2 h3 (fun hq => ?_) (Or.inl ⟨rfl, rfl⟩)
    obtain ⟨P', e1, e2, e3, e4⟩ := h4 hq
    exact ⟨P', e1, e2, e3, e4.imp id (fun e => ⟨rfl, e.2⟩)⟩
  | two h1 h2 h3 h4 h5 => exact .two h1 h2 h3 h4 (Or.inl ⟨rfl, rfl⟩)
  | rel h1 h2 => exact .rel h1 h2
  | comp h1 h2 h3 => exact .comp h1 h2 (Or.inl ⟨rfl, rfl⟩)

end

/-! ### The connection -/

/-- What is under way between client and server: the packets `us` and then the bytes `part` to the server, the packets `ds` to the client, of which it has
got `buf`. -/
structure Ties (i : UInt16) (cap : Nat) (b : Bool) (n0 : Nat) (t0 : List Publish) (P : List Publish) (k c : Nat) (kept : Option (List UInt8))
    (ph : Option OutPhase) (n : Net) (buf : List UInt8) (us : List Raw) (part : List UInt8) (ds : List Raw) : Prop where
  up : n.up = us.flatMap Raw.bytes ++ part
  stuck : readPacket part = none
  small : ∀ u ∈ us, Small u
  valid : ∀ d ∈ ds, d.Valid ∧ d.bytes.length ≤ cap
  down : buf ++ n.down = ds.flatMap Raw.bytes
  fresh : n.greeted = false → us.filterMap (upNote i) = [] ∧ ds.filterMap (downNote i) = []
  floor : n0 ≤ n.server.sessions
  tie : ∃ new, n.server.taken = t0 ++ new ∧ Tie i (b = true ∧ n.server.sessions = n0) P (takenOver i new) k c kept ph (us.filterMap (upNote i))
    (ds.filterMap (downNote i)) (decide (i.toNat ∈ n.server.held))

theorem takenOver_append (i : UInt16) (a : List Publish) (m : Publish) :
    takenOver i (a ++ [m]) = takenOver i a ++ (if m.id = i.toNat ∧ m.qos ≠ 0 then [m.message] else []) := by
  unfold takenOver
  rw [List.filter_append, List.map_append]
  congr 1
  by_cases h : m.id = i.toNat ∧ m.qos ≠ 0
  · rw [if_pos h]; simp [h]
  · rw [if_neg h]
    have : ([m].filter fun m => decide (m.id = i.toNat ∧ m.qos ≠ 0)) = [] := by simp [h]
    rw [this]; rfl

theorem flatMap_snoc (ds : List Raw) (d : Raw) : (ds ++ [d]).flatMap Raw.bytes = ds.flatMap Raw.bytes ++ d.bytes := by simp

theorem notes_snoc (i : UInt16) (ds : List Raw) (d : Raw) :
    (ds ++ [d]).filterMap (downNote i) = ds.filterMap (downNote i) ++ (downNote i d).toList := by
  rw [List.filterMap_append]
  cases h : downNote i d <;> simp [h]

theorem upNote_publish {i : UInt16} {u : Raw} {m : Publish} (h : parsePublish u.first.toNat u.body = some m) :
    upNote i u = if m.id = i.toNat ∧ m.qos ≠ 0 then some (.pub m.message) else none := by
  unfold upNote
  rw [if_neg, h]
  intro hf
  have := (parsePublish_facts h).1
  rw [hf] at this
  exact absurd this (by decide)

theorem upNote_rel {i : UInt16} {u : Raw} {id : Nat} (hf : u.first = 0x62) (h : read16 u.body = some (id, [])) :
    upNote i u = if id = i.toNat then some .rel else none := by
  unfold upNote
  rw [if_pos hf, h]
  by_cases hi : id = i.toNat
  · rw [if_pos hi, if_pos (by rw [hi])]
  · rw [if_neg hi, if_neg (by simpa using hi)]

theorem upNote_other {i : UInt16} {u : Raw} (h1 : u.first.toNat / 16 ≠ 3) (h2 : u.first.toNat ≠ 0x62) : upNote i u = none := by
  unfold upNote
  rw [if_neg (fun h => h2 (by rw [h]; rfl))]
  have : parsePublish u.first.toNat u.body = none := by
    cases h : parsePublish u.first.toNat u.body with
    | none => rfl
    | some m => exact absurd (parsePublish_facts h).1 h1
  rw [this]

theorem Publish.message_qos (m : Publish) : m.message.qos = m.qos := rfl

theorem connack_bytes (a b : UInt8) : Raw.bytes ⟨0x20, [a, b]⟩ = packet 0x20 [a, b] := rfl
theorem connack_valid (a b : UInt8) : Raw.Valid ⟨0x20, [a, b]⟩ := by
  refine ⟨?_, by simp [maxRemaining]⟩
  show ServerFirstByte (0x20 : UInt8).toNat
  unfold ServerFirstByte
  decide
theorem connack_length (a b : UInt8) : (Raw.bytes ⟨0x20, [a, b]⟩).length = 4 := by
  rw [Raw.bytes_eq]
  have : varInt 2 = [2] := varInt_two
  simp [this]
theorem connack_note (i : UInt16) (a b : UInt8) : downNote i ⟨0x20, [a, b]⟩ = none := by
  unfold downNote
  rw [if_neg (show (0x20 : UInt8) ≠ 0x40 by decide), if_neg (show (0x20 : UInt8) ≠ 0x50 by decide), if_neg (show (0x20 : UInt8) ≠ 0x70 by decide)]
  split <;> rfl

/-- The server keeps the agreement. -/
theorem Ties.serve {i : UInt16} {cap : Nat} {b : Bool} {n0 : Nat} {t0 P : List Publish} {k c : Nat} {kept : Option (List UInt8)}
    {ph : Option OutPhase} {n n' : Net} {buf : List UInt8} {us : List Raw} {part : List UInt8} {ds : List Raw}
    (h : Ties i cap b n0 t0 P k c kept ph n buf us part ds) (hs : Serves strict cap n n') (hcap : 4 ≤ cap) (hi : i ≠ 0) :
    ∃ us' ds', Ties i cap b n0 t0 P k c kept ph n' buf us' part ds' ∧ (n.greeted = true → n'.greeted = true) := by
  obtain ⟨h1, h2, h3, h4, h5, h6, h7, new, h8, h9⟩ := h
  have head : ∀ {t : Nat} {body rest : List UInt8}, readPacket n.up = some (t, body, rest) →
      ∃ u us', us = u :: us' ∧ t = u.first.toNat ∧ body = u.body ∧ rest = us'.flatMap Raw.bytes ++ part := by
    intro t body rest hr
    rw [h1] at hr
    exact readPacket_stream h3 h2 hr
  have hval : ∀ (d : Raw), d.Valid → d.bytes.length ≤ cap → ∀ x ∈ ds ++ [d], x.Valid ∧ x.bytes.length ≤ cap := by
    intro d hd hl x hx
    rcases List.mem_append.mp hx with hx | hx
    · exact h4 x hx
    · rw [List.mem_singleton.mp hx]; exact ⟨hd, hl⟩
  have hdown : ∀ (d : Raw), buf ++ (n.down ++ d.bytes) = (ds ++ [d]).flatMap Raw.bytes := by
    intro d
    rw [← List.append_assoc, h5, flatMap_snoc]
  cases hs with
  | @refuse body rest code e1 e2 e3 =>
    obtain ⟨u, us', rfl, f1, rfl, rfl⟩ := head e2
    have hn : upNote i u = none := upNote_other (by rw [← f1]; decide) (by rw [← f1]; decide)
    have hu : (u :: us').filterMap (upNote i) = us'.filterMap (upNote i) := by rw [List.filterMap_cons, hn]
    have hd := hdown ⟨0x20, [0, code]⟩
    rw [connack_bytes] at hd
    refine ⟨us', ds ++ [⟨0x20, [0, code]⟩], ⟨rfl, h2, fun u hu => h3 u (List.mem_cons_of_mem _ hu), hval ⟨0x20, [0, code]⟩ (connack_valid _ _) (by rw [connack_length]; exact hcap),
      hd, ?_, h7, new, h8, ?_⟩, id⟩
    · intro hg
      rw [notes_snoc, connack_note, ← hu]
      simpa using h6 e1
    · rw [notes_snoc, connack_note, ← hu]
      simpa using h9
  | @begin body rest cc e1 e2 e3 =>
    obtain ⟨u, us', rfl, f1, rfl, rfl⟩ := head e2
    have hn : upNote i u = none := upNote_other (by rw [← f1]; decide) (by rw [← f1]; decide)
    have hu : (u :: us').filterMap (upNote i) = us'.filterMap (upNote i) := by rw [List.filterMap_cons, hn]
    have hd := hdown ⟨0x20, [0, 0]⟩
    rw [connack_bytes] at hd
    refine ⟨us', ds ++ [⟨0x20, [0, 0]⟩], ⟨rfl, h2, fun u hu => h3 u (List.mem_cons_of_mem _ hu), hval ⟨0x20, [0, 0]⟩ (connack_valid _ _) (by rw [connack_length]; exact hcap),
      hd, fun hg => (by cases hg), Nat.le_succ_of_le h7, new, h8, ?_⟩, fun _ => rfl⟩
    rw [notes_snoc, connack_note, ← hu, (h6 e1).1, (h6 e1).2]
    rw [(h6 e1).1, (h6 e1).2] at h9
    refine h9.begun ?_
    rintro ⟨_, hq⟩
    simp only at hq
    omega
  | @resume body rest cc e1 e2 e3 e4 e5 =>
    obtain ⟨u, us', rfl, f1, rfl, rfl⟩ := head e2
    have hn : upNote i u = none := upNote_other (by rw [← f1]; decide) (by rw [← f1]; decide)
    have hu : (u :: us').filterMap (upNote i) = us'.filterMap (upNote i) := by rw [List.filterMap_cons, hn]
    have hd := hdown ⟨0x20, [1, 0]⟩
    rw [connack_bytes] at hd
    refine ⟨us', ds ++ [⟨0x20, [1, 0]⟩], ⟨rfl, h2, fun u hu => h3 u (List.mem_cons_of_mem _ hu), hval ⟨0x20, [1, 0]⟩ (connack_valid _ _) (by rw [connack_length]; exact hcap),
      hd, fun hg => (by cases hg), h7, new, h8, ?_⟩, fun _ => rfl⟩
    rw [notes_snoc, connack_note, ← hu]
    simpa using h9
  | @qos0 t body rest m e1 e2 e3 e4 =>
    obtain ⟨u, us', rfl, rfl, rfl, rfl⟩ := head e2
    have hn : upNote i u = none := by rw [upNote_publish e3, if_neg (by simp [e4])]
    have hu : (u :: us').filterMap (upNote i) = us'.filterMap (upNote i) := by rw [List.filterMap_cons, hn]
    refine ⟨us', ds, ⟨rfl, h2, fun u hu => h3 u (List.mem_cons_of_mem _ hu), h4, h5, fun hg => by rw [← hu]; exact h6 hg, h7, new ++ [m], ?_, ?_⟩, id⟩
    · simp only; rw [h8, List.append_assoc]
    · rw [← hu, takenOver_append, if_neg (by simp [e4]), List.append_nil]
      exact h9
  | @qos1 t body rest m e1 e2 e3 e4 =>
    obtain ⟨u, us', rfl, rfl, rfl, rfl⟩ := head e2
    have hm := parsePublish_facts e3
    have hq0 : m.qos ≠ 0 := by rw [e4]; decide
    refine ⟨us', ds ++ [ackRaw 0x40 m.id], ⟨rfl, h2, fun u hu => h3 u (List.mem_cons_of_mem _ hu),
      hval _ (ackRaw_valid (Or.inl rfl) _) (by rw [ackRaw_length]; exact hcap), hdown (ackRaw 0x40 m.id), fun hg => (by simp only at hg; rw [e1] at hg; cases hg), h7, new ++ [m], ?_, ?_⟩, id⟩
    · simp only; rw [h8, List.append_assoc]
    · rw [List.filterMap_cons, upNote_publish e3] at h9
      rw [notes_snoc, ackRaw_note hm.2.1 hi, takenOver_append]
      by_cases hid : m.id = i.toNat
      · rw [if_pos ⟨hid, hq0⟩] at h9 ⊢
        rw [if_pos hid]
        exact h9.gotQos1 e4
      · have : ¬ (m.id = i.toNat ∧ m.qos ≠ 0) := fun h => hid h.1
        rw [if_neg this] at h9 ⊢
        rw [if_neg hid]
        simpa using h9
  | @qos2 t body rest m e1 e2 e3 e4 e5 =>
    obtain ⟨u, us', rfl, rfl, rfl, rfl⟩ := head e2
    have hm := parsePublish_facts e3
    have hq0 : m.qos ≠ 0 := by rw [e4]; decide
    refine ⟨us', ds ++ [ackRaw 0x50 m.id], ⟨rfl, h2, fun u hu => h3 u (List.mem_cons_of_mem _ hu),
      hval _ (ackRaw_valid (Or.inr (Or.inl rfl)) _) (by rw [ackRaw_length]; exact hcap), hdown (ackRaw 0x50 m.id), fun hg => (by simp only at hg; rw [e1] at hg; cases hg), h7, new ++ [m], ?_, ?_⟩, id⟩
    · simp only; rw [h8, List.append_assoc]
    · rw [List.filterMap_cons, upNote_publish e3] at h9
      rw [notes_snoc, ackRaw_note hm.2.1 hi, takenOver_append]
      by_cases hid : m.id = i.toNat
      · rw [if_pos ⟨hid, hq0⟩] at h9 ⊢
        rw [if_pos hid]
        have hh : decide (i.toNat ∈ n.server.held) = false := by rw [← hid]; simpa using e5
        rw [hh] at h9
        have hh' : decide (i.toNat ∈ m.id :: n.server.held) = true := by simp [hid]
        rw [hh']
        exact h9.gotQos2 e4
      · have : ¬ (m.id = i.toNat ∧ m.qos ≠ 0) := fun h => hid h.1
        rw [if_neg this] at h9 ⊢
        rw [if_neg hid]
        have hh' : decide (i.toNat ∈ m.id :: n.server.held) = decide (i.toNat ∈ n.server.held) := by simp [Ne.symm hid]
        rw [hh']
        simpa using h9
  | @again t body rest m e1 e2 e3 e4 e5 =>
    obtain ⟨u, us', rfl, rfl, rfl, rfl⟩ := head e2
    have hm := parsePublish_facts e3
    have hq0 : m.qos ≠ 0 := by rw [e4]; decide
    refine ⟨us', ds ++ [ackRaw 0x50 m.id], ⟨rfl, h2, fun u hu => h3 u (List.mem_cons_of_mem _ hu),
      hval _ (ackRaw_valid (Or.inr (Or.inl rfl)) _) (by rw [ackRaw_length]; exact hcap), hdown (ackRaw 0x50 m.id), fun hg => (by simp only at hg; rw [e1] at hg; cases hg), h7, new, h8, ?_⟩, id⟩
    rw [List.filterMap_cons, upNote_publish e3] at h9
    rw [notes_snoc, ackRaw_note hm.2.1 hi]
    by_cases hid : m.id = i.toNat
    · rw [if_pos ⟨hid, hq0⟩] at h9
      rw [if_pos hid]
      have hh : decide (i.toNat ∈ n.server.held) = true := by rw [← hid]; simpa using e5
      rw [hh] at h9
      simp only [hh]
      exact h9.gotAgain
    · have : ¬ (m.id = i.toNat ∧ m.qos ≠ 0) := fun h => hid h.1
      rw [if_neg this] at h9
      rw [if_neg hid]
      simpa using h9
  | @release body rest id e1 e2 e3 =>
    obtain ⟨u, us', rfl, f1, rfl, rfl⟩ := head e2
    have hf : u.first = 0x62 := by rw [← UInt8.toNat_inj, ← f1]; rfl
    refine ⟨us', ds ++ [ackRaw 0x70 id], ⟨rfl, h2, fun u hu => h3 u (List.mem_cons_of_mem _ hu),
      hval _ (ackRaw_valid (Or.inr (Or.inr rfl)) _) (by rw [ackRaw_length]; exact hcap), hdown (ackRaw 0x70 id), fun hg => (by simp only at hg; rw [e1] at hg; cases hg), h7, new, h8, ?_⟩, fun h => h⟩
    rw [List.filterMap_cons, upNote_rel hf e3] at h9
    rw [notes_snoc, ackRaw_note (read16_lt e3) hi]
    by_cases hid : id = i.toNat
    · rw [if_pos hid] at h9 ⊢
      have hh : decide (i.toNat ∈ n.server.held.filter fun x => x ≠ id) = false := by simp [hid]
      simp only [hh]
      exact h9.gotRel
    · rw [if_neg hid] at h9 ⊢
      have hh : decide (i.toNat ∈ n.server.held.filter fun x => x ≠ id) = decide (i.toNat ∈ n.server.held) := by simp [Ne.symm hid]
      simp only [hh]
      simpa using h9
  | @other t body rest outs e1 e2 e3 e4 e0 e5 =>
    obtain ⟨u, us', rfl, rfl, rfl, rfl⟩ := head e2
    have hn : upNote i u = none := upNote_other e3 e4
    have hu : (u :: us').filterMap (upNote i) = us'.filterMap (upNote i) := by rw [List.filterMap_cons, hn]
    have ho : outs.filterMap (downNote i) = [] := by
      rw [List.filterMap_eq_nil_iff]
      exact fun p hp => Unasked.note (e5 p hp) i
    refine ⟨us', ds ++ outs, ⟨rfl, h2, fun u hu => h3 u (List.mem_cons_of_mem _ hu), ?_, ?_, fun hg => (by simp only at hg; rw [e1] at hg; cases hg), h7, new, h8, ?_⟩, id⟩
    · intro x hx
      rcases List.mem_append.mp hx with hx | hx
      · exact h4 x hx
      · exact ⟨(e5 x hx).1, (e5 x hx).2.1⟩
    · simp only
      rw [← List.append_assoc, h5, List.flatMap_append]
    · rw [List.filterMap_append, ho, List.append_nil, ← hu]
      exact h9
  | @settle t body rest j out outs e1 e2 e3 e4 =>
    have e5 := e4.unasked hcap
    obtain ⟨u, us', rfl, rfl, rfl, rfl⟩ := head e2
    have hn : upNote i u = none := upNote_other (by rcases e4.type with h | h | h <;> rw [h] <;> decide) (by rcases e4.type with h | h | h <;> rw [h] <;> decide)
    have hu : (u :: us').filterMap (upNote i) = us'.filterMap (upNote i) := by rw [List.filterMap_cons, hn]
    have ho : outs.filterMap (downNote i) = [] := by
      rw [List.filterMap_eq_nil_iff]
      exact fun p hp => Unasked.note (e5 p hp) i
    refine ⟨us', ds ++ outs, ⟨rfl, h2, fun u hu => h3 u (List.mem_cons_of_mem _ hu), ?_, ?_, fun hg => (by simp only at hg; rw [e1] at hg; cases hg), h7, new, h8, ?_⟩, id⟩
    · intro x hx
      rcases List.mem_append.mp hx with hx | hx
      · exact h4 x hx
      · exact ⟨(e5 x hx).1, (e5 x hx).2.1⟩
    · simp only
      rw [← List.append_assoc, h5, List.flatMap_append]
    · rw [List.filterMap_append, ho, List.append_nil, ← hu]
      exact h9
  | @offer p out e1 e3 =>
    have e2 := e3.unasked
    refine ⟨us, ds ++ [p], ⟨h1, h2, h3, hval _ e2.1 e2.2.1, hdown _, fun hg => (by simp only at hg; rw [e1] at hg; cases hg), h7, new, h8, ?_⟩, id⟩
    rw [notes_snoc, Unasked.note e2 i]
    simpa using h9
  | @unasked p e1 e2 =>
    refine ⟨us, ds ++ [p], ⟨h1, h2, h3, hval _ e2.1 e2.2.1, hdown _, fun hg => (by simp only at hg; rw [e1] at hg; cases hg), h7, new, h8, ?_⟩, id⟩
    rw [notes_snoc, Unasked.note e2 i]
    simpa using h9

theorem Ties.served {i : UInt16} {cap : Nat} {b : Bool} {n0 : Nat} {t0 P : List Publish} {k c : Nat} {kept : Option (List UInt8)}
    {ph : Option OutPhase} {n n' : Net} {buf : List UInt8} {us : List Raw} {part : List UInt8} {ds : List Raw}
    (h : Ties i cap b n0 t0 P k c kept ph n buf us part ds) (hs : Served strict cap n n') (hcap : 4 ≤ cap) (hi : i ≠ 0) :
    ∃ us' ds', Ties i cap b n0 t0 P k c kept ph n' buf us' part ds' ∧ (n.greeted = true → n'.greeted = true) := by
  induction hs generalizing us ds with
  | refl n => exact ⟨us, ds, h, id⟩
  | step h1 _ ih =>
    obtain ⟨us1, ds1, h2, h3⟩ := h.serve h1 hcap hi
    obtain ⟨us2, ds2, h4, h5⟩ := ih h2
    exact ⟨us2, ds2, h4, fun hg => h5 (h3 hg)⟩

end Mqtt
