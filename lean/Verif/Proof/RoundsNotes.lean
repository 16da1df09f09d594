/-
Rounds: which packets call forth which.
-/
import Verif.Proof.RoundsCall
import Verif.Proof.PacketsLive

namespace Mqtt
open Spec
set_option linter.unusedSimpArgs false

variable {strict retx : Bool} {cap : Nat}

/-! ### The client -/

/-- PUBREL answers PUBREC, PUBCOMP answers PUBREL, PUBACK and PUBREC answer messages. -/
theorem react_answered {s : InFlight} {manage : Bool} {d : Raw} {ty : AckType} {id : UInt16} (h : (react retx manage s d.first d.body).ack = some (ty, id)) :
    (ty = .pubrel ∧ d.first = 0x50 ∧ idOnly d.body = some id) ∨ (ty = .pubcomp ∧ d.first = 0x62 ∧ idOnly d.body = some id) ∨
    ((ty = .puback ∨ ty = .pubrec) ∧ ∃ m, parsePublish d.first.toNat d.body = some m ∧ m.id = id.toNat ∧ m.qos ≠ 0) := by
  unfold react at h
  unfold readIncoming at h
  by_cases h3 : d.first.toNat / 16 = 3
  · right; right
    rw [if_pos h3] at h
    cases hp : parsePublish d.first.toNat d.body with
    | none => rw [hp] at h; cases h
    | some m =>
      rw [hp] at h
      simp only at h
      by_cases hl : d.body.length < (if m.qos.val = 0 then 3 else 5)
      · rw [if_pos hl] at h; cases h
      · rw [if_neg hl] at h
        simp only [reactPublish] at h
        have hid : UInt16.toNat (UInt16.ofNat m.id) = m.id := UInt16.toNat_ofNat_of_lt' (parsePublish_facts hp).2.1
        have good : publishAck (qosName m.qos) (UInt16.ofNat m.id) = some (ty, id) → (ty = .puback ∨ ty = .pubrec) ∧ ∃ m', some m = some m' ∧ m'.id = id.toNat ∧ m'.qos ≠ 0 := by
          intro h
          cases hq : qosName m.qos with
          | qos0 => rw [hq] at h; cases h
          | qos1 => rw [hq] at h; cases h; exact ⟨Or.inl rfl, m, rfl, hid.symm, qosName_ne.mp (by rw [hq]; simp)⟩
          | qos2 => rw [hq] at h; cases h; exact ⟨Or.inr rfl, m, rfl, hid.symm, qosName_ne.mp (by rw [hq]; simp)⟩
        split at h
        · cases h
        · split at h
          · exact good h
          · split at h
            · exact good h
            · cases h
  rw [if_neg h3] at h
  have ack : ∀ t j, (reactAck retx s d.first d.body t j).ack = some (ty, id) → j = id ∧ (t = .pubrec ∧ ty = .pubrel ∨ t = .pubrel ∧ ty = .pubcomp) := by
    intro t j h
    unfold reactAck at h
    simp only at h
    split at h
    · cases t <;> first | (cases h; done) | (cases h; simp)
    · cases h
  by_cases h4 : d.first = 0x40
  · rw [if_pos h4] at h
    cases hb : idOnly d.body with
    | none => rw [hb] at h; cases h
    | some j => rw [hb] at h; obtain ⟨_, h | h⟩ := ack _ _ h <;> cases h.1
  rw [if_neg h4] at h
  by_cases h5 : d.first = 0x50
  · rw [if_pos h5] at h
    cases hb : idOnly d.body with
    | none => rw [hb] at h; cases h
    | some j =>
      rw [hb] at h
      obtain ⟨rfl, h | h⟩ := ack _ _ h
      · exact Or.inl ⟨h.2, h5, rfl⟩
      · cases h.1
  rw [if_neg h5] at h
  by_cases h6 : d.first = 0x62
  · rw [if_pos h6] at h
    cases hb : idOnly d.body with
    | none => rw [hb] at h; cases h
    | some j =>
      rw [hb] at h
      obtain ⟨rfl, h | h⟩ := ack _ _ h
      · cases h.1
      · exact Or.inr (Or.inl ⟨h.2, h6, rfl⟩)
  rw [if_neg h6] at h
  exfalso
  by_cases h7 : d.first = 0x70
  · rw [if_pos h7] at h
    cases hb : idOnly d.body with
    | none => rw [hb] at h; cases h
    | some j => rw [hb] at h; obtain ⟨_, h | h⟩ := ack _ _ h <;> cases h.1
  rw [if_neg h7] at h
  by_cases h9 : d.first = 0x90
  · rw [if_pos h9] at h
    cases hs : subackBody d.body with
    | none => rw [hs] at h; cases h
    | some p => rw [hs] at h; cases h
  rw [if_neg h9] at h
  by_cases hB : d.first = 0xB0
  · rw [if_pos hB] at h
    cases hb : idOnly d.body with
    | none => rw [hb] at h; cases h
    | some j => rw [hb] at h; cases h
  rw [if_neg hB] at h
  by_cases hD : d.first = 0xD0
  · rw [if_pos hD] at h
    by_cases hn : d.body = []
    · rw [if_pos hn] at h; cases h
    · rw [if_neg hn] at h; cases h
  rw [if_neg hD] at h
  cases h

theorem answer_upNote {s : InFlight} {manage : Bool} {d : Raw} {i : UInt16} :
    ∀ v ∈ answers (react retx manage s d.first d.body).ack, upNote i v = none ∨ upNote i v = some .rel ∧ downNote i d = some .pubrec := by
  intro v hv
  cases ha : (react retx manage s d.first d.body).ack with
  | none => rw [ha] at hv; cases hv
  | some x =>
    obtain ⟨ty, id⟩ := x
    rw [ha] at hv
    rw [List.mem_singleton.mp (show v ∈ [answerOf ty id] from hv), show upNote i (answerOf ty id) = _ from ackWire_note ty id i]
    by_cases hc : ty = .pubrel ∧ id = i
    · rw [if_pos hc]
      obtain ⟨rfl, rfl⟩ := hc
      right
      refine ⟨rfl, ?_⟩
      rcases react_answered ha with ⟨_, h1, h2⟩ | ⟨h, _⟩ | ⟨h, _⟩
      · unfold downNote
        rw [if_pos h2, h1]; rfl
      · cases h
      · rcases h with h | h <;> cases h
    · rw [if_neg hc]; exact Or.inl rfl

theorem answer_inUp {s : InFlight} {manage : Bool} {d : Raw} {i : UInt16} :
    ∀ v ∈ answers (react retx manage s d.first d.body).ack, inUp i v = none ∨ inUp i v = some .pubcomp ∨ ∃ m, inDown i d = some (.pub m) := by
  intro v hv
  cases ha : (react retx manage s d.first d.body).ack with
  | none => rw [ha] at hv; cases hv
  | some x =>
    obtain ⟨ty, id⟩ := x
    rw [ha] at hv
    rw [List.mem_singleton.mp (show v ∈ [answerOf ty id] from hv), show inUp i (answerOf ty id) = _ from ackRaw_inUp ty id i]
    by_cases hc : id = i
    · rw [if_pos hc]
      subst hc
      rcases react_answered ha with ⟨rfl, _⟩ | ⟨rfl, _⟩ | ⟨_, m, h1, h2, h3⟩
      · exact Or.inl rfl
      · exact Or.inr (Or.inl rfl)
      · right; right
        exact ⟨m.message, by rw [inDown_publish h1, if_pos ⟨h2, h3⟩]⟩
    · rw [if_neg hc]; exact Or.inl rfl

/-! ### The server -/

/-- PUBCOMP answers PUBREL. -/
theorem Reads.downNotes {v v' : Server} {u : Raw} {g' : Bool} {outs : List Raw} (h : Reads strict cap true v u g' v' outs) {i : UInt16} (hi : i ≠ 0)
    (hu : ∀ m, upNote i u ≠ some (.pub m)) : ∀ d ∈ outs, downNote i d = none ∨ downNote i d = some .pubcomp := by
  have other : ∀ {t : UInt8} {m : Publish}, parsePublish u.first.toNat u.body = some m → m.qos ≠ 0 →
      ∀ d ∈ [(⟨t, be16 m.id⟩ : Raw)], downNote i d = none ∨ downNote i d = some .pubcomp := by
    intro t m hp hq d hd
    rw [List.mem_singleton.mp hd]
    left
    have := ackRaw_note (t := t) (parsePublish_facts hp).2.1 hi
    unfold ackRaw at this
    rw [this, if_neg]
    intro hid
    exact hu m.message (by rw [upNote_publish hp, if_pos ⟨hid, hq⟩])
  generalize hg : true = g at h
  cases h with
  | refuse => cases hg
  | begin => cases hg
  | resume => cases hg
  | qos0 => simp
  | qos1 e1 e2 => exact other e1 (by rw [e2]; decide)
  | qos2 e1 e2 => exact other e1 (by rw [e2]; decide)
  | again e1 e2 => exact other e1 (by rw [e2]; decide)
  | release e1 e2 =>
    rename_i id
    intro d hd
    rw [List.mem_singleton.mp hd]
    have := ackRaw_note (t := 0x70) (read16_lt e2) hi
    unfold ackRaw at this
    rw [this]
    by_cases hid : id = i.toNat
    · rw [if_pos hid]; exact Or.inr rfl
    · rw [if_neg hid]; exact Or.inl rfl
  | other _ _ _ e4 => intro d hd; exact Or.inl (Unasked.note (e4 d hd) i)
  | settle e1 e2 =>
    rename_i j out
    intro d hd
    generalize u.first.toNat = t at e2
    cases e2 with
    | puback => cases hd
    | pubrec =>
      rw [List.mem_singleton.mp hd]
      left
      unfold downNote
      split <;> rfl
    | pubcomp => cases hd
    | stray => cases hd

/-- A server that only answers sends no new messages; PUBREL answers PUBREC. -/
theorem Reads.inDowns {v v' : Server} {u : Raw} {g' : Bool} {outs : List Raw} (h : Reads true cap true v u g' v' outs) {i : UInt16} (hi : i ≠ 0) :
    ∀ d ∈ outs, inDown i d = none ∨ inDown i d = some .rel ∧ inUp i u = some .pubrec := by
  have ack : ∀ {t : UInt8} {id : Nat}, (t = 0x40 ∨ t = 0x50 ∨ t = 0x70) → ∀ d ∈ [(⟨t, be16 id⟩ : Raw)], inDown i d = none ∨ inDown i d = some .rel ∧ inUp i u = some .pubrec := by
    intro t id ht d hd
    rw [List.mem_singleton.mp hd]
    exact Or.inl (ackRaw_inDown ht id i)
  generalize hg : true = g at h
  cases h with
  | refuse => cases hg
  | begin => cases hg
  | resume => cases hg
  | qos0 => simp
  | qos1 => exact ack (Or.inl rfl)
  | qos2 => exact ack (Or.inr (Or.inl rfl))
  | again => exact ack (Or.inr (Or.inl rfl))
  | release => exact ack (Or.inr (Or.inr rfl))
  | other _ _ _ e4 => intro d hd; exact Or.inl (Unasked.inDown (e4 d hd) i)
  | settle e1 e2 =>
    rename_i j out
    intro d hd
    generalize ht : u.first.toNat = t at e2
    cases e2 with
    | puback => cases hd
    | pubrec =>
      rw [List.mem_singleton.mp hd, inDown_rel hi]
      by_cases hj : j = i
      · right
        rw [if_pos hj]
        subst hj
        refine ⟨rfl, ?_⟩
        have hf : u.first = 0x50 := UInt8.toNat_inj.mp ht
        unfold inUp
        rw [if_pos e1, hf]; rfl
      · rw [if_neg hj]; exact Or.inl rfl
    | pubcomp => cases hd
    | stray => cases hd

end Mqtt
