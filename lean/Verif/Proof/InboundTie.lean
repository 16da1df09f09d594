/-
What the client, the server and the connection between them know about the messages from the server with one packet id, and how the server changes it.
-/
import Verif.Proof.BrokerConnect

namespace Mqtt
open Spec
set_option linter.unusedSimpArgs false

/-! ### Packets about one packet id -/

inductive InUp where
  | puback
  | pubrec
  | pubcomp

inductive InDown where
  | pub (m : Publish)
  | rel

def inUp (i : UInt16) (u : Raw) : Option InUp :=
  if read16 u.body = some (i.toNat, []) then
    if u.first = 0x40 then some .puback else if u.first = 0x50 then some .pubrec else if u.first = 0x70 then some .pubcomp else none
  else none

def inDown (i : UInt16) (d : Raw) : Option InDown :=
  if d.first = 0x62 then (if idOnly d.body = some i then some .rel else none)
  else match parsePublish d.first.toNat d.body with
    | some m => if m.id = i.toNat ∧ m.qos ≠ 0 then some (.pub m.message) else none
    | none => none

theorem inUp_other {i : UInt16} {u : Raw} (h1 : u.first ≠ 0x40) (h2 : u.first ≠ 0x50) (h3 : u.first ≠ 0x70) : inUp i u = none := by
  unfold inUp
  rw [if_neg h1, if_neg h2, if_neg h3]
  split <;> rfl

theorem inUp_out {i j : UInt16} {u : Raw} (h : upNote j u ≠ none) : inUp i u = none := by
  refine inUp_other ?_ ?_ ?_ <;>
  · intro hf
    refine h (upNote_other ?_ ?_) <;> (rw [hf]; decide)

theorem inUp_publish {i : UInt16} {u : Raw} {m : Publish} (h : parsePublish u.first.toNat u.body = some m) : inUp i u = none := by
  have := (parsePublish_facts h).1
  refine inUp_other ?_ ?_ ?_ <;>
  · intro hf
    rw [hf] at this
    revert this
    decide

theorem inUp_ack {i j : UInt16} {u : Raw} (h : read16 u.body = some (j.toNat, [])) (hj : j ≠ i) : inUp i u = none := by
  unfold inUp
  rw [if_neg]
  rw [h]
  intro h'
  injection h' with h'
  injection h' with h'
  exact hj (UInt16.toNat_inj.mp h')

theorem inDown_publish {i : UInt16} {d : Raw} {m : Publish} (h : parsePublish d.first.toNat d.body = some m) :
    inDown i d = if m.id = i.toNat ∧ m.qos ≠ 0 then some (.pub m.message) else none := by
  unfold inDown
  rw [if_neg, h]
  intro hf
  have := (parsePublish_facts h).1
  rw [hf] at this
  exact absurd this (by decide)

theorem inDown_rel {i j : UInt16} (hi : i ≠ 0) : inDown i ⟨0x62, be16 j.toNat⟩ = if j = i then some .rel else none := by
  unfold inDown
  rw [if_pos rfl]
  by_cases h : j = i
  · rw [if_pos h, if_pos ((idOnly_be16_iff j.toNat_lt hi).mpr (by rw [h]))]
  · rw [if_neg h, if_neg (fun h' => h (UInt16.toNat_inj.mp ((idOnly_be16_iff j.toNat_lt hi).mp h')))]

theorem inDown_other {i : UInt16} {d : Raw} (h1 : d.first.toNat / 16 ≠ 3) (h2 : d.first ≠ 0x62) : inDown i d = none := by
  unfold inDown
  rw [if_neg h2]
  have : parsePublish d.first.toNat d.body = none := by
    cases h : parsePublish d.first.toNat d.body with
    | none => rfl
    | some m => exact absurd (parsePublish_facts h).1 h1
  rw [this]

theorem Unasked.inDown {cap : Nat} {p : Raw} (h : Unasked true cap p) (i : UInt16) : inDown i p = none := by
  obtain ⟨h1, h2⟩ := h.2.2.2.2.2 rfl
  unfold Mqtt.inDown
  rw [if_neg h1]
  cases hp : parsePublish p.first.toNat p.body with
  | none => rfl
  | some m =>
    simp only
    rw [if_neg]
    rintro ⟨_, hq⟩
    exact hq (h2 m hp)

theorem ackRaw_inDown {t : UInt8} (ht : t = 0x40 ∨ t = 0x50 ∨ t = 0x70) (id : Nat) (i : UInt16) : inDown i (ackRaw t id) = none := by
  refine inDown_other ?_ ?_
  · show t.toNat / 16 ≠ 3
    rcases ht with rfl | rfl | rfl <;> decide
  · show t ≠ 0x62
    rcases ht with rfl | rfl | rfl <;> decide

theorem connack_inDown (i : UInt16) (a b : UInt8) : inDown i ⟨0x20, [a, b]⟩ = none :=
  inDown_other (show (0x20 : UInt8).toNat / 16 ≠ 3 by decide) (show (0x20 : UInt8) ≠ 0x62 by decide)

/-! ### One packet id -/

/-- The exchange about packet id `i`: the server has sent the messages `O` for the first time, the application was presented with `R`.  The other arguments: the
server's slot, the state of the client, and what is under way in both directions.  `O` and `R` matter only if `q`: the server has not lost the session. -/
inductive InTie (q : Prop) (O R : List Publish) : Option Slot → Option InPhase → List InUp → List InDown → Prop
  | free {ph : Option InPhase} : (q → ph = none ∧ Arrived O R) → InTie q O R none ph [] []
  | one {m : Publish} {sent : Bool} {ph : Option InPhase} {U : List InUp} {D : List InDown} : m.qos = 1 → (sent = false → U = [] ∧ D = []) →
      U = [] ∧ D = [] ∨ U = [] ∧ D = [.pub m] ∨ U = [.puback] ∧ D = [] →
      (q → ∃ O', O = O' ++ [m] ∧ (ph = none ∧ U = [] ∧ Arrived O' R ∨ ph = none ∧ Arrived O R ∨ ph = some .sendPuback ∧ U = [] ∧ Arrived O R)) →
      InTie q O R (some ⟨m, false, sent⟩) ph U D
  | two {m : Publish} {sent : Bool} {ph : Option InPhase} {U : List InUp} {D : List InDown} : m.qos = 2 → (sent = false → U = [] ∧ D = []) →
      U = [] ∧ D = [] ∨ U = [] ∧ D = [.pub m] ∨ U = [.pubrec] ∧ D = [] →
      (q → ∃ O', O = O' ++ [m] ∧ (ph = none ∧ U = [] ∧ Arrived O' R ∨ ph = some .sendPubrec ∧ U = [] ∧ Arrived O R ∨ ph = some .awaitPubrel ∧ Arrived O R)) →
      InTie q O R (some ⟨m, false, sent⟩) ph U D
  | rel {m : Publish} {sent : Bool} {ph : Option InPhase} {U : List InUp} {D : List InDown} : (sent = false → U = [] ∧ D = []) →
      U = [] ∧ D = [] ∨ U = [] ∧ D = [.rel] ∨ U = [.pubcomp] ∧ D = [] →
      (q → Arrived O R ∧ (U = [] ∧ (ph = some .awaitPubrel ∨ ph = some .sendPubcomp) ∨ ph = none)) →
      InTie q O R (some ⟨m, true, sent⟩) ph U D

section
variable {i : UInt16} {q q' : Prop} {O R : List Publish} {slot : Option Slot} {ph : Option InPhase} {U : List InUp} {D : List InDown} {m : Publish}

/-- What was under way is lost. -/
theorem InTie.dropped (h : InTie q O R slot ph U D) : InTie q O R slot ph [] [] := by
  cases h with
  | free h => exact .free h
  | one h1 h2 h3 h4 =>
    refine .one h1 (fun _ => ⟨rfl, rfl⟩) (Or.inl ⟨rfl, rfl⟩) fun hq => ?_
    obtain ⟨O', e1, e2⟩ := h4 hq
    refine ⟨O', e1, ?_⟩
    rcases e2 with ⟨a, _, c⟩ | e2 | ⟨a, _, c⟩
    · exact Or.inl ⟨a, rfl, c⟩
    · exact Or.inr (Or.inl e2)
    · exact Or.inr (Or.inr ⟨a, rfl, c⟩)
  | two h1 h2 h3 h4 =>
    refine .two h1 (fun _ => ⟨rfl, rfl⟩) (Or.inl ⟨rfl, rfl⟩) fun hq => ?_
    obtain ⟨O', e1, e2⟩ := h4 hq
    refine ⟨O', e1, ?_⟩
    rcases e2 with ⟨a, _, c⟩ | ⟨a, _, c⟩ | e2
    · exact Or.inl ⟨a, rfl, c⟩
    · exact Or.inr (Or.inl ⟨a, rfl, c⟩)
    · exact Or.inr (Or.inr e2)
  | rel h1 h2 h3 =>
    refine .rel (fun _ => ⟨rfl, rfl⟩) (Or.inl ⟨rfl, rfl⟩) fun hq => ?_
    obtain ⟨e1, e2⟩ := h3 hq
    exact ⟨e1, e2.imp (fun e => ⟨rfl, e.2⟩) id⟩

/-- A new connection in the same session. -/
theorem InTie.unsent (h : InTie q O R slot ph [] []) : InTie q O R (slot.map fun x => { x with sent := false }) ph [] [] := by
  cases h with
  | free h => exact .free h
  | one h1 h2 h3 h4 => exact .one h1 (fun _ => ⟨rfl, rfl⟩) (Or.inl ⟨rfl, rfl⟩) h4
  | two h1 h2 h3 h4 => exact .two h1 (fun _ => ⟨rfl, rfl⟩) (Or.inl ⟨rfl, rfl⟩) h4
  | rel h1 h2 h3 => exact .rel (fun _ => ⟨rfl, rfl⟩) (Or.inl ⟨rfl, rfl⟩) h3

theorem withId_append (i : UInt16) (a : List Publish) (m : Publish) : withId i (a ++ [m]) = withId i a ++ if m.id = i.toNat then [m] else [] := by
  unfold withId
  rw [List.filter_append]
  congr 1
  by_cases h : m.id = i.toNat <;> simp [h]

theorem Spec.Outbox.put_other {o : Outbox} {j i : UInt16} {x : Option Slot} (h : j ≠ i) : (o.put j x).slot i = o.slot i := by
  show (if i = j then x else o.slot i) = _
  rw [if_neg (fun h' => h h'.symm)]

theorem Spec.Outbox.put_same {o : Outbox} {j : UInt16} {x : Option Slot} : (o.put j x).slot j = x := by
  show (if j = j then x else o.slot j) = _
  rw [if_pos rfl]

/-- The server sends a message or PUBREL. -/
theorem InTie.offers {cap : Nat} {o o' : Outbox} {p : Raw} (h : InTie q O R (o.slot i) ph U D) (hi : i ≠ 0) (ho : Offers cap o p o') :
    ∃ new, o'.offered = o.offered ++ new ∧ InTie q (O ++ withId i new) R (o'.slot i) ph U (D ++ (inDown i p).toList) := by
  cases ho with
  | @offer p m j h1 h2 h3 h4 h5 h6 h7 =>
    refine ⟨[m.message], rfl, ?_⟩
    rw [inDown_publish h3]
    by_cases hj : j = i
    · subst hj
      rw [if_pos ⟨h6, h4⟩, h7] at *
      have e : withId j [m.message] = [m.message] := by
        have : m.message.id = j.toNat := h6
        simp [withId, this]
      have e2 : ({ o.put j (some ⟨m.message, false, true⟩) with offered := o.offered ++ [m.message] } : Outbox).slot j = some ⟨m.message, false, true⟩ := Spec.Outbox.put_same
      rw [e, e2]
      cases h with
      | free h =>
        have hq3 : m.message.qos = 1 ∨ m.message.qos = 2 := by
          have h4' : m.message.qos ≠ 0 := h4
          revert h4'
          generalize m.message.qos = x
          revert x
          decide
        rcases hq3 with hq3 | hq3
        · exact .one hq3 (fun h => by cases h) (Or.inr (Or.inl ⟨rfl, rfl⟩)) (fun hq => ⟨O, rfl, Or.inl ⟨(h hq).1, rfl, (h hq).2⟩⟩)
        · exact .two hq3 (fun h => by cases h) (Or.inr (Or.inl ⟨rfl, rfl⟩)) (fun hq => ⟨O, rfl, Or.inl ⟨(h hq).1, rfl, (h hq).2⟩⟩)
    · have hid : m.id ≠ i.toNat := fun e => hj (UInt16.toNat_inj.mp (by rw [← h6, e]))
      rw [if_neg (fun e => hid e.1)]
      have e : withId i [m.message] = [] := by
        have : m.message.id ≠ i.toNat := hid
        simp [withId, this]
      have e2 : ({ o.put j (some ⟨m.message, false, true⟩) with offered := o.offered ++ [m.message] } : Outbox).slot i = o.slot i := Spec.Outbox.put_other hj
      rw [e, e2]
      simpa using h
  | @offerAgain p m j h1 h2 h3 h4 h5 =>
    refine ⟨[], by simp [Outbox.put], ?_⟩
    rw [inDown_publish h3]
    show InTie q (O ++ []) R _ _ _ _
    rw [List.append_nil]
    by_cases hj : j = i
    · subst hj
      rw [Spec.Outbox.put_same]
      rw [h5] at h
      have hne : m.qos ≠ 0 := by
        cases h with
        | one h => intro h'; rw [show m.message.qos = m.qos from rfl, h'] at h; cases h
        | two h => intro h'; rw [show m.message.qos = m.qos from rfl, h'] at h; cases h
      rw [if_pos ⟨h4, hne⟩]
      cases h with
      | one e1 e2 e3 e4 =>
        obtain ⟨rfl, rfl⟩ := e2 rfl
        exact .one e1 (fun h => by cases h) (Or.inr (Or.inl ⟨rfl, rfl⟩)) e4
      | two e1 e2 e3 e4 =>
        obtain ⟨rfl, rfl⟩ := e2 rfl
        exact .two e1 (fun h => by cases h) (Or.inr (Or.inl ⟨rfl, rfl⟩)) e4
    · have hid : m.id ≠ i.toNat := fun e => hj (UInt16.toNat_inj.mp (by rw [← h4, e]))
      rw [if_neg (fun e => hid e.1), Spec.Outbox.put_other hj]
      simpa using h
  | @releaseAgain m j h1 h2 =>
    refine ⟨[], by simp [Outbox.put], ?_⟩
    rw [inDown_rel hi]
    show InTie q (O ++ []) R _ _ _ _
    rw [List.append_nil]
    by_cases hj : j = i
    · subst hj
      rw [Spec.Outbox.put_same, if_pos rfl]
      rw [h2] at h
      cases h with
      | rel e1 e2 e3 =>
        obtain ⟨rfl, rfl⟩ := e1 rfl
        exact .rel (fun h => by cases h) (Or.inr (Or.inl ⟨rfl, rfl⟩)) e3
    · rw [if_neg hj, Spec.Outbox.put_other hj]
      simpa using h

/-- The server receives an acknowledgement. -/
theorem InTie.settles {o o' : Outbox} {u : Raw} {j : UInt16} {outs : List Raw} (h : InTie q O R (o.slot i) ph ((inUp i u).toList ++ U) D) (hi : i ≠ 0)
    (hu : read16 u.body = some (j.toNat, [])) (ho : Settles o u.first.toNat j o' outs) :
    o'.offered = o.offered ∧ InTie q O R (o'.slot i) ph U (D ++ outs.filterMap (inDown i)) := by
  generalize ht : u.first.toNat = t at ho
  have hoff : o'.offered = o.offered := by cases ho <;> rfl
  refine ⟨hoff, ?_⟩
  by_cases hj : j = i
  rotate_left
  · rw [inUp_ack hu hj] at h
    have e : o'.slot i = o.slot i := by
      cases ho <;> first | rfl | exact Spec.Outbox.put_other hj
    have e2 : outs.filterMap (inDown i) = [] := by
      cases ho with
      | pubrec => simp [inDown_rel hi, hj]
      | _ => rfl
    rw [e, e2]
    simpa using h
  · subst hj
    have hn : inUp j u = if u.first = 0x40 then some .puback else if u.first = 0x50 then some .pubrec else if u.first = 0x70 then some .pubcomp else none := by
      unfold inUp
      rw [if_pos hu]
    generalize hV : (inUp j u).toList ++ U = V at h
    generalize hsl : o.slot j = sl at h
    have hf : ∀ x : UInt8, t = x.toNat → u.first = x := fun x hx => UInt8.toNat_inj.mp (by rw [ht, hx])
    cases ho with
    | @puback _ m s h1 h2 =>
      have := hf 0x40 rfl
      rw [this, if_pos rfl] at hn
      rw [hn] at hV
      have hV : V = .puback :: U := hV.symm
      rw [Spec.Outbox.put_same]
      rw [hsl] at h1
      subst h1
      cases h with
      | one e1 e2 e3 e4 =>
        rcases e3 with ⟨e3, _⟩ | ⟨e3, _⟩ | ⟨e3, rfl⟩
        · rw [hV] at e3; cases e3
        · rw [hV] at e3; cases e3
        · rw [hV] at e3
          cases e3
          refine .free fun hq => ?_
          obtain ⟨O', rfl, e5⟩ := e4 hq
          rw [hV] at e5
          rcases e5 with ⟨_, e5, _⟩ | ⟨a, b⟩ | ⟨_, e5, _⟩
          · cases e5
          · exact ⟨a, b⟩
          · cases e5
      | two e1 => rw [h2] at e1; cases e1
    | @pubrec _ m s h1 h2 =>
      have := hf 0x50 rfl
      rw [this, if_neg (by decide), if_pos rfl] at hn
      rw [hn] at hV
      have hV : V = .pubrec :: U := hV.symm
      rw [Spec.Outbox.put_same]
      rw [hsl] at h1
      subst h1
      have e0 : List.filterMap (inDown j) [⟨0x62, be16 j.toNat⟩] = [.rel] := by simp [inDown_rel hi]
      rw [e0]
      cases h with
      | one e1 => rw [h2] at e1; cases e1
      | two e1 e2 e3 e4 =>
        rcases e3 with ⟨e3, _⟩ | ⟨e3, _⟩ | ⟨e3, rfl⟩
        · rw [hV] at e3; cases e3
        · rw [hV] at e3; cases e3
        · rw [hV] at e3
          cases e3
          refine .rel (fun h => by cases h) (Or.inr (Or.inl ⟨rfl, rfl⟩)) fun hq => ?_
          obtain ⟨O', rfl, e5⟩ := e4 hq
          rw [hV] at e5
          rcases e5 with ⟨_, e5, _⟩ | ⟨_, e5, _⟩ | ⟨a, b⟩
          · cases e5
          · cases e5
          · exact ⟨b, Or.inl ⟨rfl, Or.inl a⟩⟩
    | @pubcomp _ m s h1 =>
      have := hf 0x70 rfl
      rw [this, if_neg (by decide), if_neg (by decide), if_pos rfl] at hn
      rw [hn] at hV
      have hV : V = .pubcomp :: U := hV.symm
      rw [Spec.Outbox.put_same]
      rw [hsl] at h1
      subst h1
      cases h with
      | rel e1 e2 e3 =>
        rcases e2 with ⟨e2, _⟩ | ⟨e2, _⟩ | ⟨e2, rfl⟩
        · rw [hV] at e2; cases e2
        · rw [hV] at e2; cases e2
        · rw [hV] at e2
          cases e2
          refine .free fun hq => ?_
          obtain ⟨a, b⟩ := e3 hq
          rw [hV] at b
          rcases b with ⟨b, _⟩ | b
          · cases b
          · exact ⟨b, a⟩
    | stray h0 h1 h2 =>
      exfalso
      have hV1 : ∃ x, V = x :: U := by
        rw [hn] at hV
        rcases h0 with h0 | h0 | h0
        · have := hf 0x40 h0; rw [this] at hV; exact ⟨_, hV.symm⟩
        · have := hf 0x50 h0; rw [this] at hV; exact ⟨_, hV.symm⟩
        · have := hf 0x70 h0; rw [this] at hV; exact ⟨_, hV.symm⟩
      obtain ⟨x, hx⟩ := hV1
      have ht' : ∀ y, x = y → (inUp j u).toList = [y] := by
        rintro y rfl
        rw [hx] at hV
        cases hn' : inUp j u with
        | none => rw [hn'] at hV; have := congrArg List.length hV; simp at this
        | some z => rw [hn'] at hV; injection hV with a b; rw [a]; rfl
      rw [hn] at ht'
      cases h with
      | free => cases hx
      | @one m s _ _ _ e1 e2 e3 e4 =>
        rcases e3 with ⟨e3, _⟩ | ⟨e3, _⟩ | ⟨e3, rfl⟩
        · rw [e3] at hx; cases hx
        · rw [e3] at hx; cases hx
        · rw [e3] at hx
          injection hx with hx _
          have := ht' _ hx.symm
          rcases h0 with h0 | h0 | h0
          · exact (h1 m s hsl).1 ⟨h0, e1⟩
          · have := hf 0x50 h0; simp [this] at *
          · have := hf 0x70 h0; simp [this] at *
      | @two m s _ _ _ e1 e2 e3 e4 =>
        rcases e3 with ⟨e3, _⟩ | ⟨e3, _⟩ | ⟨e3, rfl⟩
        · rw [e3] at hx; cases hx
        · rw [e3] at hx; cases hx
        · rw [e3] at hx
          injection hx with hx _
          have := ht' _ hx.symm
          rcases h0 with h0 | h0 | h0
          · have := hf 0x40 h0; simp [this] at *
          · exact (h1 m s hsl).2 ⟨h0, e1⟩
          · have := hf 0x70 h0; simp [this] at *
      | @rel m s _ _ _ e1 e2 e3 =>
        rcases e2 with ⟨e2, _⟩ | ⟨e2, _⟩ | ⟨e2, rfl⟩
        · rw [e2] at hx; cases hx
        · rw [e2] at hx; cases hx
        · rw [e2] at hx
          injection hx with hx _
          have := ht' _ hx.symm
          rcases h0 with h0 | h0 | h0
          · have := hf 0x40 h0; simp [this] at *
          · have := hf 0x50 h0; simp [this] at *
          · exact h2 m s hsl h0

end

/-! ### The connection -/

/-- What is under way between client and server: the packets `us` and then the bytes `part` to the server, the packets `ds` to the client, of which it has
got `buf`. -/
structure InTies (i : UInt16) (cap : Nat) (b : Bool) (n0 : Nat) (o0 : List Publish) (R : List Publish) (ph : Option InPhase) (n : Net) (buf : List UInt8)
    (us : List Raw) (part : List UInt8) (ds : List Raw) : Prop where
  up : n.up = us.flatMap Raw.bytes ++ part
  stuck : readPacket part = none
  small : ∀ u ∈ us, Small u
  valid : ∀ d ∈ ds, d.Valid ∧ d.bytes.length ≤ cap
  down : buf ++ n.down = ds.flatMap Raw.bytes
  fresh : n.greeted = false → us.filterMap (inUp i) = [] ∧ ds.filterMap (inDown i) = []
  floor : n0 ≤ n.server.sessions
  tie : ∃ new, n.server.out.offered = o0 ++ new ∧ InTie (b = true ∧ n.server.sessions = n0) (withId i new) R (n.server.out.slot i) ph (us.filterMap (inUp i))
    (ds.filterMap (inDown i))

theorem inNotes_snoc (i : UInt16) (ds : List Raw) (d : Raw) : (ds ++ [d]).filterMap (inDown i) = ds.filterMap (inDown i) ++ (inDown i d).toList := by
  rw [List.filterMap_append]
  cases h : inDown i d <;> simp [h]

theorem inUp_head (i : UInt16) (u : Raw) (us : List Raw) : (u :: us).filterMap (inUp i) = (inUp i u).toList ++ us.filterMap (inUp i) := by
  rw [List.filterMap_cons]
  cases h : inUp i u <;> rfl

theorem withId_app (i : UInt16) (a b : List Publish) : withId i (a ++ b) = withId i a ++ withId i b := by simp [withId]

section
variable {i : UInt16} {cap : Nat} {b : Bool} {n0 : Nat} {o0 R : List Publish} {ph : Option InPhase} {n n' : Net} {buf : List UInt8} {us : List Raw}
  {part : List UInt8} {ds : List Raw}

/-- The server reads the packets `vs` and sends `outs`. -/
theorem InTies.step {vs us outs : List Raw} (h : InTies i cap b n0 o0 R ph n buf (vs ++ us) part ds) (ho : ∀ p ∈ outs, p.Valid ∧ p.bytes.length ≤ cap)
    (hup : n'.up = us.flatMap Raw.bytes ++ part) (hdown : n'.down = n.down ++ outs.flatMap Raw.bytes)
    (hg : n'.greeted = false → n.greeted = false ∧ outs.filterMap (inDown i) = []) (hs : n.server.sessions ≤ n'.server.sessions)
    (f : ∀ {O : List Publish}, InTie (b = true ∧ n.server.sessions = n0) O R (n.server.out.slot i) ph (vs.filterMap (inUp i) ++ us.filterMap (inUp i)) (ds.filterMap (inDown i)) →
      ∃ new, n'.server.out.offered = n.server.out.offered ++ new ∧
        InTie (b = true ∧ n'.server.sessions = n0) (O ++ withId i new) R (n'.server.out.slot i) ph (us.filterMap (inUp i)) (ds.filterMap (inDown i) ++ outs.filterMap (inDown i))) :
    InTies i cap b n0 o0 R ph n' buf us part (ds ++ outs) := by
  obtain ⟨h1, h2, h3, h4, h5, h6, h7, new, h8, h9⟩ := h
  rw [List.filterMap_append] at h9
  obtain ⟨new', f1, f2⟩ := f h9
  refine ⟨hup, h2, fun u hu => h3 u (List.mem_append_right _ hu), ?_, ?_, ?_, Nat.le_trans h7 hs, new ++ new', ?_, ?_⟩
  · intro d hd
    rcases List.mem_append.mp hd with hd | hd
    · exact h4 d hd
    · exact ho d hd
  · rw [hdown, ← List.append_assoc, h5, List.flatMap_append]
  · intro hg'
    obtain ⟨g1, g2⟩ := hg hg'
    obtain ⟨g3, g4⟩ := h6 g1
    rw [List.filterMap_append] at g3
    exact ⟨(List.append_eq_nil_iff.mp g3).2, by rw [List.filterMap_append, g4, g2]; rfl⟩
  · rw [f1, h8, List.append_assoc]
  · rw [withId_app, List.filterMap_append]
    exact f2

/-- The same, when the packets have nothing to do with packet id `i`. -/
theorem InTies.pass {u : Raw} {us outs : List Raw} (h : InTies i cap b n0 o0 R ph n buf (u :: us) part ds) (hu : inUp i u = none)
    (ho : ∀ p ∈ outs, p.Valid ∧ p.bytes.length ≤ cap ∧ inDown i p = none)
    (hup : n'.up = us.flatMap Raw.bytes ++ part) (hdown : n'.down = n.down ++ outs.flatMap Raw.bytes)
    (hg : n'.greeted = n.greeted) (hs : n'.server.sessions = n.server.sessions) (hout : n'.server.out = n.server.out) :
    InTies i cap b n0 o0 R ph n' buf us part (ds ++ outs) := by
  have ho' : outs.filterMap (inDown i) = [] := by
    rw [List.filterMap_eq_nil_iff]
    exact fun p hp => (ho p hp).2.2
  have h : InTies i cap b n0 o0 R ph n buf ([u] ++ us) part ds := h
  refine h.step (fun p hp => ⟨(ho p hp).1, (ho p hp).2.1⟩) hup hdown (fun h => ⟨by rw [← hg]; exact h, ho'⟩) (by omega) fun {O} ht => ⟨[], by rw [hout, List.append_nil], ?_⟩
  rw [hout, hs, ho']
  have e : [u].filterMap (inUp i) = [] := by simp [hu]
  rw [e] at ht
  show InTie _ (O ++ []) _ _ _ _ _
  rw [List.append_nil, List.append_nil]
  exact ht

/-- The server keeps the agreement. -/
theorem InTies.serve (h : InTies i cap b n0 o0 R ph n buf us part ds) (hs : Serves true cap n n') (hcap : 4 ≤ cap) (hi : i ≠ 0) :
    ∃ us' ds', InTies i cap b n0 o0 R ph n' buf us' part ds' ∧ (n.greeted = true → n'.greeted = true) := by
  have head : ∀ {t : Nat} {body rest : List UInt8}, readPacket n.up = some (t, body, rest) →
      ∃ u us', us = u :: us' ∧ t = u.first.toNat ∧ body = u.body ∧ rest = us'.flatMap Raw.bytes ++ part := by
    intro t body rest hr
    rw [h.up] at hr
    exact readPacket_stream h.small h.stuck hr
  have byte : ∀ {u : Raw} {t : UInt8}, t.toNat = u.first.toNat → t ≠ 0x40 → t ≠ 0x50 → t ≠ 0x70 → inUp i u = none := by
    intro u t ht
    rw [UInt8.toNat_inj.mp ht]
    exact inUp_other
  have hack : ∀ {t : UInt8} {id : Nat}, (t = 0x40 ∨ t = 0x50 ∨ t = 0x70) → ∀ p ∈ [ackRaw t id], p.Valid ∧ p.bytes.length ≤ cap ∧ inDown i p = none := by
    intro t id ht p hp
    rw [List.mem_singleton.mp hp]
    exact ⟨ackRaw_valid ht _, by rw [ackRaw_length]; exact hcap, ackRaw_inDown ht _ _⟩
  have hconnack : ∀ (x y : UInt8), ∀ p ∈ [(⟨0x20, [x, y]⟩ : Raw)], p.Valid ∧ p.bytes.length ≤ cap ∧ inDown i p = none := by
    intro x y p hp
    rw [List.mem_singleton.mp hp]
    exact ⟨connack_valid _ _, by rw [connack_length]; exact hcap, connack_inDown _ _ _⟩
  have hnone : ∀ {outs : List Raw}, (∀ p ∈ outs, Unasked true cap p) → ∀ p ∈ outs, p.Valid ∧ p.bytes.length ≤ cap ∧ inDown i p = none :=
    fun h p hp => ⟨(h p hp).1, (h p hp).2.1, Unasked.inDown (h p hp) i⟩
  have one : ∀ (x : Raw), [x].flatMap Raw.bytes = x.bytes := fun x => by simp
  cases hs with
  | @refuse body rest code e1 e2 e3 =>
    obtain ⟨u, us', rfl, f1, rfl, rfl⟩ := head e2
    exact ⟨us', _, h.pass (byte (t := 0x10) f1 (by decide) (by decide) (by decide)) (hconnack 0 code) rfl (by rw [one]; rfl) rfl rfl rfl, id⟩
  | @begin body rest cc e1 e2 e3 =>
    obtain ⟨u, us', rfl, f1, rfl, rfl⟩ := head e2
    have h : InTies i cap b n0 o0 R ph n buf ([u] ++ us') part ds := h
    refine ⟨us', ds ++ [⟨0x20, [0, 0]⟩], h.step (fun p hp => ⟨(hconnack 0 0 p hp).1, (hconnack 0 0 p hp).2.1⟩) rfl (by rw [one]; rfl) (fun h => by cases h) (Nat.le_succ _) ?_, fun _ => rfl⟩
    intro O ht
    obtain ⟨g1, g2⟩ := h.fresh e1
    refine ⟨[], by simp [Outbox.dropped], ?_⟩
    rw [List.filterMap_append] at g1
    rw [(List.append_eq_nil_iff.mp g1).2, g2]
    have e : List.filterMap (inDown i) [⟨0x20, [0, 0]⟩] = [] := by simp [connack_inDown]
    rw [e]
    refine .free fun hq => ?_
    have := h.floor
    have := hq.2
    simp only at this
    omega
  | @resume body rest cc e1 e2 e3 e4 e5 =>
    obtain ⟨u, us', rfl, f1, rfl, rfl⟩ := head e2
    have h : InTies i cap b n0 o0 R ph n buf ([u] ++ us') part ds := h
    refine ⟨us', ds ++ [⟨0x20, [1, 0]⟩], h.step (fun p hp => ⟨(hconnack 1 0 p hp).1, (hconnack 1 0 p hp).2.1⟩) rfl (by rw [one]; rfl) (fun h => by cases h) (Nat.le_refl _) ?_, fun _ => rfl⟩
    intro O ht
    obtain ⟨g1, g2⟩ := h.fresh e1
    refine ⟨[], by simp [Outbox.unsent], ?_⟩
    rw [List.filterMap_append] at g1
    rw [g1, g2] at ht
    rw [(List.append_eq_nil_iff.mp g1).2, g2]
    have e : List.filterMap (inDown i) [⟨0x20, [1, 0]⟩] = [] := by simp [connack_inDown]
    rw [e]
    show InTie _ (O ++ []) _ _ _ _ _
    rw [List.append_nil]
    exact ht.unsent
  | @qos0 t body rest m e1 e2 e3 e4 =>
    obtain ⟨u, us', rfl, rfl, rfl, rfl⟩ := head e2
    exact ⟨us', ds ++ [], h.pass (inUp_publish e3) (by simp) rfl (by simp) rfl rfl rfl, id⟩
  | @qos1 t body rest m e1 e2 e3 e4 =>
    obtain ⟨u, us', rfl, rfl, rfl, rfl⟩ := head e2
    exact ⟨us', _, h.pass (inUp_publish e3) (hack (t := 0x40) (id := m.id) (by simp)) rfl (by rw [one]; rfl) rfl rfl rfl, id⟩
  | @qos2 t body rest m e1 e2 e3 e4 e5 =>
    obtain ⟨u, us', rfl, rfl, rfl, rfl⟩ := head e2
    exact ⟨us', _, h.pass (inUp_publish e3) (hack (t := 0x50) (id := m.id) (by simp)) rfl (by rw [one]; rfl) rfl rfl rfl, id⟩
  | @again t body rest m e1 e2 e3 e4 e5 =>
    obtain ⟨u, us', rfl, rfl, rfl, rfl⟩ := head e2
    exact ⟨us', _, h.pass (inUp_publish e3) (hack (t := 0x50) (id := m.id) (by simp)) rfl (by rw [one]; rfl) rfl rfl rfl, id⟩
  | @release body rest id e1 e2 e3 =>
    obtain ⟨u, us', rfl, f1, rfl, rfl⟩ := head e2
    exact ⟨us', _, h.pass (byte (t := 0x62) f1 (by decide) (by decide) (by decide)) (hack (t := 0x70) (id := id) (by simp)) rfl (by rw [one]; rfl) rfl rfl rfl, fun h => h⟩
  | @other t body rest outs e1 e2 e3 e4 e0 e5 =>
    obtain ⟨u, us', rfl, rfl, rfl, rfl⟩ := head e2
    obtain ⟨g1, g2, g3⟩ := e0 rfl
    have hn : inUp i u = none := inUp_other (fun h => g1 (by rw [h]; rfl)) (fun h => g2 (by rw [h]; rfl)) (fun h => g3 (by rw [h]; rfl))
    exact ⟨us', _, h.pass hn (hnone e5) rfl rfl rfl rfl rfl, id⟩
  | @settle t body rest j out outs e1 e2 e3 e4 =>
    have e5 := e4.unasked hcap
    obtain ⟨u, us', rfl, rfl, rfl, rfl⟩ := head e2
    have h : InTies i cap b n0 o0 R ph n buf ([u] ++ us') part ds := h
    refine ⟨us', _, h.step (fun p hp => ⟨(e5 p hp).1, (e5 p hp).2.1⟩) rfl rfl (fun h => by simp only at h; rw [e1] at h; cases h) (Nat.le_refl _) ?_, id⟩
    intro O ht
    have e : [u].filterMap (inUp i) = (inUp i u).toList := by cases hu : inUp i u <;> simp [hu]
    rw [e] at ht
    obtain ⟨k1, k2⟩ := ht.settles hi e3 e4
    refine ⟨[], by rw [List.append_nil]; exact k1, ?_⟩
    show InTie _ (O ++ []) _ _ _ _ _
    rw [List.append_nil]
    exact k2
  | @offer p out e1 e3 =>
    have e2 := e3.unasked
    have h : InTies i cap b n0 o0 R ph n buf ([] ++ us) part ds := h
    refine ⟨us, ds ++ [p], h.step (fun x hx => by rw [List.mem_singleton.mp hx]; exact ⟨e2.1, e2.2.1⟩) h.up (by rw [one])
      (fun h => by simp only at h; rw [e1] at h; cases h) (Nat.le_refl _) ?_, id⟩
    intro O ht
    have e : [p].filterMap (inDown i) = (inDown i p).toList := by cases hu : inDown i p <;> simp [hu]
    rw [e]
    exact ht.offers hi e3
  | @unasked p e1 e2 =>
    have h : InTies i cap b n0 o0 R ph n buf ([] ++ us) part ds := h
    refine ⟨us, ds ++ [p], h.step (fun x hx => by rw [List.mem_singleton.mp hx]; exact ⟨e2.1, e2.2.1⟩) h.up (by rw [one])
      (fun h => by simp only at h; rw [e1] at h; cases h) (Nat.le_refl _) ?_, id⟩
    intro O ht
    have e : [p].filterMap (inDown i) = [] := by simp [Unasked.inDown e2 i]
    refine ⟨[], by simp, ?_⟩
    rw [e]
    show InTie _ (O ++ []) _ _ _ _ _
    rw [List.append_nil, List.append_nil]
    exact ht

theorem InTies.served (h : InTies i cap b n0 o0 R ph n buf us part ds) (hs : Served true cap n n') (hcap : 4 ≤ cap) (hi : i ≠ 0) :
    ∃ us' ds', InTies i cap b n0 o0 R ph n' buf us' part ds' ∧ (n.greeted = true → n'.greeted = true) := by
  induction hs generalizing us ds with
  | refl n => exact ⟨us, ds, h, id⟩
  | step h1 _ ih =>
    obtain ⟨us1, ds1, h2, h3⟩ := h.serve h1 hcap hi
    obtain ⟨us2, ds2, h4, h5⟩ := ih h2
    exact ⟨us2, ds2, h4, fun hg => h5 (h3 hg)⟩

end

end Mqtt
