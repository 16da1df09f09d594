/-
The network between client and server: the steps of the server can be moved behind what the client sends and in front of what it receives.
-/
import Verif.Spec.Broker
import Verif.Proof.CallRecv
import Verif.Proof.CallConnect
import Verif.Proof.CallStage

namespace Mqtt
open Spec
set_option linter.unusedSimpArgs false

variable {strict : Bool}

/-! ### Bytes -/

theorem readVarInt_append {k : Nat} {l r x : List UInt8} {n : Nat} (h : readVarInt k l = some (n, r)) : readVarInt k (l ++ x) = some (n, r ++ x) := by
  induction k generalizing l r n with
  | zero => cases h
  | succ k ih =>
    cases l with
    | nil => cases h
    | cons b l =>
      rw [List.cons_append]
      unfold readVarInt at h ⊢
      split at h
      · rename_i hb
        rw [if_pos hb]
        cases h; rfl
      · rename_i hb
        rw [if_neg hb]
        cases hr : readVarInt k l with
        | none => rw [hr] at h; cases h
        | some y =>
          obtain ⟨n', r'⟩ := y
          rw [hr] at h
          rw [ih hr]
          cases h; rfl

theorem readPacket_append {l b r x : List UInt8} {t : Nat} (h : readPacket l = some (t, b, r)) : readPacket (l ++ x) = some (t, b, r ++ x) := by
  cases l with
  | nil => cases h
  | cons c l =>
    rw [List.cons_append]
    simp only [readPacket] at h ⊢
    cases hr : readVarInt 4 l with
    | none => rw [hr] at h; cases h
    | some y =>
      obtain ⟨n, r'⟩ := y
      rw [hr] at h
      rw [readVarInt_append hr]
      simp only at h ⊢
      split at h
      · rename_i hn
        rw [if_pos (by rw [List.length_append]; omega)]
        cases h
        rw [List.take_append_of_le_length hn, List.drop_append_of_le_length hn]
      · cases h

/-- A packet of the client as the server reads it. -/
def Small (u : Raw) : Prop := u.body.length ≤ maxRemaining

theorem Small.read {u : Raw} (h : Small u) (rest : List UInt8) : readPacket (u.bytes ++ rest) = some (u.first.toNat, u.body, rest) :=
  readPacket_packet u.first.toNat_lt h rest

/-- A packet that is not complete is not read. -/
theorem Small.part {u : Raw} (h : Small u) {part : List UInt8} (hp : part <+: u.bytes) (hne : part ≠ u.bytes) : readPacket part = none := by
  obtain ⟨x, hx⟩ := hp
  cases hr : readPacket part with
  | none => rfl
  | some y =>
    obtain ⟨t, b, r⟩ := y
    have h1 := readPacket_append (x := x) hr
    have h2 := h.read []
    rw [List.append_nil, ← hx, h1] at h2
    injection h2 with h2
    injection h2 with _ h2
    injection h2 with _ h2
    have : x = [] := (List.append_eq_nil_iff.mp h2).2
    subst this
    exact absurd (by simpa using hx) hne

theorem readPacket_nil : readPacket [] = none := rfl

theorem readPacket_stream {us : List Raw} {part : List UInt8} (hs : ∀ u ∈ us, Small u) (hp : readPacket part = none) {t : Nat} {b r : List UInt8}
    (h : readPacket (us.flatMap Raw.bytes ++ part) = some (t, b, r)) :
    ∃ u us', us = u :: us' ∧ t = u.first.toNat ∧ b = u.body ∧ r = us'.flatMap Raw.bytes ++ part := by
  cases us with
  | nil => rw [List.flatMap_nil, List.nil_append, hp] at h; cases h
  | cons u us =>
    rw [List.flatMap_cons, List.append_assoc, (hs u List.mem_cons_self).read] at h
    injection h with h
    injection h with h1 h
    injection h with h2 h3
    exact ⟨u, us, rfl, h1.symm, h2.symm, h3.symm⟩

/-! ### Steps of the server -/

/-- Any number of steps of the server. -/
inductive Served (strict : Bool) (cap : Nat) : Net → Net → Prop
  | refl (n : Net) : Served strict cap n n
  | step {n n1 n2 : Net} : Serves strict cap n n1 → Served strict cap n1 n2 → Served strict cap n n2

theorem Served.trans {cap : Nat} {n n1 n2 : Net} (h : Served strict cap n n1) (h' : Served strict cap n1 n2) : Served strict cap n n2 := by
  induction h with
  | refl => exact h'
  | step h1 _ ih => exact .step h1 (ih h')

theorem Spec.Serves.isOpen {cap : Nat} {n n' : Net} (h : Serves strict cap n n') : n'.isOpen = n.isOpen := by cases h <;> rfl

theorem Served.isOpen {cap : Nat} {n n' : Net} (h : Served strict cap n n') : n'.isOpen = n.isOpen := by
  induction h with
  | refl => rfl
  | step h _ ih => rw [ih, h.isOpen]

/-- More from the client does not change what the server can do. -/
theorem Spec.Serves.more {cap : Nat} {n n' : Net} (h : Serves strict cap n n') (x : List UInt8) :
    Serves strict cap { n with up := n.up ++ x } { n' with up := n'.up ++ x } := by
  cases h with
  | refuse h1 h2 h3 => exact .refuse h1 (readPacket_append h2) h3
  | begin h1 h2 h3 => exact .begin h1 (readPacket_append h2) h3
  | resume h1 h2 h3 h4 h5 => exact .resume h1 (readPacket_append h2) h3 h4 h5
  | qos0 h1 h2 h3 h4 => exact .qos0 h1 (readPacket_append h2) h3 h4
  | qos1 h1 h2 h3 h4 => exact .qos1 h1 (readPacket_append h2) h3 h4
  | qos2 h1 h2 h3 h4 h5 => exact .qos2 h1 (readPacket_append h2) h3 h4 h5
  | again h1 h2 h3 h4 h5 => exact .again h1 (readPacket_append h2) h3 h4 h5
  | release h1 h2 h3 => exact .release h1 (readPacket_append h2) h3
  | other h1 h2 h3 h4 h5 h6 => exact .other h1 (readPacket_append h2) h3 h4 h5 h6
  | settle h1 h2 h3 h4 => exact .settle h1 (readPacket_append h2) h3 h4
  | offer h1 h2 => exact .offer h1 h2
  | unasked h1 h2 => exact .unasked h1 h2

theorem Served.more {cap : Nat} {n n' : Net} (h : Served strict cap n n') (x : List UInt8) :
    Served strict cap { n with up := n.up ++ x } { n' with up := n'.up ++ x } := by
  induction h with
  | refl => exact .refl _
  | step h _ ih => exact .step (h.more x) ih

/-- Nor does it matter what the client has not received yet. -/
theorem Spec.Serves.behind {cap : Nat} {n n' : Net} (h : Serves strict cap n n') (x : List UInt8) :
    Serves strict cap { n with down := x ++ n.down } { n' with down := x ++ n'.down } := by
  cases h with
  | refuse h1 h2 h3 => rw [← List.append_assoc]; exact .refuse (n := { n with down := x ++ n.down }) h1 h2 h3
  | begin h1 h2 h3 => rw [← List.append_assoc]; exact .begin (n := { n with down := x ++ n.down }) h1 h2 h3
  | resume h1 h2 h3 h4 h5 => rw [← List.append_assoc]; exact .resume (n := { n with down := x ++ n.down }) h1 h2 h3 h4 h5
  | qos0 h1 h2 h3 h4 => exact .qos0 (n := { n with down := x ++ n.down }) h1 h2 h3 h4
  | qos1 h1 h2 h3 h4 => rw [← List.append_assoc]; exact .qos1 (n := { n with down := x ++ n.down }) h1 h2 h3 h4
  | qos2 h1 h2 h3 h4 h5 => rw [← List.append_assoc]; exact .qos2 (n := { n with down := x ++ n.down }) h1 h2 h3 h4 h5
  | again h1 h2 h3 h4 h5 => rw [← List.append_assoc]; exact .again (n := { n with down := x ++ n.down }) h1 h2 h3 h4 h5
  | release h1 h2 h3 => rw [← List.append_assoc]; exact .release (n := { n with down := x ++ n.down }) h1 h2 h3
  | other h1 h2 h3 h4 h5 h6 => rw [← List.append_assoc]; exact .other (n := { n with down := x ++ n.down }) h1 h2 h3 h4 h5 h6
  | settle h1 h2 h3 h4 => rw [← List.append_assoc]; exact .settle (n := { n with down := x ++ n.down }) h1 h2 h3 h4
  | offer h1 h2 => rw [← List.append_assoc]; exact .offer (n := { n with down := x ++ n.down }) h1 h2
  | unasked h1 h2 => rw [← List.append_assoc]; exact .unasked (n := { n with down := x ++ n.down }) h1 h2

theorem Served.behind {cap : Nat} {n n' : Net} (h : Served strict cap n n') (x : List UInt8) :
    Served strict cap { n with down := x ++ n.down } { n' with down := x ++ n'.down } := by
  induction h with
  | refl => exact .refl _
  | step h _ ih => exact .step (h.behind x) ih

/-! ### Interactions -/

/-- The network after the client has sent `x`. -/
def Spec.Net.push (n : Net) (x : List UInt8) : Net := { n with up := if n.isOpen then n.up ++ x else n.up }

theorem Spec.Net.push_nil (n : Net) : n.push [] = n := by
  obtain ⟨u, d, o, g, s⟩ := n
  unfold Net.push
  cases o <;> simp

theorem Spec.Net.push_open {n : Net} (h : n.isOpen = true) (x : List UInt8) : n.push x = { n with up := n.up ++ x } := by
  unfold Net.push; rw [h]; rfl

theorem Spec.Net.push_closed {n : Net} (h : n.isOpen = false) (x : List UInt8) : n.push x = n := by
  obtain ⟨u, d, o, g, s⟩ := n
  simp only at h
  subst h
  rfl

theorem Spec.Net.push_push (n : Net) (x y : List UInt8) : (n.push x).push y = n.push (x ++ y) := by
  obtain ⟨u, d, o, g, s⟩ := n
  unfold Net.push
  cases o <;> simp

theorem Served.push {cap : Nat} {n n' : Net} (h : Served strict cap n n') (x : List UInt8) : Served strict cap (n.push x) (n'.push x) := by
  have ho := h.isOpen
  cases hn : n.isOpen with
  | true => rw [Net.push_open hn, Net.push_open (by rw [ho, hn])]; exact h.more x
  | false => rw [Net.push_closed hn, Net.push_closed (by rw [ho, hn])]; exact h

theorem Spec.NetRun.isOpen {cap : Nat} {n n' : Net} {es : List Event} (h : NetRun strict cap n es n') : n'.isOpen = n.isOpen := by
  induction h with
  | done => rfl
  | serve h _ ih => rw [ih, h.isOpen]
  | send _ ih => exact ih
  | receive _ _ _ ih => exact ih
  | event _ _ _ ih => exact ih

theorem Spec.NetRun.split {cap : Nat} {n n' : Net} {a b : List Event} (h : NetRun strict cap n (a ++ b) n') :
    ∃ n1, NetRun strict cap n a n1 ∧ NetRun strict cap n1 b n' := by
  generalize hes : a ++ b = es at h
  induction h generalizing a with
  | done n =>
    obtain ⟨rfl, rfl⟩ := List.append_eq_nil_iff.mp hes
    exact ⟨n, .done n, .done n⟩
  | serve h _ ih =>
    obtain ⟨n1, h1, h2⟩ := ih hes
    exact ⟨n1, .serve h h1, h2⟩
  | @send n n2 bytes k es hr ih =>
    cases a with
    | nil => exact ⟨n, .done n, by rw [List.nil_append] at hes; subst hes; exact .send hr⟩
    | cons e a =>
      injection hes with h1 h2
      subst h1
      obtain ⟨n1, h1, h2⟩ := ih h2
      exact ⟨n1, .send h1, h2⟩
  | @receive n n2 k bytes rest es h1 h2 hr ih =>
    cases a with
    | nil => exact ⟨n, .done n, by rw [List.nil_append] at hes; subst hes; exact .receive h1 h2 hr⟩
    | cons e a =>
      injection hes with h3 h4
      subst h3
      obtain ⟨n1, h5, h6⟩ := ih h4
      exact ⟨n1, .receive h1 h2 h5, h6⟩
  | @event n n2 e es h1 h2 hr ih =>
    cases a with
    | nil => exact ⟨n, .done n, by rw [List.nil_append] at hes; subst hes; exact .event h1 h2 hr⟩
    | cons e' a =>
      injection hes with h3 h4
      subst h3
      obtain ⟨n1, h5, h6⟩ := ih h4
      exact ⟨n1, .event h1 h2 h5, h6⟩

/-- When nothing is received, everything may be sent before the server does anything. -/
theorem Spec.NetRun.sends {cap : Nat} {n n' : Net} {es : List Event} (h : NetRun strict cap n es n') (hr : received es = []) : Served strict cap (n.push (wire es)) n' := by
  induction h with
  | done n => rw [show wire [] = [] from rfl, Net.push_nil]; exact .refl _
  | @serve n n1 n2 es h _ ih =>
    exact .trans (Served.push (.step h (.refl _)) _) (ih hr)
  | @send n n2 bytes k es _ ih =>
    have e : wire (.sent bytes (some k) :: es) = bytes.take k ++ wire es := by simp [wire]
    rw [e, ← Net.push_push]
    exact ih (by simpa [received] using hr)
  | @receive n n2 k bytes rest es h1 h2 _ ih =>
    have e : received (.recvd k (some bytes) :: es) = bytes ++ received es := by simp [received]
    rw [e] at hr
    obtain ⟨rfl, hr⟩ := List.append_eq_nil_iff.mp hr
    rw [wire_cons_of_noSent _ _ rfl]
    have := ih hr
    rw [List.nil_append] at h1
    obtain ⟨u, d, o, gr, sv⟩ := n
    simp only at h1
    subst h1
    exact this
  | @event n n2 e es h1 h2 _ ih =>
    have e1 : wire (e :: es) = wire es := by
      cases e with
      | sent b k =>
        cases k with
        | none => simp [wire]
        | some k => exact absurd rfl (h1 b k)
      | _ => rfl
    have e2 : received (e :: es) = received es := by
      cases e with
      | recvd k b =>
        cases b with
        | none => simp [received]
        | some b => exact absurd rfl (h2 k b)
      | _ => simp [received]
    rw [e1]
    exact ih (by rw [← e2]; exact hr)

/-- When nothing is sent, everything may be received at the end. -/
theorem Spec.NetRun.receives {cap : Nat} {n n' : Net} {es : List Event} (h : NetRun strict cap n es n') (hs : noSent es) :
    Served strict cap n { n' with down := received es ++ n'.down } ∧ (n.isOpen = false → received es = []) := by
  induction h with
  | done n => exact ⟨.refl _, fun _ => rfl⟩
  | serve h _ ih =>
    obtain ⟨h1, h2⟩ := ih hs
    exact ⟨.step h h1, fun ho => h2 (by rw [h.isOpen]; exact ho)⟩
  | @send n n2 bytes k es _ ih => exact absurd (hs _ List.mem_cons_self) (by simp [isSent])
  | @receive n n2 k bytes rest es h1 h2 _ ih =>
    obtain ⟨h3, h4⟩ := ih (fun e he => hs e (List.mem_cons_of_mem _ he))
    have e : received (.recvd k (some bytes) :: es) = bytes ++ received es := by simp [received]
    rw [e]
    refine ⟨?_, ?_⟩
    · have := h3.behind bytes
      simp only [← h1, ← List.append_assoc] at this
      exact this
    · intro ho
      rw [h4 ho]
      rcases h2 with h2 | h2
      · rw [ho] at h2; cases h2
      · rw [h2]; rfl
  | @event n n2 e es h1 h2 _ ih =>
    have e2 : received (e :: es) = received es := by
      cases e with
      | recvd k b =>
        cases b with
        | none => simp [received]
        | some b => exact absurd rfl (h2 k b)
      | _ => simp [received]
    rw [e2]
    exact ih (fun e he => hs e (List.mem_cons_of_mem _ he))

end Mqtt
