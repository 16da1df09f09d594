/-
Reading packets without the contents of topics and messages.
-/
import Verif.Proof.Conversation
import Verif.Spec.Hidden

namespace Mqtt
open Spec

theorem blankBytes_length (l : List UInt8) : (blankBytes l).length = l.length := List.length_replicate

theorem hideBody_length (first : UInt8) (body : List UInt8) : (hideBody first body).length = body.length := by
  unfold hideBody
  split
  · dsimp only
    split
    · split <;> simp only [List.length_cons, List.length_append, blankBytes_length, List.length_take, List.length_drop] <;> omega
    · rfl
  · rfl

theorem hideRaw_length (p : Raw) : (hideRaw p).bytes.length = p.bytes.length := by
  simp [Raw.bytes, hideRaw, packet, hideBody_length]

/-- The packet without the contents of topic name and message. -/
def hidePacket : Packet → Packet
  | .publish id v => .publish id (hideView v)
  | p => p

theorem readStr_hide {a b : UInt8} {rest : List UInt8} (hn : 256 * a.toNat + b.toNat ≤ rest.length) (t : List UInt8) :
    readStr (a :: b :: (blankBytes (rest.take (256 * a.toNat + b.toNat)) ++ t)) = some (blankBytes (rest.take (256 * a.toNat + b.toNat)), t) := by
  have ht : (blankBytes (rest.take (256 * a.toNat + b.toNat))).length = 256 * a.toNat + b.toNat := by
    rw [blankBytes_length, List.length_take]; omega
  simp only [readStr, read16]
  rw [if_pos (by rw [List.length_append, ht]; omega), List.take_left' ht, List.drop_left' ht]

/-- A publish without contents. -/
def hidePublish (s : Spec.Publish) : Spec.Publish := { s with topic := blankBytes s.topic, payload := blankBytes s.payload }

theorem parsePublish_hide (first : UInt8) (body : List UInt8) :
    parsePublish first.toNat (hideBody first body) = (parsePublish first.toNat body).map hidePublish := by
  by_cases h3 : first.toNat / 16 = 3
  · match body with
    | [] => simp [hideBody, parsePublish, readStr, read16]
    | [a] => simp [hideBody, parsePublish, readStr, read16]
    | a :: b :: rest =>
      cases hq : qosOfNat (first.toNat / 2 % 4) with
      | none => simp [parsePublish, hq]
      | some q =>
        have hqv : q.val = first.toNat / 2 % 4 := by
          unfold qosOfNat at hq
          split at hq
          · cases hq; rfl
          · cases hq
        simp only [hideBody, if_pos h3]
        by_cases hn : 256 * a.toNat + b.toNat ≤ rest.length
        · have er : readStr (a :: b :: rest) = some (rest.take (256 * a.toNat + b.toNat), rest.drop (256 * a.toNat + b.toNat)) := by
            simp only [readStr, read16]; rw [if_pos hn]
          rw [parsePublish, parsePublish, readStr_hide hn, er, hq]
          by_cases h0 : q.val = 0
          · rw [if_pos (hqv ▸ h0 : first.toNat / 2 % 4 = 0)]
            have h0' : q = 0 := Fin.ext h0
            simp [h0', h3, hidePublish]
          · rw [if_neg (fun h => h0 (hqv.trans h))]
            have h0' : q ≠ 0 := fun h => h0 (by rw [h]; rfl)
            generalize rest.drop (256 * a.toNat + b.toNat) = r
            match r with
            | [] => simp [h0', h3, read16, blankBytes]
            | [x] => simp [h0', h3, read16, blankBytes]
            | x :: y :: r =>
              simp [h0', h3, read16]
              split <;> simp [hidePublish]
        · have e1 : readStr (a :: b :: rest) = none := by simp only [readStr, read16]; rw [if_neg hn]
          have e2 : ∀ t : List UInt8, t.length ≤ 0 → readStr (a :: b :: (blankBytes (rest.take (256 * a.toNat + b.toNat)) ++ t)) = none := by
            intro t ht
            simp only [readStr, read16]
            rw [if_neg (by rw [List.length_append, blankBytes_length, List.length_take]; omega)]
          rw [parsePublish, parsePublish, e1, hq, e2]
          · simp
          · rw [List.drop_eq_nil_of_le (by omega)]; split <;> simp [blankBytes]
  · rw [parsePublish, parsePublish]
    simp [h3]

theorem readIncoming_hide (first : UInt8) (body : List UInt8) : readIncoming first (hideBody first body) = (readIncoming first body).map hidePacket := by
  by_cases h3 : first.toNat / 16 = 3
  · rw [readIncoming, readIncoming, if_pos h3, if_pos h3, hideBody_length, parsePublish_hide]
    cases parsePublish first.toNat body with
    | none => rfl
    | some s =>
      simp only [Option.map_some, hidePublish]
      split <;> split <;> rfl
  · have e : hideBody first body = body := by
      unfold hideBody
      split
      · dsimp only; rw [if_neg h3]
      · rfl
    rw [e]
    have : ∀ p, readIncoming first body = some p → hidePacket p = p := by
      intro p hp
      rw [readIncoming, if_neg h3] at hp
      cases p with
      | publish id v =>
        exfalso
        repeat' split at hp
        all_goals simp at hp
      | _ => rfl
    cases hr : readIncoming first body with
    | none => rfl
    | some p => simp [this p hr]

theorem react_hide (retx m : Bool) (s : InFlight) (first : UInt8) (body : List UInt8) : react retx m s first (hideBody first body) =
    { react retx m s first body with callbacks := (react retx m s first body).callbacks.map hideEvent } := by
  rw [react, react, readIncoming_hide]
  cases readIncoming first body with
  | none => rfl
  | some p =>
    cases p with
    | publish id v =>
      simp only [Option.map_some, hidePacket, reactPublish, hideView]
      split
      · rfl
      · split
        · rfl
        · split <;> rfl
    | ack type id =>
      simp only [Option.map_some, hidePacket, reactAck]
      split
      · split <;> rfl
      · rfl
    | pingresp => cases m <;> rfl
    | suback id refused => rfl
    | unsuback id => rfl

theorem present_hide (retx m : Bool) (cap : Nat) (l : List Raw) (s : InFlight) :
    present retx m cap s (l.map hideRaw) = ((present retx m cap s l).1.map hideEvent, (present retx m cap s l).2) ∧
    answers retx m cap s (l.map hideRaw) = answers retx m cap s l := by
  induction l generalizing s with
  | nil => exact ⟨rfl, rfl⟩
  | cons p l ih =>
    rw [List.map_cons, present, present, answers, answers, hideRaw_length]
    split
    · exact ih s
    · have er : react retx m s (hideRaw p).first (hideRaw p).body = _ := react_hide retx m s p.first p.body
      have ea : acked (react retx m s (hideRaw p).first (hideRaw p).body) = acked (react retx m s p.first p.body) := by rw [er]; rfl
      simp only [ea, (ih _).1, (ih _).2]
      rw [er]
      exact ⟨by simp, rfl⟩

end Mqtt
