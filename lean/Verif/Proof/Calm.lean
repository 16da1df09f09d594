/-
The state engine itself never reports that something could not be sent.
-/
import Verif.Proof.EffectsLoop
import Verif.Spec.Receiving

namespace Mqtt
open Spec

theorem step_calm (s : InFlight) (c : Call) : callerStatus (step s c).1.1 ∉ cannotSend := by
  have hi : ∀ {P : Type} (T : Table P) (cap : Nat) (id : UInt16) (p : P), callerStatus (T.insert cap id p).1 ∉ cannotSend := by
    intro P T cap id p
    unfold Table.insert
    repeat' split
    all_goals simp [callerStatus, cannotSend]
  have ha : ∀ {P : Type} (f : P → Option (Effect P × PubState)) (T : Table P) (id : UInt16), callerStatus (ackTable f T id).1.1 ∉ cannotSend := by
    intro P f T id
    unfold ackTable
    repeat' split
    all_goals simp [callerStatus, cannotSend]
  unfold step
  repeat' split
  all_goals first | exact hi _ _ _ _ | exact ha _ _ _ | simp [callerStatus, cannotSend]

end Mqtt
