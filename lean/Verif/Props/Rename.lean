/-
C93: packet identifiers are only names.
-/
import Verif.Proof.Rename

namespace Mqtt
open Spec

/-- C93, any history on any record arrays: with all identifiers renamed the calls give the same answers and leave the
same records under the new names.  (An execution that fails an assertion fails the same assertion renamed.) -/
theorem C93_history {π : UInt16 → UInt16} (h : Renaming π) (t : Tables) (cs : List Call) :
    (∀ as t', stateRun t cs = .ok (as, t') →
      stateRun (renameTables π t) (cs.map (renameCall π)) = .ok (as, renameTables π t')) ∧
    (∀ e, stateRun t cs = .ub e → stateRun (renameTables π t) (cs.map (renameCall π)) = .ub e) := by
  refine ⟨fun as t' e => ?_, fun e he => ?_⟩
  · rw [Rename.run h, e]; rfl
  · rw [Rename.run h, he]; rfl

/-- C93 from cleared arrays, which look the same under every name. -/
theorem C93_fresh {π : UInt16 → UInt16} (h : Renaming π) (n m : Nat) (cs : List Call) {as : List Answer} {t : Tables}
    (e : stateRun (freshTables n m) cs = .ok (as, t)) :
    stateRun (freshTables n m) (cs.map (renameCall π)) = .ok (as, renameTables π t) := by
  have := (C93_history h (freshTables n m) cs).1 as t e
  simpa [freshTables, renameTables, Rename.empty h] using this

/-- C93, the identifiers to send again: at every cursor the scans find the renamed identifier and leave the same
cursor, so they list the renamed identifiers in the same order. -/
theorem C93_scan {π : UInt16 → UInt16} (h : Renaming π) (t : Tables) (cursor : Nat) :
    (∀ id c o, pubrelToResend t cursor = .ok (id, c, o) → pubrelToResend (renameTables π t) cursor = .ok (π id, c, o)) ∧
    (∀ id c, publishToResend t cursor = .ok (id, c) → publishToResend (renameTables π t) cursor = .ok (π id, c)) := by
  refine ⟨fun id c o e => ?_, fun id c e => ?_⟩
  · rw [Rename.pubrels h, e]; rfl
  · rw [Rename.publishes h, e]; rfl

namespace Ex

/-- Exchanging 7 and 300. -/
def swap (a : UInt16) : UInt16 := if a = 7 then 300 else if a = 300 then 7 else a

def someCalls : List Call :=
  [.reserve 7 .qos2, .reserve 9 .qos1, .publish .send 7 .qos2, .ack .receive .pubrec 7, .reserve 9 .qos1, .cancel 9]

end Ex

theorem Ex.swap_renaming : Renaming Ex.swap := by
  refine ⟨by decide, fun a b e => ?_⟩
  unfold Ex.swap at e
  by_cases a7 : a = 7 <;> by_cases a3 : a = 300 <;> by_cases b7 : b = 7 <;> by_cases b3 : b = 300 <;> simp_all

/-- A history to which C93 applies: its answers and records, and those of the renamed history. -/
example : stateRun (freshTables 3 1) Ex.someCalls
      = .ok ([(.success, none), (.success, none), (.success, some .pubRecPending), (.success, some .pubRelSend),
          (.stateCollision, none), (.success, none)],
        ⟨[Rec.empty, ⟨7, .qos2, .pubRelSend⟩, Rec.empty], [Rec.empty]⟩) ∧
    stateRun (freshTables 3 1) (Ex.someCalls.map (renameCall Ex.swap))
      = .ok ([(.success, none), (.success, none), (.success, some .pubRecPending), (.success, some .pubRelSend),
          (.stateCollision, none), (.success, none)],
        ⟨[Rec.empty, ⟨300, .qos2, .pubRelSend⟩, Rec.empty], [Rec.empty]⟩) := by
  decide +kernel

/-- C93 needs different names for different identifiers: when 8 and 9 get one name, the second publish collides. -/
theorem C93_needed : ∃ (π : UInt16 → UInt16) (cs : List Call), π 0 = 0 ∧
    stateRun (freshTables 2 2) cs = .ok ([(.success, none), (.success, none)], ⟨[⟨8, .qos1, .publishSend⟩, ⟨9, .qos1, .publishSend⟩], [Rec.empty, Rec.empty]⟩) ∧
    stateRun (freshTables 2 2) (cs.map (renameCall π)) =
      .ok ([(.success, none), (.stateCollision, none)], ⟨[⟨8, .qos1, .publishSend⟩, Rec.empty], [Rec.empty, Rec.empty]⟩) :=
  ⟨fun a => if a = 9 then 8 else a, [.reserve 8 .qos1, .reserve 9 .qos1], by decide, by decide +kernel, by decide +kernel⟩

end Mqtt
