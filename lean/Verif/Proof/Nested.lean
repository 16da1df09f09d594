/-
An execution with callbacks that call the library is an execution of threads: each callback is a thread that happens to run while the receive loop does not.
-/
import Verif.Spec.Nested

namespace Mqtt
open Spec

theorem Pool.Steps.idle {a b : Pool} (h : Pool.Steps a b) (t : Prog Unit) : Pool.Steps ⟨a.threads ++ [t], a.world⟩ ⟨b.threads ++ [t], b.world⟩ := by
  induction h with
  | refl => exact .refl
  | @step p _ i _ hs ih =>
    refine .step (i := i) ih ?_
    obtain ⟨hth, hm⟩ := hs
    rename_i m k b w'
    have hlt : i < p.threads.length := (List.getElem?_eq_some_iff.mp hth).1
    have := Pool.Step.step (p := ⟨p.threads ++ [t], p.world⟩) (i := i) (m := m) (k := k) (b := b) (w' := w')
      (by rw [List.getElem?_append_left hlt]; exact hth) hm
    rw [show (p.threads ++ [t]).set i (k b) = p.threads.set i (k b) ++ [t] from List.set_append_left _ _ hlt] at this
    exact this

section
variable {g : Cfg} {P : Client → Prop} {first : Client} {others : List Client} {w : World} {s : Nest}

/-- The threads that correspond to a nested execution: the callbacks called so far come last, the active one at the end. -/
theorem Nest.Steps.pool (h : Nest.Steps g P (startNest g first others w) s) :
    ∃ cbs ts, (∀ cl ∈ cbs, P cl) ∧ Pool.Steps (startPool g first (others ++ cbs) w) ⟨s.main :: (s.others ++ ts), s.world⟩ ∧
      ∀ q, s.inner = some q → ∃ ts', ts = ts' ++ [q] := by
  generalize h0 : startNest g first others w = s0 at h
  induction h with
  | refl =>
    subst h0
    refine ⟨[], [], by simp, ?_, fun q h => by cases h⟩
    rw [List.append_nil, List.append_nil]
    exact .refl
  | step _ hs ih =>
    obtain ⟨cbs, ts, h1, h2, h3⟩ := ih
    cases hs with
    | main hm _ _ =>
      exact ⟨cbs, ts, h1, .step h2 (.step (i := 0) rfl hm), fun q h => by cases h⟩
    | @callback _ m k os w1 w2 b es cl hm _ _ hp =>
      refine ⟨cbs ++ [cl], ts ++ [cl.prog g], ?_, ?_, ?_⟩
      · intro x hx
        rcases List.mem_append.mp hx with hx | hx
        · exact h1 x hx
        · cases List.mem_singleton.mp hx
          exact hp
      · have := (Pool.Steps.step h2 (.step (i := 0) rfl hm)).idle (cl.prog g)
        have e1 : (startPool g first (others ++ cbs) w).threads ++ [cl.prog g] = (startPool g first (others ++ (cbs ++ [cl])) w).threads := by
          simp [startPool]
        rw [e1] at this
        simpa [startPool] using this
      · intro q hq
        cases hq
        exact ⟨ts, rfl⟩
    | @inner _ m k q os w1 w2 b hm =>
      obtain ⟨ts', rfl⟩ := h3 _ rfl
      refine ⟨cbs, ts' ++ [k b], h1, ?_, fun q' hq => by cases hq; exact ⟨ts', rfl⟩⟩
      have hst := Pool.Step.step (p := ⟨q :: (os ++ (ts' ++ [Prog.step m k])), w1⟩) (i := 1 + os.length + ts'.length) (m := m) (k := k) (b := b) (w' := w2)
        (by
          show (q :: (os ++ (ts' ++ [Prog.step m k])))[1 + os.length + ts'.length]? = _
          rw [show 1 + os.length + ts'.length = (os.length + ts'.length) + 1 by omega, List.getElem?_cons_succ,
            List.getElem?_append_right (by omega), List.getElem?_append_right (by omega)]
          simp) hm
      rw [show (q :: (os ++ (ts' ++ [Prog.step m k]))).set (1 + os.length + ts'.length) (k b) = q :: (os ++ (ts' ++ [k b])) by
        rw [show 1 + os.length + ts'.length = (os.length + ts'.length) + 1 by omega, List.set_cons_succ,
          List.set_append_right _ _ (by omega), List.set_append_right _ _ (by omega)]
        simp] at hst
      exact .step h2 hst
    | ret => exact ⟨cbs, ts, h1, h2, fun q h => by cases h⟩
    | @other _ m k q n os w1 w2 b i hth hm =>
      have hlt : i < os.length := (List.getElem?_eq_some_iff.mp hth).1
      refine ⟨cbs, ts, h1, ?_, h3⟩
      have hst := Pool.Step.step (p := ⟨q :: (os ++ ts), w1⟩) (i := i + 1) (m := m) (k := k) (b := b) (w' := w2)
        (by
          show (q :: (os ++ ts))[i + 1]? = _
          rw [List.getElem?_cons_succ, List.getElem?_append_left hlt]
          exact hth) hm
      rw [show (q :: (os ++ ts)).set (i + 1) (k b) = q :: (os.set i (k b) ++ ts) by rw [List.set_cons_succ, List.set_append_left _ _ hlt]] at hst
      exact .step h2 hst

end

end Mqtt
