import Verif.Spec.PyRecords
import Verif.Props.LegacyCG

/-!
# C153: records of the legacy static solver which a script has read
-/

set_option autoImplicit false
set_option linter.all false

namespace Caribou

open Spec Matrix

variable {R : Type*}

theorem pySolve_block_le (s : PyRecords R) (r : PyRun R) : s.block ≤ (pySolve s r).block := by
  unfold pySolve
  split
  · exact le_rfl
  · dsimp only; split_ifs <;> omega

theorem pyRuns_block_le (runs : List (PyRun R)) : ∀ s : PyRecords R, s.block ≤ (runs.foldl pySolve s).block := by
  induction runs with
  | nil => intro s; exact le_rfl
  | cons r rs ih => intro s; exact le_trans (pySolve_block_le s r) (ih _)

/-- **C153 (partial).** What a script has read of the durations and of the initial residual lasts, whatever the solver does afterwards.  Missing: the residuals and the records of the linear solver, see
`C153_shared` and `C153_violated`. -/
theorem C153_partial (s : PyRecords R) (runs : List (PyRun R)) :
    (Lasting s (pyGet s .iterationTimes) runs ∧ pyLook s (pyGet s .iterationTimes) = .ok (.integers s.times)) ∧
    Lasting s (pyGet s .squaredInitialResidual) runs ∧
    ∀ r, pyLook (pySolve s r) (pyGet (pySolve s r) .iterationTimes) = .ok (.integers r.times) ∧ pyLook (pySolve s r) (pyGet (pySolve s r) .squaredInitialResidual) = .ok (.number r.initial) := by
  refine ⟨⟨rfl, rfl⟩, ?_, fun r => ⟨?_, ?_⟩⟩
  · unfold Lasting pyGet
    cases s.initial <;> rfl
  · simp only [pyGet, pyLook, pySolve]; split <;> rfl
  · simp only [pySolve]; split <;> rfl

/-- **C153**, the vectors of numbers: what was read shows the records of the last call, never those of the call after which it was read; it lasts exactly if they are the same. -/
theorem C153_shared (s : PyRecords R) (runs : List (PyRun R)) :
    (Lasting s (pyGet s .squaredResiduals) runs ↔ (runs.foldl pySolve s).residuals = s.residuals) ∧
    (Lasting s (pyGet s .linearRhs) runs ↔ (runs.foldl pySolve s).rhs = s.rhs) ∧
    (Lasting s (pyGet s .linearResiduals) runs ↔ (runs.foldl pySolve s).linear = s.linear) ∧
    (∀ r, pyLook ((runs ++ [r]).foldl pySolve s) (pyGet s .squaredResiduals) = .ok (.numbers r.residuals)) ∧
    (∀ r l b, r.linear = some (l, b) →
      pyLook ((runs ++ [r]).foldl pySolve s) (pyGet s .linearResiduals) = .ok (.lists l) ∧ pyLook ((runs ++ [r]).foldl pySolve s) (pyGet s .linearRhs) = .ok (.numbers b)) ∧
    (∀ r, r.linear = none →
      pyLook ((runs ++ [r]).foldl pySolve s) (pyGet s .linearResiduals) = pyLook (runs.foldl pySolve s) (pyGet s .linearResiduals)) := by
  refine ⟨?_, ?_, ?_, fun r => ?_, fun r l b h => ?_, fun r h => ?_⟩
  · simp [Lasting, pyGet, pyLook]
  · simp [Lasting, pyGet, pyLook]
  · simp [Lasting, pyGet, pyLook]
  · rw [List.foldl_append]
    simp only [List.foldl_cons, List.foldl_nil, pyGet, pyLook, pySolve]
    split <;> rfl
  · rw [List.foldl_append]
    simp only [List.foldl_cons, List.foldl_nil, pyGet, pyLook, pySolve, h]
    exact ⟨trivial, trivial⟩
  · rw [List.foldl_append]
    simp only [List.foldl_cons, List.foldl_nil, pyGet, pyLook, pySolve, h]

/-- **C153**, the residuals of one linear solve: they can be read right after they were taken.  After another call with a linear solver of the plugin they are those of this call if it made enough
iterations and did not allow more than all calls before; otherwise the script reads an object which does not exist.  Once the limit was exceeded this remains so. -/
theorem C153_entry (s : PyRecords R) (i : ℕ) (v : PyValue R) (hv : pyItem s i = some v) (r : PyRun R) (l : List (List R)) (b : List R) (hl : r.linear = some (l, b)) :
    (∃ h : i < s.linear.length, pyLook s v = .ok (.numbers s.linear[i])) ∧
    (∀ h : i < l.length, r.limit ≤ s.capacity → pyLook (pySolve s r) v = .ok (.numbers l[i])) ∧
    (l.length ≤ i → pyLook (pySolve s r) v = .undefined) ∧
    (s.capacity < r.limit → ∀ runs : List (PyRun R), pyLook (runs.foldl pySolve (pySolve s r)) v = .undefined) := by
  unfold pyItem at hv
  by_cases hi : i < s.linear.length
  · rw [if_pos hi] at hv
    obtain rfl := Option.some.inj hv
    refine ⟨⟨hi, ?_⟩, fun h hc => ?_, fun h => ?_, fun hc runs => ?_⟩
    · simp [pyLook, List.getElem?_eq_getElem hi]
    · simp [pyLook, pySolve, hl, Nat.not_lt.2 hc, List.getElem?_eq_getElem h]
    · simp [pyLook, pySolve, hl, List.getElem?_eq_none h]
    · have h1 := pyRuns_block_le runs (pySolve s r)
      have h2 : (pySolve s r).block = s.block + 1 := by simp [pySolve, hl, hc]
      simp only [pyLook]
      rw [if_neg (by omega)]
  · rw [if_neg hi] at hv
    exact absurd hv (by simp)

/-- What a script appends to the residuals is seen in the solver, until the next call, which does not depend on it. -/
theorem C153_append (s : PyRecords R) (x : R) (v : PyValue R) (r : PyRun R) :
    pyLook (pyAppend s x) (pyGet s .squaredResiduals) = .ok (.numbers (s.residuals ++ [x])) ∧ pySolve (pyAppend s x) r = pySolve s r := by
  refine ⟨rfl, ?_⟩
  unfold pySolve pyAppend
  split <;> rfl

variable {K ι κ : Type*} [Field K] [LinearOrder K] [IsStrictOrderedRing K] [Fintype ι] [Fintype κ] [DecidableEq ι]

theorem cgl_length (p : LegacyParams K) (S : StaticScene K ι κ) (run : StaticWorld K ι κ → (ι → K) → (ι → K) → CGResult K ι) (i : Option K) (fuel : ℕ) :
    ∀ s e, (legacyCGLoop p S run i fuel s e).2.length ≤ e.length + fuel := by
  induction fuel with
  | zero => intro s e; exact le_rfl
  | succ k ih =>
    intro s e
    cases hc : s.converged with
    | true => rw [legacyCGLoop, hc]; simp
    | false =>
      rw [cgl_next p S run i k s e hc]
      split_ifs
      · simp
      · refine le_trans (ih _ _) ?_
        simp; omega

/-- **C153**, no vector grows in a call: the calls record at most as many entries as they reserve, so that the entries of the vector of vectors stay where they are until the next call. -/
theorem C153_reserved (s : PyRecords (Option K)) (p : LegacyParams K) (S : StaticScene K ι κ) (run : StaticWorld K ι κ → (ι → K) → (ι → K) → CGResult K ι) (dx x : ι → K) (times : List ℕ) :
    WithinReserve (pySolve s (pyRunOf p S run dx x times)) := by
  have h := cgl_length p S run ((legacyCGEnv S run).norm2 ((legacyCGEnv S run).force (some ⟨x, S.map x, 0⟩))) p.iterations
    (legacyStart p (legacyCGEnv S run) (some dx) (some ⟨x, S.map x, 0⟩)) []
  unfold WithinReserve pySolve pyRunOf
  simp only [List.length_map]
  refine le_trans ?_ (le_max_right _ _)
  simpa [legacyCGSolve] using h

/-- A solver which has not solved anything. -/
def freshRecords : PyRecords (Option ℚ) := ⟨none, [], [], [], [], 0, 0⟩

/-- The first step of the chain of two masses, from rest. -/
def chainFirst : PyRun (Option ℚ) := pyRunOf legacyDefaults chainOfTwo (legacyNone chainOfTwo (cgLimit 2)) 0 0 [5, 7]

/-- The second step, from where the first one ends. -/
def chainSecond : PyRun (Option ℚ) := pyRunOf legacyDefaults chainOfTwo (legacyNone chainOfTwo (cgLimit 2)) 0 ![2 / 3, 1 / 3] []

/-- Violation of C153: before the first call the initial residual has no value. -/
theorem C153_early_violated : pyLook freshRecords (pyGet freshRecords .squaredInitialResidual) = .undefined := rfl

/-- Violation of C153: a script reads the residuals after the first step.  The second step starts in balance and makes no iteration: the residuals of the first step are gone, and reading the residuals of
its first linear solve is undefined. -/
theorem C153_violated :
    (pyLook (pySolve freshRecords chainFirst) (pyGet (pySolve freshRecords chainFirst) .squaredResiduals) = .ok (.numbers [some 0, some 0]) ∧
      pyLook (pySolve (pySolve freshRecords chainFirst) chainSecond) (pyGet (pySolve freshRecords chainFirst) .squaredResiduals) = .ok (.numbers []) ∧
      ¬Lasting (pySolve freshRecords chainFirst) (pyGet (pySolve freshRecords chainFirst) .squaredResiduals) [chainSecond]) ∧
    ∃ v, pyItem (pySolve freshRecords chainFirst) 0 = some v ∧ pyLook (pySolve freshRecords chainFirst) v = .ok (.numbers [some (1 / 4), some 0]) ∧
      pyLook (pySolve (pySolve freshRecords chainFirst) chainSecond) v = .undefined := by
  have h1 : chainFirst.residuals = [some 0, some 0] := by decide +kernel
  have h2 : chainSecond.residuals = [] := by decide +kernel
  have h3 : (pySolve freshRecords chainFirst).linear = [[some (1 / 4), some 0], []] := by decide +kernel
  have h4 : (pySolve freshRecords chainFirst).residuals = [some 0, some 0] := by decide +kernel
  have h5 : (pySolve (pySolve freshRecords chainFirst) chainSecond).residuals = [] := by decide +kernel
  have h6 : (pySolve (pySolve freshRecords chainFirst) chainSecond).linear = [] := by decide +kernel
  refine ⟨⟨?_, ?_, ?_⟩, .entry (pySolve freshRecords chainFirst).block 0, ?_, ?_, ?_⟩
  · simp only [pyGet, pyLook, h4]
  · simp only [pyGet, pyLook, h5]
  · rw [(C153_shared _ _).1]
    simp only [List.foldl_cons, List.foldl_nil, h4, h5]
    exact fun h => by cases h
  · simp [pyItem, h3]
  · simp [pyLook, h3]
  · simp [pyLook, h6]

/-- The hypotheses of `C153_entry`, for the second step of the chain: enough reserved, but no iteration. -/
example : ∃ v, pyItem (pySolve freshRecords chainFirst) 0 = some v ∧ chainSecond.linear = some ([], []) ∧ chainSecond.limit ≤ (pySolve freshRecords chainFirst).capacity := by
  refine ⟨.entry (pySolve freshRecords chainFirst).block 0, if_pos (by decide +kernel), by decide +kernel, by decide +kernel⟩

/-- With a greater limit the entry is gone in any case. -/
example (runs : List (PyRun (Option ℚ))) (v : PyValue (Option ℚ)) (hv : pyItem (pySolve freshRecords chainFirst) 0 = some v) :
    pyLook (runs.foldl pySolve (pySolve (pySolve freshRecords chainFirst) ⟨3, some 1, [], [some 1], some ([[some 1]], [some 1])⟩)) v = .undefined :=
  (C153_entry _ 0 v hv ⟨3, some 1, [], [some 1], some ([[some 1]], [some 1])⟩ [[some 1]] [some 1] rfl).2.2.2 (by decide +kernel) runs

end Caribou
