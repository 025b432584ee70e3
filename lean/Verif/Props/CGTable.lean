import Verif.Model.CGTable
import Verif.Props.TimerEvents

/-!
# Property C160: the benchmark of the conjugate gradients shows the numbers of their iterations
-/

set_option autoImplicit false
set_option linter.all false

namespace Caribou

open Spec

theorem top_skip (l r : List TimerEvent) : ∀ (s t : List String) (d : ℕ), openSteps s l = some t →
    topEvents (d + 1 + s.length) (l ++ r) = topEvents (d + 1 + t.length) r := by
  induction l with
  | nil => intro s t d h; simp only [openSteps, Option.some.injEq] at h; subst h; rfl
  | cons e l ih =>
    intro s t d h
    cases e with
    | opens n =>
      rw [← ih (n :: s) t d h]
      rw [show d + 1 + s.length = (d + s.length) + 1 by omega, show d + 1 + (n :: s).length = (d + s.length) + 2 by simp only [List.length_cons]; omega]
      rfl
    | value m n =>
      have h' : openSteps s l = some t := by cases s <;> exact h
      rw [← ih s t d h', show d + 1 + s.length = (d + s.length) + 1 by omega]
      rfl
    | closes n =>
      cases s with
      | nil => simp [openSteps] at h
      | cons m s =>
        simp only [openSteps] at h
        split_ifs at h
        rw [← ih s t d h, show d + 1 + (m :: s).length = (d + 1 + s.length) + 1 by simp only [List.length_cons]; omega]
        simp only [List.cons_append, topEvents, Nat.add_sub_cancel]

theorem top_scope (name : String) (a r : List TimerEvent) (ha : WellNested a) :
    topEvents 0 (TimerEvent.opens name :: (a ++ [TimerEvent.closes name]) ++ r) = TimerEvent.opens name :: topEvents 0 r := by
  have := top_skip a ([TimerEvent.closes name] ++ r) [] [] 0 (ha [])
  simp only [List.length_nil, Nat.add_zero, Nat.zero_add] at this
  rw [List.cons_append, List.append_assoc, topEvents, this]
  rfl

theorem body_inside (name : String) (l r : List TimerEvent) : ∀ (s t : List String), openSteps s l = some t →
    recordBody name (1 + s.length) true (l ++ r) = l ++ recordBody name (1 + t.length) true r := by
  induction l with
  | nil => intro s t h; simp only [openSteps, Option.some.injEq] at h; subst h; rfl
  | cons e l ih =>
    intro s t h
    cases e with
    | opens n =>
      rw [List.cons_append, List.cons_append, ← ih (n :: s) t h, show 1 + s.length = s.length + 1 by omega,
        show 1 + (n :: s).length = s.length + 2 by simp only [List.length_cons]; omega]
      rfl
    | value m n =>
      have h' : openSteps s l = some t := by cases s <;> exact h
      rw [List.cons_append, List.cons_append, ← ih s t h', show 1 + s.length = s.length + 1 by omega]
      rfl
    | closes n =>
      cases s with
      | nil => simp [openSteps] at h
      | cons m s =>
        simp only [openSteps] at h
        split_ifs at h
        rw [List.cons_append, List.cons_append, ← ih s t h, show 1 + (m :: s).length = s.length + 2 by simp only [List.length_cons]; omega,
          show 1 + s.length = s.length + 1 by omega]
        rfl

theorem body_scope (name : String) (a : List TimerEvent) (ha : WellNested a) : recordBody name 0 false (scopedTimer name a) = a := by
  have := body_inside name a [TimerEvent.closes name] [] [] (ha [])
  simp only [List.length_nil, Nat.add_zero] at this
  simp only [scopedTimer, recordBody, decide_true, this, List.append_nil]

theorem top_loop (small : ℕ → Bool) (inner : ℕ → List TimerEvent) (hin : ∀ k, WellNested (inner k)) (left : ℕ) : ∀ n,
    ∃ k, (cgTimerLoop small inner n left).2 = n + k ∧ ∀ r, topEvents 0 ((cgTimerLoop small inner n left).1 ++ r) =
      List.replicate k (TimerEvent.opens "cg_iteration") ++ topEvents 0 r := by
  induction left with
  | zero => intro n; exact ⟨0, rfl, fun r => rfl⟩
  | succ left ih =>
    intro n
    simp only [cgTimerLoop]
    split_ifs with hs
    · exact ⟨1, rfl, fun r => top_scope "cg_iteration" (inner n) r (hin n)⟩
    · obtain ⟨k, h1, h2⟩ := ih (n + 1)
      refine ⟨k + 1, by simp only; omega, fun r => ?_⟩
      simp only
      rw [List.append_assoc, top_scope "cg_iteration" (inner n) _ (hin n), h2 r]
      rfl

/-- What is directly in the record of a call of the conjugate gradient. -/
theorem top_cg (w : ℕ) (small : ℕ → Bool) (inner : ℕ → List TimerEvent) (maxIterations : ℕ) (hin : ∀ k, Foreign ["cg_iteration"] (inner k)) :
    ∃ n, topEvents 0 (cgTimer w small inner maxIterations) =
      List.replicate (timesOpened "cg_iteration" (cgTimer w small inner maxIterations)) (TimerEvent.opens "cg_iteration") ++
        [TimerEvent.value "nb_iterations" n] ∧ lastValue "nb_iterations" (cgTimer w small inner maxIterations) = some n := by
  unfold cgTimer
  split_ifs with hs
  · exact ⟨_, rfl, by simp [lastValue]⟩
  · obtain ⟨k, h1, h2⟩ := top_loop small inner (fun k => (hin k).1) maxIterations 0
    obtain ⟨-, i2, -⟩ := cgLoop_timer small inner hin maxIterations 0
    refine ⟨_, ?_, lastValue_append "nb_iterations" _ (unsignedSucc w (unsignedPred w (cgTimerLoop small inner 0 maxIterations).2)) (by simp [lastValue]) _⟩
    simp only
    rw [h2, times_append, times_value, times_nil, show timesOpened "cg_iteration" (cgTimerLoop small inner 0 maxIterations).1 + 0 = k by omega]
    rfl

theorem topValue_cg (k n : ℕ) : topValue "nb_iterations" (List.replicate k (TimerEvent.opens "cg_iteration") ++ [TimerEvent.value "nb_iterations" n]) =
    some n := by
  simp [topValue]

theorem top_append (l r : List TimerEvent) : ∀ (s t : List String), openSteps s l = some t →
    topEvents s.length (l ++ r) = topEvents s.length l ++ topEvents t.length r := by
  induction l with
  | nil => intro s t h; simp only [openSteps, Option.some.injEq] at h; subst h; simp [topEvents]
  | cons e l ih =>
    intro s t h
    cases e with
    | opens n =>
      have := ih (n :: s) t h
      cases s with
      | nil => simpa [topEvents] using this
      | cons m s => simpa [topEvents] using this
    | value m n =>
      have h' : openSteps s l = some t := by cases s <;> exact h
      have := ih s t h'
      cases s with
      | nil => simpa [topEvents] using this
      | cons m s => simpa [topEvents] using this
    | closes n =>
      cases s with
      | nil => simp [openSteps] at h
      | cons m s =>
        simp only [openSteps] at h
        split_ifs at h
        simpa [topEvents] using ih s t h

theorem top_count (e : TimerEvent) (l : List TimerEvent) : ∀ d, (topEvents d l).count e ≤ l.count e := by
  induction l with
  | nil => intro d; simp [topEvents]
  | cons a l ih =>
    intro d
    have hc : l.count e ≤ (a :: l).count e := List.count_le_count_cons
    have hk : ∀ d', (a :: topEvents d' l).count e ≤ (a :: l).count e := fun d' => by
      rw [List.count_cons, List.count_cons]
      exact Nat.add_le_add_right (ih d') _
    cases a with
    | opens n => cases d with
      | zero => exact hk 1
      | succ d => exact (ih (d + 2)).trans hc
    | closes n => exact (ih (d - 1)).trans (by cases d <;> exact hc)
    | value m n => cases d with
      | zero => exact hk 0
      | succ d => exact (ih (d + 1)).trans hc

/-- What is directly in the record, if the force fields are called before. -/
theorem top_first (w : ℕ) (small : ℕ → Bool) (first : List TimerEvent) (inner : ℕ → List TimerEvent) (maxIterations : ℕ)
    (hfirst : Foreign ["cg_iteration"] first) (hin : ∀ k, Foreign ["cg_iteration"] (inner k)) :
    ∃ n, lastValue "nb_iterations" (cgTimer w small inner maxIterations) = some n ∧
      topValue "nb_iterations" (topEvents 0 (first ++ cgTimer w small inner maxIterations)) = some n ∧
      (topEvents 0 (first ++ cgTimer w small inner maxIterations)).count (.opens "cg_iteration") =
        timesOpened "cg_iteration" (cgTimer w small inner maxIterations) := by
  obtain ⟨n, htop, hlast⟩ := top_cg w small inner maxIterations hin
  have h0 : (topEvents 0 first).count (.opens "cg_iteration") = 0 :=
    Nat.le_zero.1 ((top_count _ first 0).trans (hfirst.2 "cg_iteration" (by simp)).le)
  have ha := top_append first (cgTimer w small inner maxIterations) [] [] (hfirst.1 [])
  simp only [List.length_nil] at ha
  refine ⟨n, hlast, ?_, ?_⟩
  · rw [ha, htop]
    simp [topValue]
  · rw [ha, htop, List.count_append, List.count_append, List.count_replicate_self, h0]
    simp

theorem cell_none (other : Option TableCell) (a : List TimerEvent) (ha : WellNested a) :
    cgCountCell other (scopedTimer "ConjugateGradient::solve" a) =
      match topValue "nb_iterations" (topEvents 0 a) with
      | none => none
      | some n => if (topEvents 0 a).count (.opens "cg_iteration") = 1 then none else some (.number n) := by
  have htop : topEvents 0 (scopedTimer "ConjugateGradient::solve" a) = [TimerEvent.opens "ConjugateGradient::solve"] := by
    have := top_scope "ConjugateGradient::solve" a [] ha
    rwa [List.append_nil] at this
  have h1 : keyIn "PCGLinearSolver::solve" [TimerEvent.opens "ConjugateGradient::solve"] = false := by decide
  have h2 : keyIn "CG-Solve" [TimerEvent.opens "ConjugateGradient::solve"] = false := by decide
  have h3 : keyIn "ConjugateGradient::solve" [TimerEvent.opens "ConjugateGradient::solve"] = true := by decide
  simp only [cgCountCell, htop, h1, h2, h3, Bool.or_self, Bool.false_eq_true, if_false, if_true, body_scope _ a ha]
  cases topValue "nb_iterations" (topEvents 0 a) <;> rfl

/-- **C160** (partial): with the legacy static solver and the method `None`, if the conjugate gradient makes several iterations, the cell shows how
many it made.  Missing: `StaticODESolver`, which the scene of the benchmark uses, preconditioners, single iterations (`C160_violated`),
systems which are solved already (`C156_cg`). -/
theorem C160_partial (other : Option TableCell) (w : ℕ) (small : ℕ → Bool) (first : List TimerEvent) (inner : ℕ → List TimerEvent) (maxIterations : ℕ) (hw : maxIterations < w)
    (hw1 : 1 < w) (hfirst : Foreign ["cg_iteration"] first) (hin : ∀ k, Foreign ["cg_iteration"] (inner k))
    (hmany : 2 ≤ timesOpened "cg_iteration" (solveEvents .legacyNone w small first inner maxIterations)) :
    cgCountCell other (solveEvents .legacyNone w small first inner maxIterations) =
      some (.number (timesOpened "cg_iteration" (solveEvents .legacyNone w small first inner maxIterations))) := by
  obtain ⟨hwn, hiff, hzero⟩ := C156_cg w small inner maxIterations hw hw1 hin
  have htimes : timesOpened "cg_iteration" (solveEvents .legacyNone w small first inner maxIterations) =
      timesOpened "cg_iteration" (cgTimer w small inner maxIterations) := by
    simp only [solveEvents, scopedTimer, times_opens, times_append, times_closes, times_nil, hfirst.2 "cg_iteration" (by simp)]
    simp
  obtain ⟨n, hlast, hval, hcount⟩ := top_first w small first inner maxIterations hfirst hin
  have hs : small 0 = false := by
    by_contra h
    have := (hzero (by simpa using h)).2
    omega
  have hn : n = timesOpened "cg_iteration" (cgTimer w small inner maxIterations) := by
    have := hiff.2 hs
    rw [hlast] at this
    exact Option.some.inj this
  rw [htimes] at hmany ⊢
  simp only [solveEvents]
  rw [cell_none other _ (wn_append hfirst.1 hwn), hval]
  simp only [hcount]
  rw [if_neg (by omega), hn]

/-- **C160 is violated.** With `StaticODESolver`, which the scene of the benchmark uses, the cell is a dash for every method and every number of
iterations; so it is with the legacy solver and a preconditioner.  With the legacy solver and the method `None`, a solve in a single
iteration ends the script with an exception. -/
theorem C160_violated (other : Option TableCell) (w : ℕ) (small : ℕ → Bool) (first : List TimerEvent) (inner : ℕ → List TimerEvent) (maxIterations : ℕ)
    (hfirst : Foreign ["cg_iteration"] first) (hin : ∀ k, Foreign ["cg_iteration"] (inner k)) :
    cgCountCell other (solveEvents .newton w small first inner maxIterations) = some .dash ∧
    cgCountCell other (solveEvents .legacyOther w small first inner maxIterations) = some .dash ∧
    (timesOpened "cg_iteration" (solveEvents .legacyNone w small first inner maxIterations) = 1 →
      cgCountCell other (solveEvents .legacyNone w small first inner maxIterations) = none) := by
  have hnil : ∀ k : ℕ, Foreign ["cg_iteration"] ((fun _ => [] : ℕ → List TimerEvent) k) := fun _ => ⟨wn_nil, fun s _ => times_nil s⟩
  have hwn : ∀ inner : ℕ → List TimerEvent, (∀ k, Foreign ["cg_iteration"] (inner k)) → WellNested (cgTimer w small inner maxIterations) := by
    intro inner hin
    obtain ⟨i1, -, -⟩ := cgLoop_timer small inner hin maxIterations 0
    unfold cgTimer
    split_ifs
    · exact wn_value _ _
    · exact wn_append i1 (wn_value _ _)
  refine ⟨?_, ?_, fun h => ?_⟩
  · obtain ⟨n, htop, -⟩ := top_cg w small (fun _ => []) maxIterations hnil
    have hkey : ∀ name k, name ≠ "cg_iteration" →
        keyIn name (List.replicate k (TimerEvent.opens "cg_iteration") ++ [TimerEvent.value "nb_iterations" n]) = false := by
      intro name k hne
      simp only [keyIn, decide_eq_false_iff_not, List.mem_append, List.mem_replicate, List.mem_singleton, reduceCtorEq, or_false, not_and]
      intro _ h
      exact hne (TimerEvent.opens.inj h)
    have hcount : ∀ k, (List.replicate k (TimerEvent.opens "cg_iteration") ++ [TimerEvent.value "nb_iterations" n]).count
        (TimerEvent.opens "HyperelasticForcefield::addDForce") = 0 := by
      intro k
      rw [List.count_eq_zero]
      have := hkey "HyperelasticForcefield::addDForce" k (by decide)
      simpa [keyIn] using this
    simp only [solveEvents, cgCountCell, htop, hkey _ _ (show "PCGLinearSolver::solve" ≠ "cg_iteration" by decide),
      hkey _ _ (show "CG-Solve" ≠ "cg_iteration" by decide), hkey _ _ (show "ConjugateGradient::solve" ≠ "cg_iteration" by decide), hcount,
      Bool.or_self, Bool.false_eq_true, if_false]
    rfl
  · have htop : topEvents 0 (scopedTimer "EigenSolver::solve" (cgTimer w small (fun _ => []) maxIterations)) = [TimerEvent.opens "EigenSolver::solve"] := by
      have := top_scope "EigenSolver::solve" _ [] (hwn _ hnil)
      rwa [List.append_nil] at this
    simp only [solveEvents, cgCountCell, htop]
    rfl
  · obtain ⟨n, -, hval, hcount⟩ := top_first w small first inner maxIterations hfirst hin
    have h1 : timesOpened "cg_iteration" (cgTimer w small inner maxIterations) = 1 := by
      rw [← h]
      simp only [solveEvents, scopedTimer, times_opens, times_append, times_closes, times_nil, hfirst.2 "cg_iteration" (by simp)]
      simp
    simp only [solveEvents]
    rw [cell_none other _ (wn_append hfirst.1 (hwn inner hin)), hval]
    simp only [hcount, h1, if_true]

theorem cg_nested (w : ℕ) (small : ℕ → Bool) (inner : ℕ → List TimerEvent) (maxIterations : ℕ) (hin : ∀ k, Foreign ["cg_iteration"] (inner k)) :
    WellNested (cgTimer w small inner maxIterations) := by
  obtain ⟨i1, -, -⟩ := cgLoop_timer small inner hin maxIterations 0
  unfold cgTimer
  split_ifs
  · exact wn_value _ _
  · exact wn_append i1 (wn_value _ _)

theorem nil_foreign (k : ℕ) : Foreign ["cg_iteration"] ((fun _ => [] : ℕ → List TimerEvent) k) := ⟨wn_nil, fun s _ => times_nil s⟩

theorem key_cg (name : String) (k n : ℕ) (hne : name ≠ "cg_iteration") :
    keyIn name (List.replicate k (TimerEvent.opens "cg_iteration") ++ [TimerEvent.value "nb_iterations" n]) = false := by
  simp only [keyIn, decide_eq_false_iff_not, List.mem_append, List.mem_replicate, List.mem_singleton, reduceCtorEq, or_false, not_and]
  intro _ h
  exact hne (TimerEvent.opens.inj h)

theorem scene_newton (other : Option TableCell) (w : ℕ) (small : ℕ → Bool) (first : List TimerEvent) (inner : ℕ → List TimerEvent) (maxIterations : ℕ) :
    ∃ n, lastValue "nb_iterations" (cgTimer w small (fun _ => []) maxIterations) = some n ∧
      sceneCountCell other (solveEvents .newton w small first inner maxIterations) =
        if timesOpened "cg_iteration" (cgTimer w small (fun _ => []) maxIterations) = 1 then none else some (.number n) := by
  obtain ⟨n, htop, hlast⟩ := top_cg w small (fun _ => []) maxIterations nil_foreign
  refine ⟨n, hlast, ?_⟩
  simp only [solveEvents, sceneCountCell, htop, key_cg _ _ n (show "PCGLinearSolver::solve" ≠ "cg_iteration" by decide),
    key_cg _ _ n (show "CG-Solve" ≠ "cg_iteration" by decide), key_cg _ _ n (show "ConjugateGradient::solve" ≠ "cg_iteration" by decide),
    Bool.or_self, Bool.false_eq_true, if_false, topValue_cg, List.count_append, List.count_replicate_self]
  simp

theorem scene_none (other : Option TableCell) (w : ℕ) (small : ℕ → Bool) (first : List TimerEvent) (inner : ℕ → List TimerEvent) (maxIterations : ℕ)
    (hfirst : Foreign ["cg_iteration"] first) (hin : ∀ k, Foreign ["cg_iteration"] (inner k)) :
    ∃ n, lastValue "nb_iterations" (cgTimer w small inner maxIterations) = some n ∧
      sceneCountCell other (solveEvents .legacyNone w small first inner maxIterations) =
        if timesOpened "cg_iteration" (cgTimer w small inner maxIterations) = 1 then none else some (.number n) := by
  obtain ⟨n, hlast, hval, hcount⟩ := top_first w small first inner maxIterations hfirst hin
  refine ⟨n, hlast, ?_⟩
  have hwn := wn_append hfirst.1 (cg_nested w small inner maxIterations hin)
  have hscope : topEvents 0 (scopedTimer "ConjugateGradient::solve" (first ++ cgTimer w small inner maxIterations)) =
      [TimerEvent.opens "ConjugateGradient::solve"] := by
    have := top_scope "ConjugateGradient::solve" _ [] hwn
    rwa [List.append_nil] at this
  have h1 : keyIn "PCGLinearSolver::solve" [TimerEvent.opens "ConjugateGradient::solve"] = false := by decide
  have h2 : keyIn "CG-Solve" [TimerEvent.opens "ConjugateGradient::solve"] = false := by decide
  have h3 : keyIn "ConjugateGradient::solve" [TimerEvent.opens "ConjugateGradient::solve"] = true := by decide
  simp only [solveEvents, sceneCountCell, hscope, h1, h2, h3, Bool.or_self, Bool.false_eq_true, if_false, if_true, body_scope _ _ hwn, hval, hcount]

theorem none_times (w : ℕ) (small : ℕ → Bool) (first : List TimerEvent) (inner : ℕ → List TimerEvent) (maxIterations : ℕ)
    (hfirst : Foreign ["cg_iteration"] first) :
    timesOpened "cg_iteration" (solveEvents .legacyNone w small first inner maxIterations) =
      timesOpened "cg_iteration" (cgTimer w small inner maxIterations) := by
  simp only [solveEvents, scopedTimer, times_opens, times_append, times_closes, times_nil, hfirst.2 "cg_iteration" (by simp)]
  simp

/-- **C161** (partial): with `StaticODESolver` and every method, and with the legacy static solver and the method `None`, if the conjugate gradient
makes several iterations, the cell of the scene shows how many it made.  Missing: single iterations, systems which are solved already,
the legacy solver with a preconditioner (`C161_violated`). -/
theorem C161_partial (other : Option TableCell) (kind : CGSolveKind) (hkind : kind ≠ .legacyOther) (w : ℕ) (small : ℕ → Bool)
    (first : List TimerEvent) (inner : ℕ → List TimerEvent) (maxIterations : ℕ) (hw : maxIterations < w) (hw1 : 1 < w) (hfirst : Foreign ["cg_iteration"] first) (hin : ∀ k, Foreign ["cg_iteration"] (inner k))
    (hmany : 2 ≤ timesOpened "cg_iteration" (solveEvents kind w small first inner maxIterations)) :
    sceneCountCell other (solveEvents kind w small first inner maxIterations) =
      some (.number (timesOpened "cg_iteration" (solveEvents kind w small first inner maxIterations))) := by
  have key : ∀ inner : ℕ → List TimerEvent, (∀ k, Foreign ["cg_iteration"] (inner k)) →
      2 ≤ timesOpened "cg_iteration" (cgTimer w small inner maxIterations) → ∀ n,
      lastValue "nb_iterations" (cgTimer w small inner maxIterations) = some n → n = timesOpened "cg_iteration" (cgTimer w small inner maxIterations) := by
    intro inner hin h2 n hn
    obtain ⟨-, hiff, hzero⟩ := C156_cg w small inner maxIterations hw hw1 hin
    have hs : small 0 = false := by
      by_contra h
      have := (hzero (by simpa using h)).2
      omega
    have := hiff.2 hs
    rw [hn] at this
    exact Option.some.inj this
  cases kind with
  | newton =>
    obtain ⟨n, h1, h2⟩ := scene_newton other w small first inner maxIterations
    have hn := key _ nil_foreign hmany n h1
    rw [h2, if_neg (by change 2 ≤ timesOpened "cg_iteration" (cgTimer w small (fun _ => []) maxIterations) at hmany; omega), hn]
    rfl
  | legacyNone =>
    obtain ⟨n, h1, h2⟩ := scene_none other w small first inner maxIterations hfirst hin
    have ht : timesOpened "cg_iteration" (solveEvents .legacyNone w small first inner maxIterations) =
        timesOpened "cg_iteration" (cgTimer w small inner maxIterations) := none_times w small first inner maxIterations hfirst
    rw [ht] at hmany ⊢
    rw [h2, if_neg (by omega), key _ hin hmany n h1]
  | legacyOther => exact absurd rfl hkind

/-- **C161 is violated.** With `StaticODESolver`, which the scene uses with a preconditioner, and with the legacy solver, which it uses without one
(`conjugate_gradient_benchmark.py:204-207`), a solve in a single iteration ends the script with an exception, and a solve without iterations is shown as one
iteration; with the legacy solver and a preconditioner the cell would always be a dash. -/
theorem C161_violated (other : Option TableCell) (w : ℕ) (small : ℕ → Bool) (first : List TimerEvent) (inner : ℕ → List TimerEvent) (maxIterations : ℕ) (hw : maxIterations < w)
    (hw1 : 1 < w) (hfirst : Foreign ["cg_iteration"] first) (hin : ∀ k, Foreign ["cg_iteration"] (inner k)) :
    (∀ kind : CGSolveKind, kind ≠ .legacyOther →
      (timesOpened "cg_iteration" (solveEvents kind w small first inner maxIterations) = 1 →
        sceneCountCell other (solveEvents kind w small first inner maxIterations) = none) ∧
      (small 0 = true → timesOpened "cg_iteration" (solveEvents kind w small first inner maxIterations) = 0 ∧
        sceneCountCell other (solveEvents kind w small first inner maxIterations) = some (.number 1))) ∧
    sceneCountCell other (solveEvents .legacyOther w small first inner maxIterations) = some .dash := by
  refine ⟨fun kind hkind => ?_, ?_⟩
  · have key : ∀ (inner' : ℕ → List TimerEvent) (c : Option TableCell), (∀ k, Foreign ["cg_iteration"] (inner' k)) →
        (∃ n, lastValue "nb_iterations" (cgTimer w small inner' maxIterations) = some n ∧
          c = if timesOpened "cg_iteration" (cgTimer w small inner' maxIterations) = 1 then none else some (.number n)) →
        (timesOpened "cg_iteration" (cgTimer w small inner' maxIterations) = 1 → c = none) ∧
        (small 0 = true → timesOpened "cg_iteration" (cgTimer w small inner' maxIterations) = 0 ∧ c = some (.number 1)) := by
      rintro inner' c hin' ⟨n, h1, rfl⟩
      obtain ⟨-, -, hzero⟩ := C156_cg w small inner' maxIterations hw hw1 hin'
      refine ⟨fun h => if_pos h, fun h => ?_⟩
      obtain ⟨h3, h4⟩ := hzero h
      rw [h1] at h3
      refine ⟨h4, ?_⟩
      rw [if_neg (by rw [h4]; decide), Option.some.inj h3]
      rfl
    cases kind with
    | newton => exact key _ _ nil_foreign (scene_newton other w small first inner maxIterations)
    | legacyNone =>
      have ht : timesOpened "cg_iteration" (solveEvents .legacyNone w small first inner maxIterations) =
          timesOpened "cg_iteration" (cgTimer w small inner maxIterations) := none_times w small first inner maxIterations hfirst
      rw [ht]
      exact key _ _ hin (scene_none other w small first inner maxIterations hfirst hin)
    | legacyOther => exact absurd rfl hkind
  · have htop : topEvents 0 (scopedTimer "EigenSolver::solve" (cgTimer w small (fun _ => []) maxIterations)) = [TimerEvent.opens "EigenSolver::solve"] := by
      have := top_scope "EigenSolver::solve" _ [] (cg_nested w small _ maxIterations nil_foreign)
      rwa [List.append_nil] at this
    simp only [solveEvents, sceneCountCell, htop]
    rfl

/-- Three iterations in the scene. -/
example : sceneCountCell none (solveEvents .newton (2 ^ 32) (fun k => decide (k = 3)) [] (fun _ => []) 1000) = some (.number 3) ∧
    2 ≤ timesOpened "cg_iteration" (solveEvents .newton (2 ^ 32) (fun k => decide (k = 3)) [] (fun _ => []) 1000) := by
  decide +kernel

/-- One iteration in the scene. -/
example : timesOpened "cg_iteration" (solveEvents .newton (2 ^ 32) (fun k => decide (k = 1)) [] (fun _ => []) 1000) = 1 := by decide +kernel

/-- Three iterations, in each of which a force field is called. -/
example : cgCountCell none (solveEvents .legacyNone (2 ^ 32) (fun k => decide (k = 3))
    [.opens "HyperelasticForcefield::addDForce", .closes "HyperelasticForcefield::addDForce"]
    (fun _ => [.opens "HyperelasticForcefield::addDForce", .closes "HyperelasticForcefield::addDForce"]) 1000) = some (.number 3) := by
  decide +kernel

/-- The hypotheses of `C160_partial` for these calls. -/
example : 2 ≤ timesOpened "cg_iteration" (solveEvents .legacyNone (2 ^ 32) (fun k => decide (k = 3))
    [.opens "HyperelasticForcefield::addDForce", .closes "HyperelasticForcefield::addDForce"]
    (fun _ => [.opens "HyperelasticForcefield::addDForce", .closes "HyperelasticForcefield::addDForce"]) 1000) ∧
    Foreign ["cg_iteration"] [.opens "HyperelasticForcefield::addDForce", .closes "HyperelasticForcefield::addDForce"] := by
  refine ⟨by decide +kernel, wn_scope (a := []) _ wn_nil, fun s hs => ?_⟩
  simp only [List.mem_singleton] at hs
  subst hs
  decide

/-- A solve in one iteration. -/
example : timesOpened "cg_iteration" (solveEvents .legacyNone (2 ^ 32) (fun k => decide (k = 1)) [] (fun _ => []) 1000) = 1 := by decide +kernel

end Caribou
