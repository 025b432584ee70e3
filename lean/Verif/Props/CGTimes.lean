import Verif.Spec.CGTimes
import Mathlib.Algebra.Order.Field.Rat
import Mathlib.Tactic.Linarith
import Mathlib.Tactic.FieldSimp
import Mathlib.Tactic.Ring

/-!
# Property C162: the durations shown by the scene of the conjugate gradients
-/

set_option autoImplicit false
set_option linter.all false

namespace Caribou

open Spec

mutual
theorem total_nonneg : ∀ s : TimedStep, Measured s → 0 ≤ s.total
  | .mk _ _ own l, h => by
    simp only [Measured] at h
    simp only [TimedStep.total]
    have := totals_nonneg l h.2
    linarith [h.1]
theorem totals_nonneg : ∀ l : List TimedStep, AllMeasured l → 0 ≤ TimedStep.totals l
  | [], _ => by simp [TimedStep.totals]
  | s :: l, h => by
    simp only [AllMeasured] at h
    simp only [TimedStep.totals]
    have h1 := total_nonneg s h.1
    have h2 := totals_nonneg l h.2
    linarith
end

theorem allMeasured_mem (l : List TimedStep) (h : AllMeasured l) (c : TimedStep) (hc : c ∈ l) : Measured c := by
  induction l with
  | nil => cases hc
  | cons s l ih =>
    simp only [AllMeasured] at h
    rcases List.mem_cons.1 hc with rfl | hc
    · exact h.1
    · exact ih h.2 hc

theorem totals_filter (p : TimedStep → Bool) (l : List TimedStep) (h : AllMeasured l) :
    TimedStep.totals (l.filter p) ≤ TimedStep.totals l := by
  induction l with
  | nil => simp
  | cons s l ih =>
    simp only [AllMeasured] at h
    have h1 := total_nonneg s h.1
    have h2 := ih h.2
    rw [List.filter_cons]
    split_ifs
    · simp only [TimedStep.totals]; linarith
    · simp only [TimedStep.totals]; linarith

theorem named_total (n : String) (s : TimedStep) (h : Measured s) : TimedStep.totals (s.named n) ≤ s.total := by
  cases s with
  | mk a v own l =>
    simp only [Measured] at h
    have := totals_filter (fun c => decide (c.name = n)) l h.2
    simp only [TimedStep.named, TimedStep.steps, TimedStep.total]
    linarith [h.1]

theorem named_one (n : String) (s c : TimedStep) (h : Measured s) (hc : s.named n = [c]) : Measured c ∧ c.total ≤ s.total := by
  have h1 := named_total n s h
  rw [hc] at h1
  refine ⟨?_, by simpa [TimedStep.totals] using h1⟩
  cases s with
  | mk a v own l =>
    simp only [Measured] at h
    refine allMeasured_mem l h.2 c ?_
    have : c ∈ (TimedStep.mk a v own l).named n := by rw [hc]; exact List.mem_singleton.2 rfl
    exact (List.mem_filter.1 this).1

theorem named_within (n : String) (s c : TimedStep) (hc : c ∈ s.named n) : Within c s :=
  .step _ _ _ (List.mem_filter.1 hc).1 (.refl c)

theorem within_trans {a b c : TimedStep} (h1 : Within a b) (h2 : Within b c) : Within a c := by
  induction h2 with
  | refl => exact h1
  | step d s hd h ih => exact .step _ _ _ hd ih

theorem sofa_total (solve c : TimedStep) (h : Measured solve) (hs : sofaInside solve = some (some c)) :
    Measured c ∧ c.total ≤ solve.total ∧ Within c solve := by
  unfold sofaInside at hs
  split at hs
  · rename_i d hd
    split_ifs at hs
    simp only [Option.some.injEq] at hs
    subst hs
    exact ⟨(named_one _ _ _ h hd).1, (named_one _ _ _ h hd).2, named_within _ _ _ (by rw [hd]; simp)⟩
  · cases hs
  · split at hs
    · simp only [Option.some.injEq] at hs
      subst hs
      exact ⟨h, le_rfl, .refl _⟩
    · rename_i d hd
      split_ifs at hs
      simp only [Option.some.injEq] at hs
      subst hs
      exact ⟨(named_one _ _ _ h hd).1, (named_one _ _ _ h hd).2, named_within _ _ _ (by rw [hd]; simp)⟩
    · split_ifs at hs
      simp at hs

theorem caribou_total (s c : TimedStep) (h : Measured s) (hs : caribouInside (some s) = some c) :
    Measured c ∧ c.total ≤ s.total ∧ Within c s := by
  simp only [caribouInside] at hs
  split at hs
  · simp only [Option.some.injEq] at hs
    subst hs
    exact ⟨h, le_rfl, .refl _⟩
  · rename_i d hd
    simp only [Option.some.injEq] at hs
    subst hs
    exact ⟨(named_one _ _ _ h hd).1, (named_one _ _ _ h hd).2, named_within _ _ _ (by rw [hd]; simp)⟩
  · cases hs

theorem update_total (s : TimedStep) (u : ℚ) (h : Measured s) (hu : updateTime s = some u) :
    0 ≤ u ∧ u ≤ s.total ∧ (u = 0 ∨ ∃ c, Within c s ∧ c.name = "HyperelasticForcefield::update_stiffness" ∧ c.total = u) := by
  unfold updateTime at hu
  split at hu
  · simp only [Option.some.injEq] at hu
    subst hu
    exact ⟨le_rfl, total_nonneg s h, .inl rfl⟩
  · rename_i d hd
    simp only [Option.some.injEq] at hu
    subst hu
    have hmem : d ∈ s.named "HyperelasticForcefield::update_stiffness" := by rw [hd]; simp
    refine ⟨total_nonneg d (named_one _ _ _ h hd).1, (named_one _ _ _ h hd).2, .inr ⟨d, named_within _ _ _ hmem, ?_, rfl⟩⟩
    simpa using (List.mem_filter.1 hmem).2
  · cases hu

/-- **C162**: whatever steps were made, if the scene prints a row for a Newton iteration, the time of the update and the time of the solve in it are together
the time which was measured for the two, the time of the solve is not negative, and what was moved from it to the update is nothing or the time of an update of the
stiffness made within the solve. -/
theorem C162 (build solve : TimedStep) (hsolve : Measured solve) (r : TimeRow) (hr : sceneTimes build solve = some r) :
    r.update + r.solve = build.total + solve.total ∧ 0 ≤ r.solve ∧ build.total ≤ r.update ∧
      (r.update = build.total ∨
        ∃ c, Within c solve ∧ c.name = "HyperelasticForcefield::update_stiffness" ∧ r.update = build.total + c.total) := by
  unfold sceneTimes at hr
  split at hr
  · cases hr
  · rename_i s hs
    split at hr
    · simp only [Option.some.injEq] at hr
      subst hr
      exact ⟨rfl, total_nonneg _ hsolve, le_rfl, .inl rfl⟩
    · rename_i c hc
      cases s with
      | none => simp [caribouInside] at hc
      | some s =>
        obtain ⟨m1, t1, w1⟩ := sofa_total solve s hsolve hs
        obtain ⟨m2, t2, w2⟩ := caribou_total s c m1 hc
        simp only at hr
        split_ifs at hr
        all_goals first
          | (split at hr
             · rename_i u m hu hm
               simp only [Option.some.injEq] at hr
               subst hr
               obtain ⟨h1, h2, h3⟩ := update_total c u m2 hu
               refine ⟨by simp only; ring, by simp only; linarith, by simp only; linarith, ?_⟩
               rcases h3 with h3 | ⟨d, h3, h4, h5⟩
               · exact .inl (by simp only [h3, add_zero])
               · exact .inr ⟨d, within_trans h3 (within_trans w2 w1), h4, by simp only [h5]⟩
             · cases hr)
          | (simp only [Option.some.injEq] at hr
             subst hr
             exact ⟨rfl, total_nonneg _ hsolve, le_rfl, .inl rfl⟩)

theorem mean_total (l : List TimedStep) (m : ℚ) (h : meanTime l = some (some m)) : 2 ≤ l.length ∧ m * l.length = TimedStep.totals l := by
  match l, h with
  | a :: b :: l, h =>
    simp only [meanTime, Option.some.injEq] at h
    subst h
    refine ⟨by simp, ?_⟩
    have : ((a :: b :: l).length : ℚ) ≠ 0 := by
      have : 0 < (a :: b :: l).length := by simp
      exact_mod_cast this.ne'
    field_simp

/-- **C162** (mean): the mean which is shown is the mean of the durations of several steps with one name within the solve, and as many of it as there are steps
fit into the time which was measured for the solve. -/
theorem C162_mean (build solve : TimedStep) (hsolve : Measured solve) (r : TimeRow) (hr : sceneTimes build solve = some r) (m : ℚ) (hm : r.mean = some m) :
    ∃ (c : TimedStep) (n : String), Within c solve ∧ (n = "cg_iteration" ∨ n = "HyperelasticForcefield::addDForce") ∧
      let l := c.steps.filter (fun d => decide (d.name = n))
      2 ≤ l.length ∧ m * l.length = (l.map TimedStep.total).sum ∧ m * l.length ≤ solve.total := by
  have hsum : ∀ l : List TimedStep, TimedStep.totals l = (l.map TimedStep.total).sum := by
    intro l
    induction l with
    | nil => simp [TimedStep.totals]
    | cons s l ih => simp only [TimedStep.totals, ih, List.map_cons, List.sum_cons]
  unfold sceneTimes at hr
  split at hr
  · cases hr
  · rename_i s hs
    split at hr
    · simp only [Option.some.injEq] at hr
      subst hr
      cases hm
    · rename_i c hc
      cases s with
      | none => simp [caribouInside] at hc
      | some s =>
        obtain ⟨m1, t1, w1⟩ := sofa_total solve s hsolve hs
        obtain ⟨m2, t2, w2⟩ := caribou_total s c m1 hc
        have key : ∀ n, meanTime (c.named n) = some (some m) →
            2 ≤ (c.named n).length ∧ m * (c.named n).length = ((c.named n).map TimedStep.total).sum ∧ m * (c.named n).length ≤ solve.total := by
          intro n hn
          obtain ⟨h1, h2⟩ := mean_total _ _ hn
          have h3 := named_total n c m2
          exact ⟨h1, by rw [h2, hsum], by linarith⟩
        by_cases hv : "nb_iterations" ∈ c.values
        · simp only [hv, if_true, true_or] at hr
          split at hr
          · rename_i u m' hu hm'
            simp only [Option.some.injEq] at hr
            subst hr
            simp only at hm
            rw [hm] at hm'
            exact ⟨c, "cg_iteration", within_trans w2 w1, .inl rfl, key _ hm'⟩
          · cases hr
        · simp only [hv, if_false, false_or] at hr
          split_ifs at hr
          · split at hr
            · rename_i u m' hu hm'
              simp only [Option.some.injEq] at hr
              subst hr
              simp only at hm
              rw [hm] at hm'
              exact ⟨c, "HyperelasticForcefield::addDForce", within_trans w2 w1, .inr rfl, key _ hm'⟩
            · cases hr
          · simp only [Option.some.injEq] at hr
            subst hr
            cases hm

/-- **C162** (moved): the records which the conjugate gradient without a preconditioner makes with one force field, whose stiffness is updated in the solve.  Unless it makes
exactly one iteration, the row is printed, the time of the update is moved, and the mean is shown exactly if there are iterations. -/
theorem C162_moved (build upd : TimedStep) (own own' : ℚ) (values : List String) (before after : List TimedStep)
    (hvalue : "nb_iterations" ∈ values) (hupd : upd.name = "HyperelasticForcefield::update_stiffness")
    (hother : ∀ s ∈ before ++ after, s.name ≠ "HyperelasticForcefield::update_stiffness")
    (hcount : ((before ++ after).filter fun s => decide (s.name = "cg_iteration")).length ≠ 1) :
    ∃ r, sceneTimes build (.mk "MBKSolve" [] own [.mk "ConjugateGradient::solve" values own' (before ++ upd :: after)]) = some r ∧
      r.update = build.total + upd.total ∧ r.solve = own + own' + TimedStep.totals before + TimedStep.totals after ∧
      (r.mean = none ↔ ∀ s ∈ before ++ after, s.name ≠ "cg_iteration") := by
  have happ : ∀ a b : List TimedStep, TimedStep.totals (a ++ b) = TimedStep.totals a + TimedStep.totals b := by
    intro a b
    induction a with
    | nil => simp [TimedStep.totals]
    | cons s a ih => simp only [List.cons_append, TimedStep.totals, ih]; ring
  have hu : (before ++ upd :: after).filter (fun c => decide (c.name = "HyperelasticForcefield::update_stiffness")) = [upd] := by
    have h1 : before.filter (fun c => decide (c.name = "HyperelasticForcefield::update_stiffness")) = [] := by
      rw [List.filter_eq_nil_iff]
      intro s hs
      simpa using hother s (List.mem_append_left _ hs)
    have h2 : after.filter (fun c => decide (c.name = "HyperelasticForcefield::update_stiffness")) = [] := by
      rw [List.filter_eq_nil_iff]
      intro s hs
      simpa using hother s (List.mem_append_right _ hs)
    rw [List.filter_append, List.filter_cons, h1, h2]
    simp [hupd]
  have hi : (before ++ upd :: after).filter (fun c => decide (c.name = "cg_iteration")) = (before ++ after).filter fun c => decide (c.name = "cg_iteration") := by
    rw [List.filter_append, List.filter_cons, List.filter_append, hupd]
    simp
  have hnil : ((before ++ after).filter fun c => decide (c.name = "cg_iteration")) = [] ↔ ∀ s ∈ before ++ after, s.name ≠ "cg_iteration" := by
    rw [List.filter_eq_nil_iff]
    simp only [decide_eq_true_eq, ne_eq]
  have hsofa : sofaInside (.mk "MBKSolve" [] own [.mk "ConjugateGradient::solve" values own' (before ++ upd :: after)]) =
      some (some (.mk "MBKSolve" [] own [.mk "ConjugateGradient::solve" values own' (before ++ upd :: after)])) := by
    simp [sofaInside, TimedStep.named, TimedStep.steps, TimedStep.name]
  have hcar : caribouInside (some (.mk "MBKSolve" [] own [.mk "ConjugateGradient::solve" values own' (before ++ upd :: after)])) =
      some (.mk "ConjugateGradient::solve" values own' (before ++ upd :: after)) := by
    simp [caribouInside, TimedStep.named, TimedStep.steps, TimedStep.name]
  have hup : updateTime (.mk "ConjugateGradient::solve" values own' (before ++ upd :: after)) = some upd.total := by
    simp only [updateTime, TimedStep.named, TimedStep.steps, hu]
  have hmean : ∃ m, meanTime ((before ++ after).filter fun c => decide (c.name = "cg_iteration")) = some m ∧
      (m = none ↔ ((before ++ after).filter fun c => decide (c.name = "cg_iteration")) = []) := by
    generalize ((before ++ after).filter fun c => decide (c.name = "cg_iteration")) = l at hcount
    match l, hcount with
    | [], _ => exact ⟨none, rfl, by simp⟩
    | [_], h => exact absurd rfl h
    | a :: b :: l, _ => exact ⟨_, rfl, by simp⟩
  obtain ⟨m, hm1, hm2⟩ := hmean
  refine ⟨⟨build.total + upd.total, TimedStep.total (.mk "MBKSolve" [] own [.mk "ConjugateGradient::solve" values own' (before ++ upd :: after)]) - upd.total, m⟩, ?_, ?_⟩
  · simp only [sceneTimes, hsofa, hcar, TimedStep.values, hvalue, if_true, true_or, hup]
    simp only [TimedStep.named, TimedStep.steps, hi, hm1]
  · refine ⟨rfl, ?_, hm2.trans hnil⟩
    simp only [TimedStep.total, TimedStep.totals, happ]
    ring

/-- A solve with an update of the stiffness (2 ms), two iterations (1 ms and 3 ms) and 1 ms besides; the build takes 4 ms. -/
def exampleSolve : TimedStep :=
  .mk "MBKSolve" [] 0 [.mk "ConjugateGradient::solve" ["nb_iterations"] 1
    [.mk "HyperelasticForcefield::update_stiffness" [] 2 [], .mk "cg_iteration" [] 1 [], .mk "cg_iteration" [] 3 []]]

example : Measured exampleSolve ∧ sceneTimes (.mk "MBKBuild" [] 4 []) exampleSolve = some ⟨6, 5, some 2⟩ := by
  constructor
  · norm_num [exampleSolve, Measured, AllMeasured]
  · simp [exampleSolve, sceneTimes, sofaInside, caribouInside, updateTime, meanTime, TimedStep.named, TimedStep.steps, TimedStep.name, TimedStep.values, TimedStep.total,
      TimedStep.totals]
    norm_num

/-- The hypotheses of `C162_moved` for this solve. -/
example : exampleSolve = .mk "MBKSolve" [] 0 [.mk "ConjugateGradient::solve" ["nb_iterations"] 1
      ([] ++ .mk "HyperelasticForcefield::update_stiffness" [] 2 [] :: [.mk "cg_iteration" [] 1 [], .mk "cg_iteration" [] 3 []])] ∧
    (([] ++ [.mk "cg_iteration" [] 1 [], .mk "cg_iteration" [] 3 []] : List TimedStep).filter fun s => decide (s.name = "cg_iteration")).length ≠ 1 ∧
    ∀ s ∈ ([] ++ [.mk "cg_iteration" [] 1 [], .mk "cg_iteration" [] 3 []] : List TimedStep), s.name ≠ "HyperelasticForcefield::update_stiffness" := by
  refine ⟨rfl, by simp [TimedStep.name], by simp [TimedStep.name]⟩

end Caribou
