import Verif.Spec.TimerEvents
import Mathlib.Tactic.Linarith
import Mathlib.Tactic.SplitIfs
import Mathlib.Tactic.Use

/-!
# C156: the timer
-/

set_option autoImplicit false
set_option linter.all false

namespace Caribou

open Spec

theorem openSteps_append (a b : List TimerEvent) : ∀ s, openSteps s (a ++ b) = (openSteps s a).bind fun t => openSteps t b := by
  induction a with
  | nil => intro s; simp [openSteps]
  | cons e a ih =>
    intro s
    cases e with
    | opens n => simp [openSteps, ih]
    | value m n => cases s <;> simp [openSteps, ih]
    | closes n =>
      cases s with
      | nil => simp [openSteps]
      | cons m s =>
        simp only [List.cons_append, openSteps]
        by_cases h : m = n
        · rw [if_pos h, if_pos h, ih]
        · rw [if_neg h, if_neg h]; rfl

theorem wn_nil : WellNested [] := fun s => by simp [openSteps]

theorem wn_append {a b : List TimerEvent} (ha : WellNested a) (hb : WellNested b) : WellNested (a ++ b) := by
  intro s; rw [openSteps_append, ha s]; exact hb s

theorem wn_scope {a : List TimerEvent} (n : String) (ha : WellNested a) : WellNested (TimerEvent.opens n :: (a ++ [TimerEvent.closes n])) := by
  intro s; simp only [openSteps]; rw [openSteps_append, ha]; simp [openSteps]

theorem wn_value (m : String) (n : ℕ) : WellNested [TimerEvent.value m n] := fun s => by cases s <;> simp [openSteps]

theorem times_append (s : String) (a b : List TimerEvent) : timesOpened s (a ++ b) = timesOpened s a + timesOpened s b := List.count_append

theorem times_nil (s : String) : timesOpened s [] = 0 := rfl

theorem times_opens (s n : String) (a : List TimerEvent) : timesOpened s (TimerEvent.opens n :: a) = timesOpened s a + if n = s then 1 else 0 := by
  unfold timesOpened
  rw [List.count_cons]
  by_cases h : n = s <;> simp [h]

theorem times_closes (s n : String) (a : List TimerEvent) : timesOpened s (TimerEvent.closes n :: a) = timesOpened s a := by
  unfold timesOpened
  rw [List.count_cons]
  simp

theorem times_value (s m : String) (n : ℕ) (a : List TimerEvent) : timesOpened s (TimerEvent.value m n :: a) = timesOpened s a := by
  unfold timesOpened
  rw [List.count_cons]
  simp

theorem lastValue_append (name : String) (b : List TimerEvent) (n : ℕ) (h : lastValue name b = some n) : ∀ a, lastValue name (a ++ b) = some n := by
  intro a
  induction a with
  | nil => exact h
  | cons e a ih => simp only [List.cons_append, lastValue]; rw [ih]

theorem succ_pred (w n : ℕ) (h : n < w) : unsignedSucc w (unsignedPred w n) = n := by
  unfold unsignedSucc unsignedPred
  by_cases h0 : n = 0
  · subst h0; simp
  · rw [if_neg h0, if_neg (by omega)]; omega

theorem cgLoop_timer (small : ℕ → Bool) (inner : ℕ → List TimerEvent) (hin : ∀ k, Foreign ["cg_iteration"] (inner k)) : ∀ left n,
    WellNested (cgTimerLoop small inner n left).1 ∧ timesOpened "cg_iteration" (cgTimerLoop small inner n left).1 + n = (cgTimerLoop small inner n left).2 ∧ (cgTimerLoop small inner n left).2 ≤ n + left := by
  intro left
  induction left with
  | zero => intro n; exact ⟨wn_nil, by simp [cgTimerLoop, times_nil], by simp [cgTimerLoop]⟩
  | succ left ih =>
    intro n
    obtain ⟨i1, i2, i3⟩ := ih (n + 1)
    obtain ⟨h1, h2⟩ := hin n
    have h2' := h2 "cg_iteration" (by simp)
    have hstep : timesOpened "cg_iteration" (TimerEvent.opens "cg_iteration" :: (inner n ++ [TimerEvent.closes "cg_iteration"])) = 1 := by
      rw [times_opens, times_append, h2', times_closes, times_nil]; simp
    rw [cgTimerLoop]
    by_cases hs : small (n + 1) = true
    · rw [if_pos hs]
      exact ⟨wn_scope _ h1, by simp only; omega, by simp only; omega⟩
    · rw [if_neg hs]
      refine ⟨wn_append (wn_scope _ h1) i1, ?_, ?_⟩
      · simp only; rw [times_append, hstep]; omega
      · simp only; omega

/-- **C156**, conjugate gradient: its steps are well nested, and the number of iterations which it tells is the number of iterations exactly if there was something to do; otherwise it tells one iteration. -/
theorem C156_cg (w : ℕ) (small : ℕ → Bool) (inner : ℕ → List TimerEvent) (maxIterations : ℕ) (hw : maxIterations < w) (hw1 : 1 < w) (hin : ∀ k, Foreign ["cg_iteration"] (inner k)) :
    WellNested (cgTimer w small inner maxIterations) ∧
    (lastValue "nb_iterations" (cgTimer w small inner maxIterations) = some (timesOpened "cg_iteration" (cgTimer w small inner maxIterations)) ↔ small 0 = false) ∧
    (small 0 = true → lastValue "nb_iterations" (cgTimer w small inner maxIterations) = some 1 ∧ timesOpened "cg_iteration" (cgTimer w small inner maxIterations) = 0) := by
  have hone : unsignedSucc w 0 = 1 := by unfold unsignedSucc; rw [if_neg (by omega)]
  obtain ⟨i1, i2, i3⟩ := cgLoop_timer small inner hin maxIterations 0
  unfold cgTimer
  by_cases hs : small 0 = true
  · rw [if_pos hs]
    have hl : lastValue "nb_iterations" [TimerEvent.value "nb_iterations" (unsignedSucc w 0)] = some 1 := by simp [lastValue, hone]
    have ht : timesOpened "cg_iteration" [TimerEvent.value "nb_iterations" (unsignedSucc w 0)] = 0 := by rw [times_value, times_nil]
    refine ⟨wn_value _ _, ?_, fun _ => ⟨hl, ht⟩⟩
    rw [hl, ht, hs]; simp
  · rw [if_neg hs]
    refine ⟨wn_append i1 (wn_value _ _), ⟨fun _ => by simpa using hs, fun _ => ?_⟩, fun h => absurd h hs⟩
    simp only
    rw [lastValue_append _ _ (cgTimerLoop small inner 0 maxIterations).2 (by simp [lastValue, succ_pred w _ (show (cgTimerLoop small inner 0 maxIterations).2 < w by omega)])]
    rw [times_append, times_value, times_nil]
    congr 1; omega

theorem newtonBody_timer (several : Bool) (o : NewtonTimed) (h : NewtonForeign o) :
    WellNested (newtonTimedBody several o).1 ∧ timesOpened "NewtonStep" (newtonTimedBody several o).1 = 0 ∧
    timesOpened "UpdateU" (newtonTimedBody several o).1 = (if (newtonTimedBody several o).2 then 1 else 0) ∧ ((newtonTimedBody several o).2 = true ↔ Answers o) := by
  obtain ⟨b1, b2⟩ := h o.build (by simp)
  obtain ⟨a1, a2⟩ := h o.analysis (by simp)
  obtain ⟨f1, f2⟩ := h o.factorization (by simp)
  obtain ⟨s1, s2⟩ := h o.solution (by simp)
  obtain ⟨p1, p2⟩ := h o.propagation (by simp)
  obtain ⟨g1, g2⟩ := h o.force (by simp)
  have b3 := b2 "NewtonStep" (by simp)
  have b4 := b2 "UpdateU" (by simp)
  have a3 := a2 "NewtonStep" (by simp)
  have a4 := a2 "UpdateU" (by simp)
  have f3 := f2 "NewtonStep" (by simp)
  have f4 := f2 "UpdateU" (by simp)
  have s3 := s2 "NewtonStep" (by simp)
  have s4 := s2 "UpdateU" (by simp)
  have p3 := p2 "NewtonStep" (by simp)
  have p4 := p2 "UpdateU" (by simp)
  have g3 := g2 "NewtonStep" (by simp)
  have g4 := g2 "UpdateU" (by simp)
  have w1 : WellNested (scopedTimer "MBKBuild" o.build) := wn_scope _ b1
  have w2 : WellNested (scopedTimer "MBKBuild" o.build ++ if o.analyze = true then scopedTimer "MBKAnalyze" o.analysis else []) := by
    refine wn_append w1 ?_
    split
    · exact wn_scope _ a1
    · exact wn_nil
  have w3 := wn_append w2 (wn_scope "MBKFactorize" f1)
  have w4 := wn_append w3 (wn_scope "MBKSolve" s1)
  have w5 := wn_append w4 (wn_scope "PropagateDx" p1)
  have w6 : WellNested (if several = true then (TimerEvent.opens "UpdateForce" :: (o.force ++ [TimerEvent.closes "UpdateForce"])) ++ [TimerEvent.opens "UpdateResidual", TimerEvent.closes "UpdateResidual"] else []) := by
    split
    · exact wn_append (wn_scope _ g1) (wn_scope "UpdateResidual" wn_nil)
    · exact wn_nil
  have w7 := wn_append (wn_append w5 w6) (wn_scope "UpdateU" wn_nil)
  unfold newtonTimedBody Answers
  by_cases ha : (o.analyze && !o.analyzed) = true
  · simp only [ha, if_true]
    simp only [Bool.and_eq_true, Bool.not_eq_true'] at ha
    refine ⟨w2, ?_, ?_, ?_⟩
    · simp [ha.1, scopedTimer, times_append, times_opens, times_closes, times_nil, b3, a3]
    · simp [ha.1, scopedTimer, times_append, times_opens, times_closes, times_nil, b4, a4]
    · simp [ha.1, ha.2]
  · have ha' : o.analyze = true → o.analyzed = true := by
      intro h1; by_contra h2; exact ha (by simp [h1, h2])
    rw [if_neg ha]
    by_cases hf : o.factorized = true
    · by_cases hs : o.solved = true
      · simp only [hf, hs, Bool.not_true, if_neg, Bool.false_eq_true, if_false]
        refine ⟨w7, ?_, ?_, by simpa using ha'⟩
        · cases o.analyze <;> cases several <;> simp [scopedTimer, times_append, times_opens, times_closes, times_nil, b3, a3, f3, s3, p3, g3]
        · cases o.analyze <;> cases several <;> simp [scopedTimer, times_append, times_opens, times_closes, times_nil, b4, a4, f4, s4, p4, g4]
      · have hs' : o.solved = false := by simpa using hs
        simp only [hf, hs', Bool.not_true, Bool.not_false, Bool.false_eq_true, if_false, if_true]
        refine ⟨w4, ?_, ?_, by simp⟩
        · cases o.analyze <;> simp [scopedTimer, times_append, times_opens, times_closes, times_nil, b3, a3, f3, s3, p3, g3]
        · cases o.analyze <;> simp [scopedTimer, times_append, times_opens, times_closes, times_nil, b4, a4, f4, s4, p4, g4]
    · have hf' : o.factorized = false := by simpa using hf
      simp only [hf', Bool.not_false, if_true]
      refine ⟨w3, ?_, ?_, by simp⟩
      · cases o.analyze <;> simp [scopedTimer, times_append, times_opens, times_closes, times_nil, b3, a3, f3, s3, p3, g3]
      · cases o.analyze <;> simp [scopedTimer, times_append, times_opens, times_closes, times_nil, b4, a4, f4, s4, p4, g4]

theorem newtonLoop_timer (several : Bool) (o : ℕ → NewtonTimed) (h : ∀ k, NewtonForeign (o k)) : ∀ left n,
    WellNested (newtonTimedLoop several o n left).1 ∧ timesOpened "UpdateU" (newtonTimedLoop several o n left).1 + n = (newtonTimedLoop several o n left).2.1 ∧
    (newtonTimedLoop several o n left).2.1 ≤ n + left ∧ ((∀ k, Answers (o k)) → timesOpened "NewtonStep" (newtonTimedLoop several o n left).1 = timesOpened "UpdateU" (newtonTimedLoop several o n left).1) ∧
    ((newtonTimedLoop several o n left).2.2 = true ↔ ∃ k, n ≤ k ∧ k < n + left ∧ ConvergesAt o n k) := by
  intro left
  induction left with
  | zero =>
    intro n
    refine ⟨wn_nil, by simp [newtonTimedLoop, times_nil], by simp [newtonTimedLoop], fun _ => rfl, ?_⟩
    simp only [newtonTimedLoop, Bool.false_eq_true, false_iff]
    rintro ⟨k, h1, h2, -⟩; omega
  | succ left ih =>
    intro n
    obtain ⟨i1, i2, i3, i4, i5⟩ := ih (n + 1)
    obtain ⟨b1, b2, b3, b4⟩ := newtonBody_timer several (o n) (h n)
    have hU : timesOpened "UpdateU" (scopedTimer "NewtonStep" (newtonTimedBody several (o n)).1) = if (newtonTimedBody several (o n)).2 then 1 else 0 := by
      simp [scopedTimer, times_append, times_opens, times_closes, times_nil, b3]
    have hN : timesOpened "NewtonStep" (scopedTimer "NewtonStep" (newtonTimedBody several (o n)).1) = 1 := by
      simp [scopedTimer, times_append, times_opens, times_closes, times_nil, b2]
    have hW : WellNested (scopedTimer "NewtonStep" (newtonTimedBody several (o n)).1) := wn_scope _ b1
    rw [newtonTimedLoop]
    by_cases hb : (newtonTimedBody several (o n)).2 = true
    · simp only [hb, Bool.not_true, Bool.false_eq_true, if_false] at hU ⊢
      rw [if_pos True.intro] at hU
      have hans := b4.1 hb
      by_cases hs : (o n).stops = true
      · simp only [hs, if_true]
        refine ⟨hW, by omega, by omega, fun _ => by rw [hU, hN], ?_⟩
        constructor
        · intro hc
          exact ⟨n, le_refl _, by omega, fun i h1 h2 => by rwa [show i = n by omega], fun i h1 h2 => by omega, hs, hc⟩
        · rintro ⟨k, h1, h2, h3, h4, h5, h6⟩
          rcases Nat.lt_or_ge n k with hlt | hge
          · have := h4 n (le_refl _) hlt; rw [hs] at this; exact absurd this (by simp)
          · rwa [show n = k by omega]
      · simp only [hs, if_false, Bool.false_eq_true]
        refine ⟨wn_append hW i1, ?_, by omega, fun ha => ?_, i5.trans ?_⟩
        · rw [times_append, hU]; omega
        · rw [times_append, times_append, hU, hN, i4 ha]
        · constructor
          · rintro ⟨k, h1, h2, h3, h4, h5, h6⟩
            refine ⟨k, by omega, by omega, fun i j1 j2 => ?_, fun i j1 j2 => ?_, h5, h6⟩
            · rcases Nat.lt_or_ge n i with hlt | hge
              · exact h3 i hlt j2
              · rwa [show i = n by omega]
            · rcases Nat.lt_or_ge n i with hlt | hge
              · exact h4 i hlt j2
              · rw [show i = n by omega]; simpa using hs
          · rintro ⟨k, h1, h2, h3, h4, h5, h6⟩
            have hk : k ≠ n := by rintro rfl; exact hs h5
            exact ⟨k, by omega, by omega, fun i j1 j2 => h3 i (by omega) j2, fun i j1 j2 => h4 i (by omega) j2, h5, h6⟩
    · have hb' : (newtonTimedBody several (o n)).2 = false := by simpa using hb
      simp only [hb', Bool.not_false, if_true, Bool.false_eq_true, if_false] at hU ⊢
      refine ⟨hW, by omega, by omega, fun ha => absurd (b4.2 (ha n)) hb, ?_⟩
      simp only [false_iff]
      rintro ⟨k, h1, h2, h3, -⟩
      exact hb (b4.2 (h3 n (le_refl _) h1))

/-- **C156**, the Newton solver: its steps are well nested also if the linear solver fails; the number of iterations which it tells is the number of those which it completed (these are the ones with a step
`UpdateU`), and of those which it began if the linear solver does not fail; it tells that it converged exactly if it did. -/
theorem C156_newton (w : ℕ) (className : String) (first : List TimerEvent) (atRest : Bool) (o : ℕ → NewtonTimed) (maxIterations : ℕ) (hw : maxIterations < w)
    (hname : className ++ "::Solve" ≠ "NewtonStep" ∧ className ++ "::Solve" ≠ "UpdateU") (hfirst : Foreign ["NewtonStep", "UpdateU"] first) (h : ∀ k, NewtonForeign (o k)) :
    WellNested (newtonTimed w className first atRest o maxIterations) ∧
    lastValue "nb_iterations" (newtonTimed w className first atRest o maxIterations) = some (timesOpened "UpdateU" (newtonTimed w className first atRest o maxIterations)) ∧
    ((∀ k, Answers (o k)) → lastValue "nb_iterations" (newtonTimed w className first atRest o maxIterations) = some (timesOpened "NewtonStep" (newtonTimed w className first atRest o maxIterations))) ∧
    (lastValue "has_converged" (newtonTimed w className first atRest o maxIterations) = some 1 ∨ lastValue "has_converged" (newtonTimed w className first atRest o maxIterations) = some 0) ∧
    (lastValue "has_converged" (newtonTimed w className first atRest o maxIterations) = some 1 ↔ atRest = true ∨ ∃ k, k < maxIterations ∧ ConvergesAt o 0 k) := by
  obtain ⟨f1, f2⟩ := hfirst
  have f3 := f2 "NewtonStep" (by simp)
  have f4 := f2 "UpdateU" (by simp)
  obtain ⟨r, hr⟩ : ∃ r, r = (if atRest then (([], 0, true) : List TimerEvent × ℕ × Bool) else newtonTimedLoop (decide (1 < maxIterations)) o 0 maxIterations) := ⟨_, rfl⟩
  have key : WellNested r.1 ∧ timesOpened "UpdateU" r.1 = r.2.1 ∧ r.2.1 < w ∧ ((∀ k, Answers (o k)) → timesOpened "NewtonStep" r.1 = r.2.1) ∧
      (r.2.2 = true ↔ atRest = true ∨ ∃ k, k < maxIterations ∧ ConvergesAt o 0 k) := by
    obtain ⟨i1, i2, i3, i4, i5⟩ := newtonLoop_timer (decide (1 < maxIterations)) o h maxIterations 0
    rw [hr]
    by_cases ha : atRest = true
    · rw [if_pos ha]
      exact ⟨wn_nil, rfl, by simp only; omega, fun _ => rfl, by simp [ha]⟩
    · rw [if_neg ha]
      refine ⟨i1, by omega, by omega, fun hk => by rw [i4 hk]; omega, i5.trans ?_⟩
      constructor
      · rintro ⟨k, -, h2, h3⟩; exact Or.inr ⟨k, by omega, h3⟩
      · rintro (h1 | ⟨k, h2, h3⟩)
        · exact absurd h1 ha
        · exact ⟨k, Nat.zero_le _, by omega, h3⟩
  obtain ⟨k1, k2, k3, k4, k5⟩ := key
  unfold newtonTimed
  rw [← hr]
  simp only
  have hsp := succ_pred w _ k3
  have hnb : lastValue "nb_iterations" (scopedTimer (className ++ "::Solve") ((TimerEvent.opens "ComputeForce" :: (first ++ [TimerEvent.closes "ComputeForce"])) ++ r.1 ++
      [TimerEvent.value "has_converged" (if r.2.2 then 1 else 0), TimerEvent.value "nb_iterations" (unsignedSucc w (unsignedPred w r.2.1))])) = some r.2.1 := by
    rw [hsp]
    unfold scopedTimer
    rw [List.append_assoc, ← List.cons_append]
    exact lastValue_append _ _ _ (by simp [lastValue]) _
  have hhc : lastValue "has_converged" (scopedTimer (className ++ "::Solve") ((TimerEvent.opens "ComputeForce" :: (first ++ [TimerEvent.closes "ComputeForce"])) ++ r.1 ++
      [TimerEvent.value "has_converged" (if r.2.2 then 1 else 0), TimerEvent.value "nb_iterations" (unsignedSucc w (unsignedPred w r.2.1))])) = some (if r.2.2 then 1 else 0) := by
    unfold scopedTimer
    rw [List.append_assoc, ← List.cons_append]
    exact lastValue_append _ _ _ (by simp [lastValue]) _
  rw [hnb, hhc]
  refine ⟨wn_scope _ (wn_append (wn_append (wn_scope _ f1) k1) (wn_append (wn_value _ _) (wn_value _ _))), ?_, fun ha => ?_, ?_, ?_⟩
  · congr 1
    simp [scopedTimer, times_append, times_opens, times_closes, times_value, times_nil, f4, k2, hname.2]
  · congr 1
    simp [scopedTimer, times_append, times_opens, times_closes, times_value, times_nil, f3, k4 ha, hname.1]
  · cases r.2.2 <;> simp
  · rw [← k5]; cases r.2.2 <;> simp

theorem legacyLoop_timer (o : ℕ → LegacyTimed) (h : ∀ k, LegacyForeign (o k)) : ∀ left n,
    WellNested (legacyTimedLoop o n left).1 ∧ timesOpened "NewtonStep" (legacyTimedLoop o n left).1 + n = (legacyTimedLoop o n left).2.1 ∧ (legacyTimedLoop o n left).2.1 ≤ n + left ∧
    ((legacyTimedLoop o n left).2.2 = true ↔ ∃ k, n ≤ k ∧ k < n + left ∧ LegacyConvergesAt o n k) := by
  intro left
  induction left with
  | zero =>
    intro n
    refine ⟨wn_nil, by simp [legacyTimedLoop, times_nil], by simp [legacyTimedLoop], ?_⟩
    simp only [legacyTimedLoop, Bool.false_eq_true, false_iff]
    rintro ⟨k, h1, h2, -⟩; omega
  | succ left ih =>
    intro n
    obtain ⟨i1, i2, i3, i4⟩ := ih (n + 1)
    obtain ⟨b1, b2⟩ := h n (o n).build (by simp)
    obtain ⟨s1, s2⟩ := h n (o n).solution (by simp)
    obtain ⟨p1, p2⟩ := h n (o n).propagation (by simp)
    obtain ⟨g1, g2⟩ := h n (o n).force (by simp)
    have b3 := b2 "NewtonStep" (by simp)
    have s3 := s2 "NewtonStep" (by simp)
    have p3 := p2 "NewtonStep" (by simp)
    have g3 := g2 "NewtonStep" (by simp)
    have hW := wn_scope "NewtonStep" (wn_append (wn_append (wn_append (wn_scope "MBKBuild" b1) (wn_scope "MBKSolve" s1)) p1) (wn_scope "ComputeForce" g1))
    obtain ⟨st, hst⟩ : ∃ st, st = TimerEvent.opens "NewtonStep" :: ((TimerEvent.opens "MBKBuild" :: ((o n).build ++ [TimerEvent.closes "MBKBuild"])) ++
      (TimerEvent.opens "MBKSolve" :: ((o n).solution ++ [TimerEvent.closes "MBKSolve"])) ++ (o n).propagation ++
      (TimerEvent.opens "ComputeForce" :: ((o n).force ++ [TimerEvent.closes "ComputeForce"])) ++ [TimerEvent.closes "NewtonStep"]) := ⟨_, rfl⟩
    rw [← hst] at hW
    have hN : timesOpened "NewtonStep" st = 1 := by
      rw [hst]; simp [times_append, times_opens, times_closes, times_nil, b3, s3, p3, g3]
    rw [legacyTimedLoop]
    simp only
    rw [← hst]
    by_cases hs : (o n).stops = true
    · simp only [hs, if_true]
      refine ⟨hW, by omega, by omega, ?_⟩
      constructor
      · intro hc
        exact ⟨n, le_refl _, by omega, fun i h1 h2 => by omega, hs, hc⟩
      · rintro ⟨k, h1, h2, h4, h5, h6⟩
        rcases Nat.lt_or_ge n k with hlt | hge
        · have := h4 n (le_refl _) hlt; rw [hs] at this; exact absurd this (by simp)
        · rwa [show n = k by omega]
    · simp only [hs, if_false, Bool.false_eq_true]
      refine ⟨wn_append hW i1, by rw [times_append, hN]; omega, by omega, i4.trans ?_⟩
      constructor
      · rintro ⟨k, h1, h2, h4, h5, h6⟩
        refine ⟨k, by omega, by omega, fun i j1 j2 => ?_, h5, h6⟩
        rcases Nat.lt_or_ge n i with hlt | hge
        · exact h4 i hlt j2
        · rw [show i = n by omega]; simpa using hs
      · rintro ⟨k, h1, h2, h4, h5, h6⟩
        have hk : k ≠ n := by rintro rfl; exact hs h5
        exact ⟨k, by omega, by omega, fun i j1 j2 => h4 i (by omega) j2, h5, h6⟩

/-- **C156**, the legacy solver: its steps are well nested, and it tells the number of iterations which it did and whether it converged. -/
theorem C156_legacy (w : ℕ) (first : List TimerEvent) (atRest : Bool) (o : ℕ → LegacyTimed) (maxIterations : ℕ) (hw : maxIterations < w) (hfirst : Foreign ["NewtonStep"] first) (h : ∀ k, LegacyForeign (o k)) :
    WellNested (legacyTimed w first atRest o maxIterations) ∧
    lastValue "nb_iterations" (legacyTimed w first atRest o maxIterations) = some (timesOpened "NewtonStep" (legacyTimed w first atRest o maxIterations)) ∧
    (lastValue "has_converged" (legacyTimed w first atRest o maxIterations) = some 1 ∨ lastValue "has_converged" (legacyTimed w first atRest o maxIterations) = some 0) ∧
    (lastValue "has_converged" (legacyTimed w first atRest o maxIterations) = some 1 ↔ atRest = true ∨ ∃ k, k < maxIterations ∧ LegacyConvergesAt o 0 k) := by
  obtain ⟨f1, f2⟩ := hfirst
  have f3 := f2 "NewtonStep" (by simp)
  obtain ⟨r, hr⟩ : ∃ r, r = (if atRest then (([], 0, true) : List TimerEvent × ℕ × Bool) else legacyTimedLoop o 0 maxIterations) := ⟨_, rfl⟩
  have key : WellNested r.1 ∧ timesOpened "NewtonStep" r.1 = r.2.1 ∧ r.2.1 < w ∧ (r.2.2 = true ↔ atRest = true ∨ ∃ k, k < maxIterations ∧ LegacyConvergesAt o 0 k) := by
    obtain ⟨i1, i2, i3, i4⟩ := legacyLoop_timer o h maxIterations 0
    rw [hr]
    by_cases ha : atRest = true
    · rw [if_pos ha]; exact ⟨wn_nil, rfl, by simp only; omega, by simp [ha]⟩
    · rw [if_neg ha]
      refine ⟨i1, by omega, by omega, i4.trans ?_⟩
      constructor
      · rintro ⟨k, -, h2, h3⟩; exact Or.inr ⟨k, by omega, h3⟩
      · rintro (h1 | ⟨k, h2, h3⟩)
        · exact absurd h1 ha
        · exact ⟨k, Nat.zero_le _, by omega, h3⟩
  obtain ⟨k1, k2, k3, k4⟩ := key
  unfold legacyTimed
  rw [← hr]
  simp only
  rw [succ_pred w _ k3]
  have hhc : lastValue "has_converged" (TimerEvent.opens "StaticODESolver::Solve" :: ((TimerEvent.opens "ComputeForce" :: (first ++ [TimerEvent.closes "ComputeForce"])) ++ r.1 ++
      [TimerEvent.value "has_converged" (if r.2.2 then 1 else 0), TimerEvent.value "nb_iterations" r.2.1, TimerEvent.closes "StaticODESolver::Solve"])) = some (if r.2.2 then 1 else 0) := by
    rw [← List.cons_append]
    exact lastValue_append _ _ _ (by simp [lastValue]) _
  rw [hhc]
  refine ⟨?_, ?_, by cases r.2.2 <;> simp, by rw [← k4]; cases r.2.2 <;> simp⟩
  · have := wn_scope "StaticODESolver::Solve" (wn_append (wn_append (wn_scope "ComputeForce" f1) k1)
      (wn_append (wn_value "has_converged" (if r.2.2 then 1 else 0)) (wn_value "nb_iterations" r.2.1)))
    simpa [List.append_assoc] using this
  · rw [← List.cons_append, lastValue_append _ _ r.2.1 (by simp [lastValue])]
    congr 1
    simp [times_append, times_opens, times_closes, times_value, times_nil, f3, k2]

/-- **C156 (partial).** The initialisations of the force fields: well nested for the traction force field, and for the hyperelastic one exactly if it has a mechanical object.  Missing: the hyperelastic one in
scenes without a mechanical object, and the number of iterations of a conjugate gradient which has nothing to do, see `C156_violated`. -/
theorem C156_partial (hasState : Bool) : WellNested (tractionInitializeTimer hasState) ∧ (WellNested (initializeTimer hasState) ↔ hasState = true) := by
  refine ⟨wn_scope _ wn_nil, ?_⟩
  cases hasState
  · simp only [Bool.false_eq_true, iff_false]
    intro h
    have := h []
    simp [initializeTimer, openSteps] at this
  · simp only [iff_true]
    exact wn_scope "HyperelasticForcefield::initialize_elements" wn_nil

/-- Violation of C156: a hyperelastic force field without a mechanical object leaves its step open; a conjugate gradient with nothing to do tells one iteration; a Newton solver whose linear solver fails in the
first iteration begins one and tells none. -/
theorem C156_violated :
    openSteps ["init"] (initializeTimer false) = some ["HyperelasticForcefield::initialize_elements", "init"] ∧
    (lastValue "nb_iterations" (cgTimer (2 ^ 32) (fun _ => true) (fun _ => []) 25) = some 1 ∧ timesOpened "cg_iteration" (cgTimer (2 ^ 32) (fun _ => true) (fun _ => []) 25) = 0) ∧
    (lastValue "nb_iterations" (newtonTimed (2 ^ 32) "StaticODESolver" [] false (fun _ => ⟨true, true, false, true, false, false, [], [], [], [], [], []⟩) 5) = some 0 ∧
      timesOpened "NewtonStep" (newtonTimed (2 ^ 32) "StaticODESolver" [] false (fun _ => ⟨true, true, false, true, false, false, [], [], [], [], [], []⟩) 5) = 1) := by
  decide +kernel

/-- A conjugate gradient with three iterations, in which the force field has its own steps, and a Newton solver which uses it. -/
example : lastValue "nb_iterations" (cgTimer (2 ^ 32) (fun k => decide (3 ≤ k)) (fun _ => scopedTimer "HyperelasticForcefield::addDForce" []) 25) = some 3 ∧
    Foreign ["cg_iteration"] (scopedTimer "HyperelasticForcefield::addDForce" []) ∧
    NewtonForeign ⟨true, true, true, true, false, false, [], [], [], cgTimer (2 ^ 32) (fun k => decide (3 ≤ k)) (fun _ => scopedTimer "HyperelasticForcefield::addDForce" []) 25, [], []⟩ := by
  have hf : Foreign ["cg_iteration"] (scopedTimer "HyperelasticForcefield::addDForce" []) := ⟨wn_scope _ wn_nil, by decide +kernel⟩
  refine ⟨by decide +kernel, hf, ?_⟩
  intro l hl
  simp only [List.mem_cons, List.not_mem_nil, or_false] at hl
  have hn : Foreign ["NewtonStep", "UpdateU"] [] := ⟨wn_nil, by decide⟩
  rcases hl with rfl | rfl | rfl | rfl | rfl | rfl
  exacts [hn, hn, hn, ⟨(C156_cg (2 ^ 32) _ _ 25 (by norm_num) (by norm_num) fun _ => hf).1, by decide +kernel⟩, hn, hn]

end Caribou
