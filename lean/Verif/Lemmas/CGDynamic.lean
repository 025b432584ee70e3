import Verif.Model.CGDynamic
import Verif.Spec.CGDynamic
import Verif.Lemmas.CGStatic
import Verif.Props.DynamicODE

/-!
# Lemmas on time steps with the conjugate gradient
-/

set_option autoImplicit false
set_option linter.all false

namespace Caribou

open Spec Matrix

section Loop

variable {K σ ι : Type*} [Field K] [LinearOrder K] [IsStrictOrderedRing K] [Fintype ι]

/-- A Newton environment whose linear solver is handed the previous increment. -/
def guessSystem (R : σ → ι → K) (A : σ → Matrix ι ι K) (prop : σ → (ι → K) → σ) (solver : Matrix ι ι K → (ι → K) → (ι → K) → Option (ι → K)) :
    NewtonEnv ((σ × Matrix ι ι K) × (ι → K)) (ι → K) K where
  rhs w := (w, R w.1.1)
  matrix w := ((w.1.1, A w.1.1), w.2)
  analyze w := (w, true)
  factorize w := (w, true)
  solve w f := match solver w.1.2 f w.2 with
    | none => (w, none)
    | some da => ((w.1, da), some da)
  propagate w da := ((prop w.1.1 da, w.1.2), w.2)
  zero := 0
  add := (· + ·)
  norm2 v := some (dotProduct v v)

/-- One iteration whose linear system is solved by `u`. -/
theorem advance_success (p : NewtonParams K) (R : σ → ι → K) (A : σ → Matrix ι ι K) (prop : σ → (ι → K) → σ) (solver : Matrix ι ι K → (ι → K) → (ι → K) → Option (ι → K))
    (s : NewtonLoop ((σ × Matrix ι ι K) × (ι → K)) (ι → K) K) (hd : s.diverged = false) (hc : s.converged = false) (hR : s.R2.isNone = false) (u : ι → K)
    (hu : solver (A s.world.1.1) s.F s.world.2 = some u) :
    let r := newtonIteration p (guessSystem R A prop solver) s
    r.world.1.1 = prop s.world.1.1 u ∧ r.world.2 = u ∧ r.U = s.U + u ∧ r.residuals.length = s.residuals.length + 1 ∧ r.R2.isNone = false ∧
    (r.diverged = true ↔ (s.U + u) ⬝ᵥ (s.U + u) < p.eps) ∧
    (r.diverged = false → r.converged = false → 0 < p.correction → p.correction * p.correction * ((s.U + u) ⬝ᵥ (s.U + u)) ≤ u ⬝ᵥ u) ∧
    (1 < p.iterations → r.F = R r.world.1.1 ∧ (r.diverged = false → r.converged = false → 0 < p.absolute → p.absolute * p.absolute ≤ r.F ⬝ᵥ r.F)) := by
  have key : ∀ t : NewtonLoop ((σ × Matrix ι ι K) × (ι → K)) (ι → K) K, t.diverged = false → t.converged = false → t.R2.isNone = false →
      let r := newtonCheck p (guessSystem R A prop solver) t u
      r.world = t.world ∧ r.F = t.F ∧ r.U = t.U + u ∧ r.residuals.length = t.residuals.length + 1 ∧ r.R2 = t.R2 ∧
      (r.diverged = true ↔ (t.U + u) ⬝ᵥ (t.U + u) < p.eps) ∧
      (r.diverged = false → r.converged = false → 0 < p.correction → p.correction * p.correction * ((t.U + u) ⬝ᵥ (t.U + u)) ≤ u ⬝ᵥ u) ∧
      (t.R2 = some (t.F ⬝ᵥ t.F) → r.diverged = false → r.converged = false → 0 < p.absolute → p.absolute * p.absolute ≤ t.F ⬝ᵥ t.F) := by
    intro t h1 h2 h3
    unfold newtonCheck
    simp only [h3, Bool.false_or, guessSystem, Option.isNone_some, ltNan, mulNan, Option.map_some, decide_eq_true_eq, Bool.and_eq_true]
    split_ifs with c1 c2 c3 c4
    · exact ⟨rfl, rfl, rfl, by simp, rfl, by simpa using c1, fun h => absurd h (by simp), fun _ h => absurd h (by simp)⟩
    · exact ⟨rfl, rfl, rfl, by simp, rfl, by simp [h1]; simpa using c1, fun _ h => absurd h (by simp), fun _ _ h => absurd h (by simp)⟩
    · exact ⟨rfl, rfl, rfl, by simp, rfl, by simp [h1]; simpa using c1, fun _ h => absurd h (by simp), fun _ _ h => absurd h (by simp)⟩
    · exact ⟨rfl, rfl, rfl, by simp, rfl, by simp [h1]; simpa using c1, fun _ h => absurd h (by simp), fun _ _ h => absurd h (by simp)⟩
    · refine ⟨rfl, rfl, rfl, by simp, rfl, by simp [h1]; simpa using c1, fun _ _ hp => ?_, fun h _ _ hp => ?_⟩
      · by_contra hlt
        exact c2 ⟨hp, not_le.1 hlt⟩
      · by_contra hlt
        refine c4 ⟨hp, ?_⟩
        simp only [h]
        simpa using hlt
  have ha : ∃ t : NewtonLoop ((σ × Matrix ι ι K) × (ι → K)) (ι → K) K, newtonAssemble p (guessSystem R A prop solver) s = t ∧
      t.world = ((s.world.1.1, A s.world.1.1), s.world.2) ∧ t.F = s.F ∧ t.U = s.U ∧ t.residuals = s.residuals ∧ t.R2 = s.R2 ∧ t.converged = false ∧
      t.diverged = false := by
    refine ⟨_, rfl, ?_⟩
    unfold newtonAssemble
    simp only
    split_ifs <;> first | exact ⟨rfl, rfl, rfl, rfl, rfl, hc, rfl⟩ | exact ⟨rfl, rfl, rfl, rfl, rfl, hc, hd⟩
  obtain ⟨t, ht, hw, hF, hU, hres, hR2, htc, htd⟩ := ha
  intro r
  have hr : r = newtonCorrect p (guessSystem R A prop solver) t := by
    show newtonIteration p (guessSystem R A prop solver) s = _
    unfold newtonIteration
    simp only [ht, htd, Bool.false_eq_true, if_false]
  have e : (guessSystem R A prop solver).solve ((guessSystem R A prop solver).factorize t.world).1 t.F = ((t.world.1, u), some u) := by
    show (match solver t.world.1.2 t.F t.world.2 with | none => (t.world, none) | some dx => ((t.world.1, dx), some dx)) = _
    rw [hw, hF, hu]
  have hf : ((guessSystem R A prop solver).factorize t.world).2 = true := rfl
  by_cases hp : 1 < p.iterations
  · have hr2 : r = newtonCheck p (guessSystem R A prop solver) { t with
        world := ((prop t.world.1.1 u, t.world.1.2), u), calls := t.calls ++ [NewtonCall.factorize true, NewtonCall.solve true]
        F := R (prop t.world.1.1 u), R2 := some (R (prop t.world.1.1 u) ⬝ᵥ R (prop t.world.1.1 u)) } u := by
      rw [hr]
      simp only [newtonCorrect, hf, if_true, e, if_pos hp]
      rfl
    have k := key { t with
        world := ((prop t.world.1.1 u, t.world.1.2), u), calls := t.calls ++ [NewtonCall.factorize true, NewtonCall.solve true]
        F := R (prop t.world.1.1 u), R2 := some (R (prop t.world.1.1 u) ⬝ᵥ R (prop t.world.1.1 u)) } htd htc rfl
    simp only at k
    rw [← hr2] at k
    obtain ⟨k1, k2, k3, k4, k5, k6, k7, k8⟩ := k
    rw [hU] at k3 k6 k7
    refine ⟨by rw [k1, hw], by rw [k1], k3, by rw [k4, hres], by rw [k5]; rfl, k6, k7, fun _ => ⟨by rw [k2, k1], ?_⟩⟩
    rw [k2]
    exact k8 trivial
  · have hr2 : r = newtonCheck p (guessSystem R A prop solver) { t with
        world := ((prop t.world.1.1 u, t.world.1.2), u), calls := t.calls ++ [NewtonCall.factorize true, NewtonCall.solve true] } u := by
      rw [hr]
      simp only [newtonCorrect, hf, if_true, e, if_neg hp]
      rfl
    have k := key { t with world := ((prop t.world.1.1 u, t.world.1.2), u), calls := t.calls ++ [NewtonCall.factorize true, NewtonCall.solve true] } htd htc (by simp only [hR2, hR])
    simp only at k
    rw [← hr2] at k
    obtain ⟨k1, k2, k3, k4, k5, k6, k7, k8⟩ := k
    rw [hU] at k3 k6 k7
    exact ⟨by rw [k1, hw], by rw [k1], k3, by rw [k4, hres], by rw [k5, hR2, hR], k6, k7, fun h => absurd h hp⟩

/-- One iteration whose linear solver fails. -/
theorem advance_failure (p : NewtonParams K) (R : σ → ι → K) (A : σ → Matrix ι ι K) (prop : σ → (ι → K) → σ) (solver : Matrix ι ι K → (ι → K) → (ι → K) → Option (ι → K))
    (s : NewtonLoop ((σ × Matrix ι ι K) × (ι → K)) (ι → K) K) (hd : s.diverged = false) (hc : s.converged = false)
    (hu : solver (A s.world.1.1) s.F s.world.2 = none) :
    let r := newtonIteration p (guessSystem R A prop solver) s
    r.world.1.1 = s.world.1.1 ∧ r.world.2 = s.world.2 ∧ r.U = s.U ∧ r.residuals = s.residuals ∧ r.diverged = true ∧ r.converged = false := by
  have ha : ∃ t : NewtonLoop ((σ × Matrix ι ι K) × (ι → K)) (ι → K) K, newtonAssemble p (guessSystem R A prop solver) s = t ∧
      t.world = ((s.world.1.1, A s.world.1.1), s.world.2) ∧ t.F = s.F ∧ t.U = s.U ∧ t.residuals = s.residuals ∧ t.converged = false ∧
      t.diverged = false := by
    refine ⟨_, rfl, ?_⟩
    unfold newtonAssemble
    simp only
    split_ifs <;> first | exact ⟨rfl, rfl, rfl, rfl, hc, rfl⟩ | exact ⟨rfl, rfl, rfl, rfl, hc, hd⟩
  obtain ⟨t, ht, hw, hF, hU, hres, htc, htd⟩ := ha
  intro r
  have hr : r = newtonCorrect p (guessSystem R A prop solver) t := by
    show newtonIteration p (guessSystem R A prop solver) s = _
    unfold newtonIteration
    simp only [ht, htd, Bool.false_eq_true, if_false]
  have e : (guessSystem R A prop solver).solve ((guessSystem R A prop solver).factorize t.world).1 t.F = (t.world, none) := by
    show (match solver t.world.1.2 t.F t.world.2 with | none => (t.world, none) | some dx => ((t.world.1, dx), some dx)) = _
    rw [hw, hF, hu]
  have hf : ((guessSystem R A prop solver).factorize t.world).2 = true := rfl
  have hr2 : r = { t with world := t.world, calls := t.calls ++ [NewtonCall.factorize true, NewtonCall.solve false], diverged := true } := by
    rw [hr]
    simp only [newtonCorrect, hf, if_true, e]
  rw [hr2]
  exact ⟨by simp only [hw], by simp only [hw], hU, hres, rfl, htc⟩

/-- What holds after every iteration, for a statement `I` about the number of iterations, the state and the last increment. -/
structure AdvanceInv (p : NewtonParams K) (acc : σ → ι → K) (I : ℕ → σ → (ι → K) → Prop) (Fl : ℕ → σ → Prop) (s : NewtonLoop ((σ × Matrix ι ι K) × (ι → K)) (ι → K) K) : Prop where
  U : s.U = acc s.world.1.1
  R : s.diverged = false → s.R2.isNone = false
  inv : I s.residuals.length s.world.1.1 s.world.2
  div : s.diverged = true → s.U ⬝ᵥ s.U < p.eps ∨ Fl s.residuals.length s.world.1.1

theorem advance_loop (p : NewtonParams K) (R : σ → ι → K) (A : σ → Matrix ι ι K) (prop : σ → (ι → K) → σ) (solver : Matrix ι ι K → (ι → K) → (ι → K) → Option (ι → K))
    (acc : σ → ι → K) (hacc : ∀ w u, acc (prop w u) = acc w + u) (I : ℕ → σ → (ι → K) → Prop) (Fl : ℕ → σ → Prop)
    (hstep : ∀ k w g, I k w g → match solver (A w) (R w) g with
      | none => Fl k w
      | some u => I (k + 1) (prop w u) u) :
    ∀ (fuel : ℕ) (s : NewtonLoop ((σ × Matrix ι ι K) × (ι → K)) (ι → K) K), fuel ≤ p.iterations → AdvanceInv p acc I Fl s → s.diverged = false →
      (0 < fuel → s.F = R s.world.1.1) →
      AdvanceInv p acc I Fl (newtonLoop p (guessSystem R A prop solver) fuel s) ∧
      ((newtonLoop p (guessSystem R A prop solver) fuel s).converged = true ∨ (newtonLoop p (guessSystem R A prop solver) fuel s).diverged = true ∨
        (newtonLoop p (guessSystem R A prop solver) fuel s).residuals.length = s.residuals.length + fuel) := by
  intro fuel
  induction fuel with
  | zero => intro s _ h _ _; exact ⟨h, Or.inr (Or.inr rfl)⟩
  | succ fuel ih =>
    intro s hfuel h hd hF
    unfold newtonLoop
    split_ifs with hc
    · exact ⟨h, Or.inl hc⟩
    have hc' : s.converged = false := by simpa using hc
    have hF := hF (Nat.succ_pos _)
    have hs := hstep _ s.world.1.1 s.world.2 h.inv
    cases hsol : solver (A s.world.1.1) (R s.world.1.1) s.world.2 with
    | none =>
      rw [hsol] at hs
      simp only at hs
      rw [← hF] at hsol
      obtain ⟨k1, k3, k4, k5, k6, k7⟩ := advance_failure p R A prop solver s hd hc' hsol
      simp only [k6, if_true]
      exact ⟨⟨by rw [k4, k1, h.U], by simp [k6], by rw [k5, k1, k3]; exact h.inv, fun _ => Or.inr (by rw [k5, k1]; exact hs)⟩, Or.inr (Or.inl trivial)⟩
    | some u =>
      rw [hsol] at hs
      simp only at hs
      rw [← hF] at hsol
      obtain ⟨k1, k3, k4, k5, k6, k7, k8, k9⟩ := advance_success p R A prop solver s hd hc' (h.R hd) u hsol
      have hinv : AdvanceInv p acc I Fl (newtonIteration p (guessSystem R A prop solver) s) :=
        ⟨by rw [k4, k1, h.U, hacc], fun _ => k6, by rw [k5, k1, k3]; exact hs, fun hdv => Or.inl (by rw [k4]; exact k7.1 hdv)⟩
      simp only
      split_ifs with hdv
      · exact ⟨hinv, Or.inr (Or.inl hdv)⟩
      · have := ih _ (by omega) hinv (by simpa using hdv) (fun hpos => (k9 (by omega)).1)
        refine ⟨this.1, ?_⟩
        rcases this.2 with t | t | t
        · exact Or.inl t
        · exact Or.inr (Or.inl t)
        · exact Or.inr (Or.inr (by rw [t, k5]; omega))

/-- The whole solve. -/
theorem advance_solve (p : NewtonParams K) (R : σ → ι → K) (A : σ → Matrix ι ι K) (prop : σ → (ι → K) → σ) (solver : Matrix ι ι K → (ι → K) → (ι → K) → Option (ι → K))
    (acc : σ → ι → K) (hacc : ∀ w u, acc (prop w u) = acc w + u) (I : ℕ → σ → (ι → K) → Prop) (Fl : ℕ → σ → Prop)
    (hstep : ∀ k w g, I k w g → match solver (A w) (R w) g with
      | none => Fl k w
      | some u => I (k + 1) (prop w u) u) (st : NewtonState K) (w0 : σ) (A0 : Matrix ι ι K) (hw0 : acc w0 = 0) (h0 : I 0 w0 0) :
    let r := newtonSolve p (guessSystem R A prop solver) true st ((w0, A0), 0)
    I r.1.residuals.length r.2.1.1.1 r.2.1.2 ∧
    (r.1.converged = true ∨ r.1.residuals.length = p.iterations ∨ acc r.2.1.1.1 ⬝ᵥ acc r.2.1.1.1 < p.eps ∨ Fl r.1.residuals.length r.2.1.1.1) := by
  have main : ∃ E : NewtonLoop ((σ × Matrix ι ι K) × (ι → K)) (ι → K) K, (newtonSolve p (guessSystem R A prop solver) true st ((w0, A0), 0)).1.residuals = E.residuals ∧
      (newtonSolve p (guessSystem R A prop solver) true st ((w0, A0), 0)).1.converged = E.converged ∧ (newtonSolve p (guessSystem R A prop solver) true st ((w0, A0), 0)).2.1 = E.world ∧
      AdvanceInv p acc I Fl E ∧ (E.converged = true ∨ E.diverged = true ∨ E.residuals.length = p.iterations) := by
    unfold newtonSolve
    simp only [Bool.not_true, Bool.false_eq_true, if_false]
    refine ⟨_, rfl, rfl, rfl, ?_⟩
    have key : ∀ s : NewtonLoop ((σ × Matrix ι ι K) × (ι → K)) (ι → K) K, s.world = ((w0, A0), 0) → s.F = R s.world.1.1 → s.U = 0 → s.R2.isNone = false → s.residuals = [] →
        s.diverged = false →
        AdvanceInv p acc I Fl (newtonLoop p (guessSystem R A prop solver) p.iterations s) ∧
        ((newtonLoop p (guessSystem R A prop solver) p.iterations s).converged = true ∨ (newtonLoop p (guessSystem R A prop solver) p.iterations s).diverged = true ∨
          (newtonLoop p (guessSystem R A prop solver) p.iterations s).residuals.length = p.iterations) := by
      intro s h1 h2 h3 h4 h5 h6
      have := advance_loop p R A prop solver acc hacc I Fl hstep p.iterations s le_rfl ⟨by rw [h1, h3, hw0], fun _ => h4, by rw [h5, h1]; exact h0, by simp [h6]⟩ h6 (fun _ => h2)
      rw [h5, List.length_nil, zero_add] at this
      exact this
    exact key _ rfl rfl rfl rfl rfl rfl
  obtain ⟨E, e1, e2, e3, k1, k2⟩ := main
  simp only [e1, e2, e3]
  refine ⟨k1.inv, ?_⟩
  rcases k2 with t | t | t
  · exact Or.inl t
  · rw [← k1.U]
    rcases k1.div t with t | t
    · exact Or.inr (Or.inr (Or.inl t))
    · exact Or.inr (Or.inr (Or.inr t))
  · exact Or.inr (Or.inl t)

end Loop

section System

variable {K ι κ : Type*} [Field K] [LinearOrder K] [IsStrictOrderedRing K] [Fintype ι] [Fintype κ] [DecidableEq ι]

/-- The coefficients of the system of a time step between free degrees of freedom. -/
def stepCoefficient (p : BEParams K) (S : DynScene K ι κ) (x : ι → K) (i j : ι) : K :=
  (1 + p.h * p.rayleighMass) * S.M i j + p.h * S.B i j + (-p.h * (p.h + p.rayleighStiffness)) * forceChange S.atRest x i j

theorem dyn_entry (p : BEParams K) (S : DynScene K ι κ) (hJ : ∀ k i, S.fixed i = true → S.J k i = 0) (s : DynState K ι κ) (hy : s.y = S.map s.x) (i j : ι) :
    dynMatrix p S s i j = if S.fixed i || S.fixed j then (if i = j then 1 else 0) else stepCoefficient p S s.x i j := by
  have e : (S.J.transpose * ((-p.h * (p.h + p.rayleighStiffness)) • S.mappedStiff s.y) * S.J) i j =
      (-p.h * (p.h + p.rayleighStiffness)) * ∑ k, ∑ l, S.J k i * S.mappedStiff (S.map s.x) k l * S.J l j := by
    rw [Matrix.mul_smul, Matrix.smul_mul, Matrix.smul_apply, smul_eq_mul, Matrix.mul_apply, hy, Finset.sum_comm]
    congr 1
    refine Finset.sum_congr rfl fun l _ => ?_
    rw [Matrix.mul_apply, Finset.sum_mul]
    rfl
  have e0 : (S.fixed i || S.fixed j) = true → ∑ k, ∑ l, S.J k i * S.mappedStiff (S.map s.x) k l * S.J l j = 0 := by
    intro h
    refine Finset.sum_eq_zero fun k _ => Finset.sum_eq_zero fun l _ => ?_
    rcases Bool.or_eq_true_iff.1 h with h | h
    · rw [hJ k i h]; ring
    · rw [hJ l j h]; ring
  rw [dynMatrix, Matrix.add_apply, e]
  unfold constrainMatrix
  by_cases h : (S.fixed i || S.fixed j) = true
  · rw [if_pos h, if_pos h, e0 h, mul_zero, add_zero]
  · rw [if_neg h, if_neg h]
    unfold stepCoefficient forceChange beMatrix DynScene.atRest
    simp only [Matrix.add_apply, Matrix.smul_apply, smul_eq_mul]
    ring

theorem dyn_mulVec (p : BEParams K) (S : DynScene K ι κ) (hJ : ∀ k i, S.fixed i = true → S.J k i = 0) (s : DynState K ι κ) (hy : s.y = S.map s.x) (u : ι → K) (i : ι) :
    (dynMatrix p S s *ᵥ u) i = if S.fixed i then u i else ∑ j, stepCoefficient p S s.x i j * (if S.fixed j then 0 else u j) := by
  simp only [mulVec, dotProduct]
  split_ifs with hi
  · rw [Finset.sum_eq_single i]
    · rw [dyn_entry p S hJ s hy, hi]; simp
    · intro j _ hj
      rw [dyn_entry p S hJ s hy, hi]; simp [Ne.symm hj]
    · simp
  · refine Finset.sum_congr rfl fun j _ => ?_
    rw [dyn_entry p S hJ s hy]
    by_cases hj : S.fixed j = true
    · have : i ≠ j := fun h => hi (h ▸ hj)
      simp [hj, this]
    · simp [hi, hj]

theorem dyn_held (p : BEParams K) (S : DynScene K ι κ) (hJ : ∀ k i, S.fixed i = true → S.J k i = 0) (s : DynState K ι κ) (hy : s.y = S.map s.x) :
    ∀ v ∈ heldSpace K S.fixed, dynMatrix p S s *ᵥ v ∈ heldSpace K S.fixed := by
  intro v hv i hi
  rw [dyn_mulVec p S hJ s hy, if_pos hi, hv i hi]

theorem step_positive (p : BEParams K) (S : DynScene K ι κ) (x : ι → K) (h : MovesStably p S x) (u : ι → K) (hu : ∀ i, S.fixed i = true → u i = 0) (h0 : u ≠ 0) :
    0 < ∑ i, u i * ∑ j, stepCoefficient p S x i j * u j := by
  have e : ∑ i, u i * ∑ j, stepCoefficient p S x i j * u j = (1 + p.h * p.rayleighMass) * (∑ i, u i * ∑ j, S.M i j * u j) + p.h * (∑ i, u i * ∑ j, S.B i j * u j) +
      (-p.h * (p.h + p.rayleighStiffness)) * (∑ i, u i * ∑ j, forceChange S.atRest x i j * u j) := by
    simp only [Finset.mul_sum, ← Finset.sum_add_distrib]
    refine Finset.sum_congr rfl fun i _ => Finset.sum_congr rfl fun j _ => ?_
    unfold stepCoefficient
    ring
  rw [e]
  have h1 := h.mass u hu h0
  have h2 := mul_nonneg h.step (h.damping u hu)
  have h3 := mul_nonneg (mul_nonneg h.step (add_nonneg h.step h.rayleighStiffness)) (neg_nonneg.2 (h.stiff u hu))
  have h4 := mul_nonneg (mul_nonneg h.step h.rayleighMass) h1.le
  linarith

theorem dyn_spd (p : BEParams K) (S : DynScene K ι κ) (hJ : ∀ k i, S.fixed i = true → S.J k i = 0) (s : DynState K ι κ) (hy : s.y = S.map s.x) (h : MovesStably p S s.x) :
    IsSPD (dynMatrix p S s) := by
  refine ⟨fun i j => ?_, fun v hv => ?_⟩
  · rw [dyn_entry p S hJ s hy, dyn_entry p S hJ s hy, Bool.or_comm]
    by_cases hij : (S.fixed j || S.fixed i) = true
    · rw [if_pos hij, if_pos hij]; simp only [eq_comm]
    · rw [if_neg hij, if_neg hij]
      simp only [Bool.or_eq_true, not_or, Bool.not_eq_true] at hij
      unfold stepCoefficient
      rw [h.mass_symm i j hij.2 hij.1, h.damping_symm i j hij.2 hij.1, h.stiff_symm i j hij.2 hij.1]
  · have e : ∀ i, ∑ j, dynMatrix p S s i j * v j = (dynMatrix p S s *ᵥ v) i := fun i => rfl
    simp only [e, dyn_mulVec p S hJ s hy]
    set u : ι → K := fun j => if S.fixed j then 0 else v j with hu
    have e2 : ∑ i, v i * (if S.fixed i then v i else ∑ j, stepCoefficient p S s.x i j * (if S.fixed j then 0 else v j)) =
        (∑ i, if S.fixed i then v i ^ 2 else 0) + ∑ i, u i * ∑ j, stepCoefficient p S s.x i j * u j := by
      rw [← Finset.sum_add_distrib]
      refine Finset.sum_congr rfl fun i _ => ?_
      simp only [hu]
      split_ifs <;> ring
    rw [e2]
    have h1 : 0 ≤ ∑ i, if S.fixed i then v i ^ 2 else 0 := Finset.sum_nonneg fun i _ => by split_ifs <;> positivity
    by_cases hu0 : u = 0
    · have : ∃ i, S.fixed i = true ∧ v i ≠ 0 := by
        by_contra hno
        push Not at hno
        refine hv (funext fun i => ?_)
        by_cases hi : S.fixed i = true
        · exact hno i hi
        · have := congrFun hu0 i
          simpa [hu, hi] using this
      obtain ⟨i, hi, hvi⟩ := this
      have h2 : 0 < ∑ i, if S.fixed i then v i ^ 2 else 0 :=
        Finset.sum_pos' (fun i _ => by split_ifs <;> positivity) ⟨i, Finset.mem_univ _, by rw [if_pos hi]; positivity⟩
      rw [hu0]
      simpa using h2
    · have := step_positive p S s.x h u (fun i hi => by simp [hu, hi]) hu0
      linarith

/-- The forces on the free degrees of freedom created by the displacement `d`. -/
def freeForce (S : DynScene K ι κ) (x d : ι → K) : ι → K := fun i => if S.fixed i then 0 else ∑ j, forceChange S.atRest x i j * d j

/-- One iteration in a linear scene: `d` is the displacement by which the positions were late. -/
theorem dyn_linear_step (p : BEParams K) (S : DynScene K ι κ) (hS : IsLinearDynamic S) (hD : MappedDamping p S) (hJ : ∀ k i, S.fixed i = true → S.J k i = 0)
    (s : DynState K ι κ) (hy : s.y = S.map s.x) (d : ι → K) (hd : s.x0 + p.h • (s.v0 + p.h • s.a) = s.x + d) (u : ι → K) (hu : u ∈ heldSpace K S.fixed) :
    dynRhs p S (dynPropagate p S s u) = dynRhs p S s - dynMatrix p S s *ᵥ u + freeForce S s.x d := by
  funext i
  by_cases hi : S.fixed i = true
  · rw [Pi.add_apply, Pi.sub_apply, dyn_mulVec p S hJ s hy, if_pos hi, hu i hi]
    simp [dynRhs, projectResponse, hi, freeForce]
  have hi' : S.fixed i = false := by simpa using hi
  have e1 : (constrainMatrix S.fixed (beMatrix p S.toBEScene s.toBEState) *ᵥ u) i = (beMatrix p S.toBEScene s.toBEState *ᵥ u) i := by
    simp only [mulVec, dotProduct, constrainMatrix, hi', Bool.false_or]
    refine Finset.sum_congr rfl fun j _ => ?_
    by_cases hj : S.fixed j = true
    · rw [hu j hj]; ring
    · simp [hj]
  have hxn : (bePropagate p s.toBEState u).x = s.x + (d + (p.h * p.h) • u) := by
    have : (bePropagate p s.toBEState u).x = (s.x0 + p.h • (s.v0 + p.h • s.a)) + (p.h * p.h) • u := by
      simp only [bePropagate]; module
    rw [this, hd]; abel
  have e2 : beRhs p S.toBEScene (bePropagate p s.toBEState u) =
      beRhs p S.toBEScene s.toBEState - beMatrix p S.toBEScene s.toBEState *ᵥ u + S.stiff s.x *ᵥ d := by
    have hf := hS.force s.x (d + (p.h * p.h) • u)
    have hst := hS.stiff s.x (d + (p.h * p.h) • u)
    simp only [beRhs, hxn, addMBKdx]
    rw [hf, hst]
    simp only [beMatrix, bePropagate, mulVec_add, mulVec_smul, add_mulVec, smul_mulVec]
    module
  have e3 : S.mappedForce (dynPropagate p S s u).y + S.mappedMBK p (dynPropagate p S s u) =
      S.mappedForce s.y + S.mappedMBK p s + (p.h * (p.h + p.rayleighStiffness)) • (S.mappedStiff s.y *ᵥ (S.J *ᵥ u)) + S.mappedStiff s.y *ᵥ (S.J *ᵥ d) := by
    have hyn : (dynPropagate p S s u).y = s.y + S.J *ᵥ (d + (p.h * p.h) • u) := by
      show S.map (bePropagate p s.toBEState u).x = _
      rw [hxn, hS.map, ← hy]
    rw [hD, hD, hyn, hS.mappedForce, hS.mappedStiff]
    simp only [dynPropagate, bePropagate, mulVec_add, mulVec_smul]
    module
  have e4 : ((S.Jᵀ * ((-p.h * (p.h + p.rayleighStiffness)) • S.mappedStiff s.y) * S.J) *ᵥ u) i =
      -(p.h * (p.h + p.rayleighStiffness)) * (S.Jᵀ *ᵥ (S.mappedStiff s.y *ᵥ (S.J *ᵥ u))) i := by
    rw [← mulVec_mulVec, ← mulVec_mulVec, smul_mulVec, mulVec_smul, Pi.smul_apply, smul_eq_mul]
    ring
  have e5 : dynRhs p S (dynPropagate p S s u) i = beRhs p S.toBEScene (bePropagate p s.toBEState u) i +
      (S.Jᵀ *ᵥ (S.mappedForce (dynPropagate p S s u).y + S.mappedMBK p (dynPropagate p S s u))) i := by
    simp only [dynRhs, projectResponse, hi']
    rfl
  have e6 : dynRhs p S s i = beRhs p S.toBEScene s.toBEState i + (S.Jᵀ *ᵥ (S.mappedForce s.y + S.mappedMBK p s)) i := by
    simp only [dynRhs, projectResponse, hi']
    rfl
  have e7 : freeForce S s.x d i = (S.stiff s.x *ᵥ d) i + (S.Jᵀ *ᵥ (S.mappedStiff s.y *ᵥ (S.J *ᵥ d))) i := by
    have e : (S.J.transpose *ᵥ (S.mappedStiff (S.map s.x) *ᵥ (S.J *ᵥ d))) i = ∑ j, (∑ k, ∑ l, S.J k i * S.mappedStiff (S.map s.x) k l * S.J l j) * d j := by
      simp only [mulVec, dotProduct, Finset.mul_sum, Finset.sum_mul, transpose_apply]
      rw [Finset.sum_comm (γ := ι)]
      refine Finset.sum_congr rfl fun k _ => ?_
      rw [Finset.sum_comm (γ := ι)]
      refine Finset.sum_congr rfl fun l _ => Finset.sum_congr rfl fun j _ => ?_
      ring
    rw [hy, e]
    simp only [freeForce, hi', Bool.false_eq_true, if_false, forceChange, add_mul, Finset.sum_add_distrib]
    rfl
  rw [Pi.add_apply, Pi.sub_apply, e5, e6, e7, dynMatrix, add_mulVec, Pi.add_apply, e1, e4, e2, e3]
  simp only [mulVec_add, mulVec_smul, Pi.add_apply, Pi.smul_apply, Pi.sub_apply, smul_eq_mul]
  ring

theorem motionResidual_eq (p : BEParams K) (S : DynScene K ι κ) (hD : MappedDamping p S) (s : DynState K ι κ) (hv : s.v = s.v0 + p.h • s.a) (hy : s.y = S.map s.x) :
    dynRhs p S s ⬝ᵥ dynRhs p S s = motionResidual p S s.x s.v s.a := by
  unfold motionResidual dotProduct
  refine Finset.sum_congr rfl fun i _ => ?_
  by_cases hi : S.fixed i = true
  · simp [dynRhs, projectResponse, hi]
  · have hi' : S.fixed i = false := by simpa using hi
    have h1 : dynRhs p S s i = beRhs p S.toBEScene s.toBEState i + (S.Jᵀ *ᵥ (S.mappedForce s.y + S.mappedMBK p s)) i := by
      simp only [dynRhs, projectResponse, hi']
      rfl
    rw [if_neg hi, h1, C56_residual p S.toBEScene s.toBEState hv, hD, hy, hv, sq]
    rfl

theorem dyn_rhs_held (p : BEParams K) (S : DynScene K ι κ) (s : DynState K ι κ) : dynRhs p S s ∈ heldSpace K S.fixed := fun i hi => by simp [dynRhs, projectResponse, hi]

theorem moves_shift (p : BEParams K) (S : DynScene K ι κ) (hS : IsLinearDynamic S) (x u : ι → K) : forceChange S.atRest (x + u) = forceChange S.atRest x := by
  funext i j
  unfold forceChange DynScene.atRest
  simp only
  rw [hS.stiff, hS.map, hS.mappedStiff]

end System

end Caribou
