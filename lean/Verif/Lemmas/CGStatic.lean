import Verif.Model.CGStatic
import Verif.Spec.CGStatic
import Verif.Props.StaticODE
import Verif.Props.ConjugateGradient

set_option autoImplicit false
set_option linter.all false

namespace Caribou

open Spec Matrix

variable {K ι κ : Type*} [Field K] [LinearOrder K] [IsStrictOrderedRing K] [Fintype ι] [Fintype κ] [DecidableEq ι]

/-! ### The conjugate gradient stays in a subspace -/

theorem cgLoop_mem (P : Submodule K (ι → K)) (A precond : (ι → K) → ι → K) (hA : ∀ v ∈ P, A v ∈ P) (hM : ∀ v ∈ P, precond v ∈ P) (t : K) :
    ∀ (fuel : ℕ) (s : CGState K ι), s.x ∈ P → s.r ∈ P → (∀ p, s.p = some p → p ∈ P) → (cgLoop A precond t fuel s).1.x ∈ P := by
  intro fuel
  induction fuel with
  | zero => intro s h _ _; exact h
  | succ fuel ih =>
    intro s hx hr hp
    rw [cgLoop]
    by_cases hc : s.converged = true
    · rw [if_pos hc]; exact hx
    rw [if_neg hc]
    cases hsp : s.p with
    | none => exact hx
    | some p =>
      have hpp := hp p hsp
      simp only
      have hx' := P.add_mem hx (P.smul_mem (s.rho0 / p ⬝ᵥ A p) hpp)
      have hr' := P.sub_mem hr (P.smul_mem (s.rho0 / p ⬝ᵥ A p) (hA _ hpp))
      by_cases h0 : p ⬝ᵥ A p = 0
      · rw [if_pos h0]; exact hx
      rw [if_neg h0]
      by_cases h1 : (s.r - (s.rho0 / p ⬝ᵥ A p) • A p) ⬝ᵥ (s.r - (s.rho0 / p ⬝ᵥ A p) • A p) < t
      · rw [if_pos h1]
        refine ih _ hx' hr' fun q hq => ?_
        simp only [Option.some.injEq] at hq
        rw [← hq]; exact hpp
      · rw [if_neg h1]
        refine ih _ hx' hr' fun q hq => ?_
        simp only at hq
        split_ifs at hq with h2
        simp only [Option.some.injEq] at hq
        rw [← hq]
        exact P.add_mem (hM _ hr') (P.smul_mem _ hpp)

theorem cgSolve_mem (P : Submodule K (ι → K)) (A precond : (ι → K) → ι → K) (hA : ∀ v ∈ P, A v ∈ P) (hM : ∀ v ∈ P, precond v ∈ P) (c : CGParams K) (b g : ι → K)
    (hb : b ∈ P) (hg : g ∈ P) (y : ι → K) (hy : (cgSolve c A precond b g).x = some y) : y ∈ P := by
  unfold cgSolve at hy
  simp only at hy
  split_ifs at hy with h1 h2 h3
  · simp only [Option.some.injEq] at hy; rw [← hy]; exact P.zero_mem
  · simp only [Option.some.injEq] at hy; rw [← hy]; exact hg
  · simp only [Option.some.injEq] at hy
    rw [← hy]
    refine cgLoop_mem P A precond hA hM _ _ _ hg (P.sub_mem hb (hA _ hg)) ?_
    intro p hp
    simp only [Option.some.injEq] at hp
    rw [← hp]
    exact hM _ (P.sub_mem hb (hA _ hg))

/-- Vectors which vanish on the fixed degrees of freedom. -/
def heldSpace (K : Type*) [Field K] {ι : Type*} (fixed : ι → Bool) : Submodule K (ι → K) where
  carrier := {v | ∀ i, fixed i = true → v i = 0}
  add_mem' := fun {a b} ha hb i hi => by rw [Pi.add_apply, ha i hi, hb i hi, add_zero]
  zero_mem' := fun i _ => rfl
  smul_mem' := fun c v hv i hi => by rw [Pi.smul_apply, hv i hi, smul_zero]

theorem mem_heldSpace {fixed : ι → Bool} {v : ι → K} : v ∈ heldSpace K fixed ↔ ∀ i, fixed i = true → v i = 0 := Iff.rfl

/-! ### The loop of the Newton solver with a guess -/

/-- One iteration whose linear system is solved by `u`. -/
theorem guess_success (p : NewtonParams K) (S : StaticScene K ι κ) (solver : Matrix ι ι K → (ι → K) → (ι → K) → Option (ι → K))
    (s : NewtonLoop (StaticWorld K ι κ × (ι → K)) (ι → K) K) (hd : s.diverged = false) (hc : s.converged = false) (hR : s.R2.isNone = false) (u : ι → K)
    (hu : solver (staticMatrix S s.world.1) s.F s.world.2 = some u) :
    let r := newtonIteration p (guessEnv S solver) s
    r.world.1.x = s.world.1.x + u ∧ r.world.1.y = S.map (s.world.1.x + u) ∧ r.world.2 = u ∧ r.U = s.U + u ∧ r.residuals.length = s.residuals.length + 1 ∧ r.R2.isNone = false ∧
    (r.diverged = true ↔ (s.U + u) ⬝ᵥ (s.U + u) < p.eps) ∧
    (r.diverged = false → r.converged = false → 0 < p.correction → p.correction * p.correction * ((s.U + u) ⬝ᵥ (s.U + u)) ≤ u ⬝ᵥ u) ∧
    (1 < p.iterations → r.F = staticRhs S r.world.1 ∧ (r.diverged = false → r.converged = false → 0 < p.absolute → p.absolute * p.absolute ≤ r.F ⬝ᵥ r.F)) := by
  have key : ∀ t : NewtonLoop (StaticWorld K ι κ × (ι → K)) (ι → K) K, t.diverged = false → t.converged = false → t.R2.isNone = false →
      let r := newtonCheck p (guessEnv S solver) t u
      r.world = t.world ∧ r.F = t.F ∧ r.U = t.U + u ∧ r.residuals.length = t.residuals.length + 1 ∧ r.R2 = t.R2 ∧
      (r.diverged = true ↔ (t.U + u) ⬝ᵥ (t.U + u) < p.eps) ∧
      (r.diverged = false → r.converged = false → 0 < p.correction → p.correction * p.correction * ((t.U + u) ⬝ᵥ (t.U + u)) ≤ u ⬝ᵥ u) ∧
      (t.R2 = some (t.F ⬝ᵥ t.F) → r.diverged = false → r.converged = false → 0 < p.absolute → p.absolute * p.absolute ≤ t.F ⬝ᵥ t.F) := by
    intro t h1 h2 h3
    unfold newtonCheck
    simp only [h3, Bool.false_or, guessEnv, Option.isNone_some, ltNan, mulNan, Option.map_some, decide_eq_true_eq, Bool.and_eq_true]
    split_ifs with c1 c2 c3 c4
    · exact ⟨rfl, rfl, rfl, by simp, rfl, by simpa using c1, fun h => absurd h (by simp), fun _ h => absurd h (by simp)⟩
    · exact ⟨rfl, rfl, rfl, by simp, rfl, by simp [h1]; simpa using c1, fun _ h => absurd h (by simp), fun _ _ h => absurd h (by simp)⟩
    · exact ⟨rfl, rfl, rfl, by simp, rfl, by simp [h1]; simpa using c1, fun _ h => absurd h (by simp), fun _ _ h => absurd h (by simp)⟩
    · exact ⟨rfl, rfl, rfl, by simp, rfl, by simp [h1]; simpa using c1, fun _ h => absurd h (by simp), fun _ _ h => absurd h (by simp)⟩
    · refine ⟨rfl, rfl, rfl, by simp, rfl, by simp [h1]; simpa using c1, fun _ _ hp => ?_, fun h _ _ hp => ?_⟩
      · by_contra hlt
        exact c2 ⟨hp, not_le.1 hlt⟩
      · by_contra hlt
        refine c4 ⟨hp, ?_⟩
        simp only [h]
        simpa using hlt
  have ha : ∃ t : NewtonLoop (StaticWorld K ι κ × (ι → K)) (ι → K) K, newtonAssemble p (guessEnv S solver) s = t ∧
      t.world = ({ s.world.1 with A := staticMatrix S s.world.1 }, s.world.2) ∧ t.F = s.F ∧ t.U = s.U ∧ t.residuals = s.residuals ∧ t.R2 = s.R2 ∧ t.converged = false ∧
      t.diverged = false := by
    refine ⟨_, rfl, ?_⟩
    unfold newtonAssemble
    simp only
    split_ifs <;> first | exact ⟨rfl, rfl, rfl, rfl, rfl, hc, rfl⟩ | exact ⟨rfl, rfl, rfl, rfl, rfl, hc, hd⟩
  obtain ⟨t, ht, hw, hF, hU, hres, hR2, htc, htd⟩ := ha
  intro r
  have hr : r = newtonCorrect p (guessEnv S solver) t := by
    show newtonIteration p (guessEnv S solver) s = _
    unfold newtonIteration
    simp only [ht, htd, Bool.false_eq_true, if_false]
  have e : (guessEnv S solver).solve ((guessEnv S solver).factorize t.world).1 t.F = ((t.world.1, u), some u) := by
    show (match solver t.world.1.A t.F t.world.2 with | none => (t.world, none) | some dx => ((t.world.1, dx), some dx)) = _
    rw [hw, hF, hu]
  have hf : ((guessEnv S solver).factorize t.world).2 = true := rfl
  by_cases hp : 1 < p.iterations
  · have hr2 : r = newtonCheck p (guessEnv S solver) { t with
        world := (staticPropagate S t.world.1 u, u), calls := t.calls ++ [NewtonCall.factorize true, NewtonCall.solve true]
        F := staticRhs S (staticPropagate S t.world.1 u), R2 := some (staticRhs S (staticPropagate S t.world.1 u) ⬝ᵥ staticRhs S (staticPropagate S t.world.1 u)) } u := by
      rw [hr]
      simp only [newtonCorrect, hf, if_true, e, if_pos hp]
      rfl
    have k := key { t with
        world := (staticPropagate S t.world.1 u, u), calls := t.calls ++ [NewtonCall.factorize true, NewtonCall.solve true]
        F := staticRhs S (staticPropagate S t.world.1 u), R2 := some (staticRhs S (staticPropagate S t.world.1 u) ⬝ᵥ staticRhs S (staticPropagate S t.world.1 u)) } htd htc rfl
    simp only at k
    rw [← hr2] at k
    obtain ⟨k1, k2, k3, k4, k5, k6, k7, k8⟩ := k
    rw [hU] at k3 k6 k7
    refine ⟨by rw [k1, hw]; rfl, by rw [k1, hw]; rfl, by rw [k1], k3, by rw [k4, hres], by rw [k5]; rfl, k6, k7, fun _ => ⟨by rw [k2, k1], ?_⟩⟩
    rw [k2]
    exact k8 trivial
  · have hr2 : r = newtonCheck p (guessEnv S solver) { t with
        world := (staticPropagate S t.world.1 u, u), calls := t.calls ++ [NewtonCall.factorize true, NewtonCall.solve true] } u := by
      rw [hr]
      simp only [newtonCorrect, hf, if_true, e, if_neg hp]
      rfl
    have k := key { t with world := (staticPropagate S t.world.1 u, u), calls := t.calls ++ [NewtonCall.factorize true, NewtonCall.solve true] } htd htc (by simp only [hR2, hR])
    simp only at k
    rw [← hr2] at k
    obtain ⟨k1, k2, k3, k4, k5, k6, k7, k8⟩ := k
    rw [hU] at k3 k6 k7
    exact ⟨by rw [k1, hw]; rfl, by rw [k1, hw]; rfl, by rw [k1], k3, by rw [k4, hres], by rw [k5, hR2, hR], k6, k7, fun h => absurd h hp⟩

/-- One iteration whose linear solver fails. -/
theorem guess_failure (p : NewtonParams K) (S : StaticScene K ι κ) (solver : Matrix ι ι K → (ι → K) → (ι → K) → Option (ι → K))
    (s : NewtonLoop (StaticWorld K ι κ × (ι → K)) (ι → K) K) (hd : s.diverged = false) (hc : s.converged = false)
    (hu : solver (staticMatrix S s.world.1) s.F s.world.2 = none) :
    let r := newtonIteration p (guessEnv S solver) s
    r.world.1.x = s.world.1.x ∧ r.world.1.y = s.world.1.y ∧ r.world.2 = s.world.2 ∧ r.U = s.U ∧ r.residuals = s.residuals ∧ r.diverged = true ∧ r.converged = false := by
  have ha : ∃ t : NewtonLoop (StaticWorld K ι κ × (ι → K)) (ι → K) K, newtonAssemble p (guessEnv S solver) s = t ∧
      t.world = ({ s.world.1 with A := staticMatrix S s.world.1 }, s.world.2) ∧ t.F = s.F ∧ t.U = s.U ∧ t.residuals = s.residuals ∧ t.converged = false ∧
      t.diverged = false := by
    refine ⟨_, rfl, ?_⟩
    unfold newtonAssemble
    simp only
    split_ifs <;> first | exact ⟨rfl, rfl, rfl, rfl, hc, rfl⟩ | exact ⟨rfl, rfl, rfl, rfl, hc, hd⟩
  obtain ⟨t, ht, hw, hF, hU, hres, htc, htd⟩ := ha
  intro r
  have hr : r = newtonCorrect p (guessEnv S solver) t := by
    show newtonIteration p (guessEnv S solver) s = _
    unfold newtonIteration
    simp only [ht, htd, Bool.false_eq_true, if_false]
  have e : (guessEnv S solver).solve ((guessEnv S solver).factorize t.world).1 t.F = (t.world, none) := by
    show (match solver t.world.1.A t.F t.world.2 with | none => (t.world, none) | some dx => ((t.world.1, dx), some dx)) = _
    rw [hw, hF, hu]
  have hf : ((guessEnv S solver).factorize t.world).2 = true := rfl
  have hr2 : r = { t with world := t.world, calls := t.calls ++ [NewtonCall.factorize true, NewtonCall.solve false], diverged := true } := by
    rw [hr]
    simp only [newtonCorrect, hf, if_true, e]
  rw [hr2]
  exact ⟨by simp only [hw], by simp only [hw], by simp only [hw], hU, hres, rfl, htc⟩

/-- What holds after every iteration from `x0`, for a statement `I` about the number of iterations, the positions and the last increment. -/
structure GuessInv (p : NewtonParams K) (S : StaticScene K ι κ) (x0 : ι → K) (I : ℕ → (ι → K) → (ι → K) → Prop) (Fl : (ι → K) → Prop)
    (s : NewtonLoop (StaticWorld K ι κ × (ι → K)) (ι → K) K) : Prop where
  y : s.world.1.y = S.map s.world.1.x
  U : s.U = s.world.1.x - x0
  R : s.diverged = false → s.R2.isNone = false
  inv : I s.residuals.length s.world.1.x s.world.2
  div : s.diverged = true → s.U ⬝ᵥ s.U < p.eps ∨ Fl s.world.1.x
  undiv : s.diverged = false → 0 < s.residuals.length → p.eps ≤ s.U ⬝ᵥ s.U
  correction : s.diverged = false → s.converged = false → 0 < s.residuals.length → 0 < p.correction → p.correction * p.correction * (s.U ⬝ᵥ s.U) ≤ s.world.2 ⬝ᵥ s.world.2
  absolute : s.diverged = false → s.converged = false → (1 < p.iterations ∨ s.residuals.length = 0) → 0 < p.absolute →
    p.absolute * p.absolute ≤ staticRhs S s.world.1 ⬝ᵥ staticRhs S s.world.1
  /-- After a failure of the linear solver, what the last check said still holds. -/
  failed : s.diverged = true → p.eps ≤ s.U ⬝ᵥ s.U → (1 < p.iterations ∨ s.residuals.length = 0) → 0 < p.absolute → p.absolute * p.absolute ≤ staticRhs S s.world.1 ⬝ᵥ staticRhs S s.world.1

theorem guess_loop (p : NewtonParams K) (S : StaticScene K ι κ) (x0 : ι → K) (solver : Matrix ι ι K → (ι → K) → (ι → K) → Option (ι → K))
    (I : ℕ → (ι → K) → (ι → K) → Prop) (Fl : (ι → K) → Prop)
    (hstep : ∀ k (w : StaticWorld K ι κ) g, w.y = S.map w.x → I k w.x g → match solver (staticMatrix S w) (staticRhs S w) g with
      | none => Fl w.x
      | some u => I (k + 1) (w.x + u) u) :
    ∀ (fuel : ℕ) (s : NewtonLoop (StaticWorld K ι κ × (ι → K)) (ι → K) K), fuel ≤ p.iterations → GuessInv p S x0 I Fl s → s.diverged = false →
      (0 < fuel → s.F = staticRhs S s.world.1) → (fuel < p.iterations ∨ s.residuals.length = 0) →
      GuessInv p S x0 I Fl (newtonLoop p (guessEnv S solver) fuel s) ∧
      ((newtonLoop p (guessEnv S solver) fuel s).converged = true ∨ (newtonLoop p (guessEnv S solver) fuel s).diverged = true ∨
        (newtonLoop p (guessEnv S solver) fuel s).residuals.length = s.residuals.length + fuel) := by
  intro fuel
  induction fuel with
  | zero => intro s _ h _ _ _; exact ⟨h, Or.inr (Or.inr rfl)⟩
  | succ fuel ih =>
    intro s hfuel h hd hF hfirst
    unfold newtonLoop
    split_ifs with hc
    · exact ⟨h, Or.inl hc⟩
    have hc' : s.converged = false := by simpa using hc
    have hF := hF (Nat.succ_pos _)
    have hs := hstep _ s.world.1 s.world.2 h.y h.inv
    cases hsol : solver (staticMatrix S s.world.1) (staticRhs S s.world.1) s.world.2 with
    | none =>
      rw [hsol] at hs
      simp only at hs
      rw [← hF] at hsol
      obtain ⟨k1, k2, k3, k4, k5, k6, k7⟩ := guess_failure p S solver s hd hc' hsol
      have hw : staticRhs S (newtonIteration p (guessEnv S solver) s).world.1 = staticRhs S s.world.1 := by
        unfold staticRhs; rw [k1, k2]
      simp only [k6, if_true]
      refine ⟨⟨by rw [k2, k1, h.y], by rw [k4, k1, h.U], by simp [k6], by rw [k5, k1, k3]; exact h.inv, fun _ => Or.inr (by rw [k1]; exact hs), by simp [k6], by simp [k6],
        by simp [k6], fun _ _ hl hp => ?_⟩, Or.inr (Or.inl trivial)⟩
      rw [hw]
      rw [k5] at hl
      exact h.absolute hd hc' hl hp
    | some u =>
      rw [hsol] at hs
      simp only at hs
      rw [← hF] at hsol
      obtain ⟨k1, k2, k3, k4, k5, k6, k7, k8, k9⟩ := guess_success p S solver s hd hc' (h.R hd) u hsol
      have hinv : GuessInv p S x0 I Fl (newtonIteration p (guessEnv S solver) s) := by
        refine ⟨by rw [k2, k1], by rw [k4, k1, h.U]; abel, fun _ => k6, by rw [k5, k1, k3]; exact hs, fun hdv => Or.inl (by rw [k4]; exact k7.1 hdv), fun hdv _ => ?_,
          fun a b _ d => by rw [k4, k3]; exact k8 a b d, fun a b hl d => ?_, fun a b => absurd (k7.1 a) (by rw [← k4]; exact not_lt.2 b)⟩
        · rw [k4]
          by_contra hlt
          exact absurd (k7.2 (not_le.1 hlt)) (by rw [hdv]; simp)
        · have hl' : 1 < p.iterations := by
            rcases hl with t | t
            · exact t
            · omega
          obtain ⟨f1, f2⟩ := k9 hl'
          rw [← f1]
          exact f2 a b d
      simp only
      split_ifs with hdv
      · exact ⟨hinv, Or.inr (Or.inl hdv)⟩
      · have := ih _ (by omega) hinv (by simpa using hdv) (fun hpos => (k9 (by omega)).1) (Or.inl (by omega))
        refine ⟨this.1, ?_⟩
        rcases this.2 with t | t | t
        · exact Or.inl t
        · exact Or.inr (Or.inl t)
        · exact Or.inr (Or.inr (by rw [t, k5]; omega))

/-- The whole solve. -/
theorem guess_solve (p : NewtonParams K) (S : StaticScene K ι κ) (x0 : ι → K) (c : CGParams K) (precond : Matrix ι ι K → (ι → K) → ι → K) (st : NewtonState K)
    (I : ℕ → (ι → K) → (ι → K) → Prop) (Fl : (ι → K) → Prop)
    (hstep : ∀ k (w : StaticWorld K ι κ) g, w.y = S.map w.x → I k w.x g → match cgIncrement c precond (staticMatrix S w) (staticRhs S w) g with
      | none => Fl w.x
      | some u => I (k + 1) (w.x + u) u) (h0 : I 0 x0 0) :
    ∃ E : NewtonLoop (StaticWorld K ι κ × (ι → K)) (ι → K) K, (cgStaticSolve p S c precond st x0).2 = E.world.1 ∧ (cgStaticSolve p S c precond st x0).1.residuals = E.residuals ∧
      (cgStaticSolve p S c precond st x0).1.converged = E.converged ∧ GuessInv p S x0 I Fl E ∧
      (E.converged = true ∨ E.diverged = true ∨ E.residuals.length = p.iterations) := by
  unfold cgStaticSolve newtonSolve
  simp only [Bool.not_true, Bool.false_eq_true, if_false]
  refine ⟨_, rfl, rfl, rfl, ?_⟩
  have key : ∀ s : NewtonLoop (StaticWorld K ι κ × (ι → K)) (ι → K) K, s.world = (⟨x0, S.map x0, 0⟩, 0) → s.F = staticRhs S s.world.1 → s.U = 0 → s.R2.isNone = false → s.residuals = [] →
      s.diverged = false → (s.converged = false → 0 < p.absolute → p.absolute * p.absolute ≤ s.F ⬝ᵥ s.F) →
      GuessInv p S x0 I Fl (newtonLoop p (guessEnv S (cgIncrement c precond)) p.iterations s) ∧
      ((newtonLoop p (guessEnv S (cgIncrement c precond)) p.iterations s).converged = true ∨ (newtonLoop p (guessEnv S (cgIncrement c precond)) p.iterations s).diverged = true ∨
        (newtonLoop p (guessEnv S (cgIncrement c precond)) p.iterations s).residuals.length = p.iterations) := by
    intro s h1 h2 h3 h4 h5 h6 h7
    have := guess_loop p S x0 (cgIncrement c precond) I Fl hstep p.iterations s le_rfl
      ⟨by rw [h1], by rw [h1, h3, sub_self], fun _ => h4, by rw [h5, h1]; exact h0, by simp [h6], by simp [h5], by simp [h5], fun _ b _ d => by rw [← h2]; exact h7 b d, by simp [h6]⟩
      h6 (fun _ => h2) (Or.inr (by rw [h5]; rfl))
    rw [h5, List.length_nil, zero_add] at this
    exact this
  refine key _ rfl rfl rfl rfl rfl rfl fun h hp => ?_
  simp only [hp, decide_true, Bool.true_and, leNan, guessEnv, decide_eq_false_iff_not, not_le] at h
  exact h.le

/-! ### The linear system -/

theorem static_entry (S : StaticScene K ι κ) (hJ : MapsFreeOnly S) (w : StaticWorld K ι κ) (hy : w.y = S.map w.x) (i j : ι) :
    staticMatrix S w i j = if S.fixed i || S.fixed j then (if i = j then 1 else 0) else -forceChange S w.x i j := by
  have e : (S.J.transpose * -(S.mappedStiff w.y) * S.J) i j = -∑ k, ∑ l, S.J k i * S.mappedStiff (S.map w.x) k l * S.J l j := by
    rw [Matrix.mul_neg, Matrix.neg_mul, Matrix.neg_apply, Matrix.mul_apply, hy, Finset.sum_comm]
    congr 1
    refine Finset.sum_congr rfl fun l _ => ?_
    rw [Matrix.mul_apply, Finset.sum_mul]
    rfl
  have e0 : (S.fixed i || S.fixed j) = true → ∑ k, ∑ l, S.J k i * S.mappedStiff (S.map w.x) k l * S.J l j = 0 := by
    intro h
    refine Finset.sum_eq_zero fun k _ => Finset.sum_eq_zero fun l _ => ?_
    rcases Bool.or_eq_true_iff.1 h with h | h
    · rw [hJ k i h]; ring
    · rw [hJ l j h]; ring
  rw [staticMatrix, Matrix.add_apply, e]
  unfold constrainMatrix forceChange
  by_cases h : (S.fixed i || S.fixed j) = true
  · rw [if_pos h, if_pos h, e0 h, neg_zero, add_zero]
  · rw [if_neg h, if_neg h, Matrix.neg_apply]; ring

theorem static_mulVec_free (S : StaticScene K ι κ) (hJ : MapsFreeOnly S) (w : StaticWorld K ι κ) (hy : w.y = S.map w.x) (u : ι → K) (i : ι) :
    (staticMatrix S w *ᵥ u) i = if S.fixed i then u i else -∑ j, forceChange S w.x i j * (if S.fixed j then 0 else u j) := by
  simp only [mulVec, dotProduct]
  split_ifs with hi
  · rw [Finset.sum_eq_single i]
    · rw [static_entry S hJ w hy, hi]; simp
    · intro j _ hj
      rw [static_entry S hJ w hy, hi]; simp [Ne.symm hj]
    · simp
  · rw [← Finset.sum_neg_distrib]
    refine Finset.sum_congr rfl fun j _ => ?_
    rw [static_entry S hJ w hy]
    by_cases hj : S.fixed j = true
    · have : i ≠ j := fun h => hi (h ▸ hj)
      simp [hj, this]
    · simp [hi, hj]

theorem static_held (S : StaticScene K ι κ) (hJ : MapsFreeOnly S) (w : StaticWorld K ι κ) (hy : w.y = S.map w.x) :
    ∀ v ∈ heldSpace K S.fixed, staticMatrix S w *ᵥ v ∈ heldSpace K S.fixed := by
  intro v hv i hi
  rw [static_mulVec_free S hJ w hy, if_pos hi, hv i hi]

theorem static_spd (S : StaticScene K ι κ) (hJ : MapsFreeOnly S) (w : StaticWorld K ι κ) (hy : w.y = S.map w.x) (h : HeldStable S w.x) : IsSPD (staticMatrix S w) := by
  refine ⟨fun i j => ?_, fun v hv => ?_⟩
  · rw [static_entry S hJ w hy, static_entry S hJ w hy, Bool.or_comm]
    by_cases hij : (S.fixed j || S.fixed i) = true
    · rw [if_pos hij, if_pos hij]; simp only [eq_comm]
    · rw [if_neg hij, if_neg hij]
      simp only [Bool.or_eq_true, not_or, Bool.not_eq_true] at hij
      rw [h.symm i j hij.2 hij.1]
  · have e : ∀ i, ∑ j, staticMatrix S w i j * v j = (staticMatrix S w *ᵥ v) i := fun i => rfl
    simp only [e, static_mulVec_free S hJ w hy]
    set u : ι → K := fun j => if S.fixed j then 0 else v j with hu
    have e2 : ∑ i, v i * (if S.fixed i then v i else -∑ j, forceChange S w.x i j * (if S.fixed j then 0 else v j)) =
        (∑ i, if S.fixed i then v i ^ 2 else 0) + -∑ i, u i * ∑ j, forceChange S w.x i j * u j := by
      rw [← Finset.sum_neg_distrib, ← Finset.sum_add_distrib]
      refine Finset.sum_congr rfl fun i _ => ?_
      simp only [hu]
      split_ifs <;> ring
    rw [e2]
    have h1 : 0 ≤ ∑ i, if S.fixed i then v i ^ 2 else 0 := Finset.sum_nonneg fun i _ => by split_ifs <;> positivity
    by_cases hu0 : u = 0
    · have : ∃ i, S.fixed i = true ∧ v i ≠ 0 := by
        by_contra hno
        push Not at hno
        refine hv (funext fun i => ?_)
        by_cases hi : S.fixed i = true
        · exact hno i hi
        · have := congrFun hu0 i
          simpa [hu, hi] using this
      obtain ⟨i, hi, hvi⟩ := this
      have h2 : 0 < ∑ i, if S.fixed i then v i ^ 2 else 0 :=
        Finset.sum_pos' (fun i _ => by split_ifs <;> positivity) ⟨i, Finset.mem_univ _, by rw [if_pos hi]; positivity⟩
      rw [hu0]
      simpa using h2
    · have := h.opposed u (fun i hi => by simp [hu, hi]) hu0
      linarith

theorem static_linear_step (S : StaticScene K ι κ) (hS : IsLinearStatic S) (hJ : MapsFreeOnly S) (w w' : StaticWorld K ι κ) (hy : w.y = S.map w.x) (u : ι → K)
    (hx' : w'.x = w.x + u) (hy' : w'.y = S.map w'.x)
    (hu : u ∈ heldSpace K S.fixed) : staticRhs S w' = staticRhs S w - staticMatrix S w *ᵥ u := by
  funext i
  have hu' : ∀ j, (if S.fixed j then 0 else u j) = u j := fun j => by
    split_ifs with h
    · exact (hu j h).symm
    · rfl
  rw [Pi.sub_apply, static_mulVec_free S hJ w hy]
  simp only [hu']
  unfold staticRhs projectResponse
  by_cases hi : S.fixed i = true
  · simp [hi, hu i hi]
  · simp only [hi, if_false, Bool.false_eq_true]
    rw [hy', hx', hS.force, hS.map, hS.mappedForce, mulVec_add, hy]
    simp only [Pi.add_apply]
    have e : (S.J.transpose *ᵥ (S.mappedStiff (S.map w.x) *ᵥ (S.J *ᵥ u))) i = ∑ j, (∑ k, ∑ l, S.J k i * S.mappedStiff (S.map w.x) k l * S.J l j) * u j := by
      simp only [mulVec, dotProduct, Finset.mul_sum, Finset.sum_mul, transpose_apply]
      rw [Finset.sum_comm (γ := ι)]
      refine Finset.sum_congr rfl fun k _ => ?_
      rw [Finset.sum_comm (γ := ι)]
      refine Finset.sum_congr rfl fun l _ => Finset.sum_congr rfl fun j _ => ?_
      ring
    have e2 : ∑ j, forceChange S w.x i j * u j = (S.stiff w.x *ᵥ u) i + (S.J.transpose *ᵥ (S.mappedStiff (S.map w.x) *ᵥ (S.J *ᵥ u))) i := by
      rw [e]
      simp only [forceChange, add_mul, Finset.sum_add_distrib]
      rfl
    rw [e2]
    ring

theorem outOfBalance_eq (S : StaticScene K ι κ) (w : StaticWorld K ι κ) (hy : w.y = S.map w.x) : staticRhs S w ⬝ᵥ staticRhs S w = outOfBalance S w.x := by
  unfold outOfBalance dotProduct
  refine Finset.sum_congr rfl fun i _ => ?_
  unfold staticRhs projectResponse
  split_ifs with hi
  · ring
  · rw [hy, sq]; rfl

/-! ### The conjugate gradient as the linear solver -/

theorem cgIncrement_spec (c : CGParams K) (h0 : 0 < c.zero) (hz : c.zero ≤ c.tolerance ^ 2 * c.eps) (hn : Fintype.card ι ≤ c.maxIterations)
    (precond : Matrix ι ι K → (ι → K) → ι → K) (hp : precond = cgPlain ∨ precond = diagonalPrecond) (A : Matrix ι ι K) (hA : IsSPD A) (fixed : ι → Bool)
    (hAf : ∀ v ∈ heldSpace K fixed, A *ᵥ v ∈ heldSpace K fixed) (b g : ι → K) (hb : b ∈ heldSpace K fixed) (hg : g ∈ heldSpace K fixed) :
    match cgIncrement c precond A b g with
    | none => b ⬝ᵥ b < c.eps ∨ (b - A *ᵥ g) ⬝ᵥ (b - A *ᵥ g) < c.tolerance ^ 2 * (b ⬝ᵥ b)
    | some u => u ∈ heldSpace K fixed ∧ (b - A *ᵥ u) ⬝ᵥ (b - A *ᵥ u) < c.tolerance ^ 2 * (b ⬝ᵥ b) ∧ c.eps ≤ b ⬝ᵥ b := by
  have hpm : ∃ M : Matrix ι ι K, IsSPD M ∧ precond A = fun v => M *ᵥ v := by
    rcases hp with hp | hp
    · exact ⟨1, (C53_preconditioners fun i => (hA.diag_pos i).le).1, by rw [hp]; funext v; simp [cgPlain]⟩
    · obtain ⟨D, hD, hD'⟩ := (C53_preconditioners fun i => (hA.diag_pos i).le).2
      exact ⟨D, hD, by rw [hp]; funext v; rw [hD']⟩
  have hpf : ∀ v ∈ heldSpace K fixed, precond A v ∈ heldSpace K fixed := by
    intro v hv i hi
    rcases hp with hp | hp
    · rw [hp]; exact hv i hi
    · rw [hp]; unfold diagonalPrecond; rw [hv i hi, mul_zero]
  obtain ⟨M, hM, hMe⟩ := hpm
  have hbb : ∑ i, b i ^ 2 = b ⬝ᵥ b := (dot_self_eq b).symm
  by_cases hbe : b ⬝ᵥ b < c.eps
  · have : cgIncrement c precond A b g = none := by
      unfold cgIncrement cgSolve
      simp [hbe]
    rw [this]
    exact Or.inl hbe
  have hbe' := not_lt.1 hbe
  have hbound : c.bound b = c.tolerance ^ 2 * (b ⬝ᵥ b) := by
    rw [CGParams.bound, hbb]
    exact max_eq_left (hz.trans (mul_le_mul_of_nonneg_left hbe' (sq_nonneg _)))
  by_cases hge : residual2 A b g < c.bound b
  · have h1 : cgIncrement c precond A b g = none := by
      have := solve_already c A (precond A) b g (by rw [hbb]; exact hbe) hge
      unfold solveMatrix at this
      unfold cgIncrement
      simp only [this, Bool.false_eq_true, if_false]
    rw [h1]
    right
    rw [← residual2_eq, ← hbound]
    exact hge
  · have hconv := (C53_terminates hA hM c h0 b g (by rw [hbb]; exact hbe') (not_lt.1 hge) hn).1
    rw [← hMe] at hconv
    obtain ⟨y, hy1, hy2⟩ := C52_sound c A (precond A) b g hconv
    have h1 : cgIncrement c precond A b g = some y := by
      unfold solveMatrix at hconv hy1
      unfold cgIncrement
      simp only [hconv, if_true, hy1]
    rw [h1]
    refine ⟨?_, by rw [← residual2_eq, ← hbound]; exact hy2, hbe'⟩
    exact cgSolve_mem (heldSpace K fixed) (fun v => A *ᵥ v) (precond A) hAf hpf c b g hb hg y hy1

theorem static_rhs_held (S : StaticScene K ι κ) (w : StaticWorld K ι κ) : staticRhs S w ∈ heldSpace K S.fixed := fun i hi => staticRhs_fixed S w i hi

end Caribou
