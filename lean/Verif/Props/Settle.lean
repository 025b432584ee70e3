import Verif.Spec.Settle
import Verif.Lemmas.Settle
import Verif.Props.DynamicODE
import Verif.Props.SmallAgree

/-!
# C141: time steps settle in the static solution
-/

set_option autoImplicit false
set_option linter.all false

namespace Caribou

open Spec Matrix Filter Topology

section Count

variable {K σ ι : Type*} [Field K] [LinearOrder K] [Fintype ι]

theorem newtonCheck_residuals {σ V : Type*} (p : NewtonParams K) (env : NewtonEnv σ V K) (s : NewtonLoop σ V K) (dx : V) :
    (newtonCheck p env s dx).residuals.length = s.residuals.length + 1 := by
  unfold newtonCheck
  simp only
  split_ifs <;> simp

/-- An iteration adds one residual exactly when the linear solver finds a solution. -/
theorem iteration_residuals (n : NewtonParams K) (R : σ → ι → K) (A : σ → Matrix ι ι K) (prop : σ → (ι → K) → σ)
    (solver : Matrix ι ι K → (ι → K) → Option (ι → K)) (s : NewtonLoop (σ × Matrix ι ι K) (ι → K) K) (hd : s.diverged = false) :
    (newtonIteration n (systemEnv R A prop solver) s).residuals.length = s.residuals.length + if (solver (A s.world.1) s.F).isSome then 1 else 0 := by
  have key : ∀ t : NewtonLoop (σ × Matrix ι ι K) (ι → K) K, t.world = (s.world.1, A s.world.1) → t.F = s.F → t.residuals = s.residuals →
      (newtonCorrect n (systemEnv R A prop solver) t).residuals.length = s.residuals.length + if (solver (A s.world.1) s.F).isSome then 1 else 0 := by
    intro t hw hF hr
    have hf : ((systemEnv R A prop solver).factorize t.world).2 = true := rfl
    rcases hsol : solver (A s.world.1) s.F with _ | u
    · have e : (systemEnv R A prop solver).solve ((systemEnv R A prop solver).factorize t.world).1 t.F = (t.world, none) := by
        show (t.world, solver t.world.2 t.F) = _
        rw [hw, hF, hsol]
      simp only [newtonCorrect, hf, if_true, e, hr]
      simp
    · have e : (systemEnv R A prop solver).solve ((systemEnv R A prop solver).factorize t.world).1 t.F = (t.world, some u) := by
        show (t.world, solver t.world.2 t.F) = _
        rw [hw, hF, hsol]
      simp only [newtonCorrect, hf, if_true, e]
      split_ifs with h1 h2
      all_goals rw [newtonCheck_residuals]
      all_goals simp_all
  have ha : ∃ t : NewtonLoop (σ × Matrix ι ι K) (ι → K) K, newtonAssemble n (systemEnv R A prop solver) s = t ∧
      t.world = (s.world.1, A s.world.1) ∧ t.F = s.F ∧ t.diverged = false ∧ t.residuals = s.residuals := by
    refine ⟨_, rfl, ?_⟩
    unfold newtonAssemble
    simp only
    split_ifs <;> first | exact ⟨rfl, rfl, rfl, rfl⟩ | exact ⟨rfl, rfl, hd, rfl⟩
  obtain ⟨t, ht, hw, hF, htd, hr⟩ := ha
  unfold newtonIteration
  simp only [ht, htd, Bool.false_eq_true, if_false]
  exact key t hw hF hr

/-- What holds after each number of exact solves holds for the number of residuals. -/
theorem system_counted (n : NewtonParams K) (R : σ → ι → K) (A : σ → Matrix ι ι K) (prop : σ → (ι → K) → σ)
    (solver : Matrix ι ι K → (ι → K) → Option (ι → K)) (hex : SolvesExactly solver) (I : ℕ → σ → Prop)
    (hI : ∀ k w, I k w → ∀ u, A w *ᵥ u = R w → I (k + 1) (prop w u)) :
    ∀ (fuel : ℕ) (s : NewtonLoop (σ × Matrix ι ι K) (ι → K) K), fuel ≤ n.iterations → s.diverged = false →
      s.F = R s.world.1 → I s.residuals.length s.world.1 →
      let r := newtonLoop n (systemEnv R A prop solver) fuel s
      I r.residuals.length r.world.1 ∧ r.residuals.length ≤ s.residuals.length + fuel := by
  intro fuel
  induction fuel with
  | zero => intro s _ _ _ h; exact ⟨h, le_rfl⟩
  | succ fuel ih =>
    intro s hfuel hd hF h
    unfold newtonLoop
    split_ifs with hc
    · exact ⟨h, by omega⟩
    · simp only
      have hlen := iteration_residuals n R A prop solver s hd
      rcases system_iteration n R A prop solver s hd with ⟨hn, hdiv, hx⟩ | ⟨u, hu, hx, hrhs⟩
      · rw [if_pos hdiv, hx]
        rw [hn] at hlen
        simp only [Option.isSome_none, Bool.false_eq_true, if_false, add_zero] at hlen
        rw [hlen]
        exact ⟨h, by omega⟩
      · have hu' := hex _ _ _ hu
        rw [hF] at hu'
        rw [hu] at hlen
        simp only [Option.isSome_some, if_true] at hlen
        have h' : I (newtonIteration n (systemEnv R A prop solver) s).residuals.length (newtonIteration n (systemEnv R A prop solver) s).world.1 := by
          rw [hx, hlen]; exact hI _ _ h u hu'
        split_ifs with hdv
        · exact ⟨h', by omega⟩
        · by_cases hf : fuel = 0
          · subst hf; exact ⟨h', by show (newtonIteration n (systemEnv R A prop solver) s).residuals.length ≤ _; omega⟩
          · obtain ⟨g1, g2⟩ := ih _ (by omega) (by simpa using hdv) (hrhs (by omega)) h'
            exact ⟨g1, by omega⟩

theorem system_solve_counted (n : NewtonParams K) (R : σ → ι → K) (A : σ → Matrix ι ι K) (prop : σ → (ι → K) → σ)
    (solver : Matrix ι ι K → (ι → K) → Option (ι → K)) (hex : SolvesExactly solver) (I : ℕ → σ → Prop)
    (hI : ∀ k w, I k w → ∀ u, A w *ᵥ u = R w → I (k + 1) (prop w u)) (c : NewtonState K) (w0 : σ) (A0 : Matrix ι ι K) (h0 : I 0 w0) :
    let r := newtonSolve n (systemEnv R A prop solver) true c (w0, A0)
    I r.1.residuals.length r.2.1.1 ∧ r.1.residuals.length ≤ n.iterations := by
  have h := system_counted n R A prop solver hex I hI n.iterations
    { world := (w0, A0), F := R w0, U := 0, R2 := some (R w0 ⬝ᵥ R w0), analyzed := if n.strategy = .beginningOfTimeStep then false else c.analyzed, residuals := [],
      converged := decide (0 < n.absolute) && leNan (some (R w0 ⬝ᵥ R w0)) (some (n.absolute * n.absolute)), diverged := false, calls := [] } le_rfl rfl rfl h0
  unfold newtonSolve
  simp only [Bool.not_true, Bool.false_eq_true, if_false]
  have e : ([] : List (Option K)).length + n.iterations = n.iterations := by simp
  exact ⟨h.1, h.2.trans e.le⟩

/-- Without thresholds and with a linear solver which does not fail all iterations are made. -/
theorem all_iterations [IsStrictOrderedRing K] (n : NewtonParams K) (hn1 : n.correction ≤ 0) (hn2 : n.residual ≤ 0) (hn3 : n.absolute ≤ 0) (hn4 : n.eps ≤ 0) (R : σ → ι → K) (A : σ → Matrix ι ι K)
    (prop : σ → (ι → K) → σ) (solver : Matrix ι ι K → (ι → K) → Option (ι → K)) (I : σ → Prop) (hI : ∀ w u, I w → I (prop w u)) (hs : ∀ w f, I w → (solver (A w) f).isSome)
    (c : NewtonState K) (w0 : σ) (A0 : Matrix ι ι K) (h0 : I w0) :
    (newtonSolve n (systemEnv R A prop solver) true c (w0, A0)).1.residuals.length = n.iterations := by
  have hit : ∀ s : NewtonLoop (σ × Matrix ι ι K) (ι → K) K, s.diverged = false → s.converged = false → (∃ r, s.R2 = some r) → I s.world.1 →
      let r := newtonIteration n (systemEnv R A prop solver) s
      r.diverged = false ∧ r.converged = false ∧ (∃ q, r.R2 = some q) ∧ I r.world.1 ∧ r.residuals.length = s.residuals.length + 1 := by
    intro s hd hc hR hi
    have hlen := iteration_residuals n R A prop solver s hd
    rw [if_pos (hs _ _ hi)] at hlen
    obtain ⟨u, hu⟩ := Option.isSome_iff_exists.1 (hs s.world.1 s.F hi)
    have hcheck : ∀ (t : NewtonLoop (σ × Matrix ι ι K) (ι → K) K) (dx : ι → K), t.diverged = false → t.converged = false → (∃ r, t.R2 = some r) →
        (newtonCheck n (systemEnv R A prop solver) t dx).diverged = false ∧ (newtonCheck n (systemEnv R A prop solver) t dx).converged = false ∧
        (∃ r, (newtonCheck n (systemEnv R A prop solver) t dx).R2 = some r) := by
      rintro t dx h1 h2 ⟨r, h3⟩
      have hU : ∀ U : ι → K, ¬ U ⬝ᵥ U < n.eps := fun U => not_lt.2 (hn4.trans (Finset.sum_nonneg fun i _ => mul_self_nonneg _))
      unfold newtonCheck
      simp only [h3, systemEnv, Option.isNone_some, ltNan, Bool.false_or, decide_eq_true_eq, hU, if_false, not_lt.2 hn1, not_lt.2 hn2, not_lt.2 hn3, decide_false, Bool.false_and, Bool.false_eq_true]
      exact ⟨h1, h2, r, rfl⟩
    have key : ∀ t : NewtonLoop (σ × Matrix ι ι K) (ι → K) K, t.world = (s.world.1, A s.world.1) → t.F = s.F → t.diverged = false → t.converged = false → (∃ r, t.R2 = some r) →
        (newtonCorrect n (systemEnv R A prop solver) t).diverged = false ∧ (newtonCorrect n (systemEnv R A prop solver) t).converged = false ∧
        (∃ r, (newtonCorrect n (systemEnv R A prop solver) t).R2 = some r) := by
      intro t hw hF h1 h2 h3
      have e : (systemEnv R A prop solver).solve ((systemEnv R A prop solver).factorize t.world).1 t.F = (t.world, some u) := by
        show (t.world, solver t.world.2 t.F) = _
        rw [hw, hF, hu]
      have hf : ((systemEnv R A prop solver).factorize t.world).2 = true := rfl
      simp only [newtonCorrect, hf, if_true, e]
      split_ifs
      · exact hcheck _ _ h1 h2 ⟨_, rfl⟩
      · exact hcheck _ _ h1 h2 h3
    have ha : ∃ t : NewtonLoop (σ × Matrix ι ι K) (ι → K) K, newtonAssemble n (systemEnv R A prop solver) s = t ∧
        t.world = (s.world.1, A s.world.1) ∧ t.F = s.F ∧ t.diverged = false ∧ t.converged = false ∧ ∃ r, t.R2 = some r := by
      refine ⟨_, rfl, ?_⟩
      unfold newtonAssemble
      simp only
      split_ifs <;> first | exact ⟨rfl, rfl, rfl, hc, hR⟩ | exact ⟨rfl, rfl, hd, hc, hR⟩
    obtain ⟨t, ht, hw, hF, htd, htc, htr⟩ := ha
    have hr : newtonIteration n (systemEnv R A prop solver) s = newtonCorrect n (systemEnv R A prop solver) t := by
      unfold newtonIteration
      simp only [ht, htd, Bool.false_eq_true, if_false]
    intro r
    have hkey := key t hw hF htd htc htr
    rw [← hr] at hkey
    refine ⟨hkey.1, hkey.2.1, hkey.2.2, ?_, hlen⟩
    rcases system_iteration n R A prop solver s hd with ⟨hn, -, -⟩ | ⟨u', hu', hx, -⟩
    · rw [hu] at hn; cases hn
    · rw [show r.world.1 = _ from hx]; exact hI _ _ hi
  have hloop : ∀ (fuel : ℕ) (s : NewtonLoop (σ × Matrix ι ι K) (ι → K) K), s.diverged = false → s.converged = false → (∃ r, s.R2 = some r) → I s.world.1 →
      (newtonLoop n (systemEnv R A prop solver) fuel s).residuals.length = s.residuals.length + fuel := by
    intro fuel
    induction fuel with
    | zero => intro s _ _ _ _; rfl
    | succ fuel ih =>
      intro s hd hc hR hi
      obtain ⟨g1, g2, g3, g4, g5⟩ := hit s hd hc hR hi
      unfold newtonLoop
      simp only [hc, g1, Bool.false_eq_true, if_false]
      rw [ih _ g1 g2 g3 g4, g5]
      omega
  unfold newtonSolve
  simp only [Bool.not_true, Bool.false_eq_true, if_false, not_lt.2 hn3, decide_false, Bool.false_and]
  rw [hloop _ _ rfl rfl ⟨_, rfl⟩ h0]
  simp

end Count

section Step

variable {ι κ : Type*} [Fintype ι] [Fintype κ] [DecidableEq ι]

theorem held_dot {fixed : ι → Bool} {u f g : ι → ℝ} (hu : u ∈ heldSpace fixed) (h : ∀ i, fixed i = false → f i = g i) : u ⬝ᵥ f = u ⬝ᵥ g := by
  refine Finset.sum_congr rfl fun i _ => ?_
  by_cases hi : fixed i = true
  · rw [hu i hi, zero_mul, zero_mul]
  · rw [h i (by simpa using hi)]

omit [DecidableEq ι] in
theorem totalForce_linear {S : DynScene ℝ ι κ} (hS : IsLinearDynamic S) (x u : ι → ℝ) : totalForce S.atRest (x + u) = totalForce S.atRest x + totalStiff S.atRest x *ᵥ u := by
  have e : ∀ x, totalForce S.atRest x = S.force x + S.Jᵀ *ᵥ S.mappedForce (S.map x) := fun x => rfl
  rw [e, e, hS.force, hS.map, hS.mappedForce]
  simp only [totalStiff, DynScene.atRest, add_mulVec, mulVec_add, ← mulVec_mulVec]
  abel

omit [DecidableEq ι] in
theorem totalStiff_linear {S : DynScene ℝ ι κ} (hS : IsLinearDynamic S) (x z : ι → ℝ) : totalStiff S.atRest x = totalStiff S.atRest z := by
  have h1 : S.stiff x = S.stiff z := by have := hS.stiff z (x - z); rwa [add_sub_cancel] at this
  have h2 : S.mappedStiff (S.map x) = S.mappedStiff (S.map z) := by
    have := hS.mappedStiff (S.map z) (S.map x - S.map z); rwa [add_sub_cancel] at this
  simp only [totalStiff, DynScene.atRest, h1, h2]

theorem dynMatrix_held {p : BEParams ℝ} {S : DynScene ℝ ι κ} (hS : IsLinearDynamic S) (s : DynState ℝ ι κ) (hy : s.y = S.map s.x) (z u : ι → ℝ) (hu : u ∈ heldSpace S.fixed) (i : ι)
    (hi : S.fixed i = false) : (dynMatrix p S s *ᵥ u) i = ((S.M + p.h • totalDamping p S z + p.h ^ 2 • -totalStiff S.atRest z) *ᵥ u) i := by
  have e1 : (constrainMatrix S.fixed (beMatrix p S.toBEScene s.toBEState) *ᵥ u) i = (beMatrix p S.toBEScene s.toBEState *ᵥ u) i := by
    simp only [mulVec, dotProduct, constrainMatrix, hi, Bool.false_or]
    refine Finset.sum_congr rfl fun j _ => ?_
    by_cases hj : S.fixed j = true
    · rw [hu j hj]; ring
    · simp [hj]
  have e2 : beMatrix p S.toBEScene s.toBEState + S.Jᵀ * ((-p.h * (p.h + p.rayleighStiffness)) • S.mappedStiff s.y) * S.J =
      S.M + p.h • totalDamping p S z + p.h ^ 2 • -totalStiff S.atRest z := by
    rw [totalDamping, ← totalStiff_linear hS s.x z]
    simp only [beMatrix, totalStiff, DynScene.atRest, hy]
    rw [Matrix.mul_smul, Matrix.smul_mul]
    module
  rw [dynMatrix, add_mulVec, Pi.add_apply, e1, ← Pi.add_apply, ← add_mulVec, e2]

theorem dynRhs_begin {p : BEParams ℝ} {S : DynScene ℝ ι κ} (hS : IsLinearDynamic S) (hD : MappedDamping p S) (x v z : ι → ℝ) (i : ι) (hi : S.fixed i = false) :
    dynRhs p S { toBEState := beBegin x v, y := S.map x, w := S.J *ᵥ v } i = (totalForce S.atRest x - totalDamping p S z *ᵥ v) i := by
  have h1 : dynRhs p S { toBEState := beBegin x v, y := S.map x, w := S.J *ᵥ v } i = (beRhs p S.toBEScene (beBegin x v) +
      S.Jᵀ *ᵥ (S.mappedForce (S.map x) + S.mappedMBK p { toBEState := beBegin x v, y := S.map x, w := S.J *ᵥ v })) i := by
    simp only [dynRhs, projectResponse, hi]
    rfl
  have e : totalForce S.atRest x = S.force x + S.Jᵀ *ᵥ S.mappedForce (S.map x) := rfl
  have ev : v + p.h • (0 : ι → ℝ) = v := by simp
  rw [h1, hD, e, totalDamping, ← totalStiff_linear hS x z]
  refine congrFun ?_ i
  simp only [beRhs, beBegin, addMBKdx, totalStiff, DynScene.atRest, ev]
  simp only [sub_mulVec, add_mulVec, smul_mulVec, mulVec_add, mulVec_smul, ← mulVec_mulVec, mulVec_zero]
  module

/-- What a time step does in terms of the distance to the equilibrium, by the number of its iterations. -/
theorem stable_step {p : BEParams ℝ} {S : DynScene ℝ ι κ} {z : ι → ℝ} (hS : Stable p S z) {solver : Matrix ι ι ℝ → (ι → ℝ) → Option (ι → ℝ)} (hex : SolvesExactly solver)
    (n : NewtonParams ℝ) (c : NewtonState ℝ) (x v : ι → ℝ) (hx : x - z ∈ heldSpace S.fixed) (hv : v ∈ heldSpace S.fixed) :
    let r := dynSolve n p S solver c x v (S.map x) (S.J *ᵥ v)
    (r.1.residuals.length = 0 → r.2.x = x ∧ r.2.v = v) ∧
    (r.1.residuals.length = 1 → ∃ a, LinearStep (heldSpace S.fixed) S.M (totalDamping p S z) (-totalStiff S.atRest z) p.h 0 (x - z) v (r.2.x - z) r.2.v a) ∧
    (2 ≤ r.1.residuals.length → ∃ a, LinearStep (heldSpace S.fixed) S.M (totalDamping p S z) (-totalStiff S.atRest z) p.h 1 (x - z) v (r.2.x - z) r.2.v a) ∧
    r.1.residuals.length ≤ n.iterations ∧ r.2.y = S.map r.2.x ∧ r.2.w = S.J *ᵥ r.2.v := by
  intro r
  have hF : ∀ y, totalForce S.atRest y = totalForce S.atRest z + totalStiff S.atRest z *ᵥ (y - z) := by
    intro y
    have := totalForce_linear hS.linear z (y - z)
    rwa [add_sub_cancel] at this
  have hFz : ∀ u ∈ heldSpace S.fixed, u ⬝ᵥ totalForce S.atRest z = 0 := by
    intro u hu
    rw [held_dot (f := totalForce S.atRest z) (g := 0) hu fun i hi => hS.equilibrium i hi, dotProduct_zero]
  have h := system_solve_counted n (dynRhs p S) (dynMatrix p S) (dynPropagate p S) solver hex
    (fun k s => s.x0 = x ∧ s.v0 = v ∧ s.y = S.map s.x ∧ s.w = S.J *ᵥ s.v ∧ (k = 0 → s = { toBEState := beBegin x v, y := S.map x, w := S.J *ᵥ v }) ∧
      (k = 1 → s.a ∈ heldSpace S.fixed ∧ dynMatrix p S { toBEState := beBegin x v, y := S.map x, w := S.J *ᵥ v } *ᵥ s.a =
        dynRhs p S { toBEState := beBegin x v, y := S.map x, w := S.J *ᵥ v }) ∧
      (1 ≤ k → s.a ∈ heldSpace S.fixed ∧ s.v = v + p.h • s.a ∧ s.x = x + p.h • s.v) ∧ (2 ≤ k → dynRhs p S s = 0))
    (fun k s hs u hu => by
      obtain ⟨h1, h2, h3, h4, h5, h6, h7, h8⟩ := hs
      have hz := C96_system_partial p S hS.mapped s u hu
      have ha : (dynPropagate p S s u).a ∈ heldSpace S.fixed := by
        intro i hi
        show s.a i + u i = 0
        rw [hz i hi, add_zero]
        rcases Nat.eq_zero_or_pos k with hk | hk
        · rw [h5 hk]; rfl
        · exact (h7 hk).1 i hi
      refine ⟨h1, h2, rfl, rfl, fun h => absurd h (by omega), fun hk => ?_, fun _ => ⟨ha, ?_, ?_⟩, fun hk => ?_⟩
      · have h0 := h5 (by omega)
        have e : (dynPropagate p S s u).a = u := by
          show s.a + u = u
          rw [h0]
          show 0 + u = u
          rw [zero_add]
        refine ⟨ha, ?_⟩
        rw [e, ← h0]
        exact hu
      · show s.v0 + p.h • (s.a + u) = v + p.h • (s.a + u)
        rw [h2]
      · show s.x0 + p.h • (dynPropagate p S s u).v = x + p.h • (dynPropagate p S s u).v
        rw [h1]
      · obtain ⟨_, g1, g2⟩ := h7 (by omega)
        exact dyn_step_zero p S hS.linear hS.damped hS.mapped s (by rw [h2]; exact g1) (by rw [h1]; exact g2) h3 u hu)
    c { toBEState := beBegin x v, y := S.map x, w := S.J *ᵥ v } 0
    ⟨rfl, rfl, rfl, rfl, fun _ => rfl, fun h => absurd h (by omega), fun h => absurd h (by omega), fun h => absurd h (by omega)⟩
  obtain ⟨⟨g1, g2, g3, g4, g5, g6, g7, g8⟩, hle⟩ := h
  refine ⟨fun h0 => ?_, fun h1 => ?_, fun h2 => ?_, hle, g3, g4⟩
  · have : r.2 = { toBEState := beBegin x v, y := S.map x, w := S.J *ᵥ v } := g5 h0
    rw [this]
    exact ⟨rfl, rfl⟩
  · obtain ⟨ha, hsys⟩ := g6 h1
    have ha' : r.2.a ∈ heldSpace S.fixed := ha
    obtain ⟨_, ev, ex⟩ := g7 h1.ge
    refine ⟨r.2.a, ha, ev, ?_, fun u hu => ?_⟩
    · have ex' : r.2.x = x + p.h • r.2.v := ex
      rw [ex']; abel
    · have e1 : u ⬝ᵥ ((S.M + p.h • totalDamping p S z + p.h ^ 2 • -totalStiff S.atRest z) *ᵥ r.2.a) = u ⬝ᵥ (totalForce S.atRest x - totalDamping p S z *ᵥ v) := by
        refine held_dot hu fun i hi => ?_
        rw [← dynMatrix_held hS.linear { toBEState := beBegin x v, y := S.map x, w := S.J *ᵥ v } rfl z _ ha' i hi, ← dynRhs_begin hS.linear hS.damped x v z i hi]
        exact congrFun hsys i
      rw [dotProduct_add, e1, hF x, dotProduct_sub, dotProduct_add, hFz u hu]
      simp only [dotProduct_add, neg_mulVec, dotProduct_neg, zero_mul, zero_smul, dotProduct_zero]
      ring
  · obtain ⟨ha, ev, ex⟩ := g7 (one_le_two.trans h2)
    have ev' : r.2.v = v + p.h • r.2.a := ev
    have ex' : r.2.x = x + p.h • r.2.v := ex
    have hb := (dynRhs_eq_zero_iff p S hS.damped r.2 (by rw [show r.2.v0 = v from g2]; exact ev) g3).1 (g8 h2)
    refine ⟨r.2.a, ha, ev, ?_, fun u hu => ?_⟩
    · rw [ex']; abel
    · have e1 : u ⬝ᵥ (totalForce S.atRest r.2.x - totalDamping p S z *ᵥ r.2.v - S.M *ᵥ r.2.a) = u ⬝ᵥ (0 : ι → ℝ) := by
        refine held_dot hu fun i hi => ?_
        have := hb i hi
        rw [Pi.zero_apply, ← this]
        have e : (unbalanced p S.toBEScene r.2.x r.2.v r.2.a + S.Jᵀ *ᵥ (S.mappedForce (S.map r.2.x) + p.rayleighStiffness • (S.mappedStiff (S.map r.2.x) *ᵥ (S.J *ᵥ r.2.v)))) =
            totalForce S.atRest r.2.x - totalDamping p S z *ᵥ r.2.v - S.M *ᵥ r.2.a := by
          have e0 : totalForce S.atRest r.2.x = S.force r.2.x + S.Jᵀ *ᵥ S.mappedForce (S.map r.2.x) := rfl
          rw [e0, totalDamping, ← totalStiff_linear hS.linear r.2.x z]
          simp only [unbalanced, damping, totalStiff, DynScene.atRest]
          simp only [sub_mulVec, add_mulVec, smul_mulVec, mulVec_add, mulVec_smul, ← mulVec_mulVec]
          module
        rw [← e]
        rfl
      rw [hF, dotProduct_zero] at e1
      rw [ex'] at e1
      rw [show x + p.h • r.2.v - z = (x - z) + p.h • r.2.v by abel, ev'] at e1
      have e2 := hFz u hu
      simp only [dotProduct_add, dotProduct_sub, add_mulVec, smul_mulVec, neg_mulVec, mulVec_add, mulVec_smul, dotProduct_smul, dotProduct_neg, smul_eq_mul, one_mul, smul_neg] at e1 ⊢
      linear_combination -e1 + e2

/-- The positions and velocities of a simulation stay where the fixed degrees of freedom are held, and the mapped object follows. -/
theorem simulate_held {p : BEParams ℝ} {S : DynScene ℝ ι κ} {z : ι → ℝ} (hS : Stable p S z) {solver : Matrix ι ι ℝ → (ι → ℝ) → Option (ι → ℝ)} (hex : SolvesExactly solver)
    (set : ℕ → NewtonParams ℝ × NewtonState ℝ) {x v : ι → ℝ} (hx : x - z ∈ heldSpace S.fixed) (hv : v ∈ heldSpace S.fixed) (k : ℕ) :
    (simulate set p S solver x v k).2.x - z ∈ heldSpace S.fixed ∧ (simulate set p S solver x v k).2.v ∈ heldSpace S.fixed ∧
    (simulate set p S solver x v k).2.y = S.map (simulate set p S solver x v k).2.x ∧ (simulate set p S solver x v k).2.w = S.J *ᵥ (simulate set p S solver x v k).2.v := by
  induction k with
  | zero => exact ⟨hx, hv, rfl, rfl⟩
  | succ k ih =>
    obtain ⟨i1, i2, i3, i4⟩ := ih
    have h := stable_step hS hex (set k).1 (set k).2 _ _ i1 i2
    rw [← i3, ← i4] at h
    obtain ⟨h0, h1, h2, -, h3, h4⟩ := h
    have hstep : ∀ {θ : ℝ} {w v w' v' a : ι → ℝ}, w ∈ heldSpace S.fixed → v ∈ heldSpace S.fixed →
        LinearStep (heldSpace S.fixed) S.M (totalDamping p S z) (-totalStiff S.atRest z) p.h θ w v w' v' a → w' ∈ heldSpace S.fixed ∧ v' ∈ heldSpace S.fixed := by
      intro θ w v w' v' a hw hv s
      have hv' : v' ∈ heldSpace S.fixed := by
        rw [s.velocity]
        exact Submodule.add_mem _ hv (Submodule.smul_mem _ _ s.mem)
      refine ⟨?_, hv'⟩
      rw [s.position]
      exact Submodule.add_mem _ hw (Submodule.smul_mem _ _ hv')
    have hboth : (simulate set p S solver x v (k + 1)).2.x - z ∈ heldSpace S.fixed ∧ (simulate set p S solver x v (k + 1)).2.v ∈ heldSpace S.fixed := by
      rcases Nat.lt_or_ge (simulate set p S solver x v (k + 1)).1.residuals.length 2 with hlt | hge
      · rcases Nat.lt_or_ge (simulate set p S solver x v (k + 1)).1.residuals.length 1 with hl0 | hl1
        · obtain ⟨e1, e2⟩ := h0 (Nat.lt_one_iff.1 hl0)
          rw [show (simulate set p S solver x v (k + 1)).2.x = _ from e1, show (simulate set p S solver x v (k + 1)).2.v = _ from e2]
          exact ⟨i1, i2⟩
        · obtain ⟨a, ha⟩ := h1 (Nat.le_antisymm (Nat.lt_succ_iff.1 hlt) hl1)
          exact hstep i1 i2 ha
      · obtain ⟨a, ha⟩ := h2 hge
        exact hstep i1 i2 ha
    exact ⟨hboth.1, hboth.2, h3, h4⟩

theorem Spec.Stable.damping {p : BEParams ℝ} {S : DynScene ℝ ι κ} {z : ι → ℝ} (hS : Stable p S z) : ∀ u ∈ heldSpace S.fixed, 0 ≤ u ⬝ᵥ totalDamping p S z *ᵥ u := by
  intro u hu
  have h1 := hS.damping_nonneg u
  have h2 := mul_nonneg hS.rayleighMass (hS.mass_nonneg u)
  have h3 : u ⬝ᵥ totalStiff S.atRest z *ᵥ u ≤ 0 := by
    by_cases h0 : u = 0
    · simp [h0]
    · exact (hS.stiff_pos u hu h0).le
  have h4 := mul_nonneg hS.rayleighStiffness (neg_nonneg.2 h3)
  simp only [totalDamping, sub_mulVec, add_mulVec, smul_mulVec, dotProduct_add, dotProduct_sub, dotProduct_smul, smul_eq_mul]
  linarith

omit [DecidableEq ι] in
theorem Spec.Stable.pos {p : BEParams ℝ} {S : DynScene ℝ ι κ} {z : ι → ℝ} (hS : Stable p S z) : ∀ u ∈ heldSpace S.fixed, u ≠ 0 → 0 < u ⬝ᵥ (-totalStiff S.atRest z) *ᵥ u := by
  intro u hu h0
  rw [neg_mulVec, dotProduct_neg]
  linarith [hS.stiff_pos u hu h0]

omit [DecidableEq ι] in
theorem Spec.Stable.symm {p : BEParams ℝ} {S : DynScene ℝ ι κ} {z : ι → ℝ} (hS : Stable p S z) : (-totalStiff S.atRest z)ᵀ = -totalStiff S.atRest z := by
  rw [transpose_neg, hS.stiff_symm]

/-- The states of simulations whose time steps all make the same kind of step are those of one sequence. -/
theorem simulate_steps {p : BEParams ℝ} {S : DynScene ℝ ι κ} {z : ι → ℝ} (hS : Stable p S z) {x v : ι → ℝ} (hx : x - z ∈ heldSpace S.fixed) (hv : v ∈ heldSpace S.fixed)
    (θ : ℝ) (G : ℕ → Prop) (hG : ∀ l, G l → (l = 1 ∧ θ = 0) ∨ (2 ≤ l ∧ θ = 1)) :
    ∃ y u a : ℕ → ι → ℝ, (∀ k, y k ∈ heldSpace S.fixed) ∧ (∀ k, u k ∈ heldSpace S.fixed) ∧
      (∀ k, LinearStep (heldSpace S.fixed) S.M (totalDamping p S z) (-totalStiff S.atRest z) p.h θ (y k) (u k) (y (k + 1)) (u (k + 1)) (a k)) ∧
      ∀ (set : ℕ → NewtonParams ℝ × NewtonState ℝ) (solver : Matrix ι ι ℝ → (ι → ℝ) → Option (ι → ℝ)), SolvesExactly solver → ∀ k,
        (∀ j < k, G (simulate set p S solver x v (j + 1)).1.residuals.length) →
        (simulate set p S solver x v k).2.x - z = y k ∧ (simulate set p S solver x v k).2.v = u k := by
  obtain ⟨y, u, a, h1, h2, h3, h4⟩ := linear_steps (heldSpace S.fixed) hS.mass_nonneg hS.damping hS.pos hS.step θ hx hv
  refine ⟨y, u, a, h1, h2, h3, fun set solver hex k hk => ?_⟩
  refine h4 (fun k => (simulate set p S solver x v k).2.x - z) (fun k => (simulate set p S solver x v k).2.v) rfl rfl k fun j hj => ?_
  obtain ⟨i1, i2, i3, i4⟩ := simulate_held hS hex set hx hv j
  have h := stable_step hS hex (set j).1 (set j).2 _ _ i1 i2
  rw [← i3, ← i4] at h
  rcases hG _ (hk j hj) with ⟨hl, rfl⟩ | ⟨hl, rfl⟩
  · exact h.2.1 hl
  · exact h.2.2.1 hl

/-- **C141 (partial).** A linear scene with a stable static equilibrium, held at its fixed degrees of freedom, with or without damping, with any positive time step: simulations whose time steps make at
least two iterations with exact linear solves come to rest at the equilibrium.  The number of time steps for a given distance does not depend on the settings of the solver.  Missing: time steps of
one iteration without damping, which is the default number of iterations (`C141_violated`), time steps cut short by the thresholds of the solver, and mappings depending on fixed degrees of
freedom (`C96_mapped_violated`). -/
theorem C141_settles_partial {p : BEParams ℝ} {S : DynScene ℝ ι κ} {z : ι → ℝ} (hS : Stable p S z) {x v : ι → ℝ} (hx : ∀ i, S.fixed i = true → x i = z i)
    (hv : ∀ i, S.fixed i = true → v i = 0) (ε : ℝ) (hε : 0 < ε) :
    ∃ k₀ : ℕ, ∀ (set : ℕ → NewtonParams ℝ × NewtonState ℝ) (solver : Matrix ι ι ℝ → (ι → ℝ) → Option (ι → ℝ)), SolvesExactly solver → ∀ k, k₀ ≤ k →
      (∀ j < k, 2 ≤ (simulate set p S solver x v (j + 1)).1.residuals.length) →
      ‖(simulate set p S solver x v k).2.x - z‖ < ε ∧ ‖(simulate set p S solver x v k).2.v‖ < ε := by
  have hx' : x - z ∈ heldSpace S.fixed := fun i hi => by rw [Pi.sub_apply, hx i hi, sub_self]
  obtain ⟨y, u, a, h1, h2, h3, h4⟩ := simulate_steps hS hx' hv 1 (fun l => 2 ≤ l) fun l hl => Or.inr ⟨hl, rfl⟩
  obtain ⟨ty, tu⟩ := settle_implicit (heldSpace S.fixed) hS.mass_symm hS.symm hS.mass_nonneg hS.damping hS.pos hS.step h1 h2 (fun k => (h3 k).velocity) (fun k => (h3 k).position)
    fun k => (h3 k).implicit
  rw [Metric.tendsto_atTop] at ty tu
  obtain ⟨k1, hk1⟩ := ty ε hε
  obtain ⟨k2, hk2⟩ := tu ε hε
  refine ⟨max k1 k2, fun set solver hex k hk hj => ?_⟩
  obtain ⟨e1, e2⟩ := h4 set solver hex k hj
  rw [e1, e2, ← dist_zero_right, ← dist_zero_right]
  exact ⟨hk1 k ((le_max_left _ _).trans hk), hk2 k ((le_max_right _ _).trans hk)⟩

/-- **C141 (one iteration, partial).** With damping, simulations whose time steps make one iteration come to rest at the equilibrium too.  Missing: scenes without damping (`C141_violated`). -/
theorem C141_damped_partial {p : BEParams ℝ} {S : DynScene ℝ ι κ} {z : ι → ℝ} (hS : Stable p S z) (hB : S.Bᵀ = S.B)
    (hC : ∀ u ∈ heldSpace S.fixed, u ≠ 0 → 0 < u ⬝ᵥ totalDamping p S z *ᵥ u) {x v : ι → ℝ} (hx : ∀ i, S.fixed i = true → x i = z i)
    (hv : ∀ i, S.fixed i = true → v i = 0) (ε : ℝ) (hε : 0 < ε) :
    ∃ k₀ : ℕ, ∀ (set : ℕ → NewtonParams ℝ × NewtonState ℝ) (solver : Matrix ι ι ℝ → (ι → ℝ) → Option (ι → ℝ)), SolvesExactly solver → ∀ k, k₀ ≤ k →
      (∀ j < k, (simulate set p S solver x v (j + 1)).1.residuals.length = 1) →
      ‖(simulate set p S solver x v k).2.x - z‖ < ε ∧ ‖(simulate set p S solver x v k).2.v‖ < ε := by
  have hx' : x - z ∈ heldSpace S.fixed := fun i hi => by rw [Pi.sub_apply, hx i hi, sub_self]
  have hCs : (totalDamping p S z)ᵀ = totalDamping p S z := by
    rw [totalDamping, transpose_sub, transpose_add, transpose_smul, transpose_smul, hB, hS.mass_symm, hS.stiff_symm]
  obtain ⟨y, u, a, h1, h2, h3, h4⟩ := simulate_steps hS hx' hv 0 (fun l => l = 1) fun l hl => Or.inl ⟨hl, rfl⟩
  obtain ⟨ty, tu⟩ := settle_stepped (heldSpace S.fixed) hS.mass_symm hCs hS.symm hS.mass_nonneg hC hS.pos hS.step h1 h2 (fun k => (h3 k).velocity) (fun k => (h3 k).position)
    fun k => (h3 k).stepped
  rw [Metric.tendsto_atTop] at ty tu
  obtain ⟨k1, hk1⟩ := ty ε hε
  obtain ⟨k2, hk2⟩ := tu ε hε
  refine ⟨max k1 k2, fun set solver hex k hk hj => ?_⟩
  obtain ⟨e1, e2⟩ := h4 set solver hex k hj
  rw [e1, e2, ← dist_zero_right, ← dist_zero_right]
  exact ⟨hk1 k ((le_max_left _ _).trans hk), hk2 k ((le_max_right _ _).trans hk)⟩

/-- A time step of at most one iteration loses what the damping takes, and nothing without damping. -/
theorem simulate_energy {p : BEParams ℝ} {S : DynScene ℝ ι κ} {z : ι → ℝ} (hS : Stable p S z) (hB : S.Bᵀ = S.B) {solver : Matrix ι ι ℝ → (ι → ℝ) → Option (ι → ℝ)}
    (hex : SolvesExactly solver) (set : ℕ → NewtonParams ℝ × NewtonState ℝ) (hset : ∀ j, (set j).1.iterations ≤ 1) {x v : ι → ℝ} (hx : x - z ∈ heldSpace S.fixed)
    (hv : v ∈ heldSpace S.fixed) (k : ℕ) :
    steppedEnergy S.M (totalDamping p S z) (-totalStiff S.atRest z) p.h ((simulate set p S solver x v k).2.x - z) (simulate set p S solver x v k).2.v ≤
      steppedEnergy S.M (totalDamping p S z) (-totalStiff S.atRest z) p.h (x - z) v ∧
    (totalDamping p S z = 0 → steppedEnergy S.M (totalDamping p S z) (-totalStiff S.atRest z) p.h ((simulate set p S solver x v k).2.x - z) (simulate set p S solver x v k).2.v =
      steppedEnergy S.M (totalDamping p S z) (-totalStiff S.atRest z) p.h (x - z) v) := by
  have hCs : (totalDamping p S z)ᵀ = totalDamping p S z := by
    rw [totalDamping, transpose_sub, transpose_add, transpose_smul, transpose_smul, hB, hS.mass_symm, hS.stiff_symm]
  induction k with
  | zero => exact ⟨le_rfl, fun _ => rfl⟩
  | succ k ih =>
    obtain ⟨i1, i2, i3, i4⟩ := simulate_held hS hex set hx hv k
    obtain ⟨-, j2, -, -⟩ := simulate_held hS hex set hx hv (k + 1)
    have h := stable_step hS hex (set k).1 (set k).2 _ _ i1 i2
    rw [← i3, ← i4] at h
    obtain ⟨h0, h1, -, hle, -, -⟩ := h
    have hle' : (simulate set p S solver x v (k + 1)).1.residuals.length ≤ 1 := le_trans hle (hset k)
    rcases Nat.lt_or_ge (simulate set p S solver x v (k + 1)).1.residuals.length 1 with hl0 | hl1
    · obtain ⟨e1, e2⟩ := h0 (Nat.lt_one_iff.1 hl0)
      rw [show (simulate set p S solver x v (k + 1)).2.x = _ from e1, show (simulate set p S solver x v (k + 1)).2.v = _ from e2]
      exact ih
    · obtain ⟨a, ha⟩ := h1 (Nat.le_antisymm hle' hl1)
      have hl := stepped_loss hS.mass_symm hCs hS.symm i2 j2 ha.velocity ha.position ha.stepped
      refine ⟨le_trans ?_ ih.1, fun hz => ?_⟩
      · have := mul_nonneg (half_pos hS.step).le (hS.damping _ (Submodule.add_mem _ j2 i2))
        exact le_trans (le_add_of_nonneg_right this) hl.le
      · rw [← ih.2 hz]
        rw [hz] at hl ⊢
        rw [zero_mulVec, dotProduct_zero, mul_zero, add_zero] at hl
        exact hl

/-- **C141 (bounded).** With time steps of one iteration, as by default, and exact linear solves, whatever the time step, the thresholds and the number of time steps, the positions and velocities of a
linear scene with a stable static equilibrium stay bounded. -/
theorem C141_bounded {p : BEParams ℝ} {S : DynScene ℝ ι κ} {z : ι → ℝ} (hS : Stable p S z) (hB : S.Bᵀ = S.B) {x v : ι → ℝ} (hx : ∀ i, S.fixed i = true → x i = z i)
    (hv : ∀ i, S.fixed i = true → v i = 0) :
    ∃ b : ℝ, ∀ (set : ℕ → NewtonParams ℝ × NewtonState ℝ) (solver : Matrix ι ι ℝ → (ι → ℝ) → Option (ι → ℝ)), SolvesExactly solver → (∀ j, (set j).1.iterations ≤ 1) →
      ∀ k, ‖(simulate set p S solver x v k).2.x - z‖ ≤ b ∧ ‖(simulate set p S solver x v k).2.v‖ ≤ b := by
  have hx' : x - z ∈ heldSpace S.fixed := fun i hi => by rw [Pi.sub_apply, hx i hi, sub_self]
  obtain ⟨c, hc, hbd⟩ := form_bound (heldSpace S.fixed) _ hS.pos
  set E := steppedEnergy S.M (totalDamping p S z) (-totalStiff S.atRest z) p.h (x - z) v with hE
  have hh := hS.step
  refine ⟨max (Real.sqrt (2 * E / c)) (Real.sqrt (2 * E / (c * p.h ^ 2))), fun set solver hex hset k => ?_⟩
  obtain ⟨i1, i2, -, -⟩ := simulate_held hS hex set hx' hv k
  have h1 := (simulate_energy hS hB hex set hset hx' hv k).1
  have h2 := stepped_bound hS.symm hS.mass_nonneg hS.damping hS.pos hS.step i1 i2
  have h3 := hbd _ i1
  have h4 := hbd _ i2
  have h5 := form_nonneg hS.pos i1
  have h6 := form_nonneg hS.pos i2
  have h7 : 0 ≤ p.h ^ 2 := sq_nonneg _
  refine ⟨le_max_of_le_left (Real.le_sqrt_of_sq_le ?_), le_max_of_le_right (Real.le_sqrt_of_sq_le ?_)⟩
  · rw [le_div_iff₀ hc]
    nlinarith [mul_nonneg h7 h6]
  · rw [le_div_iff₀ (by positivity)]
    nlinarith [mul_le_mul_of_nonneg_left h4 h7]

/-- **C141, negation**: without damping, time steps of one iteration, the default, never bring a linear scene to rest: whatever the time step, the thresholds and the linear solver, the scene stays away
from the equilibrium unless it starts there at rest. -/
theorem C141_violated {p : BEParams ℝ} {S : DynScene ℝ ι κ} {z : ι → ℝ} (hS : Stable p S z) (hB : S.B = 0) (hrm : p.rayleighMass = 0) (hrk : p.rayleighStiffness = 0) {x v : ι → ℝ}
    (hx : ∀ i, S.fixed i = true → x i = z i) (hv : ∀ i, S.fixed i = true → v i = 0) (hne : x ≠ z ∨ v ≠ 0) :
    ∃ δ : ℝ, 0 < δ ∧ ∀ (set : ℕ → NewtonParams ℝ × NewtonState ℝ) (solver : Matrix ι ι ℝ → (ι → ℝ) → Option (ι → ℝ)), SolvesExactly solver → (∀ j, (set j).1.iterations ≤ 1) →
      ∀ k, δ ≤ ‖(simulate set p S solver x v k).2.x - z‖ ∨ δ ≤ ‖(simulate set p S solver x v k).2.v‖ := by
  have hx' : x - z ∈ heldSpace S.fixed := fun i hi => by rw [Pi.sub_apply, hx i hi, sub_self]
  have hC : totalDamping p S z = 0 := by simp [totalDamping, hB, hrm, hrk]
  have hpos : 0 < steppedEnergy S.M (totalDamping p S z) (-totalStiff S.atRest z) p.h (x - z) v := by
    refine lt_of_lt_of_le ?_ (stepped_bound hS.symm hS.mass_nonneg hS.damping hS.pos hS.step hx' hv)
    have h1 := form_nonneg hS.pos hx'
    have h2 := form_nonneg hS.pos (u := v) hv
    have hh := pow_pos hS.step 2
    rcases hne with h | h
    · have := hS.pos _ hx' (sub_ne_zero.2 h)
      have := mul_nonneg hh.le h2
      linarith
    · have := mul_pos hh (hS.pos v hv h)
      linarith
  set E := steppedEnergy S.M (totalDamping p S z) (-totalStiff S.atRest z) p.h (x - z) v with hE
  have hcont : Continuous fun s : (ι → ℝ) × (ι → ℝ) => steppedEnergy S.M (totalDamping p S z) (-totalStiff S.atRest z) p.h s.1 s.2 := by
    have hm : ∀ A : Matrix ι ι ℝ, Continuous fun u : ι → ℝ => A *ᵥ u := fun A => Continuous.matrix_mulVec continuous_const continuous_id
    have hd : ∀ (A : Matrix ι ι ℝ) (f g : (ι → ℝ) × (ι → ℝ) → ι → ℝ), Continuous f → Continuous g → Continuous fun s => f s ⬝ᵥ A *ᵥ g s :=
      fun A f g hf hg => Continuous.dotProduct hf ((hm A).comp hg)
    unfold steppedEnergy
    exact (((hd _ _ _ continuous_snd continuous_snd).add ((hd _ _ _ continuous_snd continuous_snd).const_mul _)).add (hd _ _ _ continuous_fst continuous_fst)).sub
      ((hd _ _ _ continuous_fst continuous_snd).const_mul _) |>.add ((hd _ _ _ continuous_snd continuous_snd).const_mul _)
  have h0 : steppedEnergy S.M (totalDamping p S z) (-totalStiff S.atRest z) p.h (0 : ι → ℝ) 0 = 0 := by simp [steppedEnergy]
  have hev := (hcont.tendsto (0, 0)).eventually (gt_mem_nhds (show steppedEnergy S.M (totalDamping p S z) (-totalStiff S.atRest z) p.h (0 : ι → ℝ) 0 < E by rw [h0]; exact hpos))
  obtain ⟨δ, hδ, hball⟩ := Metric.eventually_nhds_iff.1 hev
  refine ⟨δ, hδ, fun set solver hex hset k => ?_⟩
  by_contra hcon
  push Not at hcon
  have h1 := (simulate_energy hS (by rw [hB, transpose_zero]) hex set hset hx' hv k).2 hC
  have h2 := @hball ((simulate set p S solver x v k).2.x - z, (simulate set p S solver x v k).2.v) (by
    rw [Prod.dist_eq, dist_zero_right, dist_zero_right]
    exact max_lt hcon.1 hcon.2)
  exact absurd h1 (ne_of_lt h2)

/-- The matrix of a time step has an inverse. -/
theorem Spec.Stable.unit {p : BEParams ℝ} {S : DynScene ℝ ι κ} {z : ι → ℝ} (hS : Stable p S z) (s : DynState ℝ ι κ) (hy : s.y = S.map s.x) : IsUnit (dynMatrix p S s) := by
  rw [← Matrix.mulVec_injective_iff_isUnit]
  intro a b hab
  have h0 : dynMatrix p S s *ᵥ (a - b) = 0 := by rw [mulVec_sub, sub_eq_zero]; exact hab
  have hu : a - b ∈ heldSpace S.fixed := by
    intro i hi
    have h2 : ∀ B : Matrix κ κ ℝ, ((S.Jᵀ * B * S.J) *ᵥ (a - b)) i = 0 := by
      intro B
      rw [← mulVec_mulVec, ← mulVec_mulVec]
      have hJ : ∀ k, S.J k i = 0 := fun k => hS.mapped k i hi
      simp only [mulVec, dotProduct, transpose_apply, hJ, zero_mul, Finset.sum_const_zero]
    have h := congrFun h0 i
    rw [dynMatrix, add_mulVec, Pi.add_apply, constrain_mulVec_fixed _ _ _ _ hi, h2, add_zero] at h
    exact h
  by_contra hne
  have h1 := step_form hS.mass_nonneg hS.damping hS.pos hS.step _ hu (sub_ne_zero.2 hne)
  rw [held_dot hu (g := 0) fun i hi => by rw [← dynMatrix_held hS.linear s hy z _ hu i hi, h0], dotProduct_zero] at h1
  exact lt_irrefl _ h1

/-- **C141 (no thresholds, partial).** Without thresholds, with a linear solver which solves every regular system exactly and two iterations or more in every time step, the simulation converges to the
equilibrium and its velocity to zero. -/
theorem C141_unlimited_partial {p : BEParams ℝ} {S : DynScene ℝ ι κ} {z : ι → ℝ} (hS : Stable p S z) {x v : ι → ℝ} (hx : ∀ i, S.fixed i = true → x i = z i)
    (hv : ∀ i, S.fixed i = true → v i = 0) (set : ℕ → NewtonParams ℝ × NewtonState ℝ)
    (hset : ∀ j, 2 ≤ (set j).1.iterations ∧ (set j).1.correction ≤ 0 ∧ (set j).1.residual ≤ 0 ∧ (set j).1.absolute ≤ 0 ∧ (set j).1.eps ≤ 0)
    (solver : Matrix ι ι ℝ → (ι → ℝ) → Option (ι → ℝ)) (hex : SolvesExactly solver) (hre : SolvesRegular solver) :
    Tendsto (fun k => (simulate set p S solver x v k).2.x) atTop (𝓝 z) ∧ Tendsto (fun k => (simulate set p S solver x v k).2.v) atTop (𝓝 0) := by
  have hx' : x - z ∈ heldSpace S.fixed := fun i hi => by rw [Pi.sub_apply, hx i hi, sub_self]
  have hlen : ∀ j, 2 ≤ (simulate set p S solver x v (j + 1)).1.residuals.length := by
    intro j
    obtain ⟨-, -, i3, -⟩ := simulate_held hS hex set hx' hv j
    obtain ⟨s1, s2, s3, s4, s5⟩ := hset j
    have := all_iterations (set j).1 s2 s3 s4 s5 (dynRhs p S) (dynMatrix p S) (dynPropagate p S) solver (fun s => s.y = S.map s.x) (fun _ _ _ => rfl)
      (fun s f hy => Option.isSome_iff_exists.2 (hre _ f (hS.unit s hy))) (set j).2
      { toBEState := beBegin (simulate set p S solver x v j).2.x (simulate set p S solver x v j).2.v, y := (simulate set p S solver x v j).2.y, w := (simulate set p S solver x v j).2.w } 0 i3
    exact s1.trans this.ge
  constructor
  · rw [Metric.tendsto_atTop]
    intro ε hε
    obtain ⟨k₀, hk⟩ := C141_settles_partial hS hx hv ε hε
    exact ⟨k₀, fun k hkk => by rw [dist_eq_norm]; exact (hk set solver hex k hkk fun j _ => hlen j).1⟩
  · rw [Metric.tendsto_atTop]
    intro ε hε
    obtain ⟨k₀, hk⟩ := C141_settles_partial hS hx hv ε hε
    exact ⟨k₀, fun k hkk => by rw [dist_zero_right]; exact (hk set solver hex k hkk fun j _ => hlen j).2⟩

end Step

section Body

variable {N M : ℕ} {C : CorotClass} {d : CorotData} {idx : Fin M → Fin C.nodes → Fin N} {X : Fin N → Fin 3 → ℝ}

/-- A linear elastic body with masses, damping, loads `F` and fixed nodes. -/
noncomputable def bodyScene (C : CorotClass) (d : CorotData) {N M : ℕ} (idx : Fin M → Fin C.nodes → Fin N) (X : Fin N → Fin 3 → ℝ) (fixed : Fin N → Bool) (mass damp : Matrix (Dof N) (Dof N) ℝ)
    (F : Dof N → ℝ) : DynScene ℝ (Dof N) (Fin 0) where
  M := mass
  B := damp
  force z := fun q => netForce C d idx X (fun p a => z (p, a) - X p a) (fun p a => F (p, a)) q.1 q.2
  stiff _ := -Matrix.of (CorotClass.reinitState d X C (CorotState.fresh idx)).stiffnessOf
  map _ := 0
  J := 0
  mappedForce _ := 0
  mappedStiff _ := 0
  mappedMBK _ _ := 0
  fixed q := fixed q.1

theorem class_spd (hc : d.corotated = false) (hm : d.method = .regular) (h1 : 0 < d.young) (h2 : -1 < d.poisson) (h3 : d.poisson < 1 / 2)
    (hX : ClassOriented C idx X) (fixed : Fin N → Bool) (hheld : WellHeld idx X fixed) :
    IsSPD (constrainMatrix (fun d : Dof N => fixed d.1) (Matrix.of (CorotClass.reinitState d X C (CorotState.fresh idx)).stiffnessOf)) := by
  obtain ⟨corotated, young, poisson, method⟩ := d
  simp only at hc hm h1 h2 h3
  subst hc hm
  cases C
  · exact C101_tetra idx X hX young poisson h1 h2 h3 fixed hheld
  · exact C101_hexa idx X hX young poisson h1 h2 h3 fixed hheld

theorem body_stiff (fixed : Fin N → Bool) (mass damp : Matrix (Dof N) (Dof N) ℝ) (F z : Dof N → ℝ) :
    totalStiff (bodyScene C d idx X fixed mass damp F).atRest z = -Matrix.of (CorotClass.reinitState d X C (CorotState.fresh idx)).stiffnessOf := by
  show _ + (0 : Matrix (Fin 0) (Dof N) ℝ).transpose * (0 : Matrix (Fin 0) (Fin 0) ℝ) * (0 : Matrix (Fin 0) (Dof N) ℝ) = _
  rw [Matrix.mul_zero, add_zero]
  rfl

theorem body_equilibrium (fixed : Fin N → Bool) (mass damp : Matrix (Dof N) (Dof N) ℝ) (F U : Dof N → ℝ) (hU : LinearSolution C d idx X fixed F U) :
    InEquilibrium (bodyScene C d idx X fixed mass damp F).atRest fun q => X q.1 q.2 + U q := by
  have e : ∀ q : Dof N, fixed q.1 = false → netForce C d idx X (fun p a => (X p a + U (p, a)) - X p a) (fun p a => F (p, a)) q.1 q.2 = 0 := by
    intro q hq
    simp only [add_sub_cancel_left]
    exact hU.2 q.1 q.2 hq
  unfold InEquilibrium DynScene.atRest bodyScene
  intro q hq
  simp only at hq ⊢
  rw [e q hq]
  simp

/-- **C141 (bodies).** A linear elastic body every piece of which is held at three nodes which are not aligned, with any masses and damping: its static solution is a stable equilibrium, so that the
other theorems of C141 apply to it, and the Rayleigh stiffness damps it. -/
theorem C141_body (hc : d.corotated = false) (hm : d.method = .regular) (h1 : 0 < d.young) (h2 : -1 < d.poisson) (h3 : d.poisson < 1 / 2)
    (hX : ClassOriented C idx X) (fixed : Fin N → Bool) (hheld : WellHeld idx X fixed) (mass damp : Matrix (Dof N) (Dof N) ℝ) (hmass : massᵀ = mass) (hmass0 : ∀ u, 0 ≤ u ⬝ᵥ mass *ᵥ u)
    (hdamp0 : ∀ u, 0 ≤ u ⬝ᵥ damp *ᵥ u) (p : BEParams ℝ) (hh : 0 < p.h) (hrm : 0 ≤ p.rayleighMass) (hrk : 0 ≤ p.rayleighStiffness) (F U : Dof N → ℝ)
    (hU : LinearSolution C d idx X fixed F U) :
    Stable p (bodyScene C d idx X fixed mass damp F) (fun q => X q.1 q.2 + U q) ∧
    (0 < p.rayleighStiffness → ∀ u ∈ heldSpace (bodyScene C d idx X fixed mass damp F).fixed, u ≠ 0 →
      0 < u ⬝ᵥ totalDamping p (bodyScene C d idx X fixed mass damp F) (fun q => X q.1 q.2 + U q) *ᵥ u) := by
  have hspd := class_spd hc hm h1 h2 h3 hX fixed hheld
  have hsym : (Matrix.of (CorotClass.reinitState d X C (CorotState.fresh idx)).stiffnessOf)ᵀ = Matrix.of (CorotClass.reinitState d X C (CorotState.fresh idx)).stiffnessOf := by
    ext p q
    exact stiffnessOf_symm q p
  have hform : ∀ u ∈ heldSpace (bodyScene C d idx X fixed mass damp F).fixed, u ≠ 0 →
      0 < u ⬝ᵥ Matrix.of (CorotClass.reinitState d X C (CorotState.fresh idx)).stiffnessOf *ᵥ u := by
    intro u hu h0
    refine lt_of_lt_of_eq (hspd.pos u h0) ?_
    refine Finset.sum_congr rfl fun q _ => ?_
    by_cases hq : fixed q.1 = true
    · rw [hu q hq, zero_mul, zero_mul]
    · congr 1
      refine Finset.sum_congr rfl fun q' _ => ?_
      by_cases hq' : fixed q'.1 = true
      · rw [hu q' hq', mul_zero, mul_zero]
      · simp [constrainMatrix, hq, hq']
  have hst : ∀ z, totalStiff (bodyScene C d idx X fixed mass damp F).atRest z = _ := body_stiff fixed mass damp F
  have hfor : ∀ (x : Dof N → ℝ) (q : Dof N), (bodyScene C d idx X fixed mass damp F).force x q = netForce C d idx X (fun p a => x (p, a) - X p a) (fun p a => F (p, a)) q.1 q.2 :=
    fun _ _ => rfl
  have hsti : ∀ x, (bodyScene C d idx X fixed mass damp F).stiff x = -Matrix.of (CorotClass.reinitState d X C (CorotState.fresh idx)).stiffnessOf := fun _ => rfl
  have hst0 : Stable p (bodyScene C d idx X fixed mass damp F) (fun q => X q.1 q.2 + U q) := by
    refine ⟨⟨fun x u => ?_, fun x u => ?_, fun _ _ => ?_, fun _ _ => rfl, fun _ _ => rfl⟩, fun s => ?_, fun k => k.elim0, hh, hrm, hrk, hmass, hmass0, hdamp0, ?_, fun u hu h0 => ?_, body_equilibrium fixed mass damp F U hU⟩
    · funext q
      rw [Pi.add_apply, hfor, hfor, hsti, netForce_matrix hc, netForce_matrix hc, neg_mulVec, Pi.neg_apply, mulVec, dotProduct, sub_eq_add_neg, sub_eq_add_neg, add_assoc, ← neg_add, ← Finset.sum_add_distrib]
      congr 2
      refine Finset.sum_congr rfl fun q' _ => ?_
      simp only [Matrix.of_apply, Pi.add_apply, Prod.mk.eta]
      ring
    · funext k; exact k.elim0
    · funext k; exact k.elim0
    · funext k; exact k.elim0
    · rw [hst, transpose_neg, hsym]
    · rw [hst, neg_mulVec, dotProduct_neg]
      linarith [hform u hu h0]
  refine ⟨hst0, fun hk u hu h0 => ?_⟩
  have e1 := mul_nonneg hrm (hmass0 u)
  have e2 := mul_pos hk (hform u hu h0)
  have e3 := hdamp0 u
  rw [totalDamping, hst]
  simp only [sub_mulVec, add_mulVec, smul_mulVec, neg_mulVec, dotProduct_add, dotProduct_sub, dotProduct_smul, dotProduct_neg, smul_neg, smul_eq_mul]
  have e4 : u ⬝ᵥ (bodyScene C d idx X fixed mass damp F).B *ᵥ u = u ⬝ᵥ damp *ᵥ u := rfl
  have e5 : u ⬝ᵥ (bodyScene C d idx X fixed mass damp F).M *ᵥ u = u ⬝ᵥ mass *ᵥ u := rfl
  rw [e4, e5]
  linarith

end Body

section Box

variable (g : Grid 3 ℝ) (hf : Fits g.n)

open Classical in
/-- **C141 (boxes, partial).** A linear elastic box held at one of its sides at least, at rest, to which a load is applied: it comes to rest at its unique static solution, with time steps of two
iterations or more, and with time steps of one iteration when the Rayleigh stiffness is positive.  Missing: as in `C141_settles_partial`. -/
theorem C141_box_partial {d : CorotData} (hc : d.corotated = false) (hm : d.method = .regular) (h1 : 0 < d.young) (h2 : -1 < d.poisson) (h3 : d.poisson < 1 / 2)
    (hn : ∀ a, 0 < g.n a) (hs : ∀ a, 0 < g.size a) (B : Set (Fin 3 × Bool)) (hB : B.Nonempty) (mass : Matrix (Dof g.numberOfNodes.toNat) (Dof g.numberOfNodes.toNat) ℝ) (hmass : massᵀ = mass)
    (hmass0 : ∀ u, 0 ≤ u ⬝ᵥ mass *ᵥ u) (p : BEParams ℝ) (hh : 0 < p.h) (hrm : 0 ≤ p.rayleighMass) (hrk : 0 ≤ p.rayleighStiffness) (F : Dof g.numberOfNodes.toNat → ℝ) :
    ∃ U, LinearSolution .hexa d (g.cellNodes hf) (fun p => g.node p) (fun p => decide (p ∈ g.sideNodesOf B)) F U ∧
      (∀ V, LinearSolution .hexa d (g.cellNodes hf) (fun p => g.node p) (fun p => decide (p ∈ g.sideNodesOf B)) F V → V = U) ∧ ∀ ε : ℝ, 0 < ε →
      ∃ k₀ : ℕ, ∀ (set : ℕ → NewtonParams ℝ × NewtonState ℝ) (solver : Matrix (Dof g.numberOfNodes.toNat) (Dof g.numberOfNodes.toNat) ℝ → (Dof g.numberOfNodes.toNat → ℝ) →
        Option (Dof g.numberOfNodes.toNat → ℝ)), SolvesExactly solver → ∀ k, k₀ ≤ k →
        let S := bodyScene .hexa d (g.cellNodes hf) (fun p => g.node p) (fun p => decide (p ∈ g.sideNodesOf B)) mass 0 F
        ((∀ j < k, 2 ≤ (simulate set p S solver (fun q => g.node q.1 q.2) 0 (j + 1)).1.residuals.length) ∨
          (0 < p.rayleighStiffness ∧ ∀ j < k, (simulate set p S solver (fun q => g.node q.1 q.2) 0 (j + 1)).1.residuals.length = 1)) →
        ‖(simulate set p S solver (fun q => g.node q.1 q.2) 0 k).2.x - fun q => g.node q.1 q.2 + U q‖ < ε ∧ ‖(simulate set p S solver (fun q => g.node q.1 q.2) 0 k).2.v‖ < ε := by
  obtain ⟨b, hb⟩ := hB
  have hheld := box_held g hf hn hs B b hb
  obtain ⟨_, _, _, -, -, -, hu⟩ := C140_equilibrium (C := .hexa) hc hm h1 h2 h3 (box_distinct g hf) (box_oriented g hf hn hs) _ hheld (Or.inl rfl)
  obtain ⟨⟨U, hU, huni⟩, -⟩ := hu F
  refine ⟨U, hU, huni, fun ε hε => ?_⟩
  obtain ⟨hst, hdam⟩ := C141_body (C := .hexa) hc hm h1 h2 h3 (box_oriented g hf hn hs) _ hheld mass 0 hmass hmass0 (fun u => by simp) p hh hrm hrk F U hU
  have hx : ∀ q : Dof g.numberOfNodes.toNat, decide (q.1 ∈ g.sideNodesOf B) = true → g.node q.1 q.2 = g.node q.1 q.2 + U q := by
    intro q hq
    rw [hU.1 q hq, add_zero]
  obtain ⟨k1, hk1⟩ := C141_settles_partial hst (x := fun q => g.node q.1 q.2) (v := 0) hx (fun _ _ => rfl) ε hε
  by_cases hpos : 0 < p.rayleighStiffness
  · obtain ⟨k2, hk2⟩ := C141_damped_partial hst transpose_zero (hdam hpos) (x := fun q => g.node q.1 q.2) (v := 0) hx (fun _ _ => rfl) ε hε
    refine ⟨max k1 k2, fun set solver hex k hk => ?_⟩
    rintro S (h | h)
    · exact hk1 set solver hex k ((le_max_left _ _).trans hk) h
    · exact hk2 set solver hex k ((le_max_right _ _).trans hk) h.2
  · refine ⟨k1, fun set solver hex k hk => ?_⟩
    rintro S (h | h)
    · exact hk1 set solver hex k hk h
    · exact absurd h.1 hpos

end Box

/-- A unit mass on a unit spring under a unit load. -/
noncomputable def settlingSpring : DynScene ℝ (Fin 1) (Fin 0) where
  M := 1
  B := 0
  force x := 1 - x
  stiff _ := -1
  map _ := 0
  J := 0
  mappedForce _ := 0
  mappedStiff _ := 0
  mappedMBK _ _ := 0
  fixed _ := false

theorem settlingSpring_stable : Stable ⟨1 / 100, 0, 0⟩ settlingSpring 1 := by
  have hst : ∀ z, totalStiff settlingSpring.atRest z = -1 := by
    intro z
    show _ + (0 : Matrix (Fin 0) (Fin 1) ℝ).transpose * (0 : Matrix (Fin 0) (Fin 0) ℝ) * (0 : Matrix (Fin 0) (Fin 1) ℝ) = _
    rw [Matrix.mul_zero, add_zero]
    rfl
  have hpos : ∀ u : Fin 1 → ℝ, 0 ≤ u ⬝ᵥ u := fun u => Finset.sum_nonneg fun i _ => mul_self_nonneg _
  refine ⟨⟨fun x u => ?_, fun _ _ => ?_, fun _ _ => ?_, fun _ _ => rfl, fun _ _ => rfl⟩, fun s => ?_, fun k => k.elim0, by norm_num, le_rfl, le_rfl, transpose_one, fun u => ?_, fun u => ?_, ?_,
    fun u _ h0 => ?_, fun i _ => ?_⟩
  · simp only [settlingSpring, neg_mulVec, one_mulVec]; abel
  · funext k; exact k.elim0
  · funext k; exact k.elim0
  · funext k; exact k.elim0
  · simp only [settlingSpring, one_mulVec]; exact hpos u
  · simp [settlingSpring]
  · rw [hst, transpose_neg, transpose_one]
  · rw [hst, neg_mulVec, one_mulVec, dotProduct_neg]
    have : u ⬝ᵥ u ≠ 0 := fun h => h0 (dotProduct_self_eq_zero.1 h)
    have := lt_of_le_of_ne (hpos u) this.symm
    linarith
  · simp [settlingSpring, DynScene.atRest]

/-- The spring released at zero with a time step of a hundredth: two iterations per time step bring it to rest at one, one iteration never does. -/
example (solver : Matrix (Fin 1) (Fin 1) ℝ → (Fin 1 → ℝ) → Option (Fin 1 → ℝ)) (hex : SolvesExactly solver) (hre : SolvesRegular solver) :
    Tendsto (fun k => (simulate (fun _ => (⟨2, 0, 0, 0, 0, .never⟩, newtonFresh)) ⟨1 / 100, 0, 0⟩ settlingSpring solver 0 0 k).2.x) atTop (𝓝 1) ∧
    ∃ δ : ℝ, 0 < δ ∧ ∀ k, δ ≤ ‖(simulate (fun _ => (⟨1, 1 / 10 ^ 5, 1 / 10 ^ 5, 1 / 10 ^ 15, 1 / 10 ^ 19, .beginningOfTimeStep⟩, newtonFresh)) ⟨1 / 100, 0, 0⟩ settlingSpring solver 0 0 k).2.x - 1‖ ∨
      δ ≤ ‖(simulate (fun _ => (⟨1, 1 / 10 ^ 5, 1 / 10 ^ 5, 1 / 10 ^ 15, 1 / 10 ^ 19, .beginningOfTimeStep⟩, newtonFresh)) ⟨1 / 100, 0, 0⟩ settlingSpring solver 0 0 k).2.v‖ := by
  refine ⟨(C141_unlimited_partial settlingSpring_stable (x := 0) (v := 0) (fun _ h => by cases h) (fun _ _ => rfl) _ (fun _ => ⟨le_rfl, le_rfl, le_rfl, le_rfl, le_rfl⟩) solver hex hre).1, ?_⟩
  obtain ⟨δ, hδ, h⟩ := C141_violated settlingSpring_stable rfl rfl rfl (x := 0) (v := 0) (fun _ h => by cases h) (fun _ _ => rfl) (Or.inl zero_ne_one)
  exact ⟨δ, hδ, h _ solver hex fun _ => le_rfl⟩

/-- A cube of eight hexahedra with unit masses held at one side. -/
example : ∃ hf : Fits (![2, 2, 2] : Fin 3 → ℕ),
    let g : Grid 3 ℝ := ⟨0, ![2, 2, 2], 1⟩
    let d : CorotData := ⟨false, 1000, 1 / 4, .regular⟩
    ∃ fixed : Fin g.numberOfNodes.toNat → Bool, ∀ F : Dof g.numberOfNodes.toNat → ℝ, ∃ U, LinearSolution .hexa d (g.cellNodes hf) (fun p => g.node p) fixed F U ∧
      Stable ⟨1 / 100, 0, 1 / 10⟩ (bodyScene .hexa d (g.cellNodes hf) (fun p => g.node p) fixed 1 0 F) fun q => g.node q.1 q.2 + U q := by
  classical
  have hf : Fits (![2, 2, 2] : Fin 3 → ℕ) := by
    unfold Fits
    decide
  refine ⟨hf, ?_⟩
  intro g d
  have hn : ∀ a, 0 < g.n a := by decide
  have hs : ∀ a, 0 < g.size a := fun a => one_pos
  have hheld := box_held g hf hn hs {(0, false)} (0, false) rfl
  obtain ⟨_, _, _, -, -, -, hu⟩ := C140_equilibrium (C := .hexa) (d := d) rfl rfl (by norm_num) (by norm_num) (by norm_num) (box_distinct g hf) (box_oriented g hf hn hs) _ hheld (Or.inl rfl)
  refine ⟨fun p => decide (p ∈ g.sideNodesOf {(0, false)}), fun F => ?_⟩
  obtain ⟨⟨U, hU, -⟩, -⟩ := hu F
  exact ⟨U, hU, (C141_body (C := .hexa) (d := d) rfl rfl (by norm_num) (by norm_num) (by norm_num) (box_oriented g hf hn hs) _ hheld 1 0 transpose_one
    (fun u => by rw [one_mulVec]; exact Finset.sum_nonneg fun i _ => mul_self_nonneg _) (fun u => by simp) ⟨1 / 100, 0, 1 / 10⟩ (by norm_num) (by norm_num) (by norm_num) F U hU).1⟩

end Caribou
