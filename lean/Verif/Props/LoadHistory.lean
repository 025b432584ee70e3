import Verif.Lemmas.LoadHistory

/-!
# C143: the history of the loads does not matter
-/

set_option autoImplicit false
set_option linter.all false

namespace Caribou

open Spec Matrix

variable {ι κ : Type*} [Fintype ι] [Fintype κ] [DecidableEq ι]

/-- **C143 (partial).** Around a regular equilibrium of the scene without load.  Every small load has one equilibrium `z f` nearby, which depends on the load in a Lipschitz way.  Static time steps under any
sequence of small loads, with any settings of the solver, end near the equilibrium of the last load: at a distance which only depends on the number of iterations of the last step, not on the loads before,
and which is at most a fraction of the distance before plus a multiple of the change of the load.  With enough iterations every step reports convergence or hardly moves.
Missing: steps which hardly move (`C126_violated`), mapped points attached to fixed ones (`C84_violated`). -/
theorem C143_history_partial (S : StaticScene ℝ ι κ) (hJ : MapsFreeOnly S) (z₀ : ι → ℝ) (ρ l : ℝ) (hρ : 0 < ρ) (hl : 0 ≤ l) (h : RegularEquilibrium S z₀ ρ l) :
    ∃ c C r η : ℝ, 0 < c ∧ 0 < C ∧ 0 < r ∧ 0 < η ∧ ∃ z : (ι → ℝ) → ι → ℝ, z 0 = z₀ ∧
      (∀ f, ‖f‖ ≤ η → HeldEquilibrium (withLoad S f) z₀ (z f) ∧ ∀ y, ‖y - z₀‖ ≤ r → HeldEquilibrium (withLoad S f) z₀ y → y = z f) ∧
      (∀ f g, ‖f‖ ≤ η → ‖g‖ ≤ η → ‖z f - z g‖ ≤ c * ‖f - g‖) ∧
      (∀ loads : ℕ → ι → ℝ, (∀ k, ‖loads k‖ ≤ η) → ∀ set solver, SolvesExactly solver → SolvesRegular solver → ∀ k,
        ‖(loadHistory set loads S solver z₀ (k + 1)).2 - z (loads k)‖ ≤ r / 2 ^ (loadHistory set loads S solver z₀ (k + 1)).1.residuals.length ∧
        C * ‖(loadHistory set loads S solver z₀ (k + 1)).2 - z (loads k)‖ ≤ (1 / 2) ^ 2 ^ (loadHistory set loads S solver z₀ (k + 1)).1.residuals.length ∧
        ∀ g, ‖g‖ ≤ η → ‖(loadHistory set loads S solver z₀ (k + 1)).2 - z (loads k)‖ ≤
          (‖(loadHistory set loads S solver z₀ k).2 - z g‖ + c * ‖loads k - g‖) / 2 ^ (loadHistory set loads S solver z₀ (k + 1)).1.residuals.length) ∧
      ∀ a : ℝ, 0 < a → ∃ N : ℕ, ∀ loads : ℕ → ι → ℝ, (∀ k, ‖loads k‖ ≤ η) → ∀ set solver, SolvesExactly solver → SolvesRegular solver → ∀ k,
        N ≤ (set k).1.iterations → 2 ≤ (set k).1.iterations → 0 < (set k).1.eps → ((set k).1.correction = a ∨ (set k).1.absolute = a) →
        (loadHistory set loads S solver z₀ (k + 1)).1.converged = true ∨
          ((loadHistory set loads S solver z₀ (k + 1)).2 - (loadHistory set loads S solver z₀ k).2) ⬝ᵥ
            ((loadHistory set loads S solver z₀ (k + 1)).2 - (loadHistory set loads S solver z₀ k).2) < (set k).1.eps := by
  classical
  obtain ⟨C, r1, G, hC, hr1, hCr, hG, hN⟩ := newtonNear_family S hJ z₀ ρ l hρ hl h
  obtain ⟨c1, r2, η1, hc1, hr2, hη1, hex1, huni⟩ := small_equilibrium S z₀ ρ l hρ hl h
  obtain ⟨c2, r3, hc2, hr3, hlip⟩ := equilibrium_lipschitz S z₀ ρ l hρ hl h
  obtain ⟨R, hR⟩ : ∃ R, R = min r1 (min r2 r3) / 2 := ⟨_, rfl⟩
  have hm0 : 0 < min r1 (min r2 r3) := lt_min hr1 (lt_min hr2 hr3)
  have hR0 : 0 < R := by rw [hR]; positivity
  have hRr1 : 2 * R ≤ r1 := by rw [hR]; linarith [min_le_left r1 (min r2 r3)]
  have hRr2 : 2 * R ≤ r2 := by rw [hR]; linarith [min_le_right r1 (min r2 r3), min_le_left r2 r3]
  have hRr3 : 2 * R ≤ r3 := by rw [hR]; linarith [min_le_right r1 (min r2 r3), min_le_right r2 r3]
  obtain ⟨η, hη⟩ : ∃ η, η = min η1 (R / (3 * c1)) := ⟨_, rfl⟩
  have hη0 : 0 < η := by rw [hη]; positivity
  have hηc : ∀ f : ι → ℝ, ‖f‖ ≤ η → c1 * ‖f‖ ≤ R / 3 := by
    intro f hf
    have := hf.trans (hη.le.trans (min_le_right _ _))
    rw [le_div_iff₀ (by positivity)] at this
    linarith
  choose z hz using fun f : {f : ι → ℝ // ‖f‖ ≤ η} => hex1 f.1 (f.2.trans (hη.le.trans (min_le_left _ _)))
  obtain ⟨zz, hzz⟩ : ∃ zz : (ι → ℝ) → ι → ℝ, zz = fun f => if hf : ‖f‖ ≤ η then z ⟨f, hf⟩ else z₀ := ⟨_, rfl⟩
  have hz1 : ∀ f, ‖f‖ ≤ η → HeldEquilibrium (withLoad S f) z₀ (zz f) ∧ ‖zz f - z₀‖ ≤ c1 * ‖f‖ := by
    intro f hf
    simp only [hzz, dif_pos hf]
    exact hz ⟨f, hf⟩
  have hz2 : ∀ f, ‖f‖ ≤ η → ‖zz f - z₀‖ ≤ R / 3 := fun f hf => (hz1 f hf).2.trans (hηc f hf)
  have hunique : ∀ f, ‖f‖ ≤ η → ∀ y, ‖y - z₀‖ ≤ 2 * R → HeldEquilibrium (withLoad S f) z₀ y → y = zz f := fun f hf y hy he =>
    huni f y (zz f) (hy.trans hRr2) ((hz2 f hf).trans (by linarith)) he (hz1 f hf).1
  have hlip' : ∀ f g, ‖f‖ ≤ η → ‖g‖ ≤ η → ‖zz f - zz g‖ ≤ c2 * ‖f - g‖ := fun f g hf hg =>
    hlip f g _ _ ((hz2 f hf).trans (by linarith)) ((hz2 g hg).trans (by linarith)) (hz1 f hf).1 (hz1 g hg).1
  -- the invariant
  have hnear : ∀ (f x : ι → ℝ), ‖f‖ ≤ η → ‖x - z₀‖ ≤ R → ‖x - zz f‖ ≤ R + R / 3 := by
    intro f x hf hx
    have e : x - zz f = (x - z₀) - (zz f - z₀) := by abel
    rw [e]
    exact (norm_sub_le _ _).trans (add_le_add hx (hz2 f hf))
  have hstep : ∀ (f x : ι → ℝ), ‖f‖ ≤ η → ‖x - z₀‖ ≤ R → (∀ i, S.fixed i = true → x i = z₀ i) → ∀ (n : NewtonParams ℝ) (s : NewtonState ℝ) solver, SolvesExactly solver → SolvesRegular solver →
      ‖(staticSolve n (withLoad S f) solver s x).2.x - z₀‖ ≤ R ∧ (∀ i, S.fixed i = true → (staticSolve n (withLoad S f) solver s x).2.x i = z₀ i) ∧
      ‖(staticSolve n (withLoad S f) solver s x).2.x - zz f‖ ≤ ‖x - zz f‖ / 2 ^ (staticSolve n (withLoad S f) solver s x).1.residuals.length ∧
      C * ‖(staticSolve n (withLoad S f) solver s x).2.x - zz f‖ ≤ (C * ‖x - zz f‖) ^ 2 ^ (staticSolve n (withLoad S f) solver s x).1.residuals.length := by
    intro f x hf hx hfix n s solver hex hreg
    have hzf := hz1 f hf
    obtain ⟨E, e1, e2, _, hE, _⟩ := quad_solve (withLoad S f) hJ (zz f) C r1 G (hN f _ ((hz2 f hf).trans (by linarith)) hzf.1.1) n solver hex hreg s x
      ((hnear f x hf hx).trans (by linarith)) fun i hi => (hfix i hi).trans (hzf.1.2 i hi).symm
    have hhalf := hE.half
    have hquad := hE.quad
    have hfixE := hE.fixed
    have hun := static_unmoved n (withLoad S f) solver s x
    rw [e1, e2] at hun
    rw [e1, e2]
    refine ⟨?_, fun i hi => (hfixE i hi).trans (hzf.1.2 i hi), hhalf, hquad⟩
    rcases Nat.eq_zero_or_pos E.residuals.length with h0 | hpos
    · rw [hun h0]; exact hx
    · have h1 : ‖x - zz f‖ / 2 ^ E.residuals.length ≤ ‖x - zz f‖ / 2 := by
        apply div_le_div_of_nonneg_left (norm_nonneg _) (by norm_num)
        exact le_self_pow₀ (by norm_num) (by omega)
      have e : E.world.x - z₀ = (E.world.x - zz f) + (zz f - z₀) := by abel
      rw [e]
      refine (norm_add_le _ _).trans ?_
      have h2 := hnear f x hf hx
      have h3 := hz2 f hf
      linarith
  have hinv : ∀ loads : ℕ → ι → ℝ, (∀ k, ‖loads k‖ ≤ η) → ∀ (set : ℕ → NewtonParams ℝ × NewtonState ℝ) solver, SolvesExactly solver → SolvesRegular solver → ∀ k,
      ‖(loadHistory set loads S solver z₀ k).2 - z₀‖ ≤ R ∧ ∀ i, S.fixed i = true → (loadHistory set loads S solver z₀ k).2 i = z₀ i := by
    intro loads hloads set solver hex hreg k
    induction k with
    | zero => exact ⟨by simp [loadHistory, hR0.le], fun i _ => rfl⟩
    | succ k ih =>
      have := hstep (loads k) _ (hloads k) ih.1 ih.2 (set k).1 (set k).2 solver hex hreg
      exact ⟨this.1, this.2.1⟩
  refine ⟨c2, C, 2 * R, η, hc2, hC, by positivity, hη0, zz, ?_, fun f hf => ⟨(hz1 f hf).1, hunique f hf⟩, hlip', fun loads hloads set solver hex hreg k => ?_, fun a ha => ?_⟩
  · refine (hunique 0 (by simpa using hη0.le) z₀ (by simp [hR0.le]) ⟨?_, fun _ _ => rfl⟩).symm
    rw [withLoad_zero]
    exact h.equilibrium
  · obtain ⟨i1, i2⟩ := hinv loads hloads set solver hex hreg k
    obtain ⟨-, -, s3, s4⟩ := hstep (loads k) _ (hloads k) i1 i2 (set k).1 (set k).2 solver hex hreg
    have hn := hnear (loads k) _ (hloads k) i1
    refine ⟨s3.trans ?_, s4.trans ?_, fun g hg => s3.trans ?_⟩
    · exact div_le_div_of_nonneg_right (hn.trans (by linarith)) (by positivity)
    · refine pow_le_pow_left₀ (by positivity) ?_ _
      exact (mul_le_mul_of_nonneg_left (hn.trans (by linarith : R + R / 3 ≤ r1)) hC.le).trans hCr
    · refine div_le_div_of_nonneg_right ?_ (by positivity)
      have e : (loadHistory set loads S solver z₀ k).2 - zz (loads k) = ((loadHistory set loads S solver z₀ k).2 - zz g) - (zz (loads k) - zz g) := by abel
      rw [e]
      exact (norm_sub_le _ _).trans (add_le_add le_rfl (hlip' _ _ (hloads k) hg))
  · obtain ⟨N, hrep⟩ := quad_reported (ι := ι) (κ := κ) C r1 G a hG ha
    refine ⟨N, fun loads hloads set solver hex hreg k h1 h2 h3 h4 => ?_⟩
    obtain ⟨i1, i2⟩ := hinv loads hloads set solver hex hreg k
    have hzf := hz1 (loads k) (hloads k)
    exact hrep (withLoad S (loads k)) hJ _ (hN (loads k) _ ((hz2 _ (hloads k)).trans (by linarith)) hzf.1.1) (set k).1 h1 h2 h3 h4 solver hex hreg (set k).2 _
      ((hnear _ _ (hloads k) i1).trans (by linarith)) fun i hi => (i2 i hi).trans (hzf.1.2 i hi).symm

/-- **C143 (what follows, partial).** Two simulations with different loads before, and different settings, end near each other when the last loads are equal; a body whose load is removed comes back; and when
the load changes by at most `δ` from one step to the next, every position is within a multiple of `δ` of the equilibrium of its load, however many steps there are.  Missing: as in
`C143_history_partial`. -/
theorem C143_consequences_partial (S : StaticScene ℝ ι κ) (hJ : MapsFreeOnly S) (z₀ : ι → ℝ) (ρ l : ℝ) (hρ : 0 < ρ) (hl : 0 ≤ l) (h : RegularEquilibrium S z₀ ρ l) :
    ∃ c r η : ℝ, 0 < c ∧ 0 < r ∧ 0 < η ∧
      (∀ loads loads' : ℕ → ι → ℝ, (∀ k, ‖loads k‖ ≤ η) → (∀ k, ‖loads' k‖ ≤ η) → ∀ set set' solver solver', SolvesExactly solver → SolvesRegular solver → SolvesExactly solver' → SolvesRegular solver' →
        ∀ k k' m, loads k = loads' k' → m ≤ (loadHistory set loads S solver z₀ (k + 1)).1.residuals.length → m ≤ (loadHistory set' loads' S solver' z₀ (k' + 1)).1.residuals.length →
        ‖(loadHistory set loads S solver z₀ (k + 1)).2 - (loadHistory set' loads' S solver' z₀ (k' + 1)).2‖ ≤ r / 2 ^ m) ∧
      (∀ loads : ℕ → ι → ℝ, (∀ k, ‖loads k‖ ≤ η) → ∀ set solver, SolvesExactly solver → SolvesRegular solver → ∀ k, loads k = 0 →
        ‖(loadHistory set loads S solver z₀ (k + 1)).2 - z₀‖ ≤ r / 2 ^ (loadHistory set loads S solver z₀ (k + 1)).1.residuals.length) ∧
      ∀ loads : ℕ → ι → ℝ, (∀ k, ‖loads k‖ ≤ η) → ∀ set solver, SolvesExactly solver → SolvesRegular solver → ∀ δ : ℝ, ‖loads 0‖ ≤ δ → (∀ k, ‖loads (k + 1) - loads k‖ ≤ δ) → ∀ k,
        (∀ j ≤ k, 1 ≤ (loadHistory set loads S solver z₀ (j + 1)).1.residuals.length) →
        ∃ z, HeldEquilibrium (withLoad S (loads k)) z₀ z ∧ ‖(loadHistory set loads S solver z₀ (k + 1)).2 - z‖ ≤ c * δ := by
  obtain ⟨c, C, r, η, hc, hC, hr, hη, z, hz0, hz, hlip, hist, -⟩ := C143_history_partial S hJ z₀ ρ l hρ hl h
  have hpow : ∀ {m p : ℕ} {a : ℝ}, 0 ≤ a → m ≤ p → a / 2 ^ p ≤ a / 2 ^ m := fun ha hmp =>
    div_le_div_of_nonneg_left ha (by positivity) (pow_le_pow_right₀ (by norm_num) hmp)
  refine ⟨c, 2 * r, η, hc, by positivity, hη, fun loads loads' hl1 hl2 set set' solver solver' e1 r1 e2 r2 k k' m hk hm hm' => ?_, fun loads hl1 set solver e1 r1 k hk => ?_,
    fun loads hl1 set solver e1 r1 δ h0 hδ k hj => ?_⟩
  · have a1 := (hist loads hl1 set solver e1 r1 k).1.trans (hpow hr.le hm)
    have a2 := (hist loads' hl2 set' solver' e2 r2 k').1.trans (hpow hr.le hm')
    rw [← hk] at a2
    have e : ∀ a b w : ι → ℝ, a - b = (a - w) - (b - w) := fun a b w => by abel
    rw [e _ _ (z (loads k))]
    refine (norm_sub_le _ _).trans ?_
    have : 2 * r / 2 ^ m = r / 2 ^ m + r / 2 ^ m := by ring
    rw [this]
    exact add_le_add a1 a2
  · have a1 := (hist loads hl1 set solver e1 r1 k).1
    rw [hk, hz0] at a1
    exact a1.trans (div_le_div_of_nonneg_right (by linarith) (by positivity))
  · refine ⟨z (loads k), (hz _ (hl1 k)).1, ?_⟩
    have hhalf : ∀ {a : ℝ} {m : ℕ}, 0 ≤ a → 1 ≤ m → a / 2 ^ m ≤ a / 2 := fun ha hm => by simpa using hpow ha hm
    induction k with
    | zero =>
      have a1 := (hist loads hl1 set solver e1 r1 0).2.2 0 (by simpa using hη.le)
      rw [hz0, sub_zero] at a1
      have a2 : ‖(loadHistory set loads S solver z₀ 0).2 - z₀‖ = 0 := by simp [loadHistory]
      rw [a2, zero_add (c * _)] at a1
      have a3 := hhalf (a := c * ‖loads 0‖) (by positivity) (hj 0 le_rfl)
      have a4 := mul_le_mul_of_nonneg_left h0 hc.le
      have a5 : 0 ≤ c * ‖loads 0‖ := by positivity
      linarith
    | succ k ih =>
      have a0 := ih fun j hjk => hj j (by omega)
      have a1 := (hist loads hl1 set solver e1 r1 (k + 1)).2.2 (loads k) (hl1 k)
      have a3 := hhalf (a := ‖(loadHistory set loads S solver z₀ (k + 1)).2 - z (loads k)‖ + c * ‖loads (k + 1) - loads k‖) (by positivity) (hj (k + 1) le_rfl)
      have a4 := mul_le_mul_of_nonneg_left (hδ k) hc.le
      linarith

/-- **C143 (hyperelastic bodies).** At the rest positions of a hyperelastic body three nodes of which are fixed in every piece, the hypotheses of the two theorems above hold, for both materials. -/
theorem C143_hyperelastic (T : SolidType) (hT : T ≠ .hexa2) {N M : ℕ} (idx : Fin M → Fin T.numNodes → Fin N)
    (hinj : ∀ e, Function.Injective (idx e)) (X : Fin N → Fin 3 → ℝ) (hshape : ∀ e, RegularShape T fun i => X (idx e i))
    (young poisson : ℝ) (h1 : 0 < young) (h2 : -1 < poisson) (h3 : poisson < 1 / 2) (fixed : Fin N → Bool) (hheld : WellHeld idx X fixed) (mat : Material)
    (hmat : mat = saintVenantKirchhoff (lameMu young poisson) (lameL young poisson) ∨ mat = neoHookean (lameMu young poisson) (lameL young poisson)) :
    MapsFreeOnly (hyperScene (HyperMesh.initialize T.elem T.gauss idx X) mat fixed) ∧
      ∃ ρ l : ℝ, 0 < ρ ∧ 0 ≤ l ∧ RegularEquilibrium (hyperScene (HyperMesh.initialize T.elem T.gauss idx X) mat fixed) (fun d => X d.1 d.2) ρ l := by
  have hrot : IsRotation (1 : Mat3) := ⟨by show (1 : Mat3).transpose * 1 = 1; rw [Matrix.transpose_one, Matrix.one_mul], Matrix.det_one⟩
  obtain ⟨ρ, l, hρ, hl, hreg⟩ := C127_rest T hT idx hinj X hshape young poisson h1 h2 h3 fixed hheld 1 hrot 0 mat hmat
  have hx : (fun d : Dof N => ((1 : Mat3).mulVec (X d.1) + 0) d.2) = fun d => X d.1 d.2 := by funext d; simp
  rw [hx] at hreg
  exact ⟨fun k => k.elim0, ρ, l, hρ, hl, hreg⟩

/-- A neo-Hookean hexahedron three nodes of which are fixed: loads which come and go leave no trace. -/
example : ∃ r η : ℝ, 0 < r ∧ 0 < η ∧ ∀ loads : ℕ → Dof 8 → ℝ, (∀ k, ‖loads k‖ ≤ η) → ∀ set solver, SolvesExactly solver → SolvesRegular solver → ∀ k, loads k = 0 →
    ‖(loadHistory set loads (hyperScene (HyperMesh.initialize SolidType.hexa1.elem SolidType.hexa1.gauss (fun (_ : Fin 1) (i : Fin 8) => i) (hexa1 : Elem ℝ 3 8).node)
      (neoHookean (lameMu 1000 (3 / 10)) (lameL 1000 (3 / 10))) fun p => p = 0 ∨ p = 1 ∨ p = 3) solver (fun d => (hexa1 : Elem ℝ 3 8).node d.1 d.2) (k + 1)).2 -
      fun d => (hexa1 : Elem ℝ 3 8).node d.1 d.2‖ ≤
    r / 2 ^ (loadHistory set loads (hyperScene (HyperMesh.initialize SolidType.hexa1.elem SolidType.hexa1.gauss (fun (_ : Fin 1) (i : Fin 8) => i) (hexa1 : Elem ℝ 3 8).node)
      (neoHookean (lameMu 1000 (3 / 10)) (lameL 1000 (3 / 10))) fun p => p = 0 ∨ p = 1 ∨ p = 3) solver (fun d => (hexa1 : Elem ℝ 3 8).node d.1 d.2) (k + 1)).1.residuals.length := by
  obtain ⟨hJ, ρ, l, hρ, hl, hreg⟩ := C143_hyperelastic .hexa1 (by decide) (N := 8) (M := 1) (fun _ i => i) (fun _ => Function.injective_id) _
    (fun _ => .inl (canonical_shape _)) 1000 (3 / 10) (by norm_num) (by norm_num) (by norm_num) _ oneHexa_held _ (Or.inr rfl)
  obtain ⟨c, r, η, -, hr, hη, -, h, -⟩ := C143_consequences_partial _ hJ _ ρ l hρ hl hreg
  exact ⟨r, η, hr, hη, h⟩

end Caribou
