import Verif.Props.SmallLoads
import Verif.Props.SmallStrain
import Verif.Props.Supports
import Mathlib.LinearAlgebra.FiniteDimensional.Lemmas

/-!
# C140: under small loads hyperelastic bodies move like linear ones
-/

set_option autoImplicit false
set_option linter.all false

namespace Caribou

open Spec Matrix

section Generic

variable {ι κ : Type*} [Fintype ι] [Fintype κ] [DecidableEq ι]

/-- The linear theory around a regular equilibrium has exactly one displacement for every load. -/
theorem response_unique (S : StaticScene ℝ ι κ) (z : ι → ℝ) (ρ l : ℝ) (h : RegularEquilibrium S z ρ l) (f : ι → ℝ) : ∃! u, LinearResponse S z f u := by
  let L : (ι → ℝ) →ₗ[ℝ] (ι → ℝ) :=
    { toFun := fun u i => if S.fixed i then u i else (totalStiff S z).mulVec u i
      map_add' := fun u v => by
        funext i
        simp only [Matrix.mulVec_add, Pi.add_apply]
        split_ifs <;> rfl
      map_smul' := fun c u => by
        funext i
        simp only [Matrix.mulVec_smul, Pi.smul_apply, RingHom.id_apply]
        split_ifs <;> rfl }
  have hL : ∀ u i, L u i = if S.fixed i then u i else (totalStiff S z).mulVec u i := fun _ _ => rfl
  have hinj : Function.Injective L := by
    rw [← LinearMap.ker_eq_bot, LinearMap.ker_eq_bot']
    intro u hu
    refine h.regular u (fun i hi => ?_) fun i hi => ?_
    · have := congrFun hu i
      rwa [hL, if_pos hi] at this
    · have := congrFun hu i
      rwa [hL, if_neg (by simp [hi])] at this
  have hiff : ∀ u, LinearResponse S z f u ↔ L u = fun i => if S.fixed i then 0 else -f i := by
    intro u
    constructor
    · rintro ⟨h1, h2⟩
      funext i
      rw [hL]
      split_ifs with hi
      · exact h1 i hi
      · linarith [h2 i (by simpa using hi)]
    · intro hu
      refine ⟨fun i hi => ?_, fun i hi => ?_⟩
      · have := congrFun hu i
        rwa [hL, if_pos hi, if_pos hi] at this
      · have := congrFun hu i
        rw [hL, if_neg (by simp [hi]), if_neg (by simp [hi])] at this
        linarith
  obtain ⟨u, hu⟩ := (LinearMap.injective_iff_surjective.1 hinj) fun i => if S.fixed i then 0 else -f i
  exact ⟨u, (hiff u).2 hu, fun v hv => hinj (((hiff v).1 hv).trans hu.symm)⟩

/-- A solution of the system of the first iteration from an equilibrium without the load is the displacement of the linear theory. -/
theorem response_system (S : StaticScene ℝ ι κ) (hJ : MapsFreeOnly S) (z : ι → ℝ) (hz : InEquilibrium S z) (f u : ι → ℝ)
    (hu : staticMatrix (withLoad S f) ⟨z, S.map z, 0⟩ *ᵥ u = staticRhs (withLoad S f) ⟨z, S.map z, 0⟩) : LinearResponse S z f u := by
  have hfix : ∀ i, S.fixed i = true → u i = 0 := C84_system_partial (withLoad S f) hJ _ u hu
  refine ⟨hfix, fun i hi => ?_⟩
  have hp : projectResponse S.fixed u = u := by
    funext j
    unfold projectResponse
    split_ifs with hj
    · exact (hfix j hj).symm
    · rfl
  have h := congrFun hu i
  rw [staticRhs_total (withLoad S f) _ rfl, withLoad_total, show staticMatrix (withLoad S f) ⟨z, S.map z, 0⟩ = staticMatrix S ⟨z, S.map z, 0⟩ from rfl,
    staticMatrix_total S hJ _ rfl, if_neg (by simp [hi]), hp] at h
  have h2 := hz i hi
  have e : projectResponse (withLoad S f).fixed (totalForce S z + f) i = totalForce S z i + f i := by
    show projectResponse S.fixed (totalForce S z + f) i = _
    unfold projectResponse
    rw [if_neg (by simp [hi])]
    rfl
  rw [e] at h
  simp only [totalForce] at h
  linarith

theorem rest_unit (S : StaticScene ℝ ι κ) (hJ : MapsFreeOnly S) (z : ι → ℝ) (ρ l : ℝ) (h : RegularEquilibrium S z ρ l) (f : ι → ℝ) :
    IsUnit (staticMatrix (withLoad S f) ⟨z, S.map z, 0⟩) := by
  rw [← Matrix.mulVec_injective_iff_isUnit]
  intro u v huv
  have h0 : staticMatrix (withLoad S 0) ⟨z, S.map z, 0⟩ *ᵥ (u - v) = staticRhs (withLoad S 0) ⟨z, S.map z, 0⟩ := by
    have e : staticRhs (withLoad S 0) ⟨z, S.map z, 0⟩ = 0 := by
      rw [staticRhs_eq_zero_iff (withLoad S 0) _ rfl]
      intro i hi
      have := h.equilibrium i hi
      simpa [withLoad] using this
    rw [e, Matrix.mulVec_sub, sub_eq_zero]
    exact huv
  have hr := response_system S hJ z h.equilibrium 0 _ h0
  exact sub_eq_zero.1 (h.regular _ hr.1 fun i hi => by simpa using hr.2 i hi)

/-- One iteration adds the solution of the system to the positions, unless the forces were below the absolute threshold. -/
theorem one_iteration (S : StaticScene ℝ ι κ) (n : NewtonParams ℝ) (hn : n.iterations = 1) (solver : Matrix ι ι ℝ → (ι → ℝ) → Option (ι → ℝ)) (hex : SolvesExactly solver)
    (hre : SolvesRegular solver) (x : ι → ℝ) (hA : IsUnit (staticMatrix S ⟨x, S.map x, 0⟩)) (s : NewtonState ℝ) :
    (∃ u, staticMatrix S ⟨x, S.map x, 0⟩ *ᵥ u = staticRhs S ⟨x, S.map x, 0⟩ ∧ (staticSolve n S solver s x).2.x = x + u) ∨
      (0 < n.absolute ∧ ∑ i, staticRhs S ⟨x, S.map x, 0⟩ i ^ 2 ≤ n.absolute ^ 2) := by
  by_cases hc : (decide (0 < n.absolute) && leNan ((staticEnv S solver).norm2 (staticRhs S ⟨x, S.map x, 0⟩))
      (some (n.absolute * n.absolute))) = true
  · right
    simp only [Bool.and_eq_true, decide_eq_true_eq, leNan, staticEnv] at hc
    refine ⟨hc.1, ?_⟩
    have h2 := hc.2
    simp only [dotProduct] at h2
    simpa only [sq] using h2
  · left
    obtain ⟨u, hu⟩ := hre _ (staticRhs S ⟨x, S.map x, 0⟩) hA
    refine ⟨u, hex _ _ _ hu, ?_⟩
    have key : ∀ t : NewtonLoop (StaticWorld ℝ ι κ) (ι → ℝ) ℝ, t.world = ⟨x, S.map x, 0⟩ → t.F = staticRhs S ⟨x, S.map x, 0⟩ → t.converged = false → t.diverged = false →
        (newtonLoop n (staticEnv S solver) 1 t).world.x = x + u := by
      intro t e1 e2 e3 e4
      have hi := static_iteration n S solver t e4
      simp only [e1, e2, hu, reduceCtorEq, false_and, false_or, Option.some.injEq, exists_eq_left'] at hi
      unfold newtonLoop
      simp only [e3, Bool.false_eq_true, if_false]
      unfold newtonLoop
      split_ifs <;> exact hi.1
    unfold staticSolve newtonSolve
    simp only [Bool.not_true, Bool.false_eq_true, if_false, hn]
    exact key _ rfl rfl (Bool.eq_false_iff.2 hc) rfl

end Generic

section Class

variable {N M : ℕ} {C : CorotClass} {d : CorotData} {idx : Fin M → Fin C.nodes → Fin N} {X : Fin N → Fin 3 → ℝ}

/-- The mesh of a hyperelastic force field with the elements of a linear one. -/
noncomputable def classMesh (C : CorotClass) {N M : ℕ} (idx : Fin M → Fin C.nodes → Fin N) (X : Fin N → Fin 3 → ℝ) : HyperMesh N C.nodes M :=
  HyperMesh.initialize C.elem (energyPoints C .regular) idx X

/-- One of the two materials with the Young modulus and the Poisson ratio of the linear force field. -/
def SameMaterial (d : CorotData) (mat : Material) : Prop :=
  mat = saintVenantKirchhoff (lameMu d.young d.poisson) (lameL d.young d.poisson) ∨ mat = neoHookean (lameMu d.young d.poisson) (lameL d.young d.poisson)

/-- `U` is a static solution of the linear force field under the loads `F`. -/
def LinearSolution (C : CorotClass) (d : CorotData) {N M : ℕ} (idx : Fin M → Fin C.nodes → Fin N) (X : Fin N → Fin 3 → ℝ) (fixed : Fin N → Bool) (F U : Dof N → ℝ) : Prop :=
  (∀ q : Dof N, fixed q.1 = true → U q = 0) ∧ ∀ p a, fixed p = false → netForce C d idx X (fun p a => U (p, a)) (fun p a => F (p, a)) p a = 0

theorem class_agree (hc : d.corotated = false) (hm : d.method = .regular) (hinj : ∀ e, Function.Injective (idx e)) (hX : ClassOriented C idx X) {mat : Material}
    (hmat : SameMaterial d mat) (fixed : Fin N → Bool) (F U : Dof N → ℝ) (q : Dof N) :
    netForce C d idx X (fun p a => U (p, a)) (fun p a => F (p, a)) q.1 q.2 = F q + (totalStiff (hyperScene (classMesh C idx X) mat fixed) fun q => X q.1 q.2).mulVec U q := by
  obtain ⟨r1, r2, r3, r4⟩ := class_points C d idx X
  have r5 := class_initial C d hc idx X
  rw [hm] at r2
  have hlin : LinearizesTo mat d.young d.poisson := by
    rcases hmat with rfl | rfl
    · exact svk_linearizes _ _
    · exact neoHookean_linearizes _ _
  have hA := small_strain_core hlin C.elem (energyPoints C .regular) idx hinj X hX _ r1 r3 r4 r5 r2 C.frame
  have hts : (totalStiff (hyperScene (classMesh C idx X) mat fixed) fun q => X q.1 q.2) = Matrix.of (addStoredToMatrix 1 ((classMesh C idx X).storedK mat X) 0) := by
    show _ + (0 : Matrix (Fin 0) (Dof N) ℝ).transpose * (0 : Matrix (Fin 0) (Fin 0) ℝ) * (0 : Matrix (Fin 0) (Dof N) ℝ) = _
    rw [Matrix.mul_zero, add_zero]
    rfl
  rw [hts, netForce_matrix hc, sub_eq_add_neg]
  congr 1
  show _ = ∑ q', addStoredToMatrix 1 ((classMesh C idx X).storedK mat X) 0 q q' * U q'
  rw [← Finset.sum_neg_distrib]
  refine Finset.sum_congr rfl fun q' _ => ?_
  have := congrFun (congrFun (hA.matrix 1 0) q) q'
  rw [show addStoredToMatrix 1 ((classMesh C idx X).storedK mat X) 0 q q' = _ from this.symm]
  simp [CorotState.stiffnessOf]

/-- The displacement of the linear theory around the rest positions of a hyperelastic body is the static solution of the linear force field. -/
theorem linearSolution_iff (hc : d.corotated = false) (hm : d.method = .regular) (hinj : ∀ e, Function.Injective (idx e)) (hX : ClassOriented C idx X) {mat : Material}
    (hmat : SameMaterial d mat) (fixed : Fin N → Bool) (F U : Dof N → ℝ) :
    LinearSolution C d idx X fixed F U ↔ LinearResponse (hyperScene (classMesh C idx X) mat fixed) (fun q => X q.1 q.2) F U := by
  have h := class_agree hc hm hinj hX hmat fixed F U
  constructor
  · rintro ⟨h1, h2⟩
    refine ⟨h1, fun q hq => ?_⟩
    rw [add_comm, ← h]
    exact h2 q.1 q.2 hq
  · rintro ⟨h1, h2⟩
    refine ⟨h1, fun p a hp => ?_⟩
    have := h2 (p, a) hp
    rw [add_comm, ← h] at this
    exact this

theorem class_rest (h1 : 0 < d.young) (h2 : -1 < d.poisson) (h3 : d.poisson < 1 / 2) (hinj : ∀ e, Function.Injective (idx e)) (hX : ClassOriented C idx X) (fixed : Fin N → Bool)
    (hheld : WellHeld idx X fixed) {mat : Material} (hmat : SameMaterial d mat) :
    ∃ ρ l : ℝ, 0 < ρ ∧ 0 ≤ l ∧ RegularEquilibrium (hyperScene (classMesh C idx X) mat fixed) (fun q => X q.1 q.2) ρ l := by
  have hrot : IsRotation (1 : Mat3) := ⟨by show (1 : Mat3).transpose * 1 = 1; rw [Matrix.transpose_one, Matrix.one_mul], Matrix.det_one⟩
  have hx : (fun d : Dof N => ((1 : Mat3).mulVec (X d.1) + 0) d.2) = fun d : Dof N => X d.1 d.2 := by funext d; simp
  cases C
  · have hg : (⟨![1/4, 1/4, 1/4], 1/6⟩ : GaussNode 3) ∈ gaussTetra1 := List.mem_singleton.2 rfl
    have := C127_rest .tetra1 (by decide) idx hinj X (fun e => .inl (tetra_affineShape (fun i => X (idx e i)) _ (hX e _ hg).ne')) d.young d.poisson h1 h2 h3 fixed hheld 1 hrot 0 mat hmat
    rw [hx] at this
    exact this
  · have := C127_rest .hexa1 (by decide) idx hinj X (fun e => .inr ⟨rfl, .inl (hX e)⟩) d.young d.poisson h1 h2 h3 fixed hheld 1 hrot 0 mat hmat
    rw [hx] at this
    exact this

/-- **C140 (equilibrium).** A body of tetrahedra or hexahedra three nodes of which are held in every piece, with a small load: the linear force field has one static solution, the hyperelastic
one, with either material, has one equilibrium near the rest positions, and the two differ by at most a constant times the square of the load. -/
theorem C140_equilibrium (hc : d.corotated = false) (hm : d.method = .regular) (h1 : 0 < d.young) (h2 : -1 < d.poisson) (h3 : d.poisson < 1 / 2)
    (hinj : ∀ e, Function.Injective (idx e)) (hX : ClassOriented C idx X) (fixed : Fin N → Bool) (hheld : WellHeld idx X fixed) {mat : Material} (hmat : SameMaterial d mat) :
    ∃ c r η : ℝ, 0 < c ∧ 0 < r ∧ 0 < η ∧ ∀ F : Dof N → ℝ, (∃! U, LinearSolution C d idx X fixed F U) ∧ (‖F‖ ≤ η → ∀ U, LinearSolution C d idx X fixed F U →
      ∃ z, HeldEquilibrium (withLoad (hyperScene (classMesh C idx X) mat fixed) F) (fun q => X q.1 q.2) z ∧ ‖z - fun q => X q.1 q.2‖ ≤ c * ‖F‖ ∧
        (∀ y, ‖y - fun q => X q.1 q.2‖ ≤ r → HeldEquilibrium (withLoad (hyperScene (classMesh C idx X) mat fixed) F) (fun q => X q.1 q.2) y → y = z) ∧
        ‖z - ((fun q => X q.1 q.2) + U)‖ ≤ c * ‖F‖ ^ 2) := by
  obtain ⟨ρ, l, hρ, hl, hreg⟩ := class_rest h1 h2 h3 hinj hX fixed hheld hmat
  obtain ⟨c, r, η, hc0, hr, hη, h⟩ := C127_equilibrium _ (fun k => k.elim0) _ ρ l hρ hl hreg
  refine ⟨c, r, η, hc0, hr, hη, fun F => ⟨?_, fun hF U hU => ?_⟩⟩
  · obtain ⟨u, hu, huni⟩ := response_unique _ _ ρ l hreg F
    exact ⟨u, (linearSolution_iff hc hm hinj hX hmat fixed F u).2 hu, fun v hv => huni v ((linearSolution_iff hc hm hinj hX hmat fixed F v).1 hv)⟩
  · obtain ⟨z, hz, hzc, huni, hlin⟩ := h F hF
    exact ⟨z, hz, hzc, huni, hlin U ((linearSolution_iff hc hm hinj hX hmat fixed F U).1 hU)⟩

/-- **C140 (materials).** The two materials have the same small equilibria up to the square of the load. -/
theorem C140_materials (h1 : 0 < d.young) (h2 : -1 < d.poisson) (h3 : d.poisson < 1 / 2) (hinj : ∀ e, Function.Injective (idx e)) (hX : ClassOriented C idx X) (fixed : Fin N → Bool)
    (hheld : WellHeld idx X fixed) {mat mat' : Material} (hmat : SameMaterial d mat) (hmat' : SameMaterial d mat') :
    ∃ c r η : ℝ, 0 < c ∧ 0 < r ∧ 0 < η ∧ ∀ F : Dof N → ℝ, ‖F‖ ≤ η → ∀ z z', ‖z - fun q => X q.1 q.2‖ ≤ r → ‖z' - fun q => X q.1 q.2‖ ≤ r →
      HeldEquilibrium (withLoad (hyperScene (classMesh C idx X) mat fixed) F) (fun q => X q.1 q.2) z →
      HeldEquilibrium (withLoad (hyperScene (classMesh C idx X) mat' fixed) F) (fun q => X q.1 q.2) z' → ‖z - z'‖ ≤ c * ‖F‖ ^ 2 := by
  obtain ⟨c, r, η, hc0, hr, hη, h⟩ := C140_equilibrium (d := { d with corotated := false, method := .regular }) rfl rfl h1 h2 h3 hinj hX fixed hheld (mat := mat) hmat
  obtain ⟨c', r', η', hc0', hr', hη', h'⟩ := C140_equilibrium (d := { d with corotated := false, method := .regular }) rfl rfl h1 h2 h3 hinj hX fixed hheld (mat := mat') hmat'
  refine ⟨c + c', min r r', min η η', by positivity, lt_min hr hr', lt_min hη hη', fun F hF z z' hz hz' he he' => ?_⟩
  obtain ⟨⟨U, hU, -⟩, hk⟩ := h F
  obtain ⟨w, -, -, hw, hwc⟩ := hk (hF.trans (min_le_left _ _)) U hU
  obtain ⟨w', -, -, hw', hwc'⟩ := (h' F).2 (hF.trans (min_le_right _ _)) U hU
  rw [hw z (hz.trans (min_le_left _ _)) he, hw' z' (hz'.trans (min_le_right _ _)) he']
  calc ‖w - w'‖ = ‖(w - ((fun q : Dof N => X q.1 q.2) + U)) - (w' - ((fun q : Dof N => X q.1 q.2) + U))‖ := by congr 1; abel
    _ ≤ _ := norm_sub_le _ _
    _ ≤ (c + c') * ‖F‖ ^ 2 := by linarith

/-- **C140 (slope).** When a load is applied little by little, the positions of the hyperelastic body start with the slope of the linear solution for the whole load. -/
theorem C140_slope (hc : d.corotated = false) (hm : d.method = .regular) (h1 : 0 < d.young) (h2 : -1 < d.poisson) (h3 : d.poisson < 1 / 2)
    (hinj : ∀ e, Function.Injective (idx e)) (hX : ClassOriented C idx X) (fixed : Fin N → Bool) (hheld : WellHeld idx X fixed) {mat : Material} (hmat : SameMaterial d mat)
    (F U : Dof N → ℝ) (hU : LinearSolution C d idx X fixed F U) :
    ∃ r : ℝ, 0 < r ∧ ∀ z : ℝ → Dof N → ℝ, (∀ᶠ t in nhds 0, ‖z t - fun q => X q.1 q.2‖ ≤ r ∧
      HeldEquilibrium (withLoad (hyperScene (classMesh C idx X) mat fixed) (t • F)) (fun q => X q.1 q.2) (z t)) → HasDerivAt z U 0 := by
  obtain ⟨c, r, η, hc0, hr, hη, h⟩ := C140_equilibrium hc hm h1 h2 h3 hinj hX fixed hheld hmat
  refine ⟨r, hr, fun z hz => ?_⟩
  have hlin : ∀ t : ℝ, LinearSolution C d idx X fixed (t • F) (t • U) := by
    intro t
    rw [linearSolution_iff hc hm hinj hX hmat fixed] at hU ⊢
    refine ⟨fun q hq => by rw [Pi.smul_apply, hU.1 q hq, smul_zero], fun q hq => ?_⟩
    rw [Matrix.mulVec_smul, Pi.smul_apply, Pi.smul_apply, ← smul_add, hU.2 q hq, smul_zero]
  have hsmall : ∀ᶠ t : ℝ in nhds 0, ‖t • F‖ ≤ η := by
    have : Filter.Tendsto (fun t : ℝ => ‖t • F‖) (nhds 0) (nhds 0) := by
      have hcont : Continuous fun t : ℝ => ‖t • F‖ := by fun_prop
      have := hcont.tendsto 0
      simpa using this
    exact (this.eventually (gt_mem_nhds hη)).mono fun t ht => ht.le
  have hbound : ∀ᶠ t : ℝ in nhds 0, ‖z t - ((fun q : Dof N => X q.1 q.2) + t • U)‖ ≤ c * ‖F‖ ^ 2 * t ^ 2 := by
    filter_upwards [hz, hsmall] with t ht hs
    obtain ⟨w, -, -, hw, hwc⟩ := (h (t • F)).2 hs _ (hlin t)
    rw [hw _ ht.1 ht.2]
    refine hwc.trans (le_of_eq ?_)
    rw [norm_smul, mul_pow, Real.norm_eq_abs, sq_abs]
    ring
  have h0 : z 0 = fun q : Dof N => X q.1 q.2 := by
    have := hbound.self_of_nhds
    simp only [zero_smul, add_zero, ne_eq, OfNat.ofNat_ne_zero, not_false_eq_true, zero_pow, mul_zero, norm_le_zero_iff, sub_eq_zero] at this
    exact this
  rw [hasDerivAt_iff_isLittleO_nhds_zero]
  have hO : (fun t : ℝ => z (0 + t) - z 0 - t • U) =O[nhds 0] fun t => t ^ 2 := by
    refine Asymptotics.IsBigO.of_bound (c * ‖F‖ ^ 2) ?_
    filter_upwards [hbound] with t ht
    rw [zero_add, h0, sub_sub, Real.norm_eq_abs, abs_of_nonneg (sq_nonneg t)]
    exact ht
  refine hO.trans_isLittleO ?_
  have := Asymptotics.isLittleO_pow_pow (𝕜 := ℝ) (m := 1) (n := 2) (by norm_num)
  simpa using this

/-- **C140 (one iteration).** One iteration of the static solve of a hyperelastic body from rest gives exactly the linear solution, whatever the size of the load, unless the forces were below the
absolute threshold. -/
theorem C140_first (hc : d.corotated = false) (hm : d.method = .regular) (h1 : 0 < d.young) (h2 : -1 < d.poisson) (h3 : d.poisson < 1 / 2)
    (hinj : ∀ e, Function.Injective (idx e)) (hX : ClassOriented C idx X) (fixed : Fin N → Bool) (hheld : WellHeld idx X fixed) {mat : Material} (hmat : SameMaterial d mat)
    (F U : Dof N → ℝ) (hU : LinearSolution C d idx X fixed F U) (n : NewtonParams ℝ) (hn : n.iterations = 1)
    (solver : Matrix (Dof N) (Dof N) ℝ → (Dof N → ℝ) → Option (Dof N → ℝ)) (hex : SolvesExactly solver) (hre : SolvesRegular solver) (s : NewtonState ℝ) :
    (staticSolve n (withLoad (hyperScene (classMesh C idx X) mat fixed) F) solver s fun q => X q.1 q.2).2.x = (fun q => X q.1 q.2) + U ∨
      0 < n.absolute ∧ ∑ q : Dof N, (if fixed q.1 then 0 else F q) ^ 2 ≤ n.absolute ^ 2 := by
  obtain ⟨ρ, l, hρ, hl, hreg⟩ := class_rest h1 h2 h3 hinj hX fixed hheld hmat
  have hJ : MapsFreeOnly (hyperScene (classMesh C idx X) mat fixed) := fun k => k.elim0
  rcases one_iteration (withLoad (hyperScene (classMesh C idx X) mat fixed) F) n hn solver hex hre (fun q => X q.1 q.2) (rest_unit _ hJ _ ρ l hreg F) s with ⟨u, hu, hx⟩ | ⟨k1, k2⟩
  · left
    rw [hx]
    congr 1
    obtain ⟨v, -, huni⟩ := response_unique _ _ ρ l hreg F
    exact (huni u (response_system _ hJ _ hreg.equilibrium F u hu)).trans (huni U ((linearSolution_iff hc hm hinj hX hmat fixed F U).1 hU)).symm
  · right
    refine ⟨k1, le_of_eq_of_le (Finset.sum_congr rfl fun q _ => ?_) k2⟩
    rw [staticRhs_total _ _ rfl, withLoad_total]
    congr 1
    show _ = if fixed q.1 then 0 else (totalForce (hyperScene (classMesh C idx X) mat fixed) (fun q => X q.1 q.2) + F) q
    split_ifs with hq
    · rfl
    · have : totalForce (hyperScene (classMesh C idx X) mat fixed) (fun q => X q.1 q.2) q = 0 := hreg.equilibrium q (Bool.eq_false_iff.2 hq)
      rw [Pi.add_apply, this, zero_add]

/-- **C140 (static solve).** Every static solve of a hyperelastic body from rest with a small load which makes at least one iteration ends at the linear solution up to a constant times the square
of the load. -/
theorem C140_solve (hc : d.corotated = false) (hm : d.method = .regular) (h1 : 0 < d.young) (h2 : -1 < d.poisson) (h3 : d.poisson < 1 / 2)
    (hinj : ∀ e, Function.Injective (idx e)) (hX : ClassOriented C idx X) (fixed : Fin N → Bool) (hheld : WellHeld idx X fixed) {mat : Material} (hmat : SameMaterial d mat) :
    ∃ c η : ℝ, 0 < c ∧ 0 < η ∧ ∀ F : Dof N → ℝ, ‖F‖ ≤ η → ∀ U, LinearSolution C d idx X fixed F U → ∀ (n : NewtonParams ℝ)
      (solver : Matrix (Dof N) (Dof N) ℝ → (Dof N → ℝ) → Option (Dof N → ℝ)), SolvesExactly solver → SolvesRegular solver → ∀ s : NewtonState ℝ,
      (staticSolve n (withLoad (hyperScene (classMesh C idx X) mat fixed) F) solver s fun q => X q.1 q.2).1.residuals ≠ [] →
      ‖(staticSolve n (withLoad (hyperScene (classMesh C idx X) mat fixed) F) solver s fun q => X q.1 q.2).2.x - ((fun q => X q.1 q.2) + U)‖ ≤ c * ‖F‖ ^ 2 := by
  obtain ⟨ρ, l, hρ, hl, hreg⟩ := class_rest h1 h2 h3 hinj hX fixed hheld hmat
  have hJ : MapsFreeOnly (hyperScene (classMesh C idx X) mat fixed) := fun k => k.elim0
  obtain ⟨c, r, η, hc0, hr, hη, heq⟩ := C127_equilibrium _ hJ _ ρ l hρ hl hreg
  obtain ⟨B, r', hB, hr', hBr, hq, -⟩ := C127_solve_partial _ hJ _ ρ l hρ hl hreg
  refine ⟨c + B * c ^ 2, min η (r' / c), by positivity, by positivity, fun F hF U hU n solver hex hre s hres => ?_⟩
  obtain ⟨z, hz, hzc, -, hlin⟩ := heq F (hF.trans (min_le_left _ _))
  have hzr : ‖z - fun q => X q.1 q.2‖ ≤ r' := by
    have := hF.trans (min_le_right _ _)
    rw [le_div_iff₀ hc0] at this
    linarith
  have q1 := (hq F z hzr hz n solver hex hre s).1
  have hlen : 1 ≤ (staticSolve n (withLoad (hyperScene (classMesh C idx X) mat fixed) F) solver s fun q => X q.1 q.2).1.residuals.length :=
    List.length_pos_of_ne_nil hres
  revert q1 hlen
  generalize (staticSolve n (withLoad (hyperScene (classMesh C idx X) mat fixed) F) solver s fun q => X q.1 q.2).1.residuals.length = k
  generalize (staticSolve n (withLoad (hyperScene (classMesh C idx X) mat fixed) F) solver s fun q => X q.1 q.2).2.x = x
  intro q1 hk
  have hBz : B * ‖(fun q : Dof N => X q.1 q.2) - z‖ ≤ 1 := by
    rw [norm_sub_rev]
    nlinarith [mul_le_mul_of_nonneg_left hzr hB.le]
  have hn0 : 0 ≤ B * ‖(fun q : Dof N => X q.1 q.2) - z‖ := by positivity
  have hpow : (B * ‖(fun q : Dof N => X q.1 q.2) - z‖) ^ 2 ^ k ≤ (B * ‖(fun q : Dof N => X q.1 q.2) - z‖) ^ 2 :=
    pow_le_pow_of_le_one hn0 hBz (by calc 2 = 2 ^ 1 := rfl
      _ ≤ 2 ^ k := Nat.pow_le_pow_right (by norm_num) hk)
  have hxz : ‖x - z‖ ≤ B * ‖(fun q : Dof N => X q.1 q.2) - z‖ ^ 2 := by
    have := q1.trans hpow
    rw [mul_pow, pow_two B, mul_assoc] at this
    exact le_of_mul_le_mul_left this hB
  have hz2 : ‖(fun q : Dof N => X q.1 q.2) - z‖ ^ 2 ≤ (c * ‖F‖) ^ 2 := by
    rw [norm_sub_rev]
    exact pow_le_pow_left₀ (norm_nonneg _) hzc 2
  have hl2 := hlin U ((linearSolution_iff hc hm hinj hX hmat fixed F U).1 hU)
  calc ‖x - ((fun q : Dof N => X q.1 q.2) + U)‖ = ‖(x - z) + (z - ((fun q : Dof N => X q.1 q.2) + U))‖ := by congr 1; abel
    _ ≤ ‖x - z‖ + ‖z - ((fun q : Dof N => X q.1 q.2) + U)‖ := norm_add_le _ _
    _ ≤ (c + B * c ^ 2) * ‖F‖ ^ 2 := by
      have := mul_le_mul_of_nonneg_left hz2 hB.le
      nlinarith


end Class

section Box

variable (g : Grid 3 ℝ) (hf : Fits g.n)

theorem box_distinct (e : Fin g.numberOfCells.toNat) : Function.Injective (g.cellNodes hf e) := by
  obtain ⟨h1, h2, -⟩ := C25_3d g hf e (by omega) (by omega)
  intro i j hij
  have hv := congrArg Fin.val hij
  rw [cellNodes_val, cellNodes_val] at hv
  refine h2 ?_
  have a := Int.toNat_of_nonneg (h1 i).1
  have b := Int.toNat_of_nonneg (h1 j).1
  rw [← a, ← b]
  exact congrArg Int.ofNat hv

open Classical in
/-- **C140 (boxes).** A box held at one of its sides at least, under a small load: the static solve of the hyperelastic force field from rest, with either material, ends at the static solution of
the linear force field up to a constant times the square of the load. -/
theorem C140_box {d : CorotData} (hc : d.corotated = false) (hm : d.method = .regular) (h1 : 0 < d.young) (h2 : -1 < d.poisson) (h3 : d.poisson < 1 / 2)
    (hn : ∀ a, 0 < g.n a) (hs : ∀ a, 0 < g.size a) (B : Set (Fin 3 × Bool)) (hB : B.Nonempty) {mat : Material} (hmat : SameMaterial d mat) :
    ∃ c η : ℝ, 0 < c ∧ 0 < η ∧ ∀ F : Dof g.numberOfNodes.toNat → ℝ,
      (∃! U, LinearSolution .hexa d (g.cellNodes hf) (fun p => g.node p) (fun p => decide (p ∈ g.sideNodesOf B)) F U) ∧
      (‖F‖ ≤ η → ∀ U, LinearSolution .hexa d (g.cellNodes hf) (fun p => g.node p) (fun p => decide (p ∈ g.sideNodesOf B)) F U → ∀ (n : NewtonParams ℝ)
        (solver : Matrix (Dof g.numberOfNodes.toNat) (Dof g.numberOfNodes.toNat) ℝ → (Dof g.numberOfNodes.toNat → ℝ) → Option (Dof g.numberOfNodes.toNat → ℝ)),
        SolvesExactly solver → SolvesRegular solver → ∀ s : NewtonState ℝ,
        (staticSolve n (withLoad (hyperScene (classMesh .hexa (g.cellNodes hf) fun p => g.node p) mat fun p => decide (p ∈ g.sideNodesOf B)) F) solver s
          fun q => g.node q.1 q.2).1.residuals ≠ [] →
        ‖(staticSolve n (withLoad (hyperScene (classMesh .hexa (g.cellNodes hf) fun p => g.node p) mat fun p => decide (p ∈ g.sideNodesOf B)) F) solver s
          fun q => g.node q.1 q.2).2.x - ((fun q => g.node q.1 q.2) + U)‖ ≤ c * ‖F‖ ^ 2) := by
  obtain ⟨b, hb⟩ := hB
  obtain ⟨c, η, k1, k2, hk⟩ := C140_solve (C := .hexa) hc hm h1 h2 h3 (box_distinct g hf) (box_oriented g hf hn hs) _ (box_held g hf hn hs B b hb) hmat
  obtain ⟨_, _, _, -, -, -, hu⟩ := C140_equilibrium (C := .hexa) hc hm h1 h2 h3 (box_distinct g hf) (box_oriented g hf hn hs) _ (box_held g hf hn hs B b hb) hmat
  exact ⟨c, η, k1, k2, fun F => ⟨(hu F).1, hk F⟩⟩

end Box

/-- A cube of eight neo-Hookean hexahedra held at one side. -/
example : ∃ hf : Fits (![2, 2, 2] : Fin 3 → ℕ),
    let g : Grid 3 ℝ := ⟨0, ![2, 2, 2], 1⟩
    let d : CorotData := ⟨false, 1000, 1 / 4, .regular⟩
    ∃ fixed : Fin g.numberOfNodes.toNat → Bool, ∃ c r η : ℝ, 0 < c ∧ 0 < r ∧ 0 < η ∧ ∀ F : Dof g.numberOfNodes.toNat → ℝ, ‖F‖ ≤ η → ∃ U z,
      LinearSolution .hexa d (g.cellNodes hf) (fun p => g.node p) fixed F U ∧
      HeldEquilibrium (withLoad (hyperScene (classMesh .hexa (g.cellNodes hf) fun p => g.node p) (neoHookean (lameMu 1000 (1 / 4)) (lameL 1000 (1 / 4))) fixed) F)
        (fun q => g.node q.1 q.2) z ∧
      ‖z - ((fun q => g.node q.1 q.2) + U)‖ ≤ c * ‖F‖ ^ 2 := by
  classical
  have hf : Fits (![2, 2, 2] : Fin 3 → ℕ) := by
    unfold Fits
    decide
  refine ⟨hf, ?_⟩
  intro g d
  have hn : ∀ a, 0 < g.n a := by decide
  have hs : ∀ a, 0 < g.size a := fun a => one_pos
  obtain ⟨c, r, η, k1, k2, k3, hk⟩ := C140_equilibrium (C := .hexa) (d := d) rfl rfl (by norm_num) (by norm_num) (by norm_num) (box_distinct g hf) (box_oriented g hf hn hs) _
    (box_held g hf hn hs {(0, false)} (0, false) rfl) (Or.inr rfl)
  refine ⟨fun p => decide (p ∈ g.sideNodesOf {(0, false)}), c, r, η, k1, k2, k3, fun F hF => ?_⟩
  obtain ⟨⟨U, hU, -⟩, h⟩ := hk F
  obtain ⟨z, hz, -, -, hzc⟩ := h hF U hU
  exact ⟨U, z, hU, hz, hzc⟩

/-- A tetrahedron held at three nodes: one iteration with a load of any size gives the linear solution. -/
example (F : Dof 4 → ℝ) (solver : Matrix (Dof 4) (Dof 4) ℝ → (Dof 4 → ℝ) → Option (Dof 4 → ℝ)) (hex : SolvesExactly solver) (hre : SolvesRegular solver) : ∃ U,
    LinearSolution .tetra ⟨false, 1000, 1 / 4, .regular⟩ (fun (_ : Fin 1) (i : Fin 4) => i) (tetra1 : Elem ℝ 3 4).node (fun p => p = 0 ∨ p = 1 ∨ p = 2) F U ∧
    (staticSolve ⟨1, 0, 0, 0, 1, .never⟩ (withLoad (hyperScene (classMesh .tetra (fun (_ : Fin 1) (i : Fin 4) => i) (tetra1 : Elem ℝ 3 4).node)
      (saintVenantKirchhoff (lameMu 1000 (1 / 4)) (lameL 1000 (1 / 4))) fun p => p = 0 ∨ p = 1 ∨ p = 2) F) solver newtonFresh
      fun q => (tetra1 : Elem ℝ 3 4).node q.1 q.2).2.x = (fun q => (tetra1 : Elem ℝ 3 4).node q.1 q.2) + U := by
  have hX : ClassOriented .tetra (fun (_ : Fin 1) (i : Fin 4) => i) (tetra1 : Elem ℝ 3 4).node := by
    intro e q _
    have : ((CorotClass.elem .tetra).jacobian (tetra1 : Elem ℝ 3 4).node q.position : Mat3) = 1 := by
      ext a j
      refine (elem_dcoord (K := ℝ) .tetra1 q.position a j).trans ?_
      rfl
    show 0 < ((CorotClass.elem .tetra).jacobian (tetra1 : Elem ℝ 3 4).node q.position : Mat3).det
    rw [this, Matrix.det_one]
    exact one_pos
  have hheld : WellHeld (fun (_ : Fin 1) (i : Fin 4) => i) (tetra1 : Elem ℝ 3 4).node (fun p => p = 0 ∨ p = 1 ∨ p = 2) := by
    refine fun s => Or.inr ⟨0, ⟨s, rfl⟩, 0, 1, 2, fun t ht => ⟨⟨0, .refl, ⟨t, rfl⟩⟩, ?_⟩, not_collinear_of_cross 0 1 ?_⟩
    · revert t
      decide
    · simp only [tetra1, Matrix.cons_val]
      norm_num
  obtain ⟨_, _, _, -, -, -, hu⟩ := C140_equilibrium (C := .tetra) (d := ⟨false, 1000, 1 / 4, .regular⟩) rfl rfl (by norm_num) (by norm_num) (by norm_num)
    (fun _ => Function.injective_id) hX _ hheld (Or.inl rfl)
  obtain ⟨⟨U, hU, -⟩, -⟩ := hu F
  exact ⟨U, hU, (C140_first (C := .tetra) rfl rfl (by norm_num) (by norm_num) (by norm_num) (fun _ => Function.injective_id) hX _ hheld (Or.inl rfl) F U hU _ rfl solver hex hre _).resolve_right
    fun h => lt_irrefl _ h.1⟩

end Caribou
