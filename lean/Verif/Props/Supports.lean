import Verif.Spec.Supports
import Verif.Props.LinearStatics
import Verif.Props.Bar
import Verif.Props.CorotEnergy
import Mathlib.LinearAlgebra.Dual.Lemmas
import Mathlib.LinearAlgebra.CrossProduct

/-!
# C138: the supports carry the loads
-/

set_option autoImplicit false
set_option linter.all false

namespace Caribou

open Spec Matrix

section Statics

variable {N : ℕ}

theorem left_support (fixed : Fin N → Fin 3 → Bool) (r : Fin N → Fin 3 → ℝ) : supportForce fixed r + r = leftForce fixed r := by
  funext p a
  simp only [supportForce, leftForce, Pi.add_apply]
  split_ifs <;> simp

theorem resultant_add (f g : Fin N → Fin 3 → ℝ) : resultant (f + g) = resultant f + resultant g := by
  simp only [resultant, Pi.add_apply, Finset.sum_add_distrib]

theorem moment_add (x f g : Fin N → Fin 3 → ℝ) : moment x (f + g) = moment x f + moment x g := by
  simp only [moment, Pi.add_apply, map_add, Finset.sum_add_distrib]

theorem cross_apply3 (x f : Fin 3 → ℝ) : crossProduct x f = ![x 1 * f 2 - x 2 * f 1, x 2 * f 0 - x 0 * f 2, x 0 * f 1 - x 1 * f 0] := cross_apply x f

theorem moment_eq {x f g : Fin N → Fin 3 → ℝ} (h : ∀ a b, ∑ p, (x p a * f p b - x p b * f p a) = ∑ p, (x p a * g p b - x p b * g p a)) : moment x f = moment x g := by
  have h0 := h 1 2
  have h1 := h 2 0
  have h2 := h 0 1
  funext a
  simp only [moment, Finset.sum_apply, cross_apply3]
  fin_cases a
  · exact h0
  · exact h1
  · exact h2

theorem power_smallMotion (X f : Fin N → Fin 3 → ℝ) (c w : Fin 3 → ℝ) : power f (smallMotion X c w) = c ⬝ᵥ resultant f + w ⬝ᵥ moment X f := by
  simp only [power, resultant, moment, smallMotion, dotProduct, Finset.sum_apply, cross_apply3, Fin.sum_univ_three, Pi.add_apply, Finset.mul_sum, ← Finset.sum_add_distrib]
  refine Finset.sum_congr rfl fun p _ => ?_
  simp only [Matrix.cons_val]
  ring

end Statics

/-! ### Supports -/

/-- **C138 (hyperelastic bodies).** The forces of the supports and the loads together are, in sum and in moment about the origin at the current positions, those left at the free coordinates. -/
theorem C138_unfinished (T : SolidType) {N M : ℕ} (idx : Fin M → Fin T.numNodes → Fin N) (X x F : Fin N → Fin 3 → ℝ) (mat : Material) (fixed : Fin N → Fin 3 → Bool) :
    let r := (HyperMesh.initialize T.elem T.gauss idx X).addForce mat x F
    resultant (supportForce fixed r) + resultant F = resultant (leftForce fixed r) ∧
    (SymmetricStress mat → moment x (supportForce fixed r) + moment x F = moment x (leftForce fixed r)) := by
  intro r
  obtain ⟨h1, h2⟩ := C46_total T idx X x F mat
  constructor
  · have : resultant r = resultant F := by
      funext a
      simp only [resultant, Finset.sum_apply]
      exact h1 a
    rw [← this, ← resultant_add, left_support]
  · intro hs
    have : moment x r = moment x F := moment_eq fun a b => by
      have := h2 hs 0 a b
      simpa only [Pi.zero_apply, sub_zero] using this
    rw [← this, ← moment_add, left_support]

theorem left_zero {N : ℕ} {fixed : Fin N → Fin 3 → Bool} {r : Fin N → Fin 3 → ℝ} (h : ∀ p a, fixed p a = false → r p a = 0) : leftForce fixed r = 0 := by
  funext p a
  simp only [leftForce, Pi.zero_apply]
  split_ifs with k
  · rfl
  · exact h p a (by simpa using k)

/-- **C138 (hyperelastic bodies, equilibrium).** When the forces at the free coordinates balance, the supports carry the loads: their forces are opposite to the loads in sum, and in moment for the
materials with a symmetric stress. -/
theorem C138_hyperelastic (T : SolidType) {N M : ℕ} (idx : Fin M → Fin T.numNodes → Fin N) (X x F : Fin N → Fin 3 → ℝ) (mat : Material) (fixed : Fin N → Fin 3 → Bool)
    (heq : ∀ p a, fixed p a = false → (HyperMesh.initialize T.elem T.gauss idx X).addForce mat x F p a = 0) :
    let r := (HyperMesh.initialize T.elem T.gauss idx X).addForce mat x F
    resultant (supportForce fixed r) = -resultant F ∧ (SymmetricStress mat → moment x (supportForce fixed r) = -moment x F) := by
  intro r
  obtain ⟨h1, h2⟩ := C138_unfinished T idx X x F mat fixed
  have hl : leftForce fixed r = 0 := left_zero heq
  rw [show leftForce fixed ((HyperMesh.initialize T.elem T.gauss idx X).addForce mat x F) = 0 from hl] at h1 h2
  refine ⟨eq_neg_of_add_eq_zero_left (h1.trans ?_), fun hs => eq_neg_of_add_eq_zero_left ((h2 hs).trans ?_)⟩
  · simp [resultant]
  · simp [moment]

section Linear

variable {N M : ℕ} {C : CorotClass} {d : CorotData} {idx : Fin M → Fin C.nodes → Fin N} {X : Fin N → Fin 3 → ℝ}

theorem netForce_resultant (U F : Fin N → Fin 3 → ℝ) : resultant (netForce C d idx X U F) = resultant F := by
  obtain ⟨r1, -⟩ := class_points C d idx X
  funext a
  simp only [resultant, Finset.sum_apply]
  exact balance_generic r1 d.corotated C.frame X (X + U) F a

theorem netForce_split (hc : d.corotated = false) (U F : Fin N → Fin 3 → ℝ) : netForce C d idx X U F = F + netForce C d idx X U 0 := by
  funext p a
  rw [Pi.add_apply, Pi.add_apply, netForce_matrix hc U F, netForce_matrix hc U 0]
  simp only [Pi.zero_apply]
  ring

theorem netForce_moment (hc : d.corotated = false) (hX : ∀ e, ∀ g ∈ energyPoints C d.method, (C.elem.jacobian (fun i => X (idx e i)) g.position : Mat3).det ≠ 0) (U F : Fin N → Fin 3 → ℝ) :
    moment X (netForce C d idx X U F) = moment X F := by
  have h : moment X (netForce C d idx X U 0) = 0 := by
    obtain ⟨corotated, young, poisson, method⟩ := d
    simp only at hc hX
    subst hc
    cases C
    · exact (C109_tetra_partial idx young poisson X).2 hX (X + U)
    · exact (C109_hexa_partial idx young poisson method X).2 hX (X + U)
  rw [netForce_split hc, moment_add, h, add_zero]

/-- **C138 (linear bodies).** When the forces at the free coordinates balance, the forces of the supports are opposite to the loads in sum, whether the elements follow their rotation or not; without
rotations, they are so in moment at the rest positions. -/
theorem C138_linear (U F : Fin N → Fin 3 → ℝ) (fixed : Fin N → Fin 3 → Bool) (heq : ∀ p a, fixed p a = false → netForce C d idx X U F p a = 0) :
    resultant (supportForce fixed (netForce C d idx X U F)) = -resultant F ∧
    (d.corotated = false → (∀ e, ∀ g ∈ energyPoints C d.method, (C.elem.jacobian (fun i => X (idx e i)) g.position : Mat3).det ≠ 0) →
      moment X (supportForce fixed (netForce C d idx X U F)) = -moment X F) := by
  have hl := left_support fixed (netForce C d idx X U F)
  rw [left_zero heq] at hl
  refine ⟨eq_neg_of_add_eq_zero_left ?_, fun hc hX => eq_neg_of_add_eq_zero_left ?_⟩
  · rw [← netForce_resultant (C := C) (d := d) (idx := idx) (X := X) U F, ← resultant_add, hl]
    simp [resultant]
  · rw [← netForce_moment hc hX U F, ← moment_add, hl]
    simp [moment]

/-- **C138 (tractions).** The supports of a body pulled by a traction field bring the opposite of the traction applied times the area of its surface. -/
theorem C138_traction {Q : ℕ} (S : SurfaceType) (surf : Fin Q → Fin S.numNodes → Fin N) (eps : ℝ) (t : TractionData 3) (j : ℕ) (heps : 0 < eps) (hs : -eps < t.slope)
    {st : TractionState 3 N S.numNodes Q} {F : Fin N → Fin 3 → ℝ} (hF : AppliedForces S surf X eps t j st F) (U : Fin N → Fin 3 → ℝ) (fixed : Fin N → Fin 3 → Bool)
    (heq : ∀ p a, fixed p a = false → netForce C d idx X U F p a = 0) :
    resultant (supportForce fixed (netForce C d idx X U F)) = -((surfaceArea3 S surf X * loadFactor eps t j) • t.traction) := by
  rw [(C138_linear U F fixed heq).1]
  congr 1
  funext a
  simp only [resultant, Finset.sum_apply, Pi.smul_apply, smul_eq_mul]
  exact applied_total S surf X eps t j heps hs hF a

end Linear

/-- **C138 (tractions, hyperelastic bodies).** The same for the hyperelastic force field: the traction is that applied to the surface at rest, whatever the deformation. -/
theorem C138_traction_hyperelastic (T : SolidType) {N M Q : ℕ} (idx : Fin M → Fin T.numNodes → Fin N) (X x : Fin N → Fin 3 → ℝ) (mat : Material) (S : SurfaceType)
    (surf : Fin Q → Fin S.numNodes → Fin N) (eps : ℝ) (t : TractionData 3) (j : ℕ) (heps : 0 < eps) (hs : -eps < t.slope) {st : TractionState 3 N S.numNodes Q} {F : Fin N → Fin 3 → ℝ}
    (hF : AppliedForces S surf X eps t j st F) (fixed : Fin N → Fin 3 → Bool)
    (heq : ∀ p a, fixed p a = false → (HyperMesh.initialize T.elem T.gauss idx X).addForce mat x F p a = 0) :
    resultant (supportForce fixed ((HyperMesh.initialize T.elem T.gauss idx X).addForce mat x F)) = -((surfaceArea3 S surf X * loadFactor eps t j) • t.traction) := by
  rw [(C138_hyperelastic T idx X x F mat fixed heq).1]
  congr 1
  funext a
  simp only [resultant, Finset.sum_apply, Pi.smul_apply, smul_eq_mul]
  exact applied_total S surf X eps t j heps hs hF a

/-! ### Bodies which nothing holds -/

/-- A symmetric system has a solution when its right-hand side is orthogonal to the kernel. -/
theorem symmetric_solvable {ι : Type*} [Fintype ι] [DecidableEq ι] (A : Matrix ι ι ℝ) (hA : ∀ i j, A i j = A j i) (b : ι → ℝ) (h : ∀ v, A *ᵥ v = 0 → b ⬝ᵥ v = 0) : ∃ u, A *ᵥ u = b := by
  let φ : Module.Dual ℝ (ι → ℝ) := dotProductBilin ℝ ℝ b
  have hmem : φ ∈ (LinearMap.ker A.mulVecLin).dualAnnihilator := by
    rw [Submodule.mem_dualAnnihilator]
    intro v hv
    exact h v (by simpa using hv)
  rw [← LinearMap.range_dualMap_eq_dualAnnihilator_ker] at hmem
  obtain ⟨ψ, hψ⟩ := hmem
  refine ⟨fun i => ψ (Pi.single i 1), ?_⟩
  funext i
  have h1 := congrArg (fun f => f (Pi.single i (1 : ℝ))) hψ
  have h2 : φ (Pi.single i (1 : ℝ)) = b i := by
    show b ⬝ᵥ Pi.single i (1 : ℝ) = b i
    simp
  have h3 : A *ᵥ (Pi.single i (1 : ℝ)) = ∑ j, A i j • (Pi.single j (1 : ℝ) : ι → ℝ) := by
    funext j
    simp [Finset.sum_apply, Pi.single_apply, hA i j]
  simp only [LinearMap.dualMap_apply, Matrix.mulVecLin_apply, h2, h3, map_sum, map_smul, smul_eq_mul] at h1
  exact h1

/-- A displacement which is rigid on every element of a body in one piece is a small rigid motion. -/
theorem onePiece_motion {N n M : ℕ} (idx : Fin M → Fin n → Fin N) (X v : Fin N → Fin 3 → ℝ) (hone : OnePiece idx X)
    (hr : ∀ e, ∃ c W, SkewM W ∧ ∀ i, v (idx e i) = c + W *ᵥ X (idx e i)) : ∃ c w, v = smallMotion X c w := by
  have piece : ∀ {e e'}, SamePiece idx X e e' → ∀ c W, SkewM W → (∀ i, v (idx e i) = c + W *ᵥ X (idx e i)) →
      ∀ i, v (idx e' i) = c + W *ᵥ X (idx e' i) := by
    intro e e' h c W hW he
    induction h with
    | refl => exact he
    | tail _ hg ih =>
      obtain ⟨p, q, r, hs, hc⟩ := hg
      rename_i b d _
      obtain ⟨c', W', hW', he'⟩ := hr d
      obtain ⟨rfl, rfl⟩ := rigid_unique X v hW hW' p q r
        (fun s hs' => by obtain ⟨⟨i, rfl⟩, _⟩ := hs s hs'; exact ih i)
        (fun s hs' => by obtain ⟨_, ⟨i, rfl⟩⟩ := hs s hs'; exact he' i) hc
      exact he'
  rcases isEmpty_or_nonempty (Fin M) with hM | ⟨⟨e0⟩⟩
  · refine ⟨0, 0, ?_⟩
    funext p
    obtain ⟨e, -⟩ := hone.2 p
    exact hM.elim e
  · obtain ⟨c, W, hW, he⟩ := hr e0
    refine ⟨c, ![W 2 1, W 0 2, W 1 0], ?_⟩
    funext p
    obtain ⟨e, i, rfl⟩ := hone.2 p
    rw [piece (hone.1 e0 e) c W hW he i, smallMotion]
    congr 1
    have a0 := hW.diag 0
    have a1 := hW.diag 1
    have a2 := hW.diag 2
    have b0 := hW 0 1
    have b1 := hW 1 2
    have b2 := hW 2 0
    rw [cross_apply3]
    funext a
    fin_cases a <;> simp only [Fin.zero_eta, Fin.mk_one, Fin.reduceFinMk, Matrix.cons_val, mulVec, dotProduct, Fin.sum_univ_three, a0, a1, a2, b0, b1, b2] <;> ring

section Free

variable {N M : ℕ} {C : CorotClass} {d : CorotData} {idx : Fin M → Fin C.nodes → Fin N} {X : Fin N → Fin 3 → ℝ}

/-- The elements of the class are oriented at the points of the quadrature. -/
def ClassOriented (C : CorotClass) {N M : ℕ} (idx : Fin M → Fin C.nodes → Fin N) (X : Fin N → Fin 3 → ℝ) : Prop :=
  ∀ e, ∀ g ∈ energyPoints C .regular, 0 < (C.elem.jacobian (fun i => X (idx e i)) g.position : Mat3).det

theorem class_rigid (C : CorotClass) (X v : Fin C.nodes → Fin 3 → ℝ) (hX : ∀ g ∈ energyPoints C .regular, 0 < (C.elem.jacobian X g.position : Mat3).det)
    (hv : ∀ g ∈ energyPoints C .regular, symPart (deformationGradient (signedGaussNodeOf C.elem X g).dN v) = 0) : ∃ c W, SkewM W ∧ ∀ i, v i = c + W *ᵥ X i := by
  cases C
  · have hg : (⟨![1/4, 1/4, 1/4], 1/6⟩ : GaussNode 3) ∈ gaussTetra1 := List.mem_singleton.2 rfl
    exact affine_rigid (solid_dcoord .tetra1) (SolidType.dsum .tetra1) canonicalRigid_tetra1 (tetra_affineShape X _ (hX _ hg).ne') v hv
  · exact hexa_rigid (.inl hX) hv

/-- The displacements which leave no force are the small rigid motions. -/
theorem kernel_motion (hc : d.corotated = false) (hm : d.method = .regular) (h1 : 0 < d.young) (h2 : -1 < d.poisson) (h3 : d.poisson < 1 / 2) (hX : ClassOriented C idx X)
    (hone : OnePiece idx X) (U : Fin N → Fin 3 → ℝ) (h0 : innerWork C d idx X U U = 0) : ∃ c w, U = smallMotion X c w := by
  refine onePiece_motion idx X U hone fun e => ?_
  obtain ⟨m1, m2⟩ := lame_strict h1 h2 h3
  rw [innerWork_self hc] at h0
  have hE : bodyEnergy C d idx X U = 0 := by linarith
  have hadm : Admissible d.young d.poisson := ⟨h1.le, h2, h3⟩
  have hX' : NotInverted C.elem (energyPoints C d.method) idx X := fun e g hg => (hX e g (hm ▸ hg)).le
  have he := (Finset.sum_eq_zero_iff_of_nonneg fun e _ => elementEnergy_nonneg hadm hX' U e).1 hE e (Finset.mem_univ _)
  rw [← signed_energy, hm] at he
  have hw : ∀ g ∈ energyPoints C .regular, 0 < g.weight := by
    cases C
    · exact fun g hg => solid_weight_pos .tetra1 g hg
    · exact fun g hg => solid_weight_pos .hexa1 g hg
  have hpos : ∀ q ∈ (energyPoints C .regular).map (signedGaussNodeOf C.elem fun i => X (idx e i)), 0 < q.detJ * q.weight := by
    intro q hq
    obtain ⟨g, hg, rfl⟩ := List.mem_map.1 hq
    exact mul_pos (hX e g hg) (hw g hg)
  have hz := list_sum_eq_zero_of_nonneg _ _ (fun q hq => mul_nonneg (hpos q hq).le (lameForm_nonneg m1.le m2.le _)) ((mul_eq_zero.1 he).resolve_left (by norm_num))
  refine class_rigid C (fun i => X (idx e i)) (fun i => U (idx e i)) (hX e) fun g hg => ?_
  have hq : signedGaussNodeOf C.elem (fun i => X (idx e i)) g ∈ (energyPoints C .regular).map (signedGaussNodeOf C.elem fun i => X (idx e i)) := List.mem_map.2 ⟨g, hg, rfl⟩
  exact lameForm_eq_zero m1 m2 ((mul_eq_zero.1 (hz _ hq)).resolve_left (hpos _ hq).ne')

theorem motion_free (hc : d.corotated = false) (hX : ∀ e, ∀ g ∈ energyPoints C d.method, (C.elem.jacobian (fun i => X (idx e i)) g.position : Mat3).det ≠ 0) (c w : Fin 3 → ℝ)
    (V : Fin N → Fin 3 → ℝ) : innerWork C d idx X (smallMotion X c w) V = 0 := by
  rw [innerWork_comm hc, innerWork, power_smallMotion, netForce_resultant, netForce_moment hc hX]
  simp [resultant, moment]

theorem netForce_ext (hc : d.corotated = false) (U U' F F' : Fin N → Fin 3 → ℝ) (h : ∀ V, power (netForce C d idx X U F) V = power (netForce C d idx X U' F') V) :
    netForce C d idx X U F = netForce C d idx X U' F' := by
  funext p a
  have := h (fun q b => if q = p ∧ b = a then 1 else 0)
  rw [power_sum, power_sum] at this
  have hs : ∀ f : Fin N → Fin 3 → ℝ, ∑ q : Dof N, f q.1 q.2 * (if q.1 = p ∧ q.2 = a then (1 : ℝ) else 0) = f p a := by
    intro f
    rw [Finset.sum_eq_single ((p, a) : Dof N)]
    · simp
    · rintro ⟨q, b⟩ _ hq
      have : ¬(q = p ∧ b = a) := fun h => hq (by rw [h.1, h.2])
      simp [this]
    · simp
  rw [hs, hs] at this
  exact this

/-- **C138 (small rigid motions).** A small rigid motion added to the displacement of a linear elastic body changes no force. -/
theorem C138_motion (hc : d.corotated = false) (hX : ∀ e, ∀ g ∈ energyPoints C d.method, (C.elem.jacobian (fun i => X (idx e i)) g.position : Mat3).det ≠ 0) (U F : Fin N → Fin 3 → ℝ) (c w : Fin 3 → ℝ) :
    netForce C d idx X (U + smallMotion X c w) F = netForce C d idx X U F := by
  refine netForce_ext hc _ _ _ _ fun V => ?_
  have h := innerWork_line (C := C) (idx := idx) (X := X) hc U (smallMotion X c w) V 1
  rw [one_smul, motion_free hc hX] at h
  rw [power_netForce hc, power_netForce hc, h]
  ring

/-- **C138 (bodies which nothing holds).** A linear elastic body in one piece has a displacement which balances the loads at all nodes if and only if the loads add up to zero in sum and in moment. -/
theorem C138_free (hc : d.corotated = false) (hm : d.method = .regular) (h1 : 0 < d.young) (h2 : -1 < d.poisson) (h3 : d.poisson < 1 / 2) (hX : ClassOriented C idx X)
    (hone : OnePiece idx X) (F : Fin N → Fin 3 → ℝ) : (∃ U, netForce C d idx X U F = 0) ↔ resultant F = 0 ∧ moment X F = 0 := by
  classical
  have hX' : ∀ e, ∀ g ∈ energyPoints C d.method, (C.elem.jacobian (fun i => X (idx e i)) g.position : Mat3).det ≠ 0 := fun e g hg => (hX e g (hm ▸ hg)).ne'
  constructor
  · rintro ⟨U, hU⟩
    rw [← netForce_resultant (C := C) (d := d) (idx := idx) (X := X) U F, ← netForce_moment hc hX' U F, hU]
    simp [resultant, moment]
  · rintro ⟨hr, hmo⟩
    obtain ⟨u, hu⟩ := symmetric_solvable (Matrix.of (CorotClass.reinitState d X C (CorotState.fresh idx)).stiffnessOf) stiffnessOf_symm (fun q : Dof N => F q.1 q.2) (by
      intro v hv
      have h0 : innerWork C d idx X (fun p a => v (p, a)) (fun p a => v (p, a)) = 0 := by
        rw [innerWork_sum hc]
        refine Finset.sum_eq_zero fun p _ => ?_
        have := congrFun hv p
        simp only [mulVec, dotProduct, Matrix.of_apply, Pi.zero_apply] at this
        simp only [mul_assoc, ← Finset.mul_sum, this, mul_zero]
      obtain ⟨c, w, hcw⟩ := kernel_motion hc hm h1 h2 h3 hX hone _ h0
      have h4 := power_smallMotion X F c w
      rw [← hcw, hr, hmo, dotProduct_zero, dotProduct_zero, add_zero, power_sum] at h4
      exact h4)
    refine ⟨fun p a => u (p, a), ?_⟩
    funext p a
    rw [netForce_matrix hc]
    have := congrFun hu (p, a)
    simp only [mulVec, dotProduct, Matrix.of_apply] at this
    rw [this]
    simp

/-- **C138 (the solutions of bodies which nothing holds).** The displacements which balance the same loads at all nodes are one of them and the small rigid motions added to it. -/
theorem C138_free_solutions (hc : d.corotated = false) (hm : d.method = .regular) (h1 : 0 < d.young) (h2 : -1 < d.poisson) (h3 : d.poisson < 1 / 2) (hX : ClassOriented C idx X)
    (hone : OnePiece idx X) (U F : Fin N → Fin 3 → ℝ) (hU : netForce C d idx X U F = 0) (V : Fin N → Fin 3 → ℝ) :
    netForce C d idx X V F = 0 ↔ ∃ c w, V = U + smallMotion X c w := by
  have hX' : ∀ e, ∀ g ∈ energyPoints C d.method, (C.elem.jacobian (fun i => X (idx e i)) g.position : Mat3).det ≠ 0 := fun e g hg => (hX e g (hm ▸ hg)).ne'
  constructor
  · intro hV
    have h0 : innerWork C d idx X (V - U) (V - U) = 0 := by
      have e1 := power_netForce (C := C) (idx := idx) (X := X) hc U F (V - U)
      have e2 := power_netForce (C := C) (idx := idx) (X := X) hc V F (V - U)
      have e3 := innerWork_line (C := C) (idx := idx) (X := X) hc U (V - U) (V - U) 1
      have e4 : power (0 : Fin N → Fin 3 → ℝ) (V - U) = 0 := by simp [power]
      rw [one_smul, add_sub_cancel] at e3
      rw [hU, e4] at e1
      rw [hV, e4] at e2
      linarith
    obtain ⟨c, w, hcw⟩ := kernel_motion hc hm h1 h2 h3 hX hone _ h0
    exact ⟨c, w, by rw [← hcw, add_sub_cancel]⟩
  · rintro ⟨c, w, rfl⟩
    rw [C138_motion hc hX', hU]

end Free

section Box

variable (g : Grid 3 ℝ) (hf : Fits g.n)

theorem box_onePiece (hn : ∀ a, 0 < g.n a) (hs : ∀ a, 0 < g.size a) : OnePiece (g.cellNodes hf) fun p => g.node p :=
  ⟨cells_one_piece g hf hn fun a => div_pos (hs a) (by exact_mod_cast hn a), fun p => grid_covered g hf hn p⟩

theorem box_oriented (hn : ∀ a, 0 < g.n a) (hs : ∀ a, 0 < g.size a) : ClassOriented .hexa (g.cellNodes hf) fun p => g.node p := by
  intro e q _
  obtain ⟨c, A, hdet, -, hX⟩ := grid_straight g hf (fun a => div_pos (hs a) (by exact_mod_cast hn a)) e
  have := CorotClass.good .hexa
  rw [this.affine c A _ hX]
  exact hdet

/-- **C138 (boxes).** A box of linear elastic hexahedra which nothing holds has a static solution exactly under the loads which add up to zero in sum and in moment. -/
theorem C138_box {d : CorotData} (hc : d.corotated = false) (hm : d.method = .regular) (h1 : 0 < d.young) (h2 : -1 < d.poisson) (h3 : d.poisson < 1 / 2)
    (hn : ∀ a, 0 < g.n a) (hs : ∀ a, 0 < g.size a) (F : Fin g.numberOfNodes.toNat → Fin 3 → ℝ) :
    (∃ U, netForce .hexa d (g.cellNodes hf) (fun q => g.node q) U F = 0) ↔ resultant F = 0 ∧ moment (fun q : Fin g.numberOfNodes.toNat => g.node q) F = 0 :=
  C138_free (C := .hexa) hc hm h1 h2 h3 (box_oriented g hf hn hs) (box_onePiece g hf hn hs) F

/-- **C138 (held boxes).** The supports of a box held at some of its sides carry the loads, in sum and in moment; there is such a solution under every load. -/
theorem C138_box_held {d : CorotData} (hc : d.corotated = false) (hm : d.method = .regular) (h1 : 0 < d.young) (h2 : -1 < d.poisson) (h3 : d.poisson < 1 / 2)
    (hn : ∀ a, 0 < g.n a) (hs : ∀ a, 0 < g.size a) (fixed : Fin g.numberOfNodes.toNat → Fin 3 → Bool) (B : Set (Fin 3 × Bool)) (hB : B.Nonempty)
    (hfix : ∀ q a, fixed q a = true ↔ q ∈ g.sideNodesOf B) (F : Fin g.numberOfNodes.toNat → Fin 3 → ℝ) :
    ∃! U : Fin g.numberOfNodes.toNat → Fin 3 → ℝ, (∀ q a, fixed q a = true → U q a = 0) ∧
      (∀ q a, fixed q a = false → netForce .hexa d (g.cellNodes hf) (fun q => g.node q) U F q a = 0) ∧
      resultant (supportForce fixed (netForce .hexa d (g.cellNodes hf) (fun q => g.node q) U F)) = -resultant F ∧
      moment (fun q : Fin g.numberOfNodes.toNat => g.node q) (supportForce fixed (netForce .hexa d (g.cellNodes hf) (fun q => g.node q) U F)) =
        -moment (fun q : Fin g.numberOfNodes.toNat => g.node q) F := by
  obtain ⟨U, ⟨hU, hU2⟩, huniq⟩ := C135_box_unique hc hm h1 h2 h3 g hf hn hs B hB F
  have heq : ∀ q a, fixed q a = false → netForce .hexa d (g.cellNodes hf) (fun q => g.node q) U F q a = 0 := by
    intro q a hq
    have : q ∉ g.sideNodesOf B := fun h => by
      rw [(hfix q a).2 h] at hq
      cases hq
    exact congrFun (hU2 q this) a
  obtain ⟨k1, k2⟩ := C138_linear (C := .hexa) (d := d) (idx := g.cellNodes hf) (X := fun q => g.node q) U F fixed heq
  refine ⟨U, ⟨fun q a hq => congrFun (hU q ((hfix q a).1 hq)) a, heq, k1, k2 hc fun e p hp => (box_oriented g hf hn hs e p (hm ▸ hp)).ne'⟩, ?_⟩
  rintro V ⟨hV, hV2, -⟩
  refine huniq V ⟨fun q hq => funext fun a => hV q a ((hfix q a).2 hq), fun q hq => funext fun a => hV2 q a ?_⟩
  by_contra h
  exact hq ((hfix q a).1 (by simpa using h))

end Box

/-- Two opposite forces along the line of two nodes. -/
theorem pair_balanced {N : ℕ} (X : Fin N → Fin 3 → ℝ) (p q : Fin N) (t : ℝ) :
    resultant (pointLoad p (t • (X p - X q)) + pointLoad q (-(t • (X p - X q)))) = 0 ∧ moment X (pointLoad p (t • (X p - X q)) + pointLoad q (-(t • (X p - X q)))) = 0 := by
  have h1 : ∀ (r : Fin N) (v : Fin 3 → ℝ), resultant (pointLoad r v) = v := by
    intro r v
    rw [resultant, Finset.sum_eq_single r]
    · simp [pointLoad]
    · intro b _ hb
      simp [pointLoad, hb]
    · simp
  have h2 : ∀ (r : Fin N) (v : Fin 3 → ℝ), moment X (pointLoad r v) = crossProduct (X r) v := by
    intro r v
    rw [moment, Finset.sum_eq_single r]
    · simp [pointLoad]
    · intro b _ hb
      simp [pointLoad, hb]
    · simp
  rw [resultant_add, moment_add, h1, h1, h2, h2]
  refine ⟨by simp, ?_⟩
  funext a
  simp only [cross_apply3, Pi.add_apply, Pi.smul_apply, Pi.sub_apply, Pi.neg_apply, smul_eq_mul, Pi.zero_apply]
  fin_cases a <;> simp only [Fin.zero_eta, Fin.mk_one, Fin.reduceFinMk, Matrix.cons_val] <;> ring

/-- A cube which nothing holds, pulled at two of its nodes along their line, has a static solution. One force alone has none. -/
example : ∃ hf : Fits (![2, 2, 2] : Fin 3 → ℕ),
    let g : Grid 3 ℝ := ⟨0, ![2, 2, 2], 1⟩
    let d : CorotData := ⟨false, 1000, 1 / 4, .regular⟩
    (∀ (p q : Fin g.numberOfNodes.toNat) (t : ℝ), ∃ U : Fin g.numberOfNodes.toNat → Fin 3 → ℝ,
      netForce .hexa d (g.cellNodes hf) (fun q => g.node q) U (pointLoad p (t • (g.node p - g.node q)) + pointLoad q (-(t • (g.node p - g.node q)))) = 0) ∧
    ∀ (p : Fin g.numberOfNodes.toNat) (v : Fin 3 → ℝ), v ≠ 0 → ¬∃ U : Fin g.numberOfNodes.toNat → Fin 3 → ℝ, netForce .hexa d (g.cellNodes hf) (fun q => g.node q) U (pointLoad p v) = 0 := by
  have hf : Fits (![2, 2, 2] : Fin 3 → ℕ) := by
    unfold Fits
    decide
  refine ⟨hf, ?_⟩
  intro g d
  have hn : ∀ a, 0 < g.n a := by decide
  have hs : ∀ a, 0 < g.size a := fun a => one_pos
  have h := C138_box g hf (d := d) rfl rfl (by norm_num) (by norm_num) (by norm_num) hn hs
  refine ⟨fun p q t => (h _).2 (pair_balanced (fun q : Fin g.numberOfNodes.toNat => g.node q) p q t), fun p v hv hU => hv ?_⟩
  have := ((h _).1 hU).1
  rw [resultant, Finset.sum_eq_single p (fun b _ hb => by simp [pointLoad, hb]) (by simp)] at this
  simpa [pointLoad] using this

/-- A box of six hexahedra held at one side: its supports carry a force at any node. -/
example : ∃ hf : Fits (![3, 2, 1] : Fin 3 → ℕ),
    let g : Grid 3 ℝ := ⟨0, ![3, 2, 1], 1⟩
    let d : CorotData := ⟨false, 1000, 1 / 4, .regular⟩
    ∃ fixed : Fin g.numberOfNodes.toNat → Fin 3 → Bool, (∀ q a, fixed q a = true ↔ q ∈ g.sideNodesOf {(0, false)}) ∧ ∀ (p : Fin g.numberOfNodes.toNat) (v : Fin 3 → ℝ),
      ∃ U : Fin g.numberOfNodes.toNat → Fin 3 → ℝ, (∀ q a, fixed q a = true → U q a = 0) ∧
        resultant (supportForce fixed (netForce .hexa d (g.cellNodes hf) (fun q => g.node q) U (pointLoad p v))) = -v := by
  classical
  have hf : Fits (![3, 2, 1] : Fin 3 → ℕ) := by
    unfold Fits
    decide
  refine ⟨hf, ?_⟩
  intro g d
  refine ⟨fun q _ => decide (q ∈ g.sideNodesOf {(0, false)}), fun q a => by simp, fun p v => ?_⟩
  have hn : ∀ a, 0 < g.n a := by decide
  have hs : ∀ a, 0 < g.size a := fun a => one_pos
  obtain ⟨U, ⟨h1, -, h2, -⟩, -⟩ := C138_box_held g hf (d := d) rfl rfl (by norm_num) (by norm_num) (by norm_num) hn hs (fun q _ => decide (q ∈ g.sideNodesOf {(0, false)})) {(0, false)} ⟨_, rfl⟩
    (fun q a => by simp) (pointLoad p v)
  refine ⟨U, h1, h2.trans ?_⟩
  rw [resultant, Finset.sum_eq_single p (fun b _ hb => by simp [pointLoad, hb]) (by simp)]
  simp [pointLoad]

theorem resultant_point {N : ℕ} (q : Fin N) (v : Fin 3 → ℝ) : resultant (pointLoad q v) = v := by
  rw [resultant, Finset.sum_eq_single q (fun b _ hb => by simp [pointLoad, hb]) (by simp)]
  simp [pointLoad]

theorem moment_point {N : ℕ} (x : Fin N → Fin 3 → ℝ) (q : Fin N) (v : Fin 3 → ℝ) : moment x (pointLoad q v) = crossProduct (x q) v := by
  rw [moment, Finset.sum_eq_single q (fun b _ hb => by simp [pointLoad, hb]) (by simp)]
  simp [pointLoad]

/-- A body held at all nodes but one: in every position there is a load at that node which balances, and the other nodes carry it. -/
theorem carried_point (T : SolidType) {N M : ℕ} (idx : Fin M → Fin T.numNodes → Fin N) (X x : Fin N → Fin 3 → ℝ) (mat : Material) (hs : SymmetricStress mat) (q : Fin N) : ∃ v : Fin 3 → ℝ,
    (∀ a, (HyperMesh.initialize T.elem T.gauss idx X).addForce mat x (pointLoad q v) q a = 0) ∧
    resultant (supportForce (fun p _ => decide (p ≠ q)) ((HyperMesh.initialize T.elem T.gauss idx X).addForce mat x (pointLoad q v))) = -v ∧
    moment x (supportForce (fun p _ => decide (p ≠ q)) ((HyperMesh.initialize T.elem T.gauss idx X).addForce mat x (pointLoad q v))) = -crossProduct (x q) v := by
  obtain ⟨m, hm⟩ : ∃ m, m = HyperMesh.initialize T.elem T.gauss idx X := ⟨_, rfl⟩
  have hadd : ∀ (f : Fin N → Fin 3 → ℝ) p, m.addForce mat x f p = f p + m.addForce mat x 0 p := by
    intro f p
    simp only [HyperMesh.addForce, Pi.sub_apply, Pi.zero_apply, sub_eq_add_neg, zero_add]
  refine ⟨-m.addForce mat x 0 q, ?_⟩
  have h3 : m.addForce mat x (pointLoad q (-m.addForce mat x 0 q)) q = 0 := by
    rw [hadd]
    simp [pointLoad]
  obtain ⟨k1, k2⟩ := C138_hyperelastic T idx X x (pointLoad q (-m.addForce mat x 0 q)) mat (fun p _ => decide (p ≠ q)) (by
    intro p a hp
    have : p = q := by simpa using hp
    rw [this, ← hm, h3]
    rfl)
  rw [resultant_point] at k1
  have k2 := k2 hs
  rw [moment_point] at k2
  exact ⟨fun a => by rw [← hm, h3]; rfl, k1, k2⟩

/-- A tetrahedron of Saint Venant-Kirchhoff material held at three nodes: whatever the positions of its nodes, the load which balances at the fourth one is carried by the three others. -/
example (X x : Fin 4 → Fin 3 → ℝ) (mu l : ℝ) := carried_point .tetra1 ((fun _ i => i) : Fin 1 → Fin 4 → Fin 4) X x (saintVenantKirchhoff mu l) (fun J => (C41_rest_and_symmetry mu l J).2.2.1) 3

end Caribou
