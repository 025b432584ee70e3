import Verif.Spec.StaticPatch
import Verif.Props.SmallStrain
import Verif.Props.Patch
import Verif.Props.StaticODE
import Verif.Props.Stability
import Verif.Props.Momentum
import Mathlib.LinearAlgebra.Matrix.ToLinearEquiv

/-!
# Property C94: a static solve reproduces uniform deformations
-/

set_option autoImplicit false

namespace Caribou

open Spec Matrix

/-- **C94 (forces, generic).** In a linear force field which agrees for small displacements with a hyperelastic one, a node which
stays free of force in every uniform deformation of the latter has none in a uniform deformation of the former. -/
theorem linear_patch {N n M : ℕ} {s : CorotState N n M} {frame : (Fin n → Fin 3 → ℝ) → Mat3} {m : HyperMesh N n M} {mat : Material}
    {X : Fin N → Fin 3 → ℝ} (h : SmallStrainAgreement s frame m mat X) (p : Fin N)
    (hp : ∀ (F : Mat3) (t : Fin 3 → ℝ), m.addForce mat (fun q => F.mulVec (X q) + t) 0 p = 0) (F : Mat3) (t : Fin 3 → ℝ) :
    (s.addForce false frame X (fun q => F.mulVec (X q) + t) 0).2 p = 0 := by
  funext a
  have h1 := h.force (fun q => F.mulVec (X q) + t - X q) 0 p a
  have e1 : (X + fun q => F.mulVec (X q) + t - X q) = fun q => F.mulVec (X q) + t := by
    funext q; simp
  have e2 : ∀ r : ℝ, (X + r • fun q => F.mulVec (X q) + t - X q) = fun q => (1 + r • (F - 1) : Mat3).mulVec (X q) + r • t := by
    intro r
    funext q
    simp only [Pi.add_apply, Pi.smul_apply, Matrix.add_mulVec, Matrix.one_mulVec, Matrix.smul_mulVec, Matrix.sub_mulVec]
    module
  rw [e1] at h1
  have h2 : (fun r : ℝ => m.addForce mat (X + r • fun q => F.mulVec (X q) + t - X q) 0 p a) = fun _ => 0 := by
    funext r
    rw [e2, hp]
    rfl
  rw [h2] at h1
  exact h1.unique (hasDerivAt_const _ _)

/-- The scene is linear. -/
theorem linearScene_linear {N n M : ℕ} {C : Mat6} {s : CorotState N n M} (hs : CorotReady s C) (hR : ∀ e, s.currentRotation e = 1)
    (hR0 : ∀ e, s.initialRotation e = 1) (frame : (Fin n → Fin 3 → ℝ) → Mat3) (X : Fin N → Fin 3 → ℝ) (fixed : Fin N → Bool) :
    IsLinearStatic (linearScene s frame X fixed) where
  force x u := by
    have hf : ∀ y : Dof N → ℝ, ∀ d, (linearScene s frame X fixed).force y d =
        ∑ d' : Dof N, s.addKToMatrix 1 0 d d' * (y d' - X d'.1 d'.2) := by
      intro y d
      have e : (fun p a => y (p, a)) = X + fun p a => y (p, a) - X p a := by funext p a; simp
      show (s.addForce false frame X (fun p a => y (p, a)) 0).2 d.1 d.2 = _
      rw [e, linear_force s hs hR hR0, same_operator_generic hs 1 0]
      simp
    funext d
    rw [Pi.add_apply, hf, hf]
    show _ = _ + ∑ d', s.addKToMatrix 1 0 d d' * u d'
    rw [← Finset.sum_add_distrib]
    refine Finset.sum_congr rfl fun d' _ => ?_
    rw [Pi.add_apply]
    ring
  map _ _ := by funext i; exact i.elim0
  mappedForce _ _ := by funext i; exact i.elim0
  stiff _ _ := rfl
  mappedStiff _ _ := rfl

/-- Two equilibria with the same fixed positions are equal when the constrained matrix has an inverse. -/
theorem equilibrium_unique {N n M : ℕ} {C : Mat6} {s : CorotState N n M} (hs : CorotReady s C) (hR : ∀ e, s.currentRotation e = 1)
    (hR0 : ∀ e, s.initialRotation e = 1) (frame : (Fin n → Fin 3 → ℝ) → Mat3) (X : Fin N → Fin 3 → ℝ) (fixed : Fin N → Bool)
    (hA : IsUnit (constrainMatrix (fun d : Dof N => fixed d.1) (-(Matrix.of (s.addKToMatrix 1 0)))))
    (x y : Dof N → ℝ) (hxy : ∀ d, fixed d.1 = true → x d = y d) (hx : InEquilibrium (linearScene s frame X fixed) x)
    (hy : InEquilibrium (linearScene s frame X fixed) y) : x = y := by
  have hlin := (linearScene_linear hs hR hR0 frame X fixed).force y (x - y)
  have hz : constrainMatrix (fun d : Dof N => fixed d.1) (-(Matrix.of (s.addKToMatrix 1 0))) *ᵥ (x - y) = 0 := by
    funext d
    by_cases hd : fixed d.1 = true
    · rw [constrain_mulVec_fixed (fun d : Dof N => fixed d.1) _ _ d hd, Pi.sub_apply, hxy d hd, sub_self]; rfl
    · have hd' : fixed d.1 = false := by simpa using hd
      have h1 := hx d hd'
      have h2 := hy d hd'
      simp only [Finset.univ_eq_empty, Finset.sum_empty, add_zero] at h1 h2
      have h3 := congrFun hlin d
      rw [add_sub_cancel, Pi.add_apply, h1, h2, zero_add] at h3
      have h4 : (constrainMatrix (fun d : Dof N => fixed d.1) (-(Matrix.of (s.addKToMatrix 1 0))) *ᵥ (x - y)) d =
          -((Matrix.of (s.addKToMatrix 1 0)) *ᵥ (x - y)) d := by
        simp only [mulVec, dotProduct, constrainMatrix, hd', Bool.false_or, Matrix.neg_apply, ← Finset.sum_neg_distrib]
        refine Finset.sum_congr rfl fun d2 _ => ?_
        by_cases hj : fixed d2.1 = true
        · rw [if_pos hj, Pi.sub_apply, hxy d2 hj]; ring
        · rw [if_neg hj]; ring
      rw [h4]
      show -((linearScene s frame X fixed).stiff y *ᵥ (x - y)) d = 0
      rw [← h3, neg_zero]
  have hdet := (Matrix.isUnit_iff_isUnit_det _).1 hA
  have := congrArg (fun v => (constrainMatrix (fun d : Dof N => fixed d.1) (-(Matrix.of (s.addKToMatrix 1 0))))⁻¹ *ᵥ v) hz
  simp only [mulVec_mulVec, Matrix.nonsing_inv_mul _ hdet, one_mulVec, mulVec_zero] at this
  exact sub_eq_zero.1 this

/-- The static solve, generic form. -/
theorem static_patch_core {N n M : ℕ} {C : Mat6} {s : CorotState N n M} (hs : CorotReady s C) (hR : ∀ e, s.currentRotation e = 1)
    (hR0 : ∀ e, s.initialRotation e = 1) (frame : (Fin n → Fin 3 → ℝ) → Mat3) (X : Fin N → Fin 3 → ℝ) (fixed : Fin N → Bool)
    (F : Mat3) (t : Fin 3 → ℝ)
    (hfree : ∀ p, fixed p = false → (s.addForce false frame X (fun q => F.mulVec (X q) + t) 0).2 p = 0)
    (hA : IsUnit (constrainMatrix (fun d : Dof N => fixed d.1) (-(Matrix.of (s.addKToMatrix 1 0)))))
    (k : NewtonParams ℝ) (hk : 1 ≤ k.iterations) (solver : Matrix (Dof N) (Dof N) ℝ → (Dof N → ℝ) → Option (Dof N → ℝ))
    (hex : SolvesExactly solver) (hreg : SolvesRegular solver) (c : NewtonState ℝ) (x : Dof N → ℝ)
    (hx : ∀ p a, fixed p = true → x (p, a) = (F.mulVec (X p) + t) a) :
    (∀ p a, (staticSolve k (linearScene s frame X fixed) solver c x).2.x (p, a) = (F.mulVec (X p) + t) a) ∨
    ((staticSolve k (linearScene s frame X fixed) solver c x).2.x = x ∧ 0 < k.absolute ∧
      ∑ d : Dof N, (if fixed d.1 then 0 else (s.addForce false frame X (fun p a => x (p, a)) 0).2 d.1 d.2) ^ 2 ≤ k.absolute ^ 2) := by
  have hJ : MapsFreeOnly (linearScene s frame X fixed) := fun i => i.elim0
  have hA' : IsUnit (staticMatrix (linearScene s frame X fixed) ⟨x, (linearScene s frame X fixed).map x, 0⟩) := by
    have e : staticMatrix (linearScene s frame X fixed) ⟨x, (linearScene s frame X fixed).map x, 0⟩ =
        constrainMatrix (fun d : Dof N => fixed d.1) (-(Matrix.of (s.addKToMatrix 1 0))) := by
      simp only [staticMatrix]
      have : (linearScene s frame X fixed).Jᵀ * -(linearScene s frame X fixed).mappedStiff ((linearScene s frame X fixed).map x) *
          (linearScene s frame X fixed).J = 0 := by
        ext i j; simp [Matrix.mul_apply]
      rw [this, add_zero]
      rfl
    rw [e]
    exact hA
  rcases C84_equilibrium_partial k hk _ (linearScene_linear hs hR hR0 frame X fixed) hJ solver hex hreg x hA' c with h | h
  · left
    have hfix := (C84_fixed_partial k _ hJ solver hex c x).1
    have := equilibrium_unique hs hR hR0 frame X fixed hA
      (staticSolve k (linearScene s frame X fixed) solver c x).2.x (fun d => (F.mulVec (X d.1) + t) d.2)
      (fun d hd => by rw [hfix d hd]; exact hx d.1 d.2 hd) h
      (fun d hd => by
        simp only [Finset.univ_eq_empty, Finset.sum_empty, add_zero]
        exact congrFun (hfree d.1 hd) d.2)
    intro p a
    rw [this]
  · refine Or.inr ⟨h.1, h.2.1, le_of_eq_of_le ?_ h.2.2⟩
    refine Finset.sum_congr rfl fun d _ => ?_
    simp only [staticRhs, projectResponse]
    have e : ((linearScene s frame X fixed).Jᵀ *ᵥ (linearScene s frame X fixed).mappedForce ((linearScene s frame X fixed).map x)) d
        = 0 := by simp [mulVec, dotProduct]
    rw [e, add_zero]
    rfl

/-! ### Holding the body -/

/-- In a tetrahedron, a displacement whose gradient is antisymmetric does not change the length of the edges to first order. -/
theorem tetra_skew (X v : Fin 4 → Fin 3 → ℝ) (g : GaussNode 3) (hJ : (tetra1.jacobian X g.position : Mat3).det ≠ 0)
    (hG : symPart (deformationGradient (signedGaussNodeOf tetra1 X g).dN v) = 0) (i j : Fin 4) :
    (v j - v i) ⬝ᵥ (X j - X i) = 0 := by
  set G := deformationGradient (signedGaussNodeOf tetra1 X g).dN v with hGdef
  set J : Mat3 := tetra1.jacobian X g.position with hJdef
  have hGJ : G * J = (tetra1.jacobian v g.position : Mat3) := by
    have e : G = (tetra1.jacobian v g.position : Mat3) * J⁻¹ := by
      ext a b
      rw [hGdef, signedGaussNodeOf_dN, defGrad_apply]
      simp only [gaussNodeOf_dN, Matrix.mul_apply, Elem.jacobian, Finset.mul_sum, Finset.sum_mul]
      rw [Finset.sum_comm]
      refine Finset.sum_congr rfl fun k _ => Finset.sum_congr rfl fun i _ => ?_
      rw [hJdef]
      ring
    rw [e, Matrix.mul_assoc, Matrix.nonsing_inv_mul _ (isUnit_iff_ne_zero.2 hJ), Matrix.mul_one]
  have hcol : ∀ (w : Fin 4 → Fin 3 → ℝ) (a k : Fin 3), (tetra1.jacobian w g.position : Mat3) a k = w k.succ a - w 0 a := by
    intro w a k
    fin_cases k <;> simp [Elem.jacobian, tetra1, sum_fin4] <;> ring
  have hdiff : ∀ i, v i - v 0 = G *ᵥ (X i - X 0) := by
    intro i
    rcases Fin.eq_zero_or_eq_succ i with rfl | ⟨k, rfl⟩
    · simp
    · funext a
      have := congrFun (congrFun hGJ a) k
      rw [hcol] at this
      rw [Pi.sub_apply, ← this, Matrix.mul_apply]
      simp only [mulVec, dotProduct, hJdef, hcol, Pi.sub_apply]
  have hd : v j - v i = G *ᵥ (X j - X i) := by
    have e1 : v j - v i = (v j - v 0) - (v i - v 0) := by abel
    have e2 : X j - X i = (X j - X 0) - (X i - X 0) := by abel
    rw [e1, hdiff, hdiff, ← mulVec_sub, ← e2]
  have hskew : ∀ a b, G a b = -G b a := by
    intro a b
    have := congrFun (congrFun hG a) b
    simp only [symPart, Matrix.smul_apply, Matrix.add_apply, Matrix.transpose_apply, Matrix.zero_apply, smul_eq_mul] at this
    linarith
  rw [hd]
  generalize X j - X i = w
  have h0 := hskew 0 0
  have h1 := hskew 1 1
  have h2 := hskew 2 2
  have h00 : G 0 0 = 0 := by linarith
  have h11 : G 1 1 = 0 := by linarith
  have h22 : G 2 2 = 0 := by linarith
  simp only [mulVec, dotProduct, sum_fin3, h00, h11, h22, hskew 1 0, hskew 2 0, hskew 2 1]
  ring

/-- A displacement which strains no tetrahedron and vanishes at the fixed nodes vanishes at the held ones. -/
theorem held_zero {N M : ℕ} (idx : Fin M → Fin 4 → Fin N) (fixed : Fin N → Bool) (X v : Fin N → Fin 3 → ℝ) (g : GaussNode 3)
    (hJ : ∀ e, (tetra1.jacobian (fun i => X (idx e i)) g.position : Mat3).det ≠ 0)
    (hG : ∀ e, symPart (deformationGradient (signedGaussNodeOf tetra1 (fun i => X (idx e i)) g).dN fun i => v (idx e i)) = 0)
    (hv : ∀ p, fixed p = true → v p = 0) (p : Fin N) (hp : Held idx fixed p) : v p = 0 := by
  induction hp with
  | fixed p h => exact hv p h
  | element e i _ ih =>
    have h1 : ∀ j, v (idx e i) ⬝ᵥ (X (idx e j) - X (idx e i)) = 0 := by
      intro j
      by_cases hj : j = i
      · rw [hj, sub_self, dotProduct_zero]
      · have := tetra_skew (fun i => X (idx e i)) (fun i => v (idx e i)) g (hJ e) (hG e) i j
        rw [ih j hj, zero_sub, neg_dotProduct, neg_eq_zero] at this
        exact this
    have h2 : ∀ k : Fin 3, v (idx e i) ⬝ᵥ (X (idx e k.succ) - X (idx e 0)) = 0 := by
      intro k
      have e1 : X (idx e k.succ) - X (idx e 0) = (X (idx e k.succ) - X (idx e i)) - (X (idx e 0) - X (idx e i)) := by abel
      rw [e1, dotProduct_sub, h1, h1, sub_zero]
    have h3 : v (idx e i) ᵥ* (tetra1.jacobian (fun i => X (idx e i)) g.position : Mat3) = 0 := by
      funext k
      rw [Pi.zero_apply, ← h2 k]
      simp only [vecMul, dotProduct]
      refine Finset.sum_congr rfl fun a _ => ?_
      congr 1
      fin_cases k <;> simp [Elem.jacobian, tetra1, sum_fin4] <;> ring
    have h4 := congrArg (fun w => w ᵥ* (tetra1.jacobian (fun i => X (idx e i)) g.position : Mat3)⁻¹) h3
    simp only [vecMul_vecMul, Matrix.mul_nonsing_inv _ (isUnit_iff_ne_zero.2 (hJ e)), vecMul_one, zero_vecMul] at h4
    exact h4

/-- **C94 (regularity).** When all nodes of a mesh of correctly oriented tetrahedra are held, the constrained stiffness of the linear
force field has an inverse, for admissible material parameters. -/
theorem C94_regular {N M : ℕ} (idx : Fin M → Fin 4 → Fin N) (X : Fin N → Fin 3 → ℝ)
    (hJ : ∀ e, ∀ g ∈ gaussTetra1, 0 < (tetra1.jacobian (fun i => X (idx e i)) g.position : Mat3).det)
    (young poisson : ℝ) (h1 : 0 < young) (h2 : -1 < poisson) (h3 : poisson < 1 / 2) (fixed : Fin N → Bool)
    (hheld : ∀ p, Held idx fixed p) :
    IsUnit (constrainMatrix (fun d : Dof N => fixed d.1)
      (-(Matrix.of (((CorotState.fresh idx).reinitTetra false young poisson X).addKToMatrix 1 0)))) := by
  obtain ⟨s, hs⟩ : ∃ s, s = (CorotState.fresh idx).reinitTetra false young poisson X := ⟨_, rfl⟩
  have hready : CorotReady s (elasticityMatrix young poisson) := by rw [hs]; exact reinitTetra_ready _ false young poisson X
  have hidx : s.idx = idx := by rw [hs]; rfl
  have hR : ∀ e, s.currentRotation e = 1 := by intro e; rw [hs]; rfl
  have hq : ∀ e, s.qnodes e = [signedGaussNodeOf tetra1 (fun i => X (idx e i)) ⟨![1/4, 1/4, 1/4], 1/6⟩] := by
    intro e; rw [hs]; rfl
  rw [← hs, Matrix.isUnit_iff_isUnit_det, isUnit_iff_ne_zero]
  intro hdet
  obtain ⟨w, hw, hw0⟩ := (Matrix.exists_mulVec_eq_zero_iff).2 hdet
  refine hw ?_
  have hfix : ∀ p a, fixed p = true → w (p, a) = 0 := by
    intro p a hp
    have := congrFun hw0 (p, a)
    rwa [constrain_mulVec_fixed (fun d : Dof N => fixed d.1) _ _ (p, a) hp] at this
  have hfree : ∀ d : Dof N, fixed d.1 = false → ∑ d', s.addKToMatrix 1 0 d d' * w d' = 0 := by
    intro d hd
    have h := congrFun hw0 d
    simp only [mulVec, dotProduct, constrainMatrix, hd, Bool.false_or, Matrix.neg_apply, Matrix.of_apply, Pi.zero_apply] at h
    rw [← neg_eq_zero, ← Finset.sum_neg_distrib, ← h]
    refine Finset.sum_congr rfl fun d2 _ => ?_
    by_cases hj : fixed d2.1 = true
    · rw [hfix d2.1 d2.2 hj]; ring
    · rw [if_neg hj]; ring
  have hwork : ∑ p, ∑ a, w (p, a) * s.addDForce 1 (fun p a => w (p, a)) 0 p a = 0 := by
    refine Finset.sum_eq_zero fun p _ => Finset.sum_eq_zero fun a _ => ?_
    by_cases hp : fixed p = true
    · rw [hfix p a hp, zero_mul]
    · rw [same_operator_generic hready 1 0]
      have := hfree (p, a) (by simpa using hp)
      simp only [Pi.zero_apply, sub_zero, zero_add]
      rw [this, mul_zero]
  have hg : (⟨![1/4, 1/4, 1/4], 1/6⟩ : GaussNode 3) ∈ gaussTetra1 := List.mem_singleton.2 rfl
  have hpos : ∀ e, ∀ q ∈ s.qnodes e, 0 < q.detJ * q.weight := by
    intro e q hq'
    rw [hq, List.mem_singleton] at hq'
    rw [hq']
    exact mul_pos (hJ e _ hg) (by norm_num [signedGaussNodeOf])
  have hnull := C82_null hready h1 h2 h3 hpos (fun p a => w (p, a)) hwork
  funext ⟨p, a⟩
  have := held_zero idx fixed X (fun p a => w (p, a)) ⟨![1/4, 1/4, 1/4], 1/6⟩ (fun e => (hJ e _ hg).ne') (fun e => by
    have h := hnull e _ (by rw [hq]; exact List.mem_singleton.2 rfl)
    simpa only [hR, Matrix.transpose_one, Matrix.one_mulVec, hidx] using h)
    (fun p hp => funext fun a => hfix p a hp) p (hheld p)
  exact congrFun this a

/-! ### The property -/

/-- **C94 (forces).** The linear force fields leave the interior nodes of a uniformly deformed conforming mesh without force. -/
theorem C94_forces {N M : ℕ} (X : Fin N → Fin 3 → ℝ) (young poisson : ℝ) (F : Mat3) (t : Fin 3 → ℝ) (p : Fin N) :
    (∀ idx : Fin M → Fin 4 → Fin N, (∀ e, Function.Injective (idx e)) → Conforming tetra1Sides idx → InteriorNode tetra1Sides idx p →
      (∀ e, ∀ g ∈ gaussTetra1, 0 < (tetra1.jacobian (fun i => X (idx e i)) g.position : Mat3).det) →
      (((CorotState.fresh idx).reinitTetra false young poisson X).addForce false tetraFrame4 X (fun q => F.mulVec (X q) + t) 0).2 p
        = 0) ∧
    (∀ idx : Fin M → Fin 8 → Fin N, (∀ e, Function.Injective (idx e)) → Conforming hexa1Sides idx → InteriorNode hexa1Sides idx p →
      (∀ e, ∀ g ∈ gaussHexa, 0 < (hexa1.jacobian (fun i => X (idx e i)) g.position : Mat3).det) →
      (((CorotState.fresh idx).reinitHexa false young poisson .regular X).addForce false hexaFrame8 X
        (fun q => F.mulVec (X q) + t) 0).2 p = 0) :=
  ⟨fun idx hinj hc hp hJ => linear_patch (C93_tetra idx hinj X hJ young poisson).1 p
      (fun F t => (C86_interior (M := M) X 0 _ F t p).1 idx hc hp hJ) F t,
    fun idx hinj hc hp hJ => linear_patch (C93_hexa idx hinj X hJ young poisson).1 p
      (fun F t => (C86_interior (M := M) X 0 _ F t p).2 idx hc hp hJ) F t⟩

/-- **C94 (tetrahedra).** A conforming mesh of correctly oriented tetrahedra with the linear force field, all nodes of which that are
not interior are fixed at the positions given by `F X + t`; the interior nodes start anywhere.  A static solve with an exact linear
solver puts every node at `F X + t`, unless the initial forces on the free nodes are below the absolute threshold: then nothing
moves. -/
theorem C94_tetra {N M : ℕ} (idx : Fin M → Fin 4 → Fin N) (hinj : ∀ e, Function.Injective (idx e)) (hc : Conforming tetra1Sides idx)
    (X : Fin N → Fin 3 → ℝ)
    (hJ : ∀ e, ∀ g ∈ gaussTetra1, 0 < (tetra1.jacobian (fun i => X (idx e i)) g.position : Mat3).det)
    (young poisson : ℝ) (h1 : 0 < young) (h2 : -1 < poisson) (h3 : poisson < 1 / 2) (fixed : Fin N → Bool)
    (hheld : ∀ p, Held idx fixed p) (hfixed : ∀ p, fixed p = false → InteriorNode tetra1Sides idx p) (F : Mat3) (t : Fin 3 → ℝ)
    (k : NewtonParams ℝ) (hk : 1 ≤ k.iterations) (solver : Matrix (Dof N) (Dof N) ℝ → (Dof N → ℝ) → Option (Dof N → ℝ))
    (hex : SolvesExactly solver) (hreg : SolvesRegular solver) (c : NewtonState ℝ) (x : Dof N → ℝ)
    (hx : ∀ p a, fixed p = true → x (p, a) = (F.mulVec (X p) + t) a) :
    let s := (CorotState.fresh idx).reinitTetra false young poisson X
    (∀ p a, (staticSolve k (linearScene s tetraFrame4 X fixed) solver c x).2.x (p, a) = (F.mulVec (X p) + t) a) ∨
    ((staticSolve k (linearScene s tetraFrame4 X fixed) solver c x).2.x = x ∧ 0 < k.absolute ∧
      ∑ d : Dof N, (if fixed d.1 then 0 else (s.addForce false tetraFrame4 X (fun p a => x (p, a)) 0).2 d.1 d.2) ^ 2 ≤
        k.absolute ^ 2) := by
  intro s
  exact static_patch_core (reinitTetra_ready _ false young poisson X) (fun _ => rfl) (fun _ => rfl) tetraFrame4 X fixed F t
    (fun p hp => (C94_forces X young poisson F t p).1 idx hinj hc (hfixed p hp) hJ)
    (C94_regular idx X hJ young poisson h1 h2 h3 fixed hheld) k hk solver hex hreg c x hx

/-- **C94 (hexahedra).** The same for hexahedra of any shape, when the constrained stiffness has an inverse. -/
theorem C94_hexa {N M : ℕ} (idx : Fin M → Fin 8 → Fin N) (hinj : ∀ e, Function.Injective (idx e)) (hc : Conforming hexa1Sides idx)
    (X : Fin N → Fin 3 → ℝ)
    (hJ : ∀ e, ∀ g ∈ gaussHexa, 0 < (hexa1.jacobian (fun i => X (idx e i)) g.position : Mat3).det)
    (young poisson : ℝ) (fixed : Fin N → Bool)
    (hA : IsUnit (constrainMatrix (fun d : Dof N => fixed d.1)
      (-(Matrix.of (((CorotState.fresh idx).reinitHexa false young poisson .regular X).addKToMatrix 1 0)))))
    (hfixed : ∀ p, fixed p = false → InteriorNode hexa1Sides idx p) (F : Mat3) (t : Fin 3 → ℝ)
    (k : NewtonParams ℝ) (hk : 1 ≤ k.iterations) (solver : Matrix (Dof N) (Dof N) ℝ → (Dof N → ℝ) → Option (Dof N → ℝ))
    (hex : SolvesExactly solver) (hreg : SolvesRegular solver) (c : NewtonState ℝ) (x : Dof N → ℝ)
    (hx : ∀ p a, fixed p = true → x (p, a) = (F.mulVec (X p) + t) a) :
    let s := (CorotState.fresh idx).reinitHexa false young poisson .regular X
    (∀ p a, (staticSolve k (linearScene s hexaFrame8 X fixed) solver c x).2.x (p, a) = (F.mulVec (X p) + t) a) ∨
    ((staticSolve k (linearScene s hexaFrame8 X fixed) solver c x).2.x = x ∧ 0 < k.absolute ∧
      ∑ d : Dof N, (if fixed d.1 then 0 else (s.addForce false hexaFrame8 X (fun p a => x (p, a)) 0).2 d.1 d.2) ^ 2 ≤
        k.absolute ^ 2) := by
  intro s
  have h0 : CorotReady s (elasticityMatrix young poisson) :=
    ⟨elasticityMatrix_symm young poisson, fun _ => rfl, (HexaHistory.fresh.reinit _ false young poisson .regular X).inv.2.1⟩
  exact static_patch_core h0 (fun _ => rfl) (fun _ => rfl) hexaFrame8 X fixed F t
    (fun p hp => (C94_forces X young poisson F t p).2 idx hinj hc (hfixed p hp) hJ) hA k hk solver hex hreg c x hx

theorem inverseSolver_regular {ι : Type*} [Fintype ι] [DecidableEq ι] : SolvesRegular (inverseSolver (ι := ι)) := by
  intro A f hA
  exact ⟨_, if_pos ((Matrix.isUnit_iff_isUnit_det A).1 hA)⟩

/-- A tetrahedron split in four, its corners pulled apart along the first axis and its interior node anywhere: one static step with no
absolute threshold puts this node at its place. -/
example (x : Dof 5 → ℝ)
    (hx : ∀ p a, p ≠ 4 → x (p, a) = ((Matrix.diagonal ![2, 1, 1] : Mat3).mulVec (splitTetraNodes p) + (![0, 0, 3] : Fin 3 → ℝ)) a) (a : Fin 3) :
    (staticSolve ⟨1, 1 / 10 ^ 5, 1 / 10 ^ 5, 0, 1 / 10 ^ 19, .beginningOfTimeStep⟩
      (linearScene ((CorotState.fresh splitTetra).reinitTetra false 1000 (3 / 10) splitTetraNodes) tetraFrame4 splitTetraNodes
        fun p => p ≠ 4) inverseSolver newtonFresh x).2.x (4, a) = (![1, 1 / 4, 25 / 8] : Fin 3 → ℝ) a := by
  have h := C94_tetra splitTetra (by decide) (by unfold Conforming Mirrored sideNodes; decide +kernel) splitTetraNodes
    (by
      intro e g _
      rw [Matrix.det_fin_three]
      fin_cases e <;>
        (simp only [Elem.jacobian, tetra1, sum_fin4, splitTetra, splitTetraNodes, Matrix.cons_val, Fin.isValue, Fin.reduceFinMk,
          Fin.zero_eta, Fin.mk_one]
         norm_num))
    1000 (3 / 10) (by norm_num) (by norm_num) (by norm_num) (fun p => p ≠ 4)
    (by
      intro p
      by_cases hp : p = 4
      · rw [hp]
        exact Held.element (idx := splitTetra) 0 0 fun j hj => Held.fixed _ (by revert j; decide)
      · exact Held.fixed p (by simpa using hp))
    (by
      intro p hp
      have : p = 4 := by simpa using hp
      rw [this]
      unfold InteriorNode IsShared Mirrored sideNodes
      decide +kernel)
    (Matrix.diagonal ![2, 1, 1]) ![0, 0, 3] ⟨1, 1 / 10 ^ 5, 1 / 10 ^ 5, 0, 1 / 10 ^ 19, .beginningOfTimeStep⟩ le_rfl inverseSolver
    inverseSolver_exact inverseSolver_regular newtonFresh x (fun p a hp => hx p a (by simpa using hp))
  rcases h with h | h
  · rw [h 4 a]
    fin_cases a <;> simp [Matrix.mulVec_diagonal, splitTetraNodes] <;> norm_num
  · exact absurd h.2.1 (lt_irrefl 0)

end Caribou
