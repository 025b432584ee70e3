import Verif.Lemmas.HyperComponent
import Verif.Props.Patch

/-!
# Properties C87 – C89: life cycle of the hyperelastic force field
-/

set_option autoImplicit false

namespace Caribou

open Spec HyperComponent

variable {T : SolidType} {N M : ℕ}

/-! ### C87: the stiffness belongs to the last force evaluation -/

/-- **C87 (partial).** After a force evaluation at the vector `id`, through any sequence of calls which does not write that
vector nor the parameters, and, once the stiffness was used, through any sequence of calls without assembly (the vector and the
parameters may change), `addDForce` and `addKToMatrix` apply the derivative of the forces at the positions of that evaluation.
Missing: the calls between the force evaluation and the first use of the stiffness may not write the positions or the parameters,
see `C87_positions_violated` and `C87_parameters_violated`. -/
theorem C87_partial (s : HyperComponent T N M) (c : CoordId → Fin N → Fin 3 → ℝ) (m : MaterialComponent)
    (q : Fin M → List (QNode T.numNodes)) (hc : s.mstate = some c) (hm : s.material = some m) (hq : s.qnodes = some q) (hM : 0 < M)
    (hinj : ∀ e, Function.Injective (s.idx e)) (id : CoordId) (hpos : m.kind = .neoHookean → NotInverted s (c id))
    (f : Fin N → Fin 3 → ℝ) (solver : (Dof N → Dof N → ℝ) → List ℝ) (before : List (Op N)) (hb : ∀ o ∈ before, Quiet id o) :
    (∃ s', run solver (s.addForce id f).1 before = .ok s' ∧ StiffnessOf s' s id (c id)) ∧
    ∀ (use : Op N) (after : List (Op N)), UsesStiffness use → (∀ o ∈ after, NoAssembly o) →
      ∀ s', run solver (s.addForce id f).1 (before ++ use :: after) = .ok s' → StiffnessOf s' s id (c id) := by
  have ht := isTangent_stored (id := id) (x := c id) hc hm hq hM hinj hpos
  obtain ⟨s1, h1, k1⟩ := (addForce_kept (id := id) hc hm hq hM f).run solver before hb
  refine ⟨⟨s1, h1, _, ht, k1.applies⟩, ?_⟩
  intro use after hu ha s' hs
  obtain ⟨s2, h2, k2, h3⟩ := k1.refresh
  have hstep : s1.step solver use = .ok s2 := by
    cases use with
    | addDForce k dx df => simp only [step, addDForce, h2, keep]
    | addKToMatrix k A => simp only [step, addKToMatrix, h2, keep]
    | _ => exact hu.elim
  rw [run_append solver _ before _ s1 h1] at hs
  simp only [run, hstep] at hs
  have hheld : Held s2 _ := ⟨h3, k2.stored h3⟩
  exact ⟨_, ht, (hheld.run solver after ha s' hs).applies⟩

/-- **C87 (after `init`).** Right after `init`, before any force evaluation, the stiffness is the derivative of the forces at the
vector of the last evaluation (`position` for a new component), with the parameters at that time; it stays so through any
sequence of calls without assembly. -/
theorem C87_init (s s1 : HyperComponent T N M) (c : CoordId → Fin N → Fin 3 → ℝ) (m : MaterialComponent) (hc : s.mstate = some c)
    (hm : s.material = some m) (hM : 0 < M) (hinj : ∀ e, Function.Injective (s.idx e)) (hs : s.initComponent = .ok s1)
    (hpos : m.kind = .neoHookean → NotInverted s1 (c s.xId)) (solver : (Dof N → Dof N → ℝ) → List ℝ) (after : List (Op N))
    (ha : ∀ o ∈ after, NoAssembly o) (s' : HyperComponent T N M) (hr : run solver s1 after = .ok s') :
    StiffnessOf s' s1 s.xId (c s.xId) := by
  obtain ⟨q, hqd⟩ : ∃ q, q = (HyperMesh.initialize T.elem T.gauss s.idx (elementNodes s.topologyNodes c)).qnodes := ⟨_, rfl⟩
  have he : s1 = { s with
      qnodes := some q
      material := some m.beforeUpdate
      K := HyperMesh.storedK ⟨s.idx, q⟩ (dataLaw m.kind m.young m.poisson) (c s.xId)
      stiffnessUpToDate := true
      eigenvaluesUpToDate := false } := by
    simp only [initComponent, hc, assemble, assembleAt, hm, current_beforeUpdate, Outcome.ok.injEq] at hs
    rw [← hs, hqd, hc]
  have hheld : Held s1 (HyperMesh.storedK ⟨s.idx, q⟩ (dataLaw m.kind m.young m.poisson) (c s.xId)) := by
    subst he; exact ⟨rfl, rfl⟩
  have ht := isTangent_stored (s := s1) (id := s.xId) (x := c s.xId) (c := c) (m := m.beforeUpdate) (q := q) (by subst he; exact hc)
    (by subst he; rfl) (by subst he; rfl) hM (by subst he; exact hinj) hpos
  refine ⟨_, ht, ?_⟩
  have h2 := (hheld.run solver after ha s' hr).applies
  have h3 : s1.idx = s.idx := by subst he; rfl
  rw [h3]
  exact h2

/-- **C87 (eigenvalues).** Through every sequence of calls, eigenvalues which are marked up to date are those of the matrix
which `K()` returns. -/
theorem C87_eigenvalues (solver : (Dof N → Dof N → ℝ) → List ℝ) (s s' : HyperComponent T N M)
    (h : s.eigenvaluesUpToDate = true → s.eigenvalues = solver s.stiffness) (ops : List (Op N)) (hr : run solver s ops = .ok s') :
    (s'.getEigenvalues solver).2 = solver s'.stiffness := by
  have hasm : ∀ (s : HyperComponent T N M) x s', (s.eigenvaluesUpToDate = true → s.eigenvalues = solver s.stiffness) →
      s.assembleAt x = .ok s' → s'.eigenvaluesUpToDate = true → s'.eigenvalues = solver s'.stiffness := by
    intro s x s' h hs
    unfold assembleAt at hs
    split at hs
    · simp only [Outcome.ok.injEq] at hs; subst hs; exact h
    · split at hs
      · simp only [Outcome.ok.injEq] at hs; subst hs; intro hf; exact absurd hf (by simp)
      · split at hs
        · simp only [Outcome.ok.injEq] at hs; subst hs; intro hf; exact absurd hf (by simp)
        · simp at hs
  have hass : ∀ (s : HyperComponent T N M) s', (s.eigenvaluesUpToDate = true → s.eigenvalues = solver s.stiffness) →
      s.assemble = .ok s' → s'.eigenvaluesUpToDate = true → s'.eigenvalues = solver s'.stiffness := by
    intro s s' h hs
    unfold assemble at hs
    split at hs
    · simp at hs
    · exact hasm s _ s' h hs
  have href : ∀ (s : HyperComponent T N M) s', (s.eigenvaluesUpToDate = true → s.eigenvalues = solver s.stiffness) →
      s.refresh = .ok s' → s'.eigenvaluesUpToDate = true → s'.eigenvalues = solver s'.stiffness := by
    intro s s' h hs
    unfold refresh at hs
    split at hs
    · simp only [Outcome.ok.injEq] at hs; subst hs; exact h
    · exact hass s s' h hs
  have key : s'.eigenvaluesUpToDate = true → s'.eigenvalues = solver s'.stiffness := by
    induction ops generalizing s with
    | nil => simp only [run, Outcome.ok.injEq] at hr; subst hr; exact h
    | cons o os ih =>
      simp only [run] at hr
      cases hst : s.step solver o with
      | throws t => rw [hst] at hr; simp at hr
      | hangs => rw [hst] at hr; simp at hr
      | undefined => rw [hst] at hr; simp at hr
      | ok t =>
        rw [hst] at hr
        refine ih t ?_ hr
        cases o with
        | setYoung e => simp only [step, Outcome.ok.injEq] at hst; subst hst; exact h
        | setPoisson e => simp only [step, Outcome.ok.injEq] at hst; subst hst; exact h
        | setPositions i y => simp only [step, Outcome.ok.injEq] at hst; subst hst; exact h
        | init =>
          simp only [step, initComponent] at hst
          split at hst
          · exact hass s t h hst
          · refine hass _ t ?_ hst
            exact h
        | addForce i f =>
          simp only [step, Outcome.ok.injEq] at hst
          subst hst
          unfold addForce
          simp only
          split
          · split
            · exact h
            · split
              · intro hf; exact absurd hf (by simp)
              · exact h
          · exact h
        | addDForce k dx df =>
          simp only [step, addDForce] at hst
          cases hf : s.refresh with
          | ok u => rw [hf] at hst; simp only [keep, Outcome.ok.injEq] at hst; subst hst; exact href s u h hf
          | throws u => rw [hf] at hst; simp [keep] at hst
          | hangs => rw [hf] at hst; simp [keep] at hst
          | undefined => rw [hf] at hst; simp [keep] at hst
        | addKToMatrix k A =>
          simp only [step, addKToMatrix] at hst
          cases hf : s.refresh with
          | ok u => rw [hf] at hst; simp only [keep, Outcome.ok.injEq] at hst; subst hst; exact href s u h hf
          | throws u => rw [hf] at hst; simp [keep] at hst
          | hangs => rw [hf] at hst; simp [keep] at hst
          | undefined => rw [hf] at hst; simp [keep] at hst
        | potentialEnergy i =>
          simp only [step] at hst
          split at hst
          · simp at hst
          · simp only [Outcome.ok.injEq] at hst; subst hst; exact h
        | eigenvalues =>
          simp only [step, Outcome.ok.injEq] at hst
          subst hst
          unfold getEigenvalues
          split
          · exact h
          · intro _; rfl
        | assemble => exact hass s t h hst
        | assembleAt x => exact hasm s x t h hst
  unfold getEigenvalues
  split
  · exact key (by assumption)
  · rfl

/-! The witness: the canonical tetrahedron, a Saint Venant-Kirchhoff material with `ν = 0`, deformed by scalings. -/

/-- The nodes of the canonical tetrahedron scaled by `τ`. -/
noncomputable def scaledTetra (τ : ℝ) : Fin 4 → Fin 3 → ℝ := fun p a => τ * (Caribou.tetra1 (K := ℝ)).node p a

/-- A new component on one tetrahedron given by a mesh of SOFA, with position vectors `c`. -/
noncomputable def oneTetra (c : CoordId → Fin 4 → Fin 3 → ℝ) : HyperComponent .tetra1 4 1 :=
  created (some c) (some ⟨.saintVenantKirchhoff, 1, 0, none⟩) (fun _ i => i) none

theorem scaledTetra_eq (τ : ℝ) : scaledTetra τ = fun p => (τ • (1 : Mat3)).mulVec ((Caribou.tetra1 (K := ℝ)).node p) + 0 := by
  funext p a
  simp [scaledTetra, Matrix.smul_mulVec]

theorem svk_scaling (mu l τ : ℝ) :
    ((τ • (1 : Mat3)) * (saintVenantKirchhoff mu l).stress (τ • (1 : Mat3)).det ((τ • (1 : Mat3)).transpose * (τ • (1 : Mat3)))) 0 0 =
      τ * ((3 * l / 2 + mu) * (τ ^ 2 - 1)) := by
  simp only [saintVenantKirchhoff, greenStrain, Matrix.trace, Matrix.diag, Fin.sum_univ_three, Matrix.smul_apply, Matrix.sub_apply,
    Matrix.one_apply, Matrix.transpose_smul, Matrix.transpose_one, Matrix.smul_mul, Matrix.mul_smul, Matrix.add_apply, smul_eq_mul,
    Matrix.one_mul, Matrix.mul_one]
  simp
  left
  ring

theorem canonical_volume : solidVolume .tetra1 (Caribou.tetra1 (K := ℝ)).node = 1 / 6 := by
  have h : ∀ ξ, (SolidType.tetra1.elem.jacobian (Caribou.tetra1 (K := ℝ)).node ξ : Mat3) = 1 := by
    intro ξ
    ext a j
    refine (elem_dcoord (K := ℝ) .tetra1 ξ a j).trans ?_
    rfl
  simp only [solidVolume, h, gaussSum]
  simp [SolidType.gauss, gaussTetra1]

theorem oneTetra_virial {s : HyperComponent .tetra1 4 1} {c : CoordId → Fin 4 → Fin 3 → ℝ} {m : MaterialComponent}
    (hc : s.mstate = some c) (hm : s.material = some m) (hk : m.kind = .saintVenantKirchhoff)
    (hi : s.idx = fun _ i => i)
    (hq : s.qnodes = some (HyperMesh.initialize SolidType.tetra1.elem SolidType.tetra1.gauss (fun _ i => i)
      (Caribou.tetra1 (K := ℝ)).node).qnodes) (id : CoordId) (τ : ℝ) :
    ∑ p, forceAt s id (scaledTetra τ) p 0 * (Caribou.tetra1 (K := ℝ)).node p 0 =
      -(1 / 6 * (τ * ((3 * lameL m.young m.poisson / 2 + lameMu m.young m.poisson) * (τ ^ 2 - 1)))) := by
  have h := C86_virial .tetra1 (N := 4) (M := 1) (fun _ i => i) (Caribou.tetra1 (K := ℝ)).node (fun _ => canonical_tetra_regular)
    (saintVenantKirchhoff (lameMu m.young m.poisson) (lameL m.young m.poisson)) (τ • (1 : Mat3)) 0 0 0
  rw [svk_scaling] at h
  have hv : (∑ e : Fin 1, solidVolume .tetra1 fun i => (Caribou.tetra1 (K := ℝ)).node ((fun _ i => i) e i)) = 1 / 6 := by
    rw [Fin.sum_univ_one]
    exact canonical_volume
  refine Eq.trans ?_ (h.trans (by rw [hv]))
  simp only [forceAt_eq hc hm hq one_pos, hi, hk, scaledTetra_eq]
  rfl

/-- The stiffness of a component which applies the derivative of its forces at a scaled tetrahedron. -/
theorem oneTetra_tangent {s : HyperComponent .tetra1 4 1} {c : CoordId → Fin 4 → Fin 3 → ℝ} {m : MaterialComponent}
    (hc : s.mstate = some c) (hm : s.material = some m) (hk : m.kind = .saintVenantKirchhoff)
    (hi : s.idx = fun _ i => i)
    (hq : s.qnodes = some (HyperMesh.initialize SolidType.tetra1.elem SolidType.tetra1.gauss (fun _ i => i)
      (Caribou.tetra1 (K := ℝ)).node).qnodes) (id : CoordId) (τ : ℝ) (L : (Fin 4 → Fin 3 → ℝ) → Fin 4 → Fin 3 → ℝ)
    (hL : IsTangent (forceAt s id) (scaledTetra τ) L) :
    ∑ p, L (Caribou.tetra1 (K := ℝ)).node p 0 * (Caribou.tetra1 (K := ℝ)).node p 0 =
      -(1 / 6 * ((3 * lameL m.young m.poisson / 2 + lameMu m.young m.poisson) * (3 * τ ^ 2 - 1))) := by
  have h := hL (fun t => scaledTetra (τ + t)) (Caribou.tetra1 (K := ℝ)).node (by simp) (by
    intro p a
    have := ((hasDerivAt_id (0 : ℝ)).const_add τ).mul_const ((Caribou.tetra1 (K := ℝ)).node p a)
    simpa [scaledTetra] using this)
  have h1 := HasDerivAt.fun_sum fun p (_ : p ∈ (Finset.univ : Finset (Fin 4))) =>
    (h p 0).mul_const ((Caribou.tetra1 (K := ℝ)).node p 0)
  simp only [oneTetra_virial hc hm hk hi hq] at h1
  have h2 : HasDerivAt (fun t : ℝ => -(1 / 6 * ((τ + t) * ((3 * lameL m.young m.poisson / 2 + lameMu m.young m.poisson) * ((τ + t) ^ 2 - 1)))))
      (-(1 / 6 * ((3 * lameL m.young m.poisson / 2 + lameMu m.young m.poisson) * (3 * τ ^ 2 - 1)))) 0 := by
    have ha : HasDerivAt (fun t : ℝ => τ + t) 1 0 := by simpa using (hasDerivAt_id (0 : ℝ)).const_add τ
    refine ((((ha.mul (((ha.pow 2).sub_const 1).const_mul
      (3 * lameL m.young m.poisson / 2 + lameMu m.young m.poisson))).const_mul (1 / 6)).neg).congr_deriv ?_)
    simp
    ring
  exact h1.unique h2

/-- Two operators applied by the same component are equal. -/
theorem appliesOperator_unique {s : HyperComponent T N M} {L L' : (Fin N → Fin 3 → ℝ) → Fin N → Fin 3 → ℝ}
    (h : AppliesOperator s L) (h' : AppliesOperator s L') : L = L' := by
  funext dx p a
  obtain ⟨s1, v1, e1, f1⟩ := h.1 1 (fun d => dx d.1 d.2) 0
  obtain ⟨s2, v2, e2, f2⟩ := h'.1 1 (fun d => dx d.1 d.2) 0
  rw [e1] at e2
  simp only [Outcome.ok.injEq, Prod.mk.injEq] at e2
  have := f1 p a
  rw [e2.2, f2 p a] at this
  simpa using this.symm

/-- The component of `oneTetra` after `init` at the canonical positions. -/
noncomputable def readyTetra : HyperComponent .tetra1 4 1 :=
  { oneTetra (fun _ => scaledTetra 1) with
    material := some (MaterialComponent.beforeUpdate ⟨.saintVenantKirchhoff, 1, 0, none⟩)
    qnodes := some (HyperMesh.initialize SolidType.tetra1.elem SolidType.tetra1.gauss (fun _ i => i) (scaledTetra 1)).qnodes
    K := HyperMesh.storedK (HyperMesh.initialize SolidType.tetra1.elem SolidType.tetra1.gauss (fun (_ : Fin 1) i => i) (scaledTetra 1))
      (dataLaw .saintVenantKirchhoff 1 0) (scaledTetra 1)
    stiffnessUpToDate := true }

theorem readyTetra_init : (oneTetra (fun _ => scaledTetra 1)).initComponent = .ok readyTetra := rfl

theorem scaledTetra_one : scaledTetra 1 = (Caribou.tetra1 (K := ℝ)).node := by
  funext p a
  simp [scaledTetra]

/-- **C87 violated (positions).** The positions are written between a force evaluation and the first use of the stiffness (as a
line search, or a solver which restores the positions, does): `addDForce` then applies the derivative of the forces at the new
positions, not at those of the force evaluation. -/
theorem C87_positions_violated (solver : (Dof 4 → Dof 4 → ℝ) → List ℝ) :
    (oneTetra (fun _ => scaledTetra 1)).initComponent = .ok readyTetra ∧
    ∃ s', run solver (readyTetra.addForce .position 0).1 [.setPositions .position (scaledTetra 2)] = .ok s' ∧
      ¬ StiffnessOf s' readyTetra .position (scaledTetra 1) ∧ StiffnessOf s' readyTetra .position (scaledTetra 2) := by
  refine ⟨rfl, _, rfl, ?_⟩
  have hq : readyTetra.qnodes = some (HyperMesh.initialize SolidType.tetra1.elem SolidType.tetra1.gauss (fun _ i => i)
      (Caribou.tetra1 (K := ℝ)).node).qnodes := by rw [← scaledTetra_one]; rfl
  have hk : Kept ((readyTetra.addForce .position 0).1.setPositions .position (scaledTetra 2)) .position (scaledTetra 2)
      .saintVenantKirchhoff 1 0 (fun _ i => i)
      (HyperMesh.initialize SolidType.tetra1.elem SolidType.tetra1.gauss (fun (_ : Fin 1) i => i) (scaledTetra 1)).qnodes :=
    ⟨⟨_, rfl, by simp⟩, ⟨_, rfl, rfl, rfl, rfl, by simp [MaterialComponent.beforeUpdate]⟩, rfl, rfl, rfl, by
      intro h; exact absurd h (by decide)⟩
  have ht := isTangent_stored (s := readyTetra) (id := .position) (x := scaledTetra 2) (c := fun _ => scaledTetra 1) rfl rfl rfl one_pos
    (fun _ => Function.injective_id) (by intro h; exact absurd h (by simp [MaterialComponent.beforeUpdate]))
  refine ⟨?_, _, ht, hk.applies⟩
  rintro ⟨L, h1, h2⟩
  have h3 := oneTetra_tangent (s := readyTetra) rfl rfl rfl rfl hq .position 1 L h1
  have h4 := appliesOperator_unique h2 hk.applies
  have h5 := oneTetra_tangent (s := readyTetra) rfl rfl rfl rfl hq .position 2 _ ht
  rw [h4] at h3
  have h6 := h3.symm.trans h5
  simp only [MaterialComponent.beforeUpdate, lameMu, lameL] at h6
  norm_num at h6

/-- **C87 violated (parameters).** The Young modulus is written between a force evaluation and the first use of the stiffness:
the stiffness has the new modulus, the force the old one. -/
theorem C87_parameters_violated (solver : (Dof 4 → Dof 4 → ℝ) → List ℝ) :
    ∃ s', run solver (readyTetra.addForce .position 0).1 [.setYoung 2] = .ok s' ∧
      ¬ StiffnessOf s' readyTetra .position (scaledTetra 1) := by
  refine ⟨_, rfl, ?_⟩
  have hq : readyTetra.qnodes = some (HyperMesh.initialize SolidType.tetra1.elem SolidType.tetra1.gauss (fun _ i => i)
      (Caribou.tetra1 (K := ℝ)).node).qnodes := by rw [← scaledTetra_one]; rfl
  have hk : Kept ((readyTetra.addForce .position 0).1.setYoung 2) .position (scaledTetra 1)
      .saintVenantKirchhoff 2 0 (fun _ i => i)
      (HyperMesh.initialize SolidType.tetra1.elem SolidType.tetra1.gauss (fun (_ : Fin 1) i => i) (scaledTetra 1)).qnodes :=
    ⟨⟨_, rfl, rfl⟩, ⟨_, rfl, rfl, rfl, rfl, by simp [MaterialComponent.beforeUpdate]⟩, rfl, rfl, rfl, by
      intro h; exact absurd h (by decide)⟩
  have ht := isTangent_stored (s := readyTetra.setYoung 2) (id := .position) (x := scaledTetra 1) (c := fun _ => scaledTetra 1) rfl rfl
    rfl one_pos (fun _ => Function.injective_id) (by intro h; exact absurd h (by simp [MaterialComponent.beforeUpdate]))
  rintro ⟨L, h1, h2⟩
  have h3 := oneTetra_tangent (s := readyTetra) rfl rfl rfl rfl hq .position 1 L h1
  have h4 := appliesOperator_unique h2 hk.applies
  have h5 := oneTetra_tangent (s := readyTetra.setYoung 2) rfl rfl rfl rfl hq .position 1 _ ht
  rw [h4] at h3
  have h6 := h3.symm.trans h5
  simp only [MaterialComponent.beforeUpdate, lameMu, lameL] at h6
  norm_num at h6

/-- An instance of `C87_partial`: a solver step at the free position, with a change of the Young modulus after the assembly. -/
example (solver : (Dof 4 → Dof 4 → ℝ) → List ℝ) (dx : Dof 4 → ℝ) (s' : HyperComponent .tetra1 4 1)
    (h : run solver (readyTetra.addForce .freePosition 0).1
      ([.setPositions .position (scaledTetra 5)] ++ .addDForce 3 dx 0 :: [.setYoung 2, .setPositions .freePosition (scaledTetra 7)]) = .ok s') :
    StiffnessOf s' readyTetra .freePosition (scaledTetra 1) :=
  (C87_partial readyTetra (fun _ => scaledTetra 1) _ _ rfl rfl rfl one_pos (fun _ => Function.injective_id) .freePosition
    (by intro h; exact absurd h (by simp [MaterialComponent.beforeUpdate])) 0 solver [.setPositions .position (scaledTetra 5)]
    (by simp [Quiet])).2 (.addDForce 3 dx 0) _ trivial (by simp [NoAssembly]) s' h

/-- And the sequence of that instance does return. -/
example (solver : (Dof 4 → Dof 4 → ℝ) → List ℝ) (dx : Dof 4 → ℝ) :
    ∃ s', run solver (readyTetra.addForce .freePosition 0).1
      ([.setPositions .position (scaledTetra 5)] ++ .addDForce 3 dx 0 :: [.setYoung 2, .setPositions .freePosition (scaledTetra 7)]) = .ok s' :=
  ⟨_, rfl⟩

/-- An instance of `C87_init`: the positions and the parameters change after `init`. -/
example (solver : (Dof 4 → Dof 4 → ℝ) → List ℝ) :
    StiffnessOf ((readyTetra.setYoung 2).setPositions .position (scaledTetra 3)) readyTetra .position (scaledTetra 1) :=
  C87_init (oneTetra fun _ => scaledTetra 1) readyTetra (fun _ => scaledTetra 1) _ rfl rfl one_pos (fun _ => Function.injective_id) rfl
    (by intro h; exact absurd h (by simp)) solver [.setYoung 2, .setPositions .position (scaledTetra 3)] (by simp [NoAssembly]) _ rfl

/-- An instance of `C87_eigenvalues`: eigenvalues asked before and after a new assembly. -/
example (solver : (Dof 4 → Dof 4 → ℝ) → List ℝ) (s' : HyperComponent .tetra1 4 1)
    (h : run solver readyTetra [.eigenvalues, .addForce .position 0, .eigenvalues, .addDForce 1 0 0] = .ok s') :
    (s'.getEigenvalues solver).2 = solver s'.stiffness :=
  C87_eigenvalues solver readyTetra s' (by intro h; exact absurd h (by decide)) _ h

/-! ### C88: the forces derive from the energy of the component -/

theorem rested_gradient {s : HyperComponent T N M} {X : Fin N → Fin 3 → ℝ} {kind : MaterialKind}
    {idx : Fin M → Fin T.numNodes → Fin N}
    (h : Rested s X kind idx (HyperMesh.initialize T.elem T.gauss idx X).qnodes True) (hM : 0 < M)
    (hJ : RegularAt s X) (id : CoordId) (hid : id ≠ .restPosition) (x : Fin N → Fin 3 → ℝ)
    (hpos : kind = .neoHookean → NotInverted s x) : ForcesFromEnergy s id x := by
  intro y dx hy hdx
  obtain ⟨E, ν, hF, hW⟩ := h.energy hM id hid
  refine ⟨_, fun t => hW (y t), ?_⟩
  rw [hF]
  have hJ' : ∀ e, ∀ g ∈ T.gauss, (T.elem.jacobian (fun i => X (idx e i)) g.position : Mat3).det ≠ 0 := by
    have := h.ids
    subst this
    exact hJ
  cases kind with
  | saintVenantKirchhoff =>
    have h1 := C72_force_is_gradient_svk (lameMu E ν) (lameL E ν) T idx X hJ' y dx 0 hdx
    rw [hy] at h1
    exact h1
  | neoHookean =>
    have h1 := C72_force_is_gradient_neohookean (lameMu E ν) (lameL E ν) T idx X hJ' y dx 0 hdx (by
      rw [hy]
      intro e g hg
      have := hpos rfl _ h.nodes e g hg
      rw [h.ids] at this
      exact this)
    rw [hy] at h1
    exact h1

theorem rested_rest {s : HyperComponent T N M} {X : Fin N → Fin 3 → ℝ} {kind : MaterialKind}
    {idx : Fin M → Fin T.numNodes → Fin N}
    (h : Rested s X kind idx (HyperMesh.initialize T.elem T.gauss idx X).qnodes True) (hM : 0 < M)
    (hJ : RegularAt s X) (id : CoordId) (hid : id ≠ .restPosition) :
    forceAt s id X = 0 ∧ (s.setPositions id X).getPotentialEnergy id = .ok 0 := by
  obtain ⟨E, ν, hF, hW⟩ := h.energy hM id hid
  have hJ' : ∀ e, ∀ g ∈ T.gauss, (T.elem.jacobian (fun i => X (idx e i)) g.position : Mat3).det ≠ 0 := by
    have := h.ids
    subst this
    exact hJ
  have hlaw : StressFree (dataLaw kind E ν) ∧ (dataLaw kind E ν).energy 1 1 = 0 := by
    cases kind with
    | saintVenantKirchhoff => exact ⟨(C41_rest_and_symmetry _ _ 1).2.1, (C41_rest_and_symmetry _ _ 1).1⟩
    | neoHookean => exact ⟨(C42_rest_and_symmetry _ _).2.1, (C42_rest_and_symmetry _ _).1⟩
  have hX : (fun q => (1 : Mat3).mulVec (X q) + 0) = X := by funext q; simp
  refine ⟨?_, ?_⟩
  · rw [hF]
    have h1 := C48_hyperelastic T idx X 0 hJ' (dataLaw kind E ν) hlaw.1 1 ⟨by simp [OrthonormalCols], Matrix.det_one⟩ 0
    rw [hX] at h1
    exact h1
  · rw [hW]
    have h1 := C86_energy T idx X hJ' (dataLaw kind E ν) 1 0
    rw [hX, Matrix.det_one, Matrix.transpose_one, Matrix.one_mul, hlaw.2, zero_mul] at h1
    exact congrArg _ h1

/-- **C88 (partial).** When the elements are built at the rest positions of the mechanical state, then after `init` and any
sequence of calls which writes neither the rest positions nor the parameters, the forces of the component are minus the gradient
of the energy it reports, and both are zero at rest.  Missing: parameters which changed since the last `before_update`
(`C88_parameters_violated`) and elements which are not built at the rest positions (`C88_rest_violated`). -/
theorem C88_partial (s : HyperComponent T N M) (c : CoordId → Fin N → Fin 3 → ℝ) (m : MaterialComponent) (hc : s.mstate = some c)
    (hm : s.material = some m) (hM : 0 < M) (hrest : s.topologyNodes = some (c .restPosition) ∨
      s.topologyNodes = none ∧ c .position = c .restPosition) (hJ : RegularAt s (c .restPosition))
    (solver : (Dof N → Dof N → ℝ) → List ℝ) (ops : List (Op N)) (ho : ∀ o ∈ ops, KeepsRest o ∧ KeepsParameters o) :
    ∃ s', run solver s (.init :: ops) = .ok s' ∧ ∀ id, id ≠ .restPosition →
      (forceAt s' id (c .restPosition) = 0 ∧ (s'.setPositions id (c .restPosition)).getPotentialEnergy id = .ok 0) ∧
      ∀ x, (m.kind = .neoHookean → NotInverted s' x) → ForcesFromEnergy s' id x := by
  have hX : elementNodes s.topologyNodes c = c .restPosition := by
    rcases hrest with h | ⟨h, h'⟩
    · rw [h]; rfl
    · rw [h, ← h']; rfl
  obtain ⟨s1, h1, r1⟩ := Rested.init hc hm
  rw [hX] at r1
  obtain ⟨s', h2, r2⟩ := r1.run solver ops (fun o h => (ho o h).1) fun _ o h => (ho o h).2
  refine ⟨s', by simp only [run, step, h1, h2], fun id hid => ?_⟩
  have hJ' : RegularAt s' (c .restPosition) := by
    intro e
    rw [r2.ids]
    exact hJ e
  exact ⟨rested_rest r2 hM hJ' id hid, fun x hx => rested_gradient r2 hM hJ' id hid x hx⟩

/-- **C88 (after a force evaluation).** A force evaluation takes new parameters into account: even when the parameters were
written before it, the forces are minus the gradient of the energy after it. -/
theorem C88_after_force (s : HyperComponent T N M) (c : CoordId → Fin N → Fin 3 → ℝ) (m : MaterialComponent) (hc : s.mstate = some c)
    (hm : s.material = some m) (hM : 0 < M) (hrest : s.topologyNodes = some (c .restPosition) ∨
      s.topologyNodes = none ∧ c .position = c .restPosition) (hJ : RegularAt s (c .restPosition))
    (solver : (Dof N → Dof N → ℝ) → List ℝ) (ops later : List (Op N)) (ho : ∀ o ∈ ops, KeepsRest o) (i : CoordId)
    (f : Fin N → Fin 3 → ℝ) (hl : ∀ o ∈ later, KeepsRest o ∧ KeepsParameters o) :
    ∃ s', run solver s (.init :: (ops ++ .addForce i f :: later)) = .ok s' ∧ ∀ id, id ≠ .restPosition →
      ∀ x, (m.kind = .neoHookean → NotInverted s' x) → ForcesFromEnergy s' id x := by
  have hX : elementNodes s.topologyNodes c = c .restPosition := by
    rcases hrest with h | ⟨h, h'⟩
    · rw [h]; rfl
    · rw [h, ← h']; rfl
  obtain ⟨s1, h1, r1⟩ := Rested.init hc hm
  rw [hX] at r1
  obtain ⟨s2, h2, r2⟩ := (r1.weaken (Q := False) fun h => h.elim).run solver ops ho fun h => h.elim
  obtain ⟨s', h3, r3⟩ := (r2.addForce i f).run solver later (fun o h => (hl o h).1) fun _ o h => (hl o h).2
  refine ⟨s', ?_, fun id hid x hx => ?_⟩
  · simp only [run, step, h1]
    rw [run_append solver _ ops _ s2 h2]
    simp only [run, step, h3]
  · refine rested_gradient r3 hM ?_ id hid x hx
    intro e
    rw [r3.ids]
    exact hJ e

/-- An instance of `C88_partial` and of `C88_after_force`: a mesh of SOFA at rest at the beginning. -/
example (solver : (Dof 4 → Dof 4 → ℝ) → List ℝ) :
    (∃ s', run solver (oneTetra fun _ => scaledTetra 1) [.init, .setPositions .position (scaledTetra 3), .addForce .position 0] = .ok s' ∧
      ForcesFromEnergy s' .position (scaledTetra 3)) ∧
    ∃ s', run solver (oneTetra fun _ => scaledTetra 1) [.init, .setYoung 5, .addForce .position 0] = .ok s' ∧
      ForcesFromEnergy s' .freePosition (scaledTetra 3) := by
  have hJ : RegularAt (oneTetra fun _ => scaledTetra 1) (scaledTetra 1) := by
    intro e; rw [scaledTetra_one]; exact canonical_tetra_regular
  constructor
  · obtain ⟨s', h1, h2⟩ := C88_partial (oneTetra fun _ => scaledTetra 1) _ _ rfl rfl one_pos (Or.inr ⟨rfl, rfl⟩) hJ solver
      [.setPositions .position (scaledTetra 3), .addForce .position 0] (by simp [KeepsRest, KeepsParameters])
    exact ⟨s', h1, (h2 .position (by decide)).2 _ (by intro h; exact absurd h (by simp))⟩
  · obtain ⟨s', h1, h2⟩ := C88_after_force (oneTetra fun _ => scaledTetra 1) _ _ rfl rfl one_pos (Or.inr ⟨rfl, rfl⟩) hJ solver
      [.setYoung 5] [] (by simp [KeepsRest]) .position 0 (by simp)
    exact ⟨s', h1, h2 .freePosition (by decide) _ (by intro h; exact absurd h (by simp))⟩

/-- **C88 violated (parameters).** After a change of the Young modulus, the energy keeps the old modulus while a force evaluation
uses the new one: the forces are not minus the gradient of the energy. -/
theorem C88_parameters_violated (solver : (Dof 4 → Dof 4 → ℝ) → List ℝ) :
    ∃ s', run solver (oneTetra fun _ => scaledTetra 1) [.init, .setYoung 2] = .ok s' ∧ ¬ ForcesFromEnergy s' .position (scaledTetra 2) := by
  refine ⟨readyTetra.setYoung 2, rfl, fun h => ?_⟩
  have hq : readyTetra.qnodes = some (HyperMesh.initialize SolidType.tetra1.elem SolidType.tetra1.gauss (fun _ i => i)
      (Caribou.tetra1 (K := ℝ)).node).qnodes := by rw [← scaledTetra_one]; rfl
  have hg : ForcesFromEnergy readyTetra .position (scaledTetra 2) := by
    obtain ⟨s1, h1, h2⟩ := C88_partial (oneTetra fun _ => scaledTetra 1) _ _ rfl rfl one_pos (Or.inr ⟨rfl, rfl⟩) (by
      intro e; rw [scaledTetra_one]; exact canonical_tetra_regular) solver [] (by simp)
    have : s1 = readyTetra := by
      have h3 : run solver (oneTetra fun _ => scaledTetra 1) [.init] = .ok readyTetra := rfl
      rw [h3] at h1
      simpa using h1.symm
    subst this
    exact (h2 .position (by decide)).2 _ (by intro h; exact absurd h (by simp))
  -- the velocity is along the first axis only
  obtain ⟨dx, hdx⟩ : ∃ dx : Fin 4 → Fin 3 → ℝ, dx = fun p a => if a = 0 then (Caribou.tetra1 (K := ℝ)).node p 0 else 0 := ⟨_, rfl⟩
  have hy : ∀ p a, HasDerivAt (fun t : ℝ => (fun t p a => scaledTetra 2 p a + t * dx p a : ℝ → Fin 4 → Fin 3 → ℝ) t p a) (dx p a) 0 := by
    intro p a
    simpa using ((hasDerivAt_id (0 : ℝ)).mul_const (dx p a)).const_add (scaledTetra 2 p a)
  obtain ⟨W, hW, dW⟩ := h (fun t p a => scaledTetra 2 p a + t * dx p a) dx (by funext p a; simp) hy
  obtain ⟨W', hW', dW'⟩ := hg (fun t p a => scaledTetra 2 p a + t * dx p a) dx (by funext p a; simp) hy
  have hWW : W = W' := by
    funext t
    have h1 := hW t
    have h2 := hW' t
    have h3 : ((readyTetra.setYoung 2).setPositions .position fun p a => scaledTetra 2 p a + t * dx p a).getPotentialEnergy .position =
      (readyTetra.setPositions .position fun p a => scaledTetra 2 p a + t * dx p a).getPotentialEnergy .position := rfl
    rw [h3, h2] at h1
    simpa using h1.symm
  rw [hWW] at dW
  have he := dW.unique dW'
  have hs : ∀ f : Fin 4 → Fin 3 → ℝ, ∑ p, ∑ a, f p a * dx p a = ∑ p, f p 0 * (Caribou.tetra1 (K := ℝ)).node p 0 := by
    intro f
    refine Finset.sum_congr rfl fun p _ => ?_
    rw [hdx]
    simp
  rw [hs, hs, oneTetra_virial (s := readyTetra) rfl rfl rfl rfl hq, oneTetra_virial (s := readyTetra.setYoung 2) rfl rfl rfl rfl hq] at he
  simp only [MaterialComponent.beforeUpdate, lameMu, lameL] at he
  norm_num at he

/-- The position vectors of a tetrahedron placed at twice its rest shape. -/
noncomputable def stretchedStart : CoordId → Fin 4 → Fin 3 → ℝ
  | .restPosition => scaledTetra 1
  | _ => scaledTetra 2

theorem scaled_jacobian (σ : ℝ) (ξ : Fin 3 → ℝ) : (SolidType.tetra1.elem.jacobian (scaledTetra σ) ξ : Mat3) = σ • 1 := by
  ext a j
  have h : SolidType.tetra1.elem.jacobian (Caribou.tetra1 (K := ℝ)).node ξ a j = (1 : Mat3) a j :=
    (elem_dcoord (K := ℝ) .tetra1 ξ a j).trans rfl
  rw [Matrix.smul_apply, ← h]
  simp only [Elem.jacobian, scaledTetra, smul_eq_mul, Finset.mul_sum]
  refine Finset.sum_congr rfl fun i _ => ?_
  ring

theorem scaled_regular (σ : ℝ) (hσ : σ ≠ 0) : ∀ g ∈ SolidType.tetra1.gauss,
    (SolidType.tetra1.elem.jacobian (scaledTetra σ) g.position : Mat3).det ≠ 0 := by
  intro g _
  rw [scaled_jacobian]
  simp [Matrix.det_smul, hσ]

theorem scaled_volume : solidVolume .tetra1 (scaledTetra 2) = 4 / 3 := by
  simp only [solidVolume, scaled_jacobian, gaussSum, Matrix.det_smul, Matrix.det_one]
  simp [SolidType.gauss, gaussTetra1]
  norm_num

theorem svk_scaling_energy (mu l τ : ℝ) :
    (saintVenantKirchhoff mu l).energy (τ • (1 : Mat3)).det ((τ • (1 : Mat3)).transpose * (τ • (1 : Mat3))) =
      (9 * l / 8 + 3 * mu / 4) * (τ ^ 2 - 1) ^ 2 := by
  simp only [saintVenantKirchhoff, greenStrain, Matrix.trace, Matrix.diag, Fin.sum_univ_three, Matrix.smul_apply, Matrix.sub_apply,
    Matrix.one_apply, Matrix.transpose_smul, Matrix.transpose_one, Matrix.smul_mul, Matrix.mul_smul, Matrix.add_apply, smul_eq_mul,
    Matrix.one_mul, Matrix.mul_one, Matrix.mul_apply]
  simp
  ring

/-- **C88 violated (rest shape).** With a mesh of SOFA whose initial positions differ from the rest positions (here twice as
large), the elements are built at the initial positions: the forces vanish there and not at rest, whereas the energy is zero at
rest, so that the forces do not derive from the energy. -/
theorem C88_rest_violated (solver : (Dof 4 → Dof 4 → ℝ) → List ℝ) :
    ∃ s', run solver (oneTetra stretchedStart) [.init] = .ok s' ∧
      (s'.setPositions .position (scaledTetra 1)).getPotentialEnergy .position = .ok 0 ∧
      forceAt s' .position (scaledTetra 1) ≠ 0 ∧ forceAt s' .position (scaledTetra 2) = 0 ∧
      ¬ ForcesFromEnergy s' .position (scaledTetra 2) := by
  obtain ⟨s', h1, r⟩ := Rested.init (s := oneTetra stretchedStart) (c := stretchedStart) rfl rfl
  refine ⟨s', by simp only [run, step, h1], ?_⟩
  have hdata : s'.material = some (MaterialComponent.beforeUpdate ⟨.saintVenantKirchhoff, 1, 0, none⟩) := by
    have h3 : (oneTetra stretchedStart).initComponent = .ok { oneTetra stretchedStart with
      qnodes := some (HyperMesh.initialize SolidType.tetra1.elem SolidType.tetra1.gauss (fun (_ : Fin 1) i => i) (scaledTetra 2)).qnodes
      material := some (MaterialComponent.beforeUpdate ⟨.saintVenantKirchhoff, 1, 0, none⟩)
      K := HyperMesh.storedK (HyperMesh.initialize SolidType.tetra1.elem SolidType.tetra1.gauss (fun (_ : Fin 1) i => i) (scaledTetra 2))
        (dataLaw .saintVenantKirchhoff 1 0) (scaledTetra 2)
      stiffnessUpToDate := true } := rfl
    rw [h3] at h1
    simp only [Outcome.ok.injEq] at h1
    rw [← h1]
  obtain ⟨c, hc, hrest⟩ := r.pos
  have hF : ∀ z, forceAt s' .position z = HyperMesh.addForce (HyperMesh.initialize SolidType.tetra1.elem SolidType.tetra1.gauss
      (fun (_ : Fin 1) (i : Fin 4) => i) (scaledTetra 2)) (saintVenantKirchhoff (lameMu 1 0) (lameL 1 0)) z 0 := by
    intro z
    rw [forceAt_eq hc hdata r.nodes one_pos z, r.ids]
    rfl
  have hJ : ∀ _ : Fin 1, ∀ g ∈ SolidType.tetra1.gauss,
      (SolidType.tetra1.elem.jacobian (fun i => scaledTetra 2 i) g.position : Mat3).det ≠ 0 := fun _ => scaled_regular 2 two_ne_zero
  have hW : ∀ τ, (s'.setPositions .position (scaledTetra τ)).getPotentialEnergy .position =
      .ok (4 / 3 * ((9 * lameL 1 0 / 8 + 3 * lameMu 1 0 / 4) * (((1 + τ) / 2) ^ 2 - 1) ^ 2)) := by
    intro τ
    have h4 : ¬ ((4 : ℕ) = 0 ∨ (1 : ℕ) = 0) := by decide
    simp only [setPositions, getPotentialEnergy, hc, hdata, r.nodes, r.ids, Option.map_some, if_neg h4, current_beforeUpdate,
      Function.update_self, Function.update_of_ne (by decide : CoordId.restPosition ≠ CoordId.position), hrest]
    congr 1
    have hen := C86_energy .tetra1 (N := 4) (M := 1) (fun _ i => i) (scaledTetra 2) hJ (saintVenantKirchhoff (lameMu 1 0) (lameL 1 0))
      (((1 + τ) / 2) • (1 : Mat3)) 0
    rw [svk_scaling_energy] at hen
    have hv : (∑ e : Fin 1, solidVolume .tetra1 fun i => scaledTetra 2 ((fun _ i => i) e i)) = 4 / 3 := by
      rw [Fin.sum_univ_one]
      exact scaled_volume
    rw [hv] at hen
    rw [mul_comm (4 / 3 : ℝ), ← hen]
    simp only [HyperMesh.potentialEnergy, HyperMesh.gather]
    refine Finset.sum_congr rfl fun e _ => ?_
    have hU : ∀ i : Fin 4, scaledTetra τ i - stretchedStart .restPosition i =
        ((((1 + τ) / 2) • (1 : Mat3)).mulVec (scaledTetra 2 i) + 0) - scaledTetra 2 i := by
      intro i
      funext a
      simp only [stretchedStart, scaledTetra, Pi.sub_apply, Matrix.smul_mulVec, Matrix.one_mulVec, Pi.add_apply, Pi.smul_apply,
        Pi.zero_apply, smul_eq_mul]
      ring
    have hU' : (fun i : Fin 4 => scaledTetra τ i - stretchedStart .restPosition i) =
        fun i => ((((1 + τ) / 2) • (1 : Mat3)).mulVec (scaledTetra 2 i) + 0) - scaledTetra 2 i := funext hU
    refine list_sum_congr _ _ _ fun g _ => ?_
    have hg : strainF g.dN (fun i : Fin 4 => scaledTetra τ i - stretchedStart .restPosition i) =
        strainF g.dN (fun i : Fin 4 => ((((1 + τ) / 2) • (1 : Mat3)).mulVec (scaledTetra 2 i) + 0) - scaledTetra 2 i) := by rw [hU']
    have hl : dataLaw .saintVenantKirchhoff 1 0 = saintVenantKirchhoff (lameMu 1 0) (lameL 1 0) := rfl
    rw [← hl]
    change _ * Material.energy _ (strainF g.dN (fun i : Fin 4 => scaledTetra τ i - stretchedStart .restPosition i)).det
      ((strainF g.dN (fun i : Fin 4 => scaledTetra τ i - stretchedStart .restPosition i)).transpose *
        strainF g.dN (fun i : Fin 4 => scaledTetra τ i - stretchedStart .restPosition i)) = _
    rw [hg]
    rfl
  have hzero : forceAt s' .position (scaledTetra 2) = 0 := by
    rw [hF]
    have h5 := C48_hyperelastic .tetra1 (N := 4) (M := 1) (fun _ i => i) (scaledTetra 2) 0 hJ
      (saintVenantKirchhoff (lameMu 1 0) (lameL 1 0)) (C41_rest_and_symmetry _ _ 1).2.1 1 ⟨by simp [OrthonormalCols], Matrix.det_one⟩ 0
    have hX : (fun q => (1 : Mat3).mulVec (scaledTetra 2 q) + 0) = scaledTetra 2 := by funext q; simp
    rw [hX] at h5
    exact h5
  refine ⟨?_, ?_, hzero, ?_⟩
  · rw [hW]
    norm_num
  · intro h0
    have hv := C86_virial .tetra1 (N := 4) (M := 1) (fun _ i => i) (scaledTetra 2) hJ
      (saintVenantKirchhoff (lameMu 1 0) (lameL 1 0)) ((1 / 2 : ℝ) • (1 : Mat3)) 0 0 0
    have hX : (fun q => ((1 / 2 : ℝ) • (1 : Mat3)).mulVec (scaledTetra 2 q) + 0) = scaledTetra 1 := by
      funext q a
      simp [scaledTetra, Matrix.smul_mulVec]
    have hvol : (∑ e : Fin 1, solidVolume .tetra1 fun i => scaledTetra 2 ((fun _ i => i) e i)) = 4 / 3 := by
      rw [Fin.sum_univ_one]
      exact scaled_volume
    rw [svk_scaling, hvol, hX] at hv
    have h6 := hF (scaledTetra 1)
    rw [h0] at h6
    have h7 : ∑ p : Fin 4, (0 : ℝ) * scaledTetra 2 p 0 =
        -(4 / 3 * (1 / 2 * ((3 * lameL 1 0 / 2 + lameMu 1 0) * ((1 / 2 : ℝ) ^ 2 - 1)))) := by
      refine Eq.trans ?_ hv
      refine Finset.sum_congr rfl fun p _ => ?_
      congr 1
      exact congrFun (congrFun h6 p) 0
    simp only [lameMu, lameL] at h7
    norm_num at h7
  · intro h
    obtain ⟨W, hWt, dW⟩ := h (fun t => scaledTetra (2 + t)) (Caribou.tetra1 (K := ℝ)).node (by simp) (by
      intro p a
      have := ((hasDerivAt_id (0 : ℝ)).const_add 2).mul_const ((Caribou.tetra1 (K := ℝ)).node p a)
      simpa [scaledTetra] using this)
    have hWe : W = fun t => 4 / 3 * ((9 * lameL 1 0 / 8 + 3 * lameMu 1 0 / 4) * (((1 + (2 + t)) / 2) ^ 2 - 1) ^ 2) := by
      funext t
      have := hWt t
      rw [hW] at this
      simpa using this.symm
    rw [hWe, hzero] at dW
    have ha : HasDerivAt (fun t : ℝ => (1 + (2 + t)) / 2) (1 / 2) 0 := by
      simpa using (((hasDerivAt_id (0 : ℝ)).const_add 2).const_add 1).div_const 2
    have hd := (((((ha.pow 2).sub_const 1).pow 2).const_mul (9 * lameL 1 0 / 8 + 3 * lameMu 1 0 / 4)).const_mul (4 / 3))
    have he := dW.unique hd
    simp only [lameMu, lameL] at he
    norm_num at he

/-! ### C89: missing objects -/

/-- **C89 (partial).** Without material in the scene, every sequence of calls on a component which has a mechanical state returns
normally, and the component has no effect: no force, no stiffness, no energy.  Missing: a scene without mechanical state, see
`C89_violated`. -/
theorem C89_partial (c : CoordId → Fin N → Fin 3 → ℝ) (idx : Fin M → Fin T.numNodes → Fin N) (X : Option (Fin N → Fin 3 → ℝ))
    (solver : (Dof N → Dof N → ℝ) → List ℝ) (ops : List (Op N)) :
    ∃ s', run solver (created (some c) none idx X : HyperComponent T N M) ops = .ok s' ∧
      (∀ id f, (s'.addForce id f).2 = f) ∧
      (∀ k dx df, ∃ t, s'.addDForce k dx df = .ok (t, df)) ∧
      (∀ k A, ∃ t, s'.addKToMatrix k A = .ok (t, A)) ∧
      ∀ id, s'.getPotentialEnergy id = .ok 0 := by
  have key : ∀ (ops : List (Op N)) (s : HyperComponent T N M), (∃ c, s.mstate = some c) → s.material = none → s.K = 0 →
      ∃ s', run solver s ops = .ok s' ∧ (∃ c, s'.mstate = some c) ∧ s'.material = none ∧ s'.K = 0 := by
    have hass : ∀ s : HyperComponent T N M, (∃ c, s.mstate = some c) → s.material = none → s.assemble = .ok s := by
      intro s hc hm
      obtain ⟨c, hc⟩ := hc
      simp only [assemble, hc, assembleAt, hm]
    intro ops
    induction ops with
    | nil => intro s hc hm hK; exact ⟨s, rfl, hc, hm, hK⟩
    | cons o os ih =>
      intro s hc hm hK
      have hstep : ∃ s1, s.step solver o = .ok s1 ∧ (∃ c, s1.mstate = some c) ∧ s1.material = none ∧ s1.K = 0 := by
        have href : s.refresh = .ok s := by
          unfold refresh
          split
          · rfl
          · exact hass s hc hm
        cases o with
        | setYoung e => exact ⟨_, rfl, hc, by simp [setYoung, hm], hK⟩
        | setPoisson e => exact ⟨_, rfl, hc, by simp [setPoisson, hm], hK⟩
        | setPositions i y =>
          obtain ⟨c, hc⟩ := hc
          exact ⟨_, rfl, ⟨Function.update c i y, by simp only [setPositions, hc, Option.map_some]⟩, hm, hK⟩
        | init =>
          have hc' := hc
          obtain ⟨c, hc⟩ := hc
          refine ⟨{ s with qnodes := some (HyperMesh.initialize T.elem T.gauss s.idx (elementNodes s.topologyNodes c)).qnodes }, ?_, ⟨c, hc⟩, hm, hK⟩
          simp only [step, initComponent, hc]
          exact hass _ ⟨c, rfl⟩ hm
        | addForce i f =>
          refine ⟨_, rfl, ?_⟩
          obtain ⟨c, hc⟩ := hc
          simp only [addForce, hm, hc]
          exact ⟨⟨c, rfl⟩, trivial, hK⟩
        | addDForce k dx df => exact ⟨s, by simp only [step, addDForce, href, keep], hc, hm, hK⟩
        | addKToMatrix k A => exact ⟨s, by simp only [step, addKToMatrix, href, keep], hc, hm, hK⟩
        | potentialEnergy i =>
          refine ⟨s, ?_, hc, hm, hK⟩
          obtain ⟨c, hc⟩ := hc
          simp only [step, getPotentialEnergy, hc, hm]
        | eigenvalues =>
          refine ⟨_, rfl, ?_⟩
          unfold getEigenvalues
          split
          · exact ⟨hc, hm, hK⟩
          · exact ⟨hc, hm, hK⟩
        | assemble => exact ⟨s, hass s hc hm, hc, hm, hK⟩
        | assembleAt y => exact ⟨s, by simp only [step, assembleAt, hm], hc, hm, hK⟩
      obtain ⟨s1, h1, h2, h3, h4⟩ := hstep
      obtain ⟨s', h5, h6⟩ := ih s1 h2 h3 h4
      exact ⟨s', by simp only [run, h1, h5], h6⟩
  obtain ⟨s', h1, ⟨c', hc⟩, hm, hK⟩ := key ops (created (some c) none idx X) ⟨c, rfl⟩ rfl rfl
  have href : s'.refresh = .ok s' := by
    unfold refresh
    split
    · rfl
    · simp only [assemble, hc, assembleAt, hm]
  refine ⟨s', h1, ?_, ?_, ?_, ?_⟩
  · intro id f
    simp only [addForce, hc, hm]
  · intro k dx df
    refine ⟨s', ?_⟩
    simp only [addDForce, href, hK]
    congr 2
    funext d
    simp [applyStored]
  · intro k A
    refine ⟨s', ?_⟩
    simp only [addKToMatrix, href, hK]
    congr 2
    funext d d'
    simp [addStoredToMatrix]
  · intro id
    simp only [getPotentialEnergy, hc, hm]

/-- An instance of `C89_partial`: a full time step. -/
example (solver : (Dof 4 → Dof 4 → ℝ) → List ℝ) : ∃ s', run solver (created (some fun _ => scaledTetra 1) none (fun _ i => i) none :
    HyperComponent .tetra1 4 1) [.init, .addForce .position 0, .addDForce 1 0 0] = .ok s' :=
  let ⟨s', h, _⟩ := C89_partial (T := .tetra1) (M := 1) (fun _ => scaledTetra 1) (fun _ i => i) none solver
    [.init, .addForce .position 0, .addDForce 1 0 0]
  ⟨s', h⟩

/-- **C89 violated.** In a scene without mechanical state, `init` reports the missing object (`CaribouForcefield.inl:39-44`) and
then dereferences the null pointer, whatever the topology and the material. -/
theorem C89_violated (material : Option MaterialComponent) (idx : Fin M → Fin T.numNodes → Fin N) (X : Option (Fin N → Fin 3 → ℝ)) :
    (created none material idx X : HyperComponent T N M).initComponent = .undefined ∧
    ∀ id f, ((created none material idx X : HyperComponent T N M).addForce id f).2 = f :=
  ⟨rfl, fun _ _ => rfl⟩

end Caribou
