import Verif.Lemmas.StoredTensors
import Verif.Props.HyperComponent

/-!
# Property C104: storing or recomputing the tensors
-/

set_option autoImplicit false

namespace Caribou

open Spec HyperComponent BenchComponent

variable {T : SolidType} {N M : ℕ}

/-- **C104 (forces).** Through every sequence of calls the three components of the benchmark return, or fail to return, like the
component of the library, and give the same forces and the same energies. -/
theorem C104_forces (v : Storage) (solver : (Dof N → Dof N → ℝ) → List ℝ) (mstate : Option (CoordId → Fin N → Fin 3 → ℝ))
    (material : Option MaterialComponent) (idx : Fin M → Fin T.numNodes → Fin N) (X : Option (Fin N → Fin 3 → ℝ))
    (ops : List (Op N)) :
    SameEnd (fun l l' => Out.mechanical l = Out.mechanical l')
      ((BenchComponent.created mstate material idx X).trace v solver ops)
      ((HyperComponent.created (T := T) mstate material idx X).trace solver ops) :=
  trace_mechanical v solver ops (BenchComponent.created mstate material idx X) 0 []

/-- **C104 (recomputed tensors).** The component which recomputes everything returns what the component of the library returns,
through every sequence of calls. -/
theorem C104_recompute (solver : (Dof N → Dof N → ℝ) → List ℝ) (mstate : Option (CoordId → Fin N → Fin 3 → ℝ))
    (material : Option MaterialComponent) (idx : Fin M → Fin T.numNodes → Fin N) (X : Option (Fin N → Fin 3 → ℝ))
    (ops : List (Op N)) :
    (BenchComponent.created mstate material idx X).trace .recomputeF solver ops =
      (HyperComponent.created (T := T) mstate material idx X).trace solver ops :=
  trace_recompute solver ops (BenchComponent.created mstate material idx X)

/-- **C104 (partial).** The components which store tensors return what the component of the library returns, through every
sequence of calls in which the stiffness is used only after a force evaluation, with nothing it depends on written in between.
Missing: the other sequences, see `C104_init_violated`, `C104_positions_violated` and `C104_parameters_violated`. -/
theorem C104_partial (v : Storage) (solver : (Dof N → Dof N → ℝ) → List ℝ) (mstate : Option (CoordId → Fin N → Fin 3 → ℝ))
    (material : Option MaterialComponent) (idx : Fin M → Fin T.numNodes → Fin N) (X : Option (Fin N → Fin 3 → ℝ))
    (ops : List (Op N)) (ho : Evaluates v .stale ops) :
    (BenchComponent.created mstate material idx X).trace v solver ops =
      (HyperComponent.created (T := T) mstate material idx X).trace solver ops :=
  trace_rel (p := .stale) solver ops (K := 0) (ev := []) ⟨fun _ => rfl, fun _ => rfl, fun _ => rfl, trivial⟩ ho

/-- **C104 (partial, after `init`).** For the component which stores only the deformation gradient the stiffness may be used right
after `init`, when the positions are those of the nodes of the elements, which are not degenerate. -/
theorem C104_storeF_init_partial (solver : (Dof N → Dof N → ℝ) → List ℝ) (c : CoordId → Fin N → Fin 3 → ℝ)
    (material : Option MaterialComponent) (idx : Fin M → Fin T.numNodes → Fin N) (X : Option (Fin N → Fin 3 → ℝ))
    (hX : ∀ Y, X = some Y → Y = c .position)
    (hreg : ∀ e, ∀ g ∈ T.gauss, (T.elem.jacobian (fun i => c .position (idx e i)) g.position : Mat3).det ≠ 0)
    (ops : List (Op N)) (ho : Evaluates .storeF (.assembled .position) ops) :
    (BenchComponent.created (some c) material idx X).trace .storeF solver (.init :: ops) =
      (HyperComponent.created (T := T) (some c) material idx X).trace solver (.init :: ops) := by
  have hen : elementNodes X c = c .position := by
    cases X with
    | none => rfl
    | some Y => exact hX Y rfl
  have hfr : Fresh .storeF ((BenchComponent.created (T := T) (some c) material idx X).reset c) := by
    intro c' m q hc _ hq e g hg
    have hc' : c' = c := (Option.some.inj hc).symm
    subst hc'
    have hq' := (Option.some.inj hq).symm
    subst hq'
    obtain ⟨g0, hg0, rfl⟩ := List.mem_map.1 hg
    have h1 := gaussNodeOf_grad T.elem (fun i => c' .position (idx e i)) g0 (hreg e g0 hg0)
    have h2 : deformationGradient (benchNodeOf T.elem (fun i => elementNodes X c' (idx e i)) g0).dN
        (fun i => c' .position (idx e i)) = 1 := by
      rw [hen]
      exact h1
    simp only [Storage.read, evaluateTensors]
    have h3 : deformationGradient (benchNodeOf T.elem (fun i => elementNodes
        (BenchComponent.created (T := T) (some c') material idx X).topologyNodes c'
          ((BenchComponent.created (T := T) (some c') material idx X).idx e i)) g0).dN (fun i => c'
        ((BenchComponent.created (T := T) (some c') material idx X).reset c').xId
        (((BenchComponent.created (T := T) (some c') material idx X).reset c').idx e i)) = 1 := h2
    rw [h3]
    rfl
  have hl : HyperComponent.created (T := T) (some c) material idx X =
      (BenchComponent.created (some c) material idx X).lib 0 [] := rfl
  rw [hl]
  simp only [BenchComponent.trace, HyperComponent.trace]
  rcases init_lib .storeF (BenchComponent.created (T := T) (some c) material idx X) 0 [] with ⟨h1, h2⟩ | ⟨b', K', c', h1, h2, h3, h4⟩
  · simp only [BenchComponent.call, h1, HyperComponent.call, step, h2]
  · simp only [BenchComponent.call, h1, HyperComponent.call, step, h2]
    have hcc : c' = c := (Option.some.inj h3).symm
    subst hcc
    have hk : b'.K = K' := h4.fresh rfl hfr fun _ => rfl
    have hR : Rel .storeF (.assembled .position) b' K' [] := by
      refine ⟨fun _ => hk, ?_, ?_, h4.xId, ?_, hk⟩
      · rw [h4.mstate]
        intro h
        exact absurd (h : some c' = none) (Option.some_ne_none c')
      · rw [h4.ev]; exact fun _ => rfl
      · cases material with
        | none => exact .inl (h4.keepsDegenerate.2 (.inl rfl))
        | some m =>
          exact .inr ⟨h4.keepsFresh hfr, (h4.flag (fun h => absurd (h : some m = none) (Option.some_ne_none m))).1⟩
    rw [trace_rel solver ops hR ho]

/-- The forces of a component of the benchmark as a function of the positions. -/
noncomputable def Spec.benchForceAt (v : Storage) (b : BenchComponent T N M) (id : CoordId) (x : Fin N → Fin 3 → ℝ) :
    Fin N → Fin 3 → ℝ :=
  ({ b with mstate := b.mstate.map fun c => Function.update c id x }.addForce v id 0).2

/-- **C104 (stored tangent).** After a force evaluation the components which store tensors apply the derivative of the forces at
the positions of that evaluation, whatever is written in the position vectors before the stiffness is used; the component of the
library does not (`C87_positions_violated`). -/
theorem C104_stored_tangent (v : Storage) (hv : v ≠ .recomputeF) (b : BenchComponent T N M) (c : CoordId → Fin N → Fin 3 → ℝ)
    (m : MaterialComponent) (q : Fin M → List (BenchNode T.numNodes)) (hc : b.mstate = some c) (hm : b.material = some m)
    (hq : b.nodes = some q) (hM : 0 < M) (hinj : ∀ e, Function.Injective (b.idx e)) (id : CoordId)
    (hpos : m.kind = .neoHookean → ∀ e, ∀ g ∈ q e, 0 < (deformationGradient g.dN fun i => c id (b.idx e i)).det)
    (f : Fin N → Fin 3 → ℝ) (c' : CoordId → Fin N → Fin 3 → ℝ) (solver : (Dof N → Dof N → ℝ) → List ℝ) :
    ∃ L, IsTangent (benchForceAt v b id) (c id) L ∧ ∀ (k : ℝ) (dx df : Dof N → ℝ), ∃ b' r,
      BenchComponent.call v solver { (b.addForce v id f).1 with mstate := some c' } (.addDForce k dx df) = .ok (b', .product r) ∧
        ∀ p a, r (p, a) = df (p, a) + k * L (fun s b => dx (s, b)) p a := by
  obtain ⟨h1, h2⟩ := addForce_lib v b 0 [] id f
  obtain ⟨h3, h4, h5⟩ := h2.full c m q hc hm hq hM.ne'
  have ht := isTangent_stored (s := b.lib 0 []) (id := id) (x := c id) (c := c) (m := m)
    (q := fun e => (q e).map BenchNode.toQ) hc hm (by simp [lib, hq]) hM hinj (by
      intro hk q' hq' e g hg
      simp only [lib, hq, Option.map_some, Option.some.injEq] at hq'
      subst hq'
      obtain ⟨g0, hg0, rfl⟩ := List.mem_map.1 hg
      exact hpos hk e g0 hg0)
  have hf : forceAt (b.lib 0 []) id = benchForceAt v b id := by
    funext x
    have e1 : (b.lib 0 []).setPositions id x =
        BenchComponent.lib { b with mstate := b.mstate.map fun c => Function.update c id x } 0 [] := rfl
    unfold forceAt benchForceAt
    rw [e1, (addForce_lib v _ 0 [] id 0).1]
  rw [hf] at ht
  refine ⟨_, ht, ?_⟩
  intro k dx df
  obtain ⟨b1, hb1⟩ : ∃ b1, b1 = (b.addForce v id f).1 := ⟨_, rfl⟩
  rw [← hb1] at h2 h3 h4 h5 ⊢
  have hcall : BenchComponent.call v solver { b1 with mstate := some c' } (.addDForce k dx df) =
      .ok ({ b1 with
        mstate := some c'
        material := some m.beforeUpdate.beforeUpdate
        K := v.storedK (dataLaw m.kind m.young m.poisson) b1.idx
          (fun e => (q e).map fun g => v.write g (evaluateTensors (dataLaw m.kind m.young m.poisson) g fun i => c id (b.idx e i)))
          (c' b1.xId)
        stiffnessUpToDate := true
        eigenvaluesUpToDate := false }, .product (applyStored k (v.storedK (dataLaw m.kind m.young m.poisson) b1.idx
          (fun e => (q e).map fun g => v.write g (evaluateTensors (dataLaw m.kind m.young m.poisson) g fun i => c id (b.idx e i)))
          (c' b1.xId)) dx df)) := by
    simp only [BenchComponent.call, BenchComponent.refresh, h3, Bool.false_eq_true, if_false, BenchComponent.update,
      BenchComponent.updateAt, h4, h5, current_beforeUpdate]
    rfl
  refine ⟨_, _, hcall, ?_⟩
  intro p a
  have hK : v.storedK (dataLaw m.kind m.young m.poisson) b1.idx
      (fun e => (q e).map fun g => v.write g (evaluateTensors (dataLaw m.kind m.young m.poisson) g fun i => c id (b.idx e i)))
      (c' b1.xId) = HyperMesh.storedK ⟨b.idx, fun e => (q e).map BenchNode.toQ⟩ (dataLaw m.kind m.young m.poisson) (c id) := by
    have hmove : ∀ (qq : Fin M → List (BenchNode T.numNodes)) (y z : Fin N → Fin 3 → ℝ),
        v.storedK (dataLaw m.kind m.young m.poisson) b1.idx qq y = v.storedK (dataLaw m.kind m.young m.poisson) b1.idx qq z := by
      intro qq y z
      cases v with
      | recomputeF => exact absurd rfl hv
      | storeF => rfl
      | storeFAndS => rfl
    rw [hmove _ (c' b1.xId) (c id), h2.idx, storedK_fresh v _ b.idx _ (c id)]
    · congr 2
      funext e
      simp [List.map_map, Function.comp_def]
    · intro e g hg
      obtain ⟨g0, _, rfl⟩ := List.mem_map.1 hg
      rw [evaluate_write]
      exact read_write v _ g0 _
  rw [hK, storedOperator_eq, applyStored_eq]
  simp only [lib]
  ring

/-! The witnesses: one canonical tetrahedron of a Saint Venant-Kirchhoff material with `E = 1` and `ν = 0`, and the coefficient of
the first axis of the second node. -/

/-- A new component of the benchmark on the canonical tetrahedron, given by a mesh of SOFA. -/
noncomputable def benchTetra : BenchComponent .tetra1 4 1 :=
  BenchComponent.created (some fun _ => scaledTetra 1) (some ⟨.saintVenantKirchhoff, 1, 0, none⟩) (fun _ i => i) none

/-- The integration point of the canonical tetrahedron. -/
noncomputable def benchPoint : BenchNode 4 := benchNodeOf (Caribou.tetra1 (K := ℝ)) (scaledTetra 1) ⟨![1/4, 1/4, 1/4], 1/6⟩

theorem benchPoint_jacobian : ((Caribou.tetra1 (K := ℝ)).jacobian (scaledTetra 1) ![1/4, 1/4, 1/4] : Mat3) = 1 := by
  have h := scaled_jacobian 1 ![1/4, 1/4, 1/4]
  rw [one_smul] at h
  exact h

theorem benchPoint_dN : benchPoint.dN 1 = ![1, 0, 0] := by
  have h : benchPoint.dN = (Matrix.of ((Caribou.tetra1 (K := ℝ)).dL ![1/4, 1/4, 1/4])) := by
    simp only [benchPoint, benchNodeOf, benchPoint_jacobian, inv_one, Matrix.transpose_one, Matrix.one_mul, Matrix.transpose_transpose]
    rfl
  rw [h]
  funext a
  fin_cases a <;> simp [Caribou.tetra1, Matrix.of_apply]

theorem benchPoint_measure : benchPoint.detJ * benchPoint.weight = 1 / 6 := by
  simp only [benchPoint, benchNodeOf, benchPoint_jacobian]
  simp

theorem benchPoint_gradient (τ : ℝ) : deformationGradient benchPoint.dN (scaledTetra τ) = τ • (1 : Mat3) := by
  have h1 : deformationGradient benchPoint.dN (scaledTetra 1) = 1 :=
    gaussNodeOf_grad (Caribou.tetra1 (K := ℝ)) (scaledTetra 1) ⟨![1/4, 1/4, 1/4], 1/6⟩ (by rw [benchPoint_jacobian]; simp)
  rw [← h1]
  ext a b
  simp only [defGrad_apply, Matrix.smul_apply, smul_eq_mul, Finset.mul_sum, scaledTetra]
  exact Finset.sum_congr rfl fun i _ => by ring

/-- The coefficient which the assembly of one integration point `g` gives. -/
theorem block_coefficient (law : Material) (g : BenchNode 4) (t : Tensors) (hg : g.dN 1 = ![1, 0, 0])
    (hw : g.detJ * g.weight = 1 / 6) (h1 : t.F 0 1 = 0) (h2 : t.F 0 2 = 0) :
    benchBlock law g t 1 1 0 0 = 1 / 6 * (t.S 0 0 + t.F 0 0 ^ 2 * law.jacobian t.J t.C 0 0) := by
  simp only [benchBlock, hw, hg]
  simp [Matrix.mul_apply, Fin.sum_univ_succ, strainMatrix, Matrix.mulVec, dotProduct, h1, h2, Matrix.one_apply]
  ring

/-- The coefficient of the matrix which `addKToMatrix` writes. -/
theorem matrix_coefficient (v : Storage) (law : Material) (g : BenchNode 4) (x : Fin 4 → Fin 3 → ℝ) :
    addStoredToMatrix 1 (v.storedK law (fun (_ : Fin 1) i => i) (fun _ => [g]) x) 0 (1, 0) (1, 0) =
      -benchBlock law g (v.read law g x) 1 1 0 0 := by
  have h : v.storedK law (fun (_ : Fin 1) i => i) (fun _ => [g]) x (1, 0) (1, 0) = benchBlock law g (v.read law g x) 1 1 0 0 := by
    simp [Storage.storedK, Fin.sum_univ_succ, Storage.elementStiffness]
  rw [addStored_eq, ← h]
  have h2 : ∀ K : Dof 4 → Dof 4 → ℝ, fullK K (1, 0) (1, 0) = K (1, 0) (1, 0) := by
    intro K
    rw [fullK, Finset.sum_eq_single (1, 0)]
    · rw [Finset.sum_eq_single (1, 0)]
      · simp
      · intro c _ hc
        rw [if_pos (Ne.symm hc)]
        simp [hc, Ne.symm hc]
      · simp
    · intro r _ hr
      refine Finset.sum_eq_zero fun c _ => ?_
      by_cases hrc : r = c
      · subst hrc
        simp [Ne.symm hr]
      · rw [if_pos hrc]
        simp only [Prod.mk.injEq]
        rw [if_neg, if_neg] <;> simp [Ne.symm hr]
    · simp
  rw [h2]
  simp

/-- **C104 violated (after `init`).** The component which stores all the tensors assembles in `init`, and uses until the first
force evaluation, the stiffness of an identity stress: it is not that of the component of the library, on a body at rest. -/
theorem C104_init_violated (solver : (Dof 4 → Dof 4 → ℝ) → List ℝ) :
    benchTetra.trace .storeFAndS solver [.init, .addKToMatrix 1 0] ≠
      (oneTetra fun _ => scaledTetra 1).trace solver [.init, .addKToMatrix 1 0] := by
  intro h
  rw [show (oneTetra fun _ => scaledTetra 1).trace solver [.init, .addKToMatrix 1 0] =
    benchTetra.trace .recomputeF solver [.init, .addKToMatrix 1 0] from (C104_recompute solver _ _ _ _ _).symm] at h
  have e : ∀ v, benchTetra.trace v solver [.init, .addKToMatrix 1 0] = .ok [.nothing, .matrix
      (addStoredToMatrix 1 (v.storedK (dataLaw .saintVenantKirchhoff 1 0) (fun (_ : Fin 1) i => i) (fun _ => [benchPoint])
        (scaledTetra 1)) 0)] := fun v => rfl
  rw [e, e] at h
  simp only [Outcome.ok.injEq, List.cons.injEq, Out.matrix.injEq, and_true, true_and] at h
  have h1 := congrFun (congrFun h (1, 0)) (1, 0)
  rw [matrix_coefficient, matrix_coefficient] at h1
  have hg := benchPoint_gradient 1
  rw [one_smul] at hg
  rw [block_coefficient _ _ _ benchPoint_dN benchPoint_measure rfl rfl,
    block_coefficient _ _ _ benchPoint_dN benchPoint_measure (by simp [Storage.read, hg]) (by simp [Storage.read, hg]),
    show Storage.storeFAndS.read (dataLaw .saintVenantKirchhoff 1 0) benchPoint (scaledTetra 1) = ⟨1, 0, 1, 1⟩ from rfl] at h1
  simp [Storage.read, hg, dataLaw, MaterialKind.law, saintVenantKirchhoff, greenStrain, lameMu, lameL] at h1

/-- **C104 violated (positions).** The positions are written between the force evaluation and the use of the stiffness: the
components which store tensors keep the stiffness of the evaluation, that of the library has the one of the new positions. -/
theorem C104_positions_violated (v : Storage) (hv : v ≠ .recomputeF) (solver : (Dof 4 → Dof 4 → ℝ) → List ℝ) :
    benchTetra.trace v solver [.init, .addForce .position 0, .setPositions .position (scaledTetra 2), .addKToMatrix 1 0] ≠
      (oneTetra fun _ => scaledTetra 1).trace solver
        [.init, .addForce .position 0, .setPositions .position (scaledTetra 2), .addKToMatrix 1 0] := by
  intro h
  rw [show (oneTetra fun _ => scaledTetra 1).trace solver
      [.init, .addForce .position 0, .setPositions .position (scaledTetra 2), .addKToMatrix 1 0] =
    benchTetra.trace .recomputeF solver [.init, .addForce .position 0, .setPositions .position (scaledTetra 2), .addKToMatrix 1 0]
    from (C104_recompute solver _ _ _ _ _).symm] at h
  have e : ∀ v, benchTetra.trace v solver
      [.init, .addForce .position 0, .setPositions .position (scaledTetra 2), .addKToMatrix 1 0] = .ok [.nothing,
      .forces (benchTetra.reset (fun _ => scaledTetra 1)|>.addForce v .position 0).2, .nothing, .matrix
      (addStoredToMatrix 1 (v.storedK (dataLaw .saintVenantKirchhoff 1 0) (fun (_ : Fin 1) i => i)
        (fun _ => [v.write benchPoint (evaluateTensors (dataLaw .saintVenantKirchhoff 1 0) benchPoint (scaledTetra 1))])
        (scaledTetra 2)) 0)] := by
    intro v
    cases v <;> rfl
  rw [e, e] at h
  simp only [Outcome.ok.injEq, List.cons.injEq, Out.matrix.injEq, and_true, true_and] at h
  have h1 := congrFun (congrFun h.2 (1, 0)) (1, 0)
  rw [matrix_coefficient, matrix_coefficient] at h1
  have hg := benchPoint_gradient 1
  have hg2 := benchPoint_gradient 2
  rw [one_smul] at hg
  have hr : v.read (dataLaw .saintVenantKirchhoff 1 0) (v.write benchPoint (evaluateTensors (dataLaw .saintVenantKirchhoff 1 0)
      benchPoint (scaledTetra 1))) (scaledTetra 2) = evaluateTensors (dataLaw .saintVenantKirchhoff 1 0) benchPoint (scaledTetra 1) := by
    cases v with
    | recomputeF => exact absurd rfl hv
    | storeF => rfl
    | storeFAndS => rfl
  have hm : ∀ t, (v.write benchPoint t).detJ * (v.write benchPoint t).weight = 1 / 6 := by
    intro t
    cases v <;> exact benchPoint_measure
  rw [hr, block_coefficient _ _ _ (by rw [write_dN]; exact benchPoint_dN) (hm _) (by simp [evaluateTensors, hg])
    (by simp [evaluateTensors, hg]),
    show ∀ t, Storage.recomputeF.write benchPoint t = benchPoint from fun _ => rfl,
    block_coefficient _ _ _ benchPoint_dN benchPoint_measure (by simp [Storage.read, Storage.write, hg2])
      (by simp [Storage.read, Storage.write, hg2])] at h1
  simp [Storage.read, Storage.write, evaluateTensors, hg, hg2, dataLaw, MaterialKind.law, saintVenantKirchhoff, greenStrain, lameMu,
    lameL] at h1
  norm_num at h1

/-- **C104 violated (parameters).** The Young modulus is written between the force evaluation and the use of the stiffness: the
component which stores all the tensors adds the old stress to the new elasticity. -/
theorem C104_parameters_violated (solver : (Dof 4 → Dof 4 → ℝ) → List ℝ) :
    benchTetra.trace .storeFAndS solver
        [.init, .setPositions .position (scaledTetra 2), .addForce .position 0, .setYoung 2, .addKToMatrix 1 0] ≠
      (oneTetra fun _ => scaledTetra 1).trace solver
        [.init, .setPositions .position (scaledTetra 2), .addForce .position 0, .setYoung 2, .addKToMatrix 1 0] := by
  intro h
  rw [show (oneTetra fun _ => scaledTetra 1).trace solver
      [.init, .setPositions .position (scaledTetra 2), .addForce .position 0, .setYoung 2, .addKToMatrix 1 0] =
    benchTetra.trace .recomputeF solver
      [.init, .setPositions .position (scaledTetra 2), .addForce .position 0, .setYoung 2, .addKToMatrix 1 0]
    from (C104_recompute solver _ _ _ _ _).symm] at h
  have e : ∀ v, ∃ f, benchTetra.trace v solver
      [.init, .setPositions .position (scaledTetra 2), .addForce .position 0, .setYoung 2, .addKToMatrix 1 0] = .ok [.nothing,
      .nothing, .forces f, .nothing, .matrix
      (addStoredToMatrix 1 (v.storedK (dataLaw .saintVenantKirchhoff 2 0) (fun (_ : Fin 1) i => i)
        (fun _ => [v.write benchPoint (evaluateTensors (dataLaw .saintVenantKirchhoff 1 0) benchPoint (scaledTetra 2))])
        (scaledTetra 2)) 0)] := by
    intro v
    cases v <;> exact ⟨_, rfl⟩
  obtain ⟨f1, e1⟩ := e .storeFAndS
  obtain ⟨f2, e2⟩ := e .recomputeF
  rw [e1, e2] at h
  simp only [Outcome.ok.injEq, List.cons.injEq, Out.matrix.injEq, and_true, true_and] at h
  have h1 := congrFun (congrFun h.2 (1, 0)) (1, 0)
  rw [matrix_coefficient, matrix_coefficient] at h1
  have hg2 := benchPoint_gradient 2
  have hm : ∀ t, (Storage.storeFAndS.write benchPoint t).detJ * (Storage.storeFAndS.write benchPoint t).weight = 1 / 6 :=
    fun _ => benchPoint_measure
  rw [block_coefficient _ _ _ (by rw [write_dN]; exact benchPoint_dN) (hm _)
    (by simp [Storage.read, Storage.write, evaluateTensors, hg2]) (by simp [Storage.read, Storage.write, evaluateTensors, hg2]),
    show ∀ t, Storage.recomputeF.write benchPoint t = benchPoint from fun _ => rfl,
    block_coefficient _ _ _ benchPoint_dN benchPoint_measure (by simp [Storage.read, Storage.write, hg2])
      (by simp [Storage.read, Storage.write, hg2])] at h1
  simp [Storage.read, Storage.write, evaluateTensors, hg2, dataLaw, MaterialKind.law, saintVenantKirchhoff, greenStrain, lameMu,
    lameL] at h1
  norm_num at h1

/-! Examples: sequences of calls which meet the hypotheses, on the canonical tetrahedron. -/

/-- The forces are evaluated, the free positions are written, the stiffness is used, the positions are written, the stiffness is
used again and its eigenvalues are asked: all the components agree. -/
example (v : Storage) (solver : (Dof 4 → Dof 4 → ℝ) → List ℝ) (x : Fin 4 → Fin 3 → ℝ) (dx : Dof 4 → ℝ) :
    benchTetra.trace v solver [.init, .setPositions .position (scaledTetra 2), .addForce .position 0, .setPositions .freePosition x,
        .addDForce 1 dx 0, .setPositions .position x, .addKToMatrix 1 0, .eigenvalues] =
      (oneTetra fun _ => scaledTetra 1).trace solver [.init, .setPositions .position (scaledTetra 2), .addForce .position 0,
        .setPositions .freePosition x, .addDForce 1 dx 0, .setPositions .position x, .addKToMatrix 1 0, .eigenvalues] :=
  C104_partial v solver _ _ _ _ _ ⟨_, rfl, _, rfl, _, rfl, _, rfl, _, rfl, _, rfl, _, rfl, _, rfl, trivial⟩

/-- With the deformation gradient alone a parameter may change between the evaluation and the use of the stiffness. -/
example (solver : (Dof 4 → Dof 4 → ℝ) → List ℝ) :
    benchTetra.trace .storeF solver
        [.init, .setPositions .position (scaledTetra 2), .addForce .position 0, .setYoung 2, .addKToMatrix 1 0] =
      (oneTetra fun _ => scaledTetra 1).trace solver
        [.init, .setPositions .position (scaledTetra 2), .addForce .position 0, .setYoung 2, .addKToMatrix 1 0] :=
  C104_partial .storeF solver _ _ _ _ _ ⟨_, rfl, _, rfl, _, rfl, _, rfl, _, rfl, trivial⟩

/-- The sequences of the three violations are not such sequences. -/
example : ¬ Evaluates (N := 4) .storeFAndS .stale [.init, .addKToMatrix 1 0] ∧
    ¬ Evaluates (N := 4) .storeF .stale [.init, .addForce .position 0, .setPositions .position (scaledTetra 2), .addKToMatrix 1 0] ∧
    ¬ Evaluates (N := 4) .storeFAndS .stale
      [.init, .setPositions .position (scaledTetra 2), .addForce .position 0, .setYoung 2, .addKToMatrix 1 0] := by
  simp [Evaluates, Phase.next, Phase.writePositions, Phase.writeParameter]

/-- Right after `init` the component which stores the deformation gradient agrees with the library, and so do its eigenvalues. -/
example (solver : (Dof 4 → Dof 4 → ℝ) → List ℝ) :
    benchTetra.trace .storeF solver [.init, .addKToMatrix 1 0, .eigenvalues] =
      (oneTetra fun _ => scaledTetra 1).trace solver [.init, .addKToMatrix 1 0, .eigenvalues] :=
  C104_storeF_init_partial solver _ _ _ _ (fun _ h => absurd h (by simp))
    (fun e g _ => by
      have h := scaled_jacobian 1 g.position
      rw [one_smul] at h
      show ((Caribou.tetra1 (K := ℝ)).jacobian (scaledTetra 1) g.position : Mat3).det ≠ 0
      rw [show ((Caribou.tetra1 (K := ℝ)).jacobian (scaledTetra 1) g.position : Mat3) = 1 from h]
      simp) _
    ⟨_, rfl, _, rfl, trivial⟩

/-- The forces and the energies of the sequence of `C104_init_violated`, followed by an evaluation, agree. -/
example (solver : (Dof 4 → Dof 4 → ℝ) → List ℝ) (f : Fin 4 → Fin 3 → ℝ) :
    SameEnd (fun l l' => Out.mechanical l = Out.mechanical l')
      (benchTetra.trace .storeFAndS solver [.init, .addKToMatrix 1 0, .addForce .position f, .potentialEnergy .position])
      ((oneTetra fun _ => scaledTetra 1).trace solver
        [.init, .addKToMatrix 1 0, .addForce .position f, .potentialEnergy .position]) :=
  C104_forces .storeFAndS solver _ _ _ _ _

/-- The tetrahedron stretched twice, with its integration point. -/
noncomputable def stretchedBench : BenchComponent .tetra1 4 1 :=
  { benchTetra with mstate := some fun _ => scaledTetra 2, nodes := some fun _ => [benchPoint] }

/-- Its stored tangent, applied after the positions went back to rest. -/
example (solver : (Dof 4 → Dof 4 → ℝ) → List ℝ) :
    ∃ L, IsTangent (benchForceAt .storeFAndS stretchedBench .position) (scaledTetra 2) L ∧
      ∀ (k : ℝ) (dx df : Dof 4 → ℝ), ∃ b' r, BenchComponent.call .storeFAndS solver
        { (stretchedBench.addForce .storeFAndS .position 0).1 with mstate := some fun _ => scaledTetra 1 } (.addDForce k dx df) =
          .ok (b', .product r) ∧
        ∀ p a, r (p, a) = df (p, a) + k * L (fun s b => dx (s, b)) p a :=
  C104_stored_tangent .storeFAndS (by decide) stretchedBench (fun _ => scaledTetra 2) ⟨.saintVenantKirchhoff, 1, 0, none⟩
    (fun _ => [benchPoint]) rfl rfl rfl Nat.one_pos (fun _ => Function.injective_id) .position
    (fun h => absurd h (by decide)) 0 (fun _ => scaledTetra 1) solver

end Caribou
