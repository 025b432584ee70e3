import Verif.Spec.Symmetry
import Verif.Props.LinearStatics
import Verif.Props.NodeOrder
import Verif.Props.Similarity

/-!
# C137: symmetric problems have symmetric solutions
-/

set_option autoImplicit false
set_option linter.all false

namespace Caribou

open Spec Matrix

/-! ### Hyperelastic bodies -/

/-- **C137 (hyperelastic bodies).** A symmetric body: moved positions give moved forces, and the same energy. The image of an equilibrium under moved loads is an equilibrium. -/
theorem C137_hyperelastic (T : SolidType) {N M : ℕ} (idx : Fin M → Fin T.numNodes → Fin N) (X : Fin N → Fin 3 → ℝ) {π : Equiv.Perm (Fin N)} {Q : Mat3} {c : Fin 3 → ℝ}
    (h : BodySymmetry T.elem.node idx X π Q c) {mat : Material} (hi : IsotropicLaw mat) (x0 x f : Fin N → Fin 3 → ℝ) :
    (HyperMesh.initialize T.elem T.gauss idx X).addForce mat (placed π Q c x) (carried π Q f) =
      carried π Q ((HyperMesh.initialize T.elem T.gauss idx X).addForce mat x f) ∧
    (HyperMesh.initialize T.elem T.gauss idx X).potentialEnergy mat (placed π Q c x0) (placed π Q c x) = (HyperMesh.initialize T.elem T.gauss idx X).potentialEnergy mat x0 x := by
  obtain ⟨σ, hσ⟩ := h.elements
  choose ρ hρ hidx using hσ
  have hs : ∀ y : Fin 3 → ℝ, similar 1 Q c y = Q.mulVec y + c := fun y => by rw [similar, one_smul]
  obtain ⟨a1, a2⟩ := C99_hyperelastic T idx X x0 x f (mat' := mat) (m := 1) (fun J C => ⟨(one_mul _).symm, (one_smul _ _).symm⟩) hi one_pos h.isometry c
  simp only [one_pow, one_mul, mul_one, one_smul, hs] at a1 a2
  obtain ⟨b1, b2, -⟩ := C98_numbering T idx π σ.symm (fun p => Q.mulVec (X p) + c) mat (fun p => Q.mulVec (x0 p) + c) (fun p => Q.mulVec (x p) + c) fun p => Q.mulVec (f p)
  have e1 : (fun e i => π (idx (σ.symm e) i)) = fun e i => idx e (ρ (σ.symm e) i) := by
    funext e i
    rw [← hidx (σ.symm e) i, Equiv.apply_symm_apply]
  have e2 : (fun p => Q.mulVec (X (π.symm p)) + c) = X := by
    funext p
    rw [← h.nodes, Equiv.apply_symm_apply]
  rw [e1] at b1 b2
  simp only [e2] at b1 b2
  obtain ⟨c1, c2⟩ := C98_forces T idx (fun e => ρ (σ.symm e)) (fun e => hρ _) X mat (fun p => Q.mulVec (x0 (π.symm p)) + c) (fun p => Q.mulVec (x (π.symm p)) + c) fun p => Q.mulVec (f (π.symm p))
  constructor
  · funext p
    have := b1 (π.symm p)
    rw [c1, Equiv.apply_symm_apply, a1] at this
    exact this
  · exact c2.symm.trans (b2.trans a2)

/-! ### Linear elastic bodies -/

theorem class_listing (C : CorotClass) (m : IntegrationMethod) {ρ : Equiv.Perm (Fin C.nodes)} (h : Listing C.elem.node ρ) : ∃ A c, ElemSym C.elem (energyPoints C m) A c ρ := by
  obtain ⟨A, c, h⟩ := h
  refine ⟨A, c, ?_⟩
  cases C
  · exact tetra1_sym h
  · cases m
    · exact hexa1_sym h
    · refine ⟨(hexa1_sym h).dL, (hexa1_sym h).det, ?_⟩
      have hc := (cube_signed h).1
      have h0 : A.mulVec (![0, 0, 0] : Fin 3 → ℝ) + c = ![0, 0, 0] := by
        rw [hc, add_zero]
        funext a
        fin_cases a <;> simp [Matrix.mulVec, dotProduct, sum_fin3]
      simp only [energyPoints, hexaQuadrature, List.map_cons, List.map_nil, h0]
      exact List.Perm.refl _

theorem class_dsum (C : CorotClass) (ξ : Fin 3 → ℝ) (j : Fin 3) : ∑ i, C.elem.dL ξ i j = 0 := by
  cases C
  · exact SolidType.dsum .tetra1 ξ j
  · exact SolidType.dsum .hexa1 ξ j

theorem lameForm_turned {Q : Mat3} (hQ : OrthonormalCols Q) (l mu : ℝ) (G : Mat3) : lameForm l mu (symPart (Q * G * Q.transpose)) = lameForm l mu (symPart G) := by
  have hs : symPart (Q * G * Q.transpose) = Q * symPart G * Q.transpose := by
    simp only [symPart, Matrix.transpose_mul, Matrix.transpose_transpose, Matrix.mul_smul, Matrix.smul_mul, Matrix.mul_add, Matrix.add_mul, Matrix.mul_assoc]
  have hd : ∀ S : Mat3, ddot S S = (S * S.transpose).trace := by
    intro S
    simp only [ddot, Matrix.trace, Matrix.diag, Matrix.mul_apply, Matrix.transpose_apply]
  have ht : ∀ S : Mat3, (Q * S * Q.transpose).trace = S.trace := by
    intro S
    rw [Matrix.trace_mul_comm, ← Matrix.mul_assoc, hQ, Matrix.one_mul]
  have hp : (Q * symPart G * Q.transpose) * (Q * symPart G * Q.transpose).transpose = Q * (symPart G * (symPart G).transpose) * Q.transpose := by
    rw [Matrix.transpose_mul, Matrix.transpose_mul, Matrix.transpose_transpose]
    calc Q * symPart G * Q.transpose * (Q * ((symPart G).transpose * Q.transpose)) = Q * symPart G * (Q.transpose * Q) * ((symPart G).transpose * Q.transpose) := by simp only [Matrix.mul_assoc]
      _ = _ := by
        rw [hQ, Matrix.mul_one]
        simp only [Matrix.mul_assoc]
  rw [hs, lameForm, lameForm, hd, hd, ht, hp, ht]

theorem gauss_sum {gauss : List (GaussNode 3)} {T : GaussNode 3 → GaussNode 3} (hp : (gauss.map T).Perm gauss) {f f' : GaussNode 3 → ℝ} (h : ∀ g ∈ gauss, f (T g) = f' g) :
    (gauss.map f).sum = (gauss.map f').sum := by
  rw [← (hp.map f).sum_eq, List.map_map]
  exact congrArg List.sum (List.map_congr_left h)

theorem gradient_carried {A Q JZ JW JY JU : Mat3} (hQ : OrthonormalCols Q) (hA : |A.det| = 1) (jz : JZ * A = Q * JY) (jw : JW * A = Q * JU) (l mu : ℝ) (z0 : 0 ≤ JZ.det) (y0 : 0 ≤ JY.det) (w : ℝ) :
    JZ.det * w * lameForm l mu (symPart (JW * JZ⁻¹)) = JY.det * w * lameForm l mu (symPart (JU * JY⁻¹)) := by
  have hQd : |Q.det| = 1 := ortho_abs hQ
  have hd := congrArg Matrix.det jz
  rw [Matrix.det_mul, Matrix.det_mul] at hd
  have habs := congrArg abs hd
  rw [abs_mul, abs_mul, hA, hQd, mul_one, one_mul, abs_of_nonneg z0, abs_of_nonneg y0] at habs
  rw [habs]
  rcases y0.eq_or_lt with h0 | h0
  · rw [← h0, zero_mul, zero_mul, zero_mul]
  · have hAu : IsUnit A.det := isUnit_iff_ne_zero.2 fun h => by rw [h, abs_zero] at hA; exact zero_ne_one hA
    have eZ : JZ = Q * JY * A⁻¹ := by rw [← jz, Matrix.mul_nonsing_inv_cancel_right _ _ hAu]
    have eW : JW = Q * JU * A⁻¹ := by rw [← jw, Matrix.mul_nonsing_inv_cancel_right _ _ hAu]
    have hQi : Q⁻¹ = Q.transpose := Matrix.inv_eq_left_inv hQ
    have key : JW * JZ⁻¹ = Q * (JU * JY⁻¹) * Q.transpose := by
      rw [eW, eZ, Matrix.mul_inv_rev, Matrix.mul_inv_rev, Matrix.nonsing_inv_nonsing_inv _ hAu, hQi]
      calc Q * JU * A⁻¹ * (A * (JY⁻¹ * Q.transpose)) = Q * JU * (A⁻¹ * A) * (JY⁻¹ * Q.transpose) := by simp only [Matrix.mul_assoc]
        _ = _ := by
          rw [Matrix.nonsing_inv_mul _ hAu, Matrix.mul_one]
          simp only [Matrix.mul_assoc]
    rw [key, lameForm_turned hQ]

theorem jacobian_carried {n : ℕ} {E : Elem ℝ 3 n} (hE : ∀ ξ j, ∑ i, E.dL ξ i j = 0) {gauss : List (GaussNode 3)} {A : Mat3} {b : Fin 3 → ℝ} {ρ : Equiv.Perm (Fin n)}
    (h : ElemSym E gauss A b ρ) {Q : Mat3} (c : Fin 3 → ℝ) (Y Z : Fin n → Fin 3 → ℝ) (hZ : ∀ i, Z (ρ i) = Q.mulVec (Y i) + c) (ξ : Fin 3 → ℝ) :
    (E.jacobian Z (A.mulVec ξ + b) : Mat3) * A = Q * (E.jacobian Y ξ : Mat3) := by
  rw [← h.jacobian]
  have := jacobian_similar E hE Y 1 Q c ξ
  have e : (fun i => Z (ρ i)) = fun i => similar 1 Q c (Y i) := by
    funext i
    rw [hZ, similar, one_smul]
  rw [e, this, one_smul]

/-- The energy of an element and of its image. -/
theorem element_carried {n : ℕ} {E : Elem ℝ 3 n} (hE : ∀ ξ j, ∑ i, E.dL ξ i j = 0) {gauss : List (GaussNode 3)} {A : Mat3} {b : Fin 3 → ℝ} {ρ : Equiv.Perm (Fin n)}
    (h : ElemSym E gauss A b ρ) {Q : Mat3} (hQ : OrthonormalCols Q) (c : Fin 3 → ℝ) (l mu : ℝ) (Y Z u w : Fin n → Fin 3 → ℝ) (hZ : ∀ i, Z (ρ i) = Q.mulVec (Y i) + c)
    (hw : ∀ i, w (ρ i) = Q.mulVec (u i)) (hY0 : ∀ g ∈ gauss, 0 ≤ (E.jacobian Y g.position : Mat3).det) (hZ0 : ∀ g ∈ gauss, 0 ≤ (E.jacobian Z g.position : Mat3).det) :
    strainEnergy E gauss l mu Z w = strainEnergy E gauss l mu Y u := by
  unfold strainEnergy
  have hp := h.gauss
  refine congrArg (fun t => 1 / 2 * t) (gauss_sum hp fun g hg => ?_)
  have hz := hZ0 _ (hp.subset (List.mem_map.2 ⟨g, hg, rfl⟩))
  have hy := hY0 g hg
  have jz := jacobian_carried hE h c Y Z hZ g.position
  have jw := jacobian_carried hE h 0 u w (fun i => by rw [hw, add_zero]) g.position
  dsimp only at hz ⊢
  generalize E.jacobian Z (A.mulVec g.position + b) = JZ at *
  generalize E.jacobian w (A.mulVec g.position + b) = JW at *
  generalize E.jacobian Y g.position = JY at *
  generalize E.jacobian u g.position = JU at *
  exact gradient_carried hQ h.det jz jw l mu hz hy g.weight

section

variable {N M : ℕ} {C : CorotClass} {d : CorotData} {idx : Fin M → Fin C.nodes → Fin N} {X : Fin N → Fin 3 → ℝ} {π : Equiv.Perm (Fin N)} {Q : Mat3} {c : Fin 3 → ℝ}

theorem energy_carried (h : BodySymmetry C.elem.node idx X π Q c) (hX : NotInverted C.elem (energyPoints C d.method) idx X) (U : Fin N → Fin 3 → ℝ) :
    bodyEnergy C d idx X (carried π Q U) = bodyEnergy C d idx X U := by
  obtain ⟨σ, hσ⟩ := h.elements
  unfold bodyEnergy
  rw [← Equiv.sum_comp σ]
  refine Finset.sum_congr rfl fun e _ => ?_
  obtain ⟨ρ, hρ, hi⟩ := hσ e
  obtain ⟨A, b, hs⟩ := class_listing C d.method hρ
  refine element_carried (class_dsum C) hs h.isometry c _ _ _ _ _ _ (fun i => ?_) (fun i => ?_) (hX e) (hX (σ e))
  · show X (idx (σ e) (ρ i)) = _
    rw [hi, h.nodes]
  · show carried π Q U (idx (σ e) (ρ i)) = _
    rw [hi, carried, Equiv.symm_apply_apply]

theorem carried_line (U W : Fin N → Fin 3 → ℝ) (t : ℝ) : carried π Q (U + t • W) = carried π Q U + t • carried π Q W := by
  funext p
  simp only [carried, Pi.add_apply, Pi.smul_apply, Matrix.mulVec_add, Matrix.mulVec_smul]

theorem power_carried (hQ : OrthonormalCols Q) (F V : Fin N → Fin 3 → ℝ) : power (carried π Q F) (carried π Q V) = power F V := by
  unfold power carried
  rw [Equiv.sum_comp π.symm fun p => Q.mulVec (F p) ⬝ᵥ Q.mulVec (V p)]
  refine Finset.sum_congr rfl fun p _ => ?_
  rw [Matrix.dotProduct_mulVec, Matrix.vecMul_mulVec, hQ, Matrix.vecMul_one]

theorem power_ext {f g : Fin N → Fin 3 → ℝ} (h : ∀ V, power f V = power g V) : f = g := by
  classical
  funext p a
  have := h (fun q b => if q = p ∧ b = a then 1 else 0)
  rw [power_sum, power_sum] at this
  have hs : ∀ f : Fin N → Fin 3 → ℝ, ∑ q : Dof N, f q.1 q.2 * (if q.1 = p ∧ q.2 = a then (1 : ℝ) else 0) = f p a := by
    intro f
    rw [Finset.sum_eq_single ((p, a) : Dof N)]
    · simp
    · rintro ⟨q, b⟩ _ hq
      have : ¬(q = p ∧ b = a) := fun h => hq (by rw [h.1, h.2])
      simp [this]
    · simp
  rw [hs, hs] at this
  exact this

theorem carried_surjective (hQ : OrthonormalCols Q) (V : Fin N → Fin 3 → ℝ) : ∃ W, carried π Q W = V := by
  refine ⟨fun p => Q.transpose.mulVec (V (π p)), ?_⟩
  funext p
  have : Q * Q.transpose = 1 := _root_.mul_eq_one_comm.1 hQ
  rw [carried, Matrix.mulVec_mulVec, this, Matrix.one_mulVec, Equiv.apply_symm_apply]

/-- **C137 (linear elastic bodies).** The forces which remain on a symmetric body when displacements and loads are moved by the symmetry are the moved ones. -/
theorem C137_linear (hc : d.corotated = false) (h : BodySymmetry C.elem.node idx X π Q c) (hX : NotInverted C.elem (energyPoints C d.method) idx X) (U F : Fin N → Fin 3 → ℝ) :
    netForce C d idx X (carried π Q U) (carried π Q F) = carried π Q (netForce C d idx X U F) := by
  have hw : ∀ V W, innerWork C d idx X (carried π Q V) (carried π Q W) = innerWork C d idx X V W := by
    intro V W
    have e1 := energy_line (C := C) (d := d) (idx := idx) (X := X) hc (carried π Q V) (carried π Q W) 1
    have e2 := energy_line (C := C) (d := d) (idx := idx) (X := X) hc V W 1
    rw [← carried_line, energy_carried h hX, energy_carried h hX, energy_carried h hX, e2] at e1
    linarith
  refine power_ext fun V => ?_
  obtain ⟨W, rfl⟩ := carried_surjective (π := π) h.isometry V
  rw [power_netForce hc, power_carried h.isometry, power_carried h.isometry, power_netForce hc, hw]

/-- **C137 (symmetric solutions).** A symmetric linear elastic body, held at a symmetric set of nodes which hold it well, under symmetric loads: its static solution is symmetric. -/
theorem C137_solution (hc : d.corotated = false) (hm : d.method = .regular) (h1 : 0 < d.young) (h2 : -1 < d.poisson) (h3 : d.poisson < 1 / 2) {s k : ℝ}
    (hS : Straight C.elem idx X s k) (h : BodySymmetry C.elem.node idx X π Q c) (fixed : Fin N → Bool) (hheld : WellHeld idx X fixed) (hfix : ∀ p, fixed (π p) = fixed p)
    (F : Fin N → Fin 3 → ℝ) (hF : ∀ p, F (π p) = Q.mulVec (F p)) (U : Fin N → Fin 3 → ℝ) (hU : ∀ p, fixed p = true → U p = 0)
    (hU2 : ∀ p, fixed p = false → netForce C d idx X U F p = 0) (p : Fin N) : U (π p) = Q.mulVec (U p) := by
  have hX : NotInverted C.elem (energyPoints C d.method) idx X := by
    intro e g _
    obtain ⟨c, A, hdet, -, hX⟩ := hS e
    rw [C.good.affine c A _ hX]
    exact hdet.le
  have hFc : carried π Q F = F := by
    funext p
    rw [carried, ← hF, Equiv.apply_symm_apply]
  have hfs : ∀ p, fixed (π.symm p) = fixed p := fun p => by rw [← hfix, Equiv.apply_symm_apply]
  obtain ⟨V, -, hV⟩ := C135_unique hc hm h1 h2 h3 hS fixed hheld F
  have e1 := hV U ⟨hU, hU2⟩
  have e2 := hV (carried π Q U) ⟨fun p hp => by rw [carried, hU _ ((hfs p).trans hp), Matrix.mulVec_zero], fun p hp => by
    have := C137_linear hc h hX U F
    rw [hFc] at this
    rw [this, carried, hU2 _ ((hfs p).trans hp), Matrix.mulVec_zero]⟩
  have e3 : carried π Q U (π p) = U (π p) := by rw [e2, ← e1]
  rw [← e3, carried, Equiv.symm_apply_apply]

end

/-! ### A box and its mirror image -/

/-- The corner of the hexahedron across the axis. -/
def flip3 : Fin 3 → Fin 8 → Fin 8 := ![![1, 0, 3, 2, 5, 4, 7, 6], ![3, 2, 1, 0, 7, 6, 5, 4], ![4, 5, 6, 7, 0, 1, 2, 3]]

theorem flip3_involutive : ∀ a, Function.Involutive (flip3 a) := by
  unfold Function.Involutive
  decide

theorem flip3_offset : ∀ a i b, offset3 (flip3 a i) b = if b = a then 1 - offset3 i b else offset3 i b := by decide

/-- The mirror across the axis. -/
noncomputable def mirrorMatrix (a : Fin 3) : Mat3 := Matrix.diagonal fun b => if b = a then -1 else 1

theorem mirrorMatrix_mulVec (a : Fin 3) (v : Fin 3 → ℝ) : (mirrorMatrix a).mulVec v = mirrored a v := by
  funext b
  rw [mirrorMatrix, Matrix.mulVec_diagonal, mirrored, Function.update_apply]
  split_ifs with h
  · rw [h]
    ring
  · ring

theorem mirrorMatrix_isometry (a : Fin 3) : OrthonormalCols (mirrorMatrix a) := by
  show (mirrorMatrix a).transpose * mirrorMatrix a = 1
  rw [mirrorMatrix, Matrix.diagonal_transpose, Matrix.diagonal_mul_diagonal, ← Matrix.diagonal_one]
  congr 1
  funext b
  split_ifs <;> simp

theorem hexa1_offset (i : Fin 8) (b : Fin 3) : hexa1.node i b = 2 * (offset3 i b : ℝ) - 1 := by
  fin_cases i <;> fin_cases b <;> norm_num [hexa1, offset3]

theorem flip3_mirror (a : Fin 3) (i : Fin 8) : mirrored a (hexa1.node i) = hexa1.node (flip3 a i) := by
  funext b
  rw [mirrored, Function.update_apply, hexa1_offset, hexa1_offset, hexa1_offset, flip3_offset]
  split_ifs with h
  · subst h
    push_cast
    ring
  · rfl

theorem flip3_listing (a : Fin 3) : Listing (CorotClass.elem .hexa).node (flip3_involutive a).toPerm := by
  refine ⟨mirrorMatrix a, 0, fun i => ?_⟩
  rw [mirrorMatrix_mulVec, add_zero]
  exact flip3_mirror a i

section

variable (g : Grid 3 ℝ) (hf : Fits g.n)

section

include hf

theorem nodeOf_coordinates (m : Fin 3 → ℤ) (hm : IsNode g.n m) : g.nodeCoordinatesAt ((g.nodeOf hf m hm : ℕ) : ℤ) = m := by
  obtain ⟨h1, -, h3⟩ := C23_coordinates (Or.inr (Or.inr rfl)) g hf m hm
  have e : ((g.nodeOf hf m hm : ℕ) : ℤ) = g.nodeIndexAt m := Int.toNat_of_nonneg h1
  rw [e, h3]

theorem node_isNode (p : Fin g.numberOfNodes.toNat) : IsNode g.n (g.nodeCoordinatesAt p) := (C23_index (Or.inr (Or.inr rfl)) g hf p (by omega) (by omega)).1

theorem eq_of_coordinates {p q : Fin g.numberOfNodes.toNat} (h : g.nodeCoordinatesAt p = g.nodeCoordinatesAt q) : p = q := by
  have h1 := (C23_index (Or.inr (Or.inr rfl)) g hf p (by omega) (by omega)).2
  have h2 := (C23_index (Or.inr (Or.inr rfl)) g hf q (by omega) (by omega)).2
  rw [h, h2] at h1
  exact Fin.ext (by exact_mod_cast h1.symm)

theorem cellNodes_coordinates (e : Fin g.numberOfCells.toNat) (i : Fin 8) : g.nodeCoordinatesAt ((g.cellNodes hf e i : ℕ) : ℤ) = g.cellCoordinatesAt e + offset3 i := by
  have hc := (cells_enumerated (Or.inr (Or.inr rfl)) g hf).1 e
  have ho : ∀ i a, 0 ≤ offset3 i a ∧ offset3 i a ≤ 1 := by decide
  obtain ⟨h1, -, h3⟩ := C23_coordinates (Or.inr (Or.inr rfl)) g hf (g.cellCoordinatesAt e + offset3 i) fun a => by
    have := hc a
    have := ho i a
    rw [Pi.add_apply]
    constructor <;> omega
  have e1 : ((g.cellNodes hf e i : ℕ) : ℤ) = g.nodeIndexAt (g.cellCoordinatesAt e + offset3 i) := by
    rw [cellNodes_val, nodeIndicesOf3_eq]
    exact Int.toNat_of_nonneg h1
  rw [e1, h3]

end

/-- The coordinates across the axis. -/
def acrossAxis (n : ℤ) (a : Fin 3) (m : Fin 3 → ℤ) : Fin 3 → ℤ := fun b => if b = a then n - m b else m b

theorem acrossAxis_acrossAxis (n : ℤ) (a : Fin 3) (m : Fin 3 → ℤ) : acrossAxis n a (acrossAxis n a m) = m := by
  funext b
  unfold acrossAxis
  split_ifs <;> ring

theorem mirror_isNode (a : Fin 3) {m : Fin 3 → ℤ} (hm : IsNode g.n m) : IsNode g.n (acrossAxis (g.n a) a m) := by
  intro b
  have := hm b
  unfold acrossAxis
  split_ifs with h
  · subst h
    constructor <;> omega
  · exact this

/-- The node across the axis. -/
noncomputable def mirrorNode (a : Fin 3) (p : Fin g.numberOfNodes.toNat) : Fin g.numberOfNodes.toNat := g.nodeOf hf _ (mirror_isNode g a (node_isNode g hf p))

theorem mirrorNode_coordinates (a : Fin 3) (p : Fin g.numberOfNodes.toNat) : g.nodeCoordinatesAt ((mirrorNode g hf a p : ℕ) : ℤ) = acrossAxis (g.n a) a (g.nodeCoordinatesAt p) := by
  unfold mirrorNode
  exact nodeOf_coordinates g hf _ _

theorem mirrorNode_involutive (a : Fin 3) : Function.Involutive (mirrorNode g hf a) := fun p => eq_of_coordinates g hf (by rw [mirrorNode_coordinates, mirrorNode_coordinates, acrossAxis_acrossAxis])

theorem mirrorNode_position (hn : ∀ a, 0 < g.n a) (a : Fin 3) (p : Fin g.numberOfNodes.toNat) : MirrorNodes g a p (mirrorNode g hf a p) := by
  have hp : ∀ (q : Fin g.numberOfNodes.toNat) b, g.node q b = g.anchor b + g.nodeCoordinatesAt q b * g.H b := fun q b => rfl
  have e : g.size a = g.n a * g.H a := by
    have : (g.n a : ℝ) ≠ 0 := by exact_mod_cast (hn a).ne'
    rw [Grid.H, mul_div_cancel₀ _ this]
  refine ⟨?_, fun b hb => ?_⟩
  · rw [hp, hp, mirrorNode_coordinates, e]
    simp only [acrossAxis, if_true]
    push_cast
    ring
  · rw [hp, hp, mirrorNode_coordinates]
    simp only [acrossAxis, if_neg hb]

theorem mirrorNode_unique (hn : ∀ a, 0 < g.n a) (hs : ∀ a, 0 < g.size a) {a : Fin 3} {p q : Fin g.numberOfNodes.toNat} (h : MirrorNodes g a p q) : q = mirrorNode g hf a p := by
  have hp : ∀ (q : Fin g.numberOfNodes.toNat) b, g.node q b = g.anchor b + g.nodeCoordinatesAt q b * g.H b := fun q b => rfl
  have hm := mirrorNode_position g hf hn a p
  refine eq_of_coordinates g hf ?_
  funext b
  have e : g.node q b = g.node (mirrorNode g hf a p) b := by
    by_cases hb : b = a
    · subst hb
      have := h.1.trans hm.1.symm
      linarith
    · rw [h.2 b hb, hm.2 b hb]
  rw [hp, hp] at e
  have hH : g.H b ≠ 0 := (div_pos (hs b) (by exact_mod_cast hn b)).ne'
  have := mul_right_cancel₀ hH (add_left_cancel e)
  exact_mod_cast this

theorem cellNodes_mirror (a : Fin 3) {e e' : Fin g.numberOfCells.toNat} (h : g.cellCoordinatesAt e' = acrossAxis (g.n a - 1) a (g.cellCoordinatesAt e)) (i : Fin 8) :
    g.cellNodes hf e' (flip3 a i) = mirrorNode g hf a (g.cellNodes hf e i) := by
  refine eq_of_coordinates g hf ?_
  rw [mirrorNode_coordinates, cellNodes_coordinates, cellNodes_coordinates, h]
  funext b
  rw [Pi.add_apply, flip3_offset]
  unfold acrossAxis
  split_ifs with h
  · rw [Pi.add_apply]
    ring
  · rfl

/-- A box is its own mirror image. -/
theorem box_symmetry (hn : ∀ a, 0 < g.n a) (a : Fin 3) : BodySymmetry (CorotClass.elem .hexa).node (g.cellNodes hf) (fun p => g.node p) (mirrorNode_involutive g hf a).toPerm (mirrorMatrix a)
    (fun b => if b = a then 2 * g.anchor a + g.size a else 0) := by
  refine ⟨mirrorMatrix_isometry a, fun p => ?_, ?_⟩
  · have hm := mirrorNode_position g hf hn a p
    funext b
    show g.node (mirrorNode g hf a p) b = (mirrorMatrix a).mulVec (g.node p) b + if b = a then 2 * g.anchor a + g.size a else 0
    rw [mirrorMatrix_mulVec, mirrored, Function.update_apply]
    by_cases hb : b = a
    · subst hb
      rw [if_pos rfl, if_pos rfl]
      linarith [hm.1]
    · rw [if_neg hb, if_neg hb, add_zero, hm.2 b hb]
  · obtain ⟨hc, hi, hsur⟩ := cells_enumerated (Or.inr (Or.inr rfl)) g hf
    have hex : ∀ e : Fin g.numberOfCells.toNat, ∃ e' : Fin g.numberOfCells.toNat, g.cellCoordinatesAt e' = acrossAxis (g.n a - 1) a (g.cellCoordinatesAt e) := fun e => by
      refine hsur _ fun b => ?_
      have := hc e b
      unfold acrossAxis
      split_ifs with h
      · subst h
        constructor <;> omega
      · exact this
    choose σ hσ using hex
    have hinv : Function.Involutive σ := fun e => hi (by
      show g.cellCoordinatesAt (σ (σ e)) = g.cellCoordinatesAt e
      rw [hσ, hσ, acrossAxis_acrossAxis])
    refine ⟨hinv.toPerm, fun e => ⟨_, flip3_listing a, fun i => ?_⟩⟩
    exact cellNodes_mirror g hf a (hσ e) i

/-- **C137 (a box).** A box of linear elastic material held at some of its sides, the sides across the axis `a` both or none, under loads which are mirror images of each other across the axis:
its displacements are mirror images of each other. -/
theorem C137_box {d : CorotData} (hc : d.corotated = false) (hm : d.method = .regular) (h1 : 0 < d.young) (h2 : -1 < d.poisson) (h3 : d.poisson < 1 / 2)
    (hn : ∀ a, 0 < g.n a) (hs : ∀ a, 0 < g.size a) (B : Set (Fin 3 × Bool)) (hB : B.Nonempty) (a : Fin 3) (hBa : (a, true) ∈ B ↔ (a, false) ∈ B)
    (F : Fin g.numberOfNodes.toNat → Fin 3 → ℝ) (hF : ∀ p q, MirrorNodes g a p q → F q = mirrored a (F p)) (U : Fin g.numberOfNodes.toNat → Fin 3 → ℝ)
    (hU : ∀ q ∈ g.sideNodesOf B, U q = 0) (hU2 : ∀ q, q ∉ g.sideNodesOf B → netForce .hexa d (g.cellNodes hf) (fun q => g.node q) U F q = 0)
    (p q : Fin g.numberOfNodes.toNat) (hpq : MirrorNodes g a p q) : U q = mirrored a (U p) := by
  classical
  obtain ⟨b, hb⟩ := hB
  have hfix1 : ∀ p, p ∈ g.sideNodesOf B → mirrorNode g hf a p ∈ g.sideNodesOf B := by
    rintro p ⟨b, hb, hp⟩
    have hm := mirrorNode_position g hf hn a p
    by_cases hba : b.1 = a
    · obtain ⟨b1, b2⟩ := b
      simp only at hba hp
      subst hba
      refine ⟨(b1, !b2), ?_, ?_⟩
      · cases b2
        · exact hBa.2 hb
        · exact hBa.1 hb
      · have := hm.1
        rw [hp] at this
        cases b2
        · simp only [Grid.sidePosition, Bool.not_false, Bool.false_eq_true, if_true, if_false] at this ⊢
          linarith
        · simp only [Grid.sidePosition, Bool.not_true, Bool.false_eq_true, if_true, if_false] at this ⊢
          linarith
    · exact ⟨b, hb, (hm.2 _ hba).trans hp⟩
  have hfix : ∀ p, mirrorNode g hf a p ∈ g.sideNodesOf B ↔ p ∈ g.sideNodesOf B := fun p =>
    ⟨fun h => by
      have := hfix1 _ h
      rwa [mirrorNode_involutive g hf a p] at this, hfix1 p⟩
  have key := C137_solution (C := .hexa) hc hm h1 h2 h3 (grid_straight g hf fun a => div_pos (hs a) (by exact_mod_cast hn a)) (box_symmetry g hf hn a)
    (fun p => decide (p ∈ g.sideNodesOf B)) (box_held g hf hn hs B b hb) (fun p => by
      show decide (mirrorNode g hf a p ∈ g.sideNodesOf B) = _
      rw [decide_eq_decide, hfix]) F (fun p => by
      rw [mirrorMatrix_mulVec]
      exact hF _ _ (mirrorNode_position g hf hn a p)) U (fun p hp => hU p (of_decide_eq_true hp)) (fun p hp => hU2 p (of_decide_eq_false hp)) p
  rw [mirrorNode_unique g hf hn hs hpq, ← mirrorMatrix_mulVec]
  exact key

/-- **C137 (a hyperelastic box).** Positions of a box of hexahedra which are mirror images of each other across its middle plane give forces which are mirror images of each other. -/
theorem C137_hyperelastic_box (hn : ∀ a, 0 < g.n a) (hs : ∀ a, 0 < g.size a) (a : Fin 3) {mat : Material} (hi : IsotropicLaw mat) (x f : Fin g.numberOfNodes.toNat → Fin 3 → ℝ)
    (hx : ∀ p q, MirrorNodes g a p q → x q = mirrored a (x p) + Pi.single a (2 * g.anchor a + g.size a)) (hF : ∀ p q, MirrorNodes g a p q → f q = mirrored a (f p))
    (p q : Fin g.numberOfNodes.toNat) (hpq : MirrorNodes g a p q) :
    (HyperMesh.initialize (SolidType.elem .hexa1) (SolidType.gauss .hexa1) (g.cellNodes hf) fun p => g.node p).addForce mat x f q =
      mirrored a ((HyperMesh.initialize (SolidType.elem .hexa1) (SolidType.gauss .hexa1) (g.cellNodes hf) fun p => g.node p).addForce mat x f p) := by
  set π := (mirrorNode_involutive g hf a).toPerm with hπ
  have h := box_symmetry g hf hn a
  have hc : (fun b => if b = a then 2 * g.anchor a + g.size a else 0) = Pi.single a (2 * g.anchor a + g.size a) := by
    funext b
    rw [Pi.single_apply]
  rw [hc] at h
  have key := (C137_hyperelastic .hexa1 _ _ h hi x x f).1
  have hm : ∀ p, MirrorNodes g a (π.symm p) p := fun p => by
    have := mirrorNode_position g hf hn a (π.symm p)
    have e : mirrorNode g hf a (π.symm p) = p := Equiv.apply_symm_apply π p
    rwa [e] at this
  have ex : placed π (mirrorMatrix a) (Pi.single a (2 * g.anchor a + g.size a)) x = x := by
    funext p
    rw [placed, mirrorMatrix_mulVec]
    exact (hx _ _ (hm p)).symm
  have ef : carried π (mirrorMatrix a) f = f := by
    funext p
    rw [carried, mirrorMatrix_mulVec]
    exact (hF _ _ (hm p)).symm
  rw [ex, ef] at key
  have hq : π.symm q = p := by
    rw [mirrorNode_unique g hf hn hs hpq]
    exact Equiv.symm_apply_apply π p
  refine (congrFun key q).trans ?_
  rw [carried, mirrorMatrix_mulVec, hq]

end

/-- A bar of two cubes held at its bottom, pushed towards its middle at both ends: the middle does not move along the bar. -/
example : ∃ hf : Fits (![2, 1, 1] : Fin 3 → ℕ),
    let g : Grid 3 ℝ := ⟨0, ![2, 1, 1], ![2, 1, 1]⟩
    let d : CorotData := ⟨false, 1000, 1 / 4, .regular⟩
    let B : Set (Fin 3 × Bool) := {(2, false)}
    ∃ F U : Fin g.numberOfNodes.toNat → Fin 3 → ℝ, F ≠ 0 ∧ (∀ q ∈ g.sideNodesOf B, U q = 0) ∧
      (∀ q, q ∉ g.sideNodesOf B → netForce .hexa d (g.cellNodes hf) (fun q => g.node q) U F q = 0) ∧ (∀ p q, MirrorNodes g 0 p q → U q = mirrored 0 (U p)) ∧ ∀ p : Fin g.numberOfNodes.toNat, g.node p 0 = 1 → U p 0 = 0 := by
  have hf : Fits (![2, 1, 1] : Fin 3 → ℕ) := by
    unfold Fits
    decide
  refine ⟨hf, ?_⟩
  intro g d B
  have hn : ∀ a, 0 < g.n a := by decide
  have hs : ∀ a, 0 < g.size a := fun a => by fin_cases a <;> norm_num [g]
  have k : IsNode g.n 0 := by decide
  set F : Fin g.numberOfNodes.toNat → Fin 3 → ℝ := fun p b => if b = 0 then 1 - g.node p 0 else 0 with hF
  obtain ⟨U, ⟨hU, hU2⟩, -⟩ := C135_box_unique (d := d) rfl rfl (by norm_num) (by norm_num) (by norm_num) g hf hn hs B ⟨_, rfl⟩ F
  have hg : g.anchor 0 + g.size 0 / 2 = 1 := by norm_num [g]
  have key := C137_box g hf (d := d) rfl rfl (by norm_num) (by norm_num) (by norm_num) hn hs B ⟨_, rfl⟩ 0 (by simp [B]) F (fun p q h => by
    funext b
    have := h.1
    rw [hg] at this
    rw [mirrored, Function.update_apply]
    by_cases hb : b = 0
    · simp only [hF, hb, if_true]
      linarith
    · simp only [hF, hb, if_false]) U hU hU2
  refine ⟨F, U, fun h => ?_, hU, hU2, key, fun p hp => ?_⟩
  · have := congrFun (congrFun h (g.nodeOf hf 0 k)) 0
    simp only [hF, if_true, Pi.zero_apply] at this
    rw [nodeOf_position] at this
    norm_num [g] at this
  · have := congrFun (key p p ⟨by rw [hg, hp]; norm_num, fun _ _ => rfl⟩) 0
    rw [mirrored, Function.update_self] at this
    linarith

/-- A hyperelastic bar of two cubes, stretched along itself and bulging in its middle: the forces at its ends are mirror images. -/
example : ∃ hf : Fits (![2, 1, 1] : Fin 3 → ℕ),
    let g : Grid 3 ℝ := ⟨0, ![2, 1, 1], ![2, 1, 1]⟩
    let x : Fin g.numberOfNodes.toNat → Fin 3 → ℝ := fun p => ![2 * g.node p 0 - 1, g.node p 1 * (1 + g.node p 0 * (2 - g.node p 0)), g.node p 2]
    let F := (HyperMesh.initialize (SolidType.elem .hexa1) (SolidType.gauss .hexa1) (g.cellNodes hf) fun p => g.node p).addForce (neoHookean 400 400) x 0
    ∀ p q, MirrorNodes g 0 p q → F q = mirrored 0 (F p) := by
  have hf : Fits (![2, 1, 1] : Fin 3 → ℕ) := by
    unfold Fits
    decide
  refine ⟨hf, ?_⟩
  intro g x F
  have hn : ∀ a, 0 < g.n a := by decide
  have hs : ∀ a, 0 < g.size a := fun a => by fin_cases a <;> norm_num [g]
  have hg : g.anchor 0 + g.size 0 / 2 = 1 := by norm_num [g]
  refine C137_hyperelastic_box g hf hn hs 0 ((C99_materials 1 1 1).1 400 400).2 x 0 (fun p q h => ?_) fun p q h => ?_
  · have h0 := h.1
    rw [hg] at h0
    have e0 : g.node q 0 = 2 - g.node p 0 := by linarith
    have e1 := h.2 1 (by decide)
    have e2 := h.2 2 (by decide)
    funext b
    simp only [x, mirrored, Function.update_apply, e0, e1, e2, Pi.add_apply, Pi.single_apply]
    fin_cases b
    · simp
      linarith
    · simp
      left
      ring
    · simp
  · funext b
    simp only [mirrored, Function.update_apply, Pi.zero_apply, neg_zero, ite_self]

end Caribou
