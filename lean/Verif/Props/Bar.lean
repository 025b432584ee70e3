import Verif.Lemmas.Bar

/-!
# Property C133: a bar in tension
-/

set_option autoImplicit false

namespace Caribou

open Spec Matrix

/-! ### Uniaxial stress -/

/-- **C133 (Saint Venant-Kirchhoff).** Stretched by `a` along its axis and narrowed by `b` across it with `b² - 1 = -ν (a² - 1)`, the material has the stress `E (a² - 1) / 2` along the axis and
none across it. -/
theorem C133_stress_svk (young poisson a b J : ℝ) (h1 : 1 + poisson ≠ 0) (h2 : 1 - 2 * poisson ≠ 0) (hb : b * b = 1 - poisson * (a * a - 1)) :
    (saintVenantKirchhoff (lameMu young poisson) (lameL young poisson)).stress J (Matrix.diagonal ![a * a, b * b, b * b]) = Matrix.diagonal ![young * ((a * a - 1) / 2), 0, 0] := by
  rw [← C41_young_poisson young poisson ((a * a - 1) / 2) J h1 h2]
  congr 1
  ext i j
  fin_cases i <;> fin_cases j <;> simp [hb] <;> ring

/-- **C133 (Neo-Hookean).** Every stretch `a` of the axis has a width `b` for which there is no stress across the axis; it is not larger than before when the bar is stretched. -/
theorem C133_stress_neohookean (mu l a : ℝ) (hmu : 0 < mu) (hl : 0 ≤ l) (ha : 0 < a) :
    ∃ b, 0 < b ∧ (1 ≤ a → b ≤ 1) ∧ (neoHookean mu l).stress (a * b * b) (Matrix.diagonal ![a * a, b * b, b * b]) = Matrix.diagonal ![mu * (a * a - b * b) / (a * a), 0, 0] := by
  obtain ⟨b, hb, h⟩ : ∃ b, 0 < b ∧ mu * (b * b - 1) + l * Real.log (a * b * b) = 0 := by
    obtain ⟨c, hc⟩ : ∃ c, c = (Real.sqrt a)⁻¹ := ⟨_, rfl⟩
    have hc0 : 0 < c := by rw [hc]; exact inv_pos.2 (Real.sqrt_pos.2 ha)
    have hcc : c * c = a⁻¹ := by rw [hc, ← mul_inv, Real.mul_self_sqrt ha.le]
    have hpos : ∀ y ∈ Set.uIcc 1 c, 0 < y := fun y hy => lt_of_lt_of_le (lt_min one_pos hc0) hy.1
    have hcont : ContinuousOn (fun b : ℝ => mu * (b * b - 1) + l * Real.log (a * b * b)) (Set.uIcc 1 c) := by
      refine ContinuousOn.add (by fun_prop) (ContinuousOn.mul continuousOn_const (ContinuousOn.log (by fun_prop) fun y hy => ?_))
      have := hpos y hy
      positivity
    have hiv := intermediate_value_uIcc hcont
    have e1 : mu * (1 * 1 - 1) + l * Real.log (a * 1 * 1) = l * Real.log a := by norm_num
    have e2 : mu * (c * c - 1) + l * Real.log (a * c * c) = mu * (a⁻¹ - 1) := by
      rw [mul_assoc a, hcc, mul_inv_cancel₀ ha.ne', Real.log_one, mul_zero, add_zero]
    have h0 : (0 : ℝ) ∈ Set.uIcc (mu * (1 * 1 - 1) + l * Real.log (a * 1 * 1)) (mu * (c * c - 1) + l * Real.log (a * c * c)) := by
      rw [e1, e2]
      rcases le_total 1 a with h | h
      · refine Set.mem_uIcc.2 (.inr ⟨?_, mul_nonneg hl (Real.log_nonneg h)⟩)
        exact mul_nonpos_of_nonneg_of_nonpos hmu.le (by linarith [inv_le_one_of_one_le₀ h])
      · refine Set.mem_uIcc.2 (.inl ⟨mul_nonpos_of_nonneg_of_nonpos hl (Real.log_nonpos ha.le h), ?_⟩)
        exact mul_nonneg hmu.le (by linarith [one_le_inv_iff₀.2 ⟨ha, h⟩])
    obtain ⟨b, hb, h⟩ := hiv h0
    exact ⟨b, hpos b hb, h⟩
  refine ⟨b, hb, fun h1 => ?_, ?_⟩
  · by_contra hb1
    have h2 : 1 < b * b := by nlinarith [not_le.1 hb1]
    have h3 : 0 ≤ l * Real.log (a * b * b) := mul_nonneg hl (Real.log_nonneg (by nlinarith))
    nlinarith
  · have hinv : (Matrix.diagonal ![a * a, b * b, b * b] : Mat3)⁻¹ = Matrix.diagonal ![(a * a)⁻¹, (b * b)⁻¹, (b * b)⁻¹] := by
      refine Matrix.inv_eq_right_inv ?_
      rw [Matrix.diagonal_mul_diagonal, ← Matrix.diagonal_one]
      congr 1
      funext i
      fin_cases i <;> simp <;> field_simp
    have hlog : l * Real.log (a * b * b) = mu * (1 - b * b) := by linarith
    simp only [neoHookean, hinv, hlog]
    ext i j
    fin_cases i <;> fin_cases j <;> simp
    · field_simp
      ring
    · field_simp
      ring
    · field_simp
      ring

/-! ### Hyperelastic bars -/

/-- **C133 (hyperelastic tetrahedra).** A bar of any conforming mesh of tetrahedra, with a material which has the stress `S` along the axis and none across it when it is stretched by `a` and `b`: with
the traction `a S` at its end, the bar stretched by `a` and `b` is in equilibrium. -/
theorem C133_hyper_tetra {N M Q : ℕ} (idx : Fin M → Fin 4 → Fin N) (hc : Conforming tetra1Sides idx) (X : Fin N → Fin 3 → ℝ)
    (hJ : ∀ e, ∀ g ∈ gaussTetra1, 0 < (tetra1.jacobian (fun i => X (idx e i)) g.position : Mat3).det) (surf : Fin Q → Fin 3 → Fin N) (face : Fin Q → Fin M × Fin 4) (fixed : Dof N → Bool)
    (o : Fin 3 → ℝ) (len : ℝ) (hb : IsBar triangle1 gaussTriangle1 tetra1Sides idx X surf face fixed o len) (mat : Material) (a b S : ℝ)
    (hS : mat.stress (a * b * b) (Matrix.diagonal ![a * a, b * b, b * b]) = Matrix.diagonal ![S, 0, 0]) (t eps : ℝ) (d : TractionData 3) (ht : d.traction = ![t, 0, 0]) (j : ℕ) (heps : 0 < eps)
    (hs : -eps < d.slope) (hload : loadFactor eps d j * t = a * S) :
    ∃ st F, AppliedForces .triangle1 surf X eps d j st F ∧ ∀ p i, fixed (p, i) = false →
      (HyperMesh.initialize SolidType.tetra1.elem SolidType.tetra1.gauss idx X).addForce mat (stretchedBar o a b X) F p i = 0 := by
  obtain ⟨st, hst⟩ := applied_nodes .triangle1 surf X eps d j heps hs
  refine ⟨st, _, hst, fun p i hi => ?_⟩
  rw [stretched_force (fun f F t p => C86_tetra idx hc X f hJ mat F t p) o hS, ht]
  fin_cases i
  · have := bar_balance triangle1 gaussTriangle1 intSimplex2 triangle1_dsum triangle_gauss triangle_mirror hb p hi
    simp only [Fin.zero_eta, Pi.sub_apply, Pi.smul_apply, smul_eq_mul, Matrix.cons_val_zero]
    rw [this, mul_assoc, hload]
    exact sub_eq_zero.2 (mul_comm _ _)
  · simp
  · simp

/-- **C133 (hyperelastic hexahedra).** The same for conforming meshes of hexahedra of any shape. -/
theorem C133_hyper_hexa {N M Q : ℕ} (idx : Fin M → Fin 8 → Fin N) (hc : Conforming hexa1Sides idx) (X : Fin N → Fin 3 → ℝ)
    (hJ : ∀ e, ∀ g ∈ gaussHexa, 0 < (hexa1.jacobian (fun i => X (idx e i)) g.position : Mat3).det) (surf : Fin Q → Fin 4 → Fin N) (face : Fin Q → Fin M × Fin 6) (fixed : Dof N → Bool)
    (o : Fin 3 → ℝ) (len : ℝ) (hb : IsBar quad1 gaussQuad hexa1Sides idx X surf face fixed o len) (mat : Material) (a b S : ℝ)
    (hS : mat.stress (a * b * b) (Matrix.diagonal ![a * a, b * b, b * b]) = Matrix.diagonal ![S, 0, 0]) (t eps : ℝ) (d : TractionData 3) (ht : d.traction = ![t, 0, 0]) (j : ℕ) (heps : 0 < eps)
    (hs : -eps < d.slope) (hload : loadFactor eps d j * t = a * S) :
    ∃ st F, AppliedForces .quad1 surf X eps d j st F ∧ ∀ p i, fixed (p, i) = false →
      (HyperMesh.initialize SolidType.hexa1.elem SolidType.hexa1.gauss idx X).addForce mat (stretchedBar o a b X) F p i = 0 := by
  obtain ⟨st, hst⟩ := applied_nodes .quad1 surf X eps d j heps hs
  refine ⟨st, _, hst, fun p i hi => ?_⟩
  rw [stretched_force (fun f F t p => C86_hexa idx hc X f hJ mat F t p) o hS, ht]
  fin_cases i
  · have := bar_balance quad1 gaussQuad intCube2 quad1_dsum quad_gauss quad_mirror hb p hi
    simp only [Fin.zero_eta, Pi.sub_apply, Pi.smul_apply, smul_eq_mul, Matrix.cons_val_zero]
    rw [this, mul_assoc, hload]
    exact sub_eq_zero.2 (mul_comm _ _)
  · simp
  · simp

/-! ### Linear bars -/

/-- The nodal forces of a traction field add up to the part of the traction reached times the area. -/
theorem applied_total (T : SurfaceType) {N Q : ℕ} (surf : Fin Q → Fin T.numNodes → Fin N) (X : Fin N → Fin 3 → ℝ) (eps : ℝ) (d : TractionData 3) (j : ℕ) (heps : 0 < eps) (hs : -eps < d.slope)
    {st : TractionState 3 N T.numNodes Q} {F : Fin N → Fin 3 → ℝ} (h : AppliedForces T surf X eps d j st F) (a : Fin 3) :
    ∑ p, F p a = surfaceArea3 T surf X * loadFactor eps d j * d.traction a := by
  have ht : TotalForce surf (TractionState.nodes3 T) X eps d j (surfaceArea3 T surf X) (loadFactor eps d j) := by
    rw [loadFactor]
    split_ifs with h1
    · exact C50_constant T surf X eps d hs h1 j
    · exact C50_incremental T surf X eps heps d (not_lt.1 h1) j
  obtain ⟨s0, s, k1, k2, -, k3⟩ := ht
  obtain ⟨s0', l1, l2, l3⟩ := h
  rw [k1] at l1
  obtain rfl := Outcome.ok.inj l1
  rw [k2] at l2
  obtain rfl := Outcome.ok.inj l2
  obtain ⟨f', m1, m2⟩ := k3 0
  rw [l3 0] at m1
  obtain rfl := Outcome.ok.inj m1
  have := congrFun m2 a
  simpa using this

/-- The static solve of a loaded linear bar, generic form. -/
theorem bar_solve {N n M : ℕ} {s : CorotState N n M} {young poisson : ℝ} (hy : young ≠ 0) (hs : CorotReady s (elasticityMatrix young poisson)) (hR : ∀ e, s.currentRotation e = 1)
    (hR0 : ∀ e, s.initialRotation e = 1) (frame : (Fin n → Fin 3 → ℝ) → Mat3) (X : Fin N → Fin 3 → ℝ) (fixed : Dof N → Bool) (o : Fin 3 → ℝ) (hfix : ∀ p a, fixed (p, a) = true → X p a = o a)
    (W : Fin N → ℝ) (B : Fin N → Fin 3 → ℝ) (hB : ∀ p, fixed (p, 0) = false → B p 0 = W p) (r t : ℝ)
    (hforce : ∀ e p, (s.addForce false frame X (stretchedBar o (1 + e) (1 - poisson * e) X) 0).2 p = ![-(young * e * B p 0), 0, 0])
    (hA : IsSPD (constrainMatrix fixed (-(Matrix.of (s.addKToMatrix 1 0)))))
    (k : NewtonParams ℝ) (hk : 1 ≤ k.iterations) (solver : Matrix (Dof N) (Dof N) ℝ → (Dof N → ℝ) → Option (Dof N → ℝ))
    (hex : SolvesExactly solver) (hreg : SolvesRegular solver) (c : NewtonState ℝ) (x : Dof N → ℝ) (hx : ∀ p a, fixed (p, a) = true → x (p, a) = X p a) :
    let S := loadedScene s frame X fixed fun p => (W p * r) • ![t, 0, 0]
    (∀ p a, (staticSolve k S solver c x).2.x (p, a) = stretchedBar o (1 + r * t / young) (1 - poisson * (r * t / young)) X p a) ∨
    ((staticSolve k S solver c x).2.x = x ∧ 0 < k.absolute ∧ ∑ i, (if fixed i then 0 else S.force x i) ^ 2 ≤ k.absolute ^ 2) := by
  intro S
  have h := linear_solve S (loadedScene_linear hs hR hR0 frame X fixed _) (fun _ => (C101_solvable hA).1) k hk solver hex hreg c x
    (fun i => stretchedBar o (1 + r * t / young) (1 - poisson * (r * t / young)) X i.1 i.2) ?_ ?_
  · rcases h with h | h
    · exact .inl fun p a => congrFun h (p, a)
    · exact .inr h
  · rintro ⟨p, a⟩ hp
    rw [hx p a hp]
    have := hfix p a hp
    fin_cases a <;> simp only [stretchedBar, Fin.zero_eta, Fin.mk_one, Fin.reduceFinMk, Matrix.cons_val] at this ⊢ <;> rw [this] <;> ring
  · rintro ⟨p, a⟩ hp
    change (s.addForce false frame X (fun p a => stretchedBar o (1 + r * t / young) (1 - poisson * (r * t / young)) X p a) 0).2 p a + ((W p * r) • ![t, 0, 0]) a = 0
    rw [hforce]
    fin_cases a
    · simp only [Fin.zero_eta, Pi.smul_apply, smul_eq_mul, Matrix.cons_val_zero]
      rw [hB p hp]
      field_simp
      ring
    · simp
    · simp

/-- **C133 (linear tetrahedra).** A bar of any conforming mesh of correctly oriented tetrahedra with the linear force field, pulled at its end by a traction `t` and held by its supports. A static solve
from any positions of the free coordinates, with an exact linear solver, stretches it by `t / E` along its axis and narrows it by `ν t / E`, `t` being the traction reached; the end moves by the force
times the length divided by Young's modulus and the area. Exception: nothing moves when the forces are below the absolute threshold. -/
theorem C133_tetra {N M Q : ℕ} (idx : Fin M → Fin 4 → Fin N) (hinj : ∀ e, Function.Injective (idx e)) (hc : Conforming tetra1Sides idx) (X : Fin N → Fin 3 → ℝ)
    (hJ : ∀ e, ∀ g ∈ gaussTetra1, 0 < (tetra1.jacobian (fun i => X (idx e i)) g.position : Mat3).det) (young poisson : ℝ) (h1 : 0 < young) (h2 : -1 < poisson) (h3 : poisson < 1 / 2)
    (surf : Fin Q → Fin 3 → Fin N) (face : Fin Q → Fin M × Fin 4) (fixed : Dof N → Bool) (o : Fin 3 → ℝ) (len : ℝ)
    (hb : IsBar triangle1 gaussTriangle1 tetra1Sides idx X surf face fixed o len) (hheld : CannotMove idx X fixed) (t eps : ℝ) (d : TractionData 3) (ht : d.traction = ![t, 0, 0]) (j : ℕ)
    (heps : 0 < eps) (hs : -eps < d.slope) (k : NewtonParams ℝ) (hk : 1 ≤ k.iterations) (solver : Matrix (Dof N) (Dof N) ℝ → (Dof N → ℝ) → Option (Dof N → ℝ)) (hex : SolvesExactly solver)
    (hreg : SolvesRegular solver) (c : NewtonState ℝ) (x : Dof N → ℝ) (hx : ∀ p a, fixed (p, a) = true → x (p, a) = X p a) :
    ∃ st F, AppliedForces .triangle1 surf X eps d j st F ∧
      let S := loadedScene ((CorotState.fresh idx).reinitTetra false young poisson X) tetraFrame4 X fixed F
      let z := (staticSolve k S solver c x).2.x
      let e := loadFactor eps d j * t / young
      ((∀ p a, z (p, a) = stretchedBar o (1 + e) (1 - poisson * e) X p a) ∧
        (surfaceArea3 .triangle1 surf X ≠ 0 → ∀ q i, z (surf q i, 0) - X (surf q i) 0 = (∑ p, F p 0) * len / (young * surfaceArea3 .triangle1 surf X))) ∨
      (z = x ∧ 0 < k.absolute ∧ ∑ i, (if fixed i then 0 else S.force x i) ^ 2 ≤ k.absolute ^ 2) := by
  obtain ⟨st, hst⟩ := applied_nodes .triangle1 surf X eps d j heps hs
  refine ⟨st, _, hst, ?_⟩
  obtain ⟨m1, m2⟩ := lame_strict h1 h2 h3
  have hg : (⟨![1/4, 1/4, 1/4], 1/6⟩ : GaussNode 3) ∈ gaussTetra1 := List.mem_singleton.2 rfl
  have hq : ∀ e, ((CorotState.fresh idx).reinitTetra false young poisson X).qnodes e =
      gaussTetra1.map (signedGaussNodeOf tetra1 fun i => X (idx e i)) := fun _ => rfl
  have hspd : IsSPD (constrainMatrix fixed (-(Matrix.of (((CorotState.fresh idx).reinitTetra false young poisson X).addKToMatrix 1 0)))) := by
    refine cannotMove_spd (corot_strainForm (reinitTetra_ready _ false young poisson X) 1 fun _ => rfl) m1 m2 ?_ X fixed hheld ?_
    · intro e q hq'
      rw [hq] at hq'
      obtain ⟨g, hg', rfl⟩ := List.mem_map.1 hq'
      exact mul_pos (hJ e g hg') (C12_inside_positive .tetra1 g hg').2
    · intro e v hv
      exact affine_rigid (solid_dcoord .tetra1) (SolidType.dsum .tetra1) canonicalRigid_tetra1
        (tetra_affineShape (fun i => X (idx e i)) _ (hJ e _ hg).ne') v fun g hg' =>
          hv (signedGaussNodeOf tetra1 (fun i => X (idx e i)) g) (by rw [hq]; exact List.mem_map.2 ⟨g, hg', rfl⟩)
  have h := bar_solve h1.ne' (reinitTetra_ready _ false young poisson X) (fun _ => rfl) (fun _ => rfl) tetraFrame4 X fixed o hb.supports
    (fun p => ∑ q, ∑ i, if surf q i = p then nodeWeight triangle1 gaussTriangle1 (fun i => X (surf q i)) i else 0) _
    (bar_balance triangle1 gaussTriangle1 intSimplex2 triangle1_dsum triangle_gauss triangle_mirror hb) (loadFactor eps d j) t
    (fun e p => stretched_linear (by linarith) (by linarith) (C93_tetra idx hinj X hJ young poisson).1 (fun f F t p => C86_tetra idx hc X f hJ _ F t p) o e p) hspd k hk solver hex hreg c x hx
  have htot := applied_total .triangle1 surf X eps d j heps hs hst 0
  intro S z e
  have hS : S = loadedScene ((CorotState.fresh idx).reinitTetra false young poisson X) tetraFrame4 X fixed fun p =>
      ((∑ q, ∑ i, if surf q i = p then nodeWeight triangle1 gaussTriangle1 (fun i => X (surf q i)) i else 0) * loadFactor eps d j) • ![t, 0, 0] := by
    show loadedScene _ _ _ _ _ = _
    rw [ht]; rfl
  rcases h with h | h
  · refine .inl ⟨fun p a => ?_, fun ha q i => ?_⟩
    · show (staticSolve k S solver c x).2.x (p, a) = _
      rw [hS]
      exact h p a
    · have hz : z (surf q i, 0) = stretchedBar o (1 + e) (1 - poisson * e) X (surf q i) 0 := by
        show (staticSolve k S solver c x).2.x (surf q i, 0) = _
        rw [hS]
        exact h _ _
      rw [hz, htot, ht]
      simp only [stretchedBar, Matrix.cons_val_zero, hb.plane]
      simp only [e]
      have := h1.ne'
      field_simp
      ring
  · refine .inr ?_
    show (staticSolve k S solver c x).2.x = x ∧ _
    rw [hS]
    exact h

/-- **C133 (linear hexahedra).** The same for conforming meshes of hexahedra of any shape, the traction field being on quads. -/
theorem C133_hexa {N M Q : ℕ} (idx : Fin M → Fin 8 → Fin N) (hinj : ∀ e, Function.Injective (idx e)) (hc : Conforming hexa1Sides idx) (X : Fin N → Fin 3 → ℝ)
    (hJ : ∀ e, ∀ g ∈ gaussHexa, 0 < (hexa1.jacobian (fun i => X (idx e i)) g.position : Mat3).det) (young poisson : ℝ) (h1 : 0 < young) (h2 : -1 < poisson) (h3 : poisson < 1 / 2)
    (surf : Fin Q → Fin 4 → Fin N) (face : Fin Q → Fin M × Fin 6) (fixed : Dof N → Bool) (o : Fin 3 → ℝ) (len : ℝ)
    (hb : IsBar quad1 gaussQuad hexa1Sides idx X surf face fixed o len) (hheld : CannotMove idx X fixed) (t eps : ℝ) (d : TractionData 3) (ht : d.traction = ![t, 0, 0]) (j : ℕ)
    (heps : 0 < eps) (hs : -eps < d.slope) (k : NewtonParams ℝ) (hk : 1 ≤ k.iterations) (solver : Matrix (Dof N) (Dof N) ℝ → (Dof N → ℝ) → Option (Dof N → ℝ)) (hex : SolvesExactly solver)
    (hreg : SolvesRegular solver) (c : NewtonState ℝ) (x : Dof N → ℝ) (hx : ∀ p a, fixed (p, a) = true → x (p, a) = X p a) :
    ∃ st F, AppliedForces .quad1 surf X eps d j st F ∧
      let S := loadedScene ((CorotState.fresh idx).reinitHexa false young poisson .regular X) hexaFrame8 X fixed F
      let z := (staticSolve k S solver c x).2.x
      let e := loadFactor eps d j * t / young
      ((∀ p a, z (p, a) = stretchedBar o (1 + e) (1 - poisson * e) X p a) ∧
        (surfaceArea3 .quad1 surf X ≠ 0 → ∀ q i, z (surf q i, 0) - X (surf q i) 0 = (∑ p, F p 0) * len / (young * surfaceArea3 .quad1 surf X))) ∨
      (z = x ∧ 0 < k.absolute ∧ ∑ i, (if fixed i then 0 else S.force x i) ^ 2 ≤ k.absolute ^ 2) := by
  obtain ⟨st, hst⟩ := applied_nodes .quad1 surf X eps d j heps hs
  refine ⟨st, _, hst, ?_⟩
  obtain ⟨m1, m2⟩ := lame_strict h1 h2 h3
  have hq : ∀ e, ((CorotState.fresh idx).reinitHexa false young poisson .regular X).qnodes e =
      gaussHexa.map (signedGaussNodeOf hexa1 fun i => X (idx e i)) := fun _ => rfl
  have h0 : CorotReady ((CorotState.fresh idx).reinitHexa false young poisson .regular X) (elasticityMatrix young poisson) :=
    ⟨elasticityMatrix_symm young poisson, fun _ => rfl, (HexaHistory.reinit _ false young poisson .regular X .fresh).inv.2.1⟩
  have hspd : IsSPD (constrainMatrix fixed (-(Matrix.of (((CorotState.fresh idx).reinitHexa false young poisson .regular X).addKToMatrix 1 0)))) := by
    refine cannotMove_spd (corot_strainForm h0 1 fun _ => rfl) m1 m2 ?_ X fixed hheld ?_
    · intro e q hq'
      rw [hq] at hq'
      obtain ⟨g, hg', rfl⟩ := List.mem_map.1 hq'
      exact mul_pos (hJ e g hg') (C12_inside_positive .hexa1 g hg').2
    · intro e v hv
      exact hexa_rigid (.inl (hJ e)) fun g hg' =>
        hv (signedGaussNodeOf hexa1 (fun i => X (idx e i)) g) (by rw [hq]; exact List.mem_map.2 ⟨g, hg', rfl⟩)
  have h := bar_solve h1.ne' h0 (fun _ => rfl) (fun _ => rfl) hexaFrame8 X fixed o hb.supports
    (fun p => ∑ q, ∑ i, if surf q i = p then nodeWeight quad1 gaussQuad (fun i => X (surf q i)) i else 0) _
    (bar_balance quad1 gaussQuad intCube2 quad1_dsum quad_gauss quad_mirror hb) (loadFactor eps d j) t
    (fun e p => stretched_linear (by linarith) (by linarith) (C93_hexa idx hinj X hJ young poisson).1 (fun f F t p => C86_hexa idx hc X f hJ _ F t p) o e p) hspd k hk solver hex hreg c x hx
  have htot := applied_total .quad1 surf X eps d j heps hs hst 0
  intro S z e
  have hS : S = loadedScene ((CorotState.fresh idx).reinitHexa false young poisson .regular X) hexaFrame8 X fixed fun p =>
      ((∑ q, ∑ i, if surf q i = p then nodeWeight quad1 gaussQuad (fun i => X (surf q i)) i else 0) * loadFactor eps d j) • ![t, 0, 0] := by
    show loadedScene _ _ _ _ _ = _
    rw [ht]; rfl
  rcases h with h | h
  · refine .inl ⟨fun p a => ?_, fun ha q i => ?_⟩
    · show (staticSolve k S solver c x).2.x (p, a) = _
      rw [hS]
      exact h p a
    · have hz : z (surf q i, 0) = stretchedBar o (1 + e) (1 - poisson * e) X (surf q i) 0 := by
        show (staticSolve k S solver c x).2.x (surf q i, 0) = _
        rw [hS]
        exact h _ _
      rw [hz, htot, ht]
      simp only [stretchedBar, Matrix.cons_val_zero, hb.plane]
      simp only [e]
      have := h1.ne'
      field_simp
      ring
  · refine .inr ?_
    show (staticSolve k S solver c x).2.x = x ∧ _
    rw [hS]
    exact h

/-! ### Examples -/

/-- A cube of one hexahedron, pulled at its face of positive `x`; the opposite face and the faces of least `y` and `z` are held in the directions of their normals. -/
def cubeHolds (i : Dof 8) : Bool :=
  match i.2 with
  | 0 => decide (i.1 = 0 ∨ i.1 = 3 ∨ i.1 = 4 ∨ i.1 = 7)
  | 1 => decide (i.1 = 0 ∨ i.1 = 1 ∨ i.1 = 4 ∨ i.1 = 5)
  | 2 => decide (i.1 = 0 ∨ i.1 = 1 ∨ i.1 = 2 ∨ i.1 = 3)

theorem oneHexa_bar : IsBar quad1 gaussQuad hexa1Sides (fun (_ : Fin 1) (i : Fin 8) => i) (hexa1 : Elem ℝ 3 8).node (fun _ : Fin 1 => ![1, 2, 6, 5]) (fun _ => (0, 2)) cubeHolds ![-1, -1, -1] 2 where
  once := fun a b _ => Subsingleton.elim a b
  boundary := by
    intro q
    unfold IsShared Mirrored sideNodes
    decide
  plane := by
    intro q i
    fin_cases i <;> simp [hexa1] <;> norm_num
  outwards := by
    intro q
    refine .inl ⟨⟨0, by decide +revert⟩, fun g _ => ?_⟩
    simp [vectorArea, vectorProduct, Elem.jacobian, quad1, hexa1, Fin.sum_univ_four]
    nlinarith
  others := by
    rintro ⟨e, f⟩ -
    obtain rfl := Subsingleton.elim e 0
    fin_cases f
    · refine .inr (.inr fun ξ => ?_)
      simp [vectorArea, vectorProduct, Elem.jacobian, quad1, hexa1, Fin.sum_univ_four, sideNodes, hexa1Sides]
      ring
    · exact .inr (.inl (by decide))
    · exact .inl ⟨0, rfl⟩
    · refine .inr (.inr fun ξ => ?_)
      simp [vectorArea, vectorProduct, Elem.jacobian, quad1, hexa1, Fin.sum_univ_four, sideNodes, hexa1Sides]
      ring
    · refine .inr (.inr fun ξ => ?_)
      simp [vectorArea, vectorProduct, Elem.jacobian, quad1, hexa1, Fin.sum_univ_four, sideNodes, hexa1Sides]
      ring
    · refine .inr (.inr fun ξ => ?_)
      simp [vectorArea, vectorProduct, Elem.jacobian, quad1, hexa1, Fin.sum_univ_four, sideNodes, hexa1Sides]
      ring
  supports := by
    intro p a
    fin_cases a <;> fin_cases p <;> simp [cubeHolds, hexa1]

/-- A turn and a shift which leave the coordinates `cubeHolds` is made of are null. -/
theorem oneHexa_cannotMove : CannotMove (fun (_ : Fin 1) (i : Fin 8) => i) (hexa1 : Elem ℝ 3 8).node cubeHolds := by
  intro v hv hf
  obtain ⟨c, W, hW, h⟩ := hv 0
  have e := fun (i : Fin 8) (a : Fin 3) (hi : cubeHolds (i, a) = true) => (congrFun (h i) a).symm.trans (hf i a hi)
  have a1 := e 0 0 (by decide)
  have a2 := e 0 1 (by decide)
  have a3 := e 0 2 (by decide)
  have a4 := e 3 0 (by decide)
  have a5 := e 4 0 (by decide)
  have a6 := e 4 1 (by decide)
  simp [hexa1, Matrix.mulVec, dotProduct, Fin.sum_univ_three] at a1 a2 a3 a4 a5 a6
  have d0 := hW 0 0
  have d1 := hW 1 1
  have d2 := hW 2 2
  have w0 := hW 1 0
  have w1 := hW 2 0
  have w2 := hW 2 1
  have hW0 : W = 0 := by
    ext i j
    fin_cases i <;> fin_cases j <;> simp <;> linarith
  have hc0 : c = 0 := by
    funext i
    subst hW0
    fin_cases i <;> simp at a1 a2 a3 ⊢ <;> linarith
  funext p
  rw [h p, hW0, hc0]
  simp

theorem oneHexa_det (ξ : Fin 3 → ℝ) : 0 < ((hexa1 : Elem ℝ 3 8).jacobian (hexa1 : Elem ℝ 3 8).node ξ : Mat3).det := by
  have h := affineShape_jacobian (E := SolidType.hexa1.elem) (X := (hexa1 : Elem ℝ 3 8).node) (solid_dcoord .hexa1) (SolidType.dsum .hexa1) (A := 1) (b := 0)
    (fun i => by rw [one_mulVec, add_zero]; rfl) ξ
  have h' : ((hexa1 : Elem ℝ 3 8).jacobian (hexa1 : Elem ℝ 3 8).node ξ : Mat3) = 1 := h
  rw [h', Matrix.det_one]
  exact one_pos

theorem oneHexa_conforming : Conforming hexa1Sides (fun (_ : Fin 1) (i : Fin 8) => i) := by
  unfold Conforming Mirrored sideNodes
  decide +kernel

/-- A cube of edge 2 and Young's modulus 1000 under a traction of 50: it becomes 0.1 longer, whatever positions the solve starts from. -/
example (solver : Matrix (Dof 8) (Dof 8) ℝ → (Dof 8 → ℝ) → Option (Dof 8 → ℝ)) (hex : SolvesExactly solver) (hreg : SolvesRegular solver) (c : NewtonState ℝ) (x : Dof 8 → ℝ)
    (hx : ∀ p a, cubeHolds (p, a) = true → x (p, a) = (hexa1 : Elem ℝ 3 8).node p a) :
    ∃ st F, AppliedForces .quad1 (fun _ : Fin 1 => ![1, 2, 6, 5]) (hexa1 : Elem ℝ 3 8).node (1 / 10) ⟨![50, 0, 0], 0, 1⟩ 3 st F ∧
      (staticSolve ⟨1, 0, 0, 0, 0, .always⟩ (loadedScene ((CorotState.fresh fun (_ : Fin 1) (i : Fin 8) => i).reinitHexa false 1000 (3 / 10) .regular (hexa1 : Elem ℝ 3 8).node) hexaFrame8
        (hexa1 : Elem ℝ 3 8).node cubeHolds F) solver c x).2.x (6, 0) = 1 + 1 / 10 := by
  obtain ⟨st, F, hF, h⟩ := C133_hexa (fun (_ : Fin 1) (i : Fin 8) => i) (fun _ => Function.injective_id) oneHexa_conforming (hexa1 : Elem ℝ 3 8).node
    (fun _ g _ => oneHexa_det g.position) 1000 (3 / 10) (by norm_num) (by norm_num) (by norm_num) _ _ _ _ _ oneHexa_bar oneHexa_cannotMove
    50 (1 / 10) ⟨![50, 0, 0], 0, 1⟩ rfl 3 (by norm_num) (by norm_num) ⟨1, 0, 0, 0, 0, .always⟩ le_rfl solver hex hreg c x hx
  refine ⟨st, F, hF, ?_⟩
  rcases h with h | h
  · rw [h.1 6 0, loadFactor, if_pos (by norm_num)]
    simp [stretchedBar, hexa1]
    norm_num
  · exact absurd h.2.1 (lt_irrefl 0)

/-- The same cube of six tetrahedra around a diagonal. -/
def sixTetra : Fin 6 → Fin 4 → Fin 8 := ![![0, 1, 2, 6], ![0, 5, 1, 6], ![0, 2, 3, 6], ![0, 3, 7, 6], ![0, 4, 5, 6], ![0, 7, 4, 6]]

theorem sixTetra_conforming : Conforming tetra1Sides sixTetra := by
  unfold Conforming Mirrored sideNodes
  decide +kernel

theorem sixTetra_det (e : Fin 6) (ξ : Fin 3 → ℝ) : 0 < ((tetra1 : Elem ℝ 3 4).jacobian (fun i => (hexa1 : Elem ℝ 3 8).node (sixTetra e i)) ξ : Mat3).det := by
  rw [Matrix.det_fin_three]
  fin_cases e <;> simp [Elem.jacobian, tetra1, hexa1, sixTetra, Fin.sum_univ_four] <;> norm_num

theorem sixTetra_bar : IsBar triangle1 gaussTriangle1 tetra1Sides sixTetra (hexa1 : Elem ℝ 3 8).node ![![6, 1, 2], ![6, 5, 1]] ![(0, 3), (1, 3)] cubeHolds ![-1, -1, -1] 2 where
  once := by decide
  boundary := by
    unfold IsShared Mirrored sideNodes
    decide
  plane := by
    intro q i
    fin_cases q <;> fin_cases i <;> simp [hexa1] <;> norm_num
  outwards := by
    intro q
    refine .inl ⟨⟨0, by decide +revert⟩, fun g _ => ?_⟩
    fin_cases q <;> simp [vectorArea, vectorProduct, Elem.jacobian, triangle1, hexa1, Fin.sum_univ_three] <;> norm_num
  others := by
    rintro ⟨e, f⟩ hf
    have hs : ∀ e f, IsShared tetra1Sides sixTetra (e, f) ∨ (e, f) = (0, 3) ∨ (e, f) = (1, 3) ∨ (∀ c, cubeHolds (sideNodes tetra1Sides sixTetra (e, f) c, 0) = true) ∨
        (e, f) = (0, 0) ∨ (e, f) = (1, 0) ∨ (e, f) = (2, 0) ∨ (e, f) = (2, 3) ∨ (e, f) = (3, 3) ∨ (e, f) = (4, 0) ∨ (e, f) = (4, 3) ∨ (e, f) = (5, 3) := by
      unfold IsShared Mirrored sideNodes
      decide +kernel
    rcases hs e f with h | h | h | h | h
    · exact absurd h hf
    · exact .inl ⟨0, h.symm⟩
    · exact .inl ⟨1, h.symm⟩
    · exact .inr (.inl h)
    · refine .inr (.inr fun ξ => ?_)
      rcases h with h | h | h | h | h | h | h | h <;> rw [h] <;>
        simp [vectorArea, vectorProduct, Elem.jacobian, triangle1, hexa1, Fin.sum_univ_three, sideNodes, tetra1Sides, sixTetra]
  supports := oneHexa_bar.supports

theorem sixTetra_cannotMove : CannotMove sixTetra (hexa1 : Elem ℝ 3 8).node cubeHolds := by
  intro v hv hf
  have hz : ∀ e i, v (sixTetra e i) = 0 := by
    intro e
    obtain ⟨t, W, hW, h⟩ := hv e
    have q := fun (i : Fin 4) (a : Fin 3) (hi : cubeHolds (sixTetra e i, a) = true) => (congrFun (h i) a).symm.trans (hf _ a hi)
    have d0 := hW 0 0
    have d1 := hW 1 1
    have d2 := hW 2 2
    have w0 := hW 1 0
    have w1 := hW 2 0
    have w2 := hW 2 1
    have hW0 : W = 0 ∧ t = 0 := by
      clear h hv hf
      fin_cases e
      · have a1 := q 0 0 (by decide)
        have a2 := q 0 1 (by decide)
        have a3 := q 0 2 (by decide)
        have a4 := q 1 1 (by decide)
        have a5 := q 1 2 (by decide)
        have a6 := q 2 2 (by decide)
        simp [hexa1, sixTetra, Matrix.mulVec, dotProduct, Fin.sum_univ_three] at a1 a2 a3 a4 a5 a6
        refine ⟨?_, ?_⟩
        · ext i j
          fin_cases i <;> fin_cases j <;> simp <;> linarith
        · funext i
          fin_cases i <;> simp <;> linarith
      · have a1 := q 0 0 (by decide)
        have a2 := q 0 1 (by decide)
        have a3 := q 0 2 (by decide)
        have a4 := q 2 2 (by decide)
        have a5 := q 2 1 (by decide)
        have a6 := q 1 1 (by decide)
        simp [hexa1, sixTetra, Matrix.mulVec, dotProduct, Fin.sum_univ_three] at a1 a2 a3 a4 a5 a6
        refine ⟨?_, ?_⟩
        · ext i j
          fin_cases i <;> fin_cases j <;> simp <;> linarith
        · funext i
          fin_cases i <;> simp <;> linarith
      · have a1 := q 0 0 (by decide)
        have a2 := q 0 1 (by decide)
        have a3 := q 0 2 (by decide)
        have a4 := q 2 0 (by decide)
        have a5 := q 2 2 (by decide)
        have a6 := q 1 2 (by decide)
        simp [hexa1, sixTetra, Matrix.mulVec, dotProduct, Fin.sum_univ_three] at a1 a2 a3 a4 a5 a6
        refine ⟨?_, ?_⟩
        · ext i j
          fin_cases i <;> fin_cases j <;> simp <;> linarith
        · funext i
          fin_cases i <;> simp <;> linarith
      · have a1 := q 0 0 (by decide)
        have a2 := q 0 1 (by decide)
        have a3 := q 0 2 (by decide)
        have a4 := q 1 2 (by decide)
        have a5 := q 1 0 (by decide)
        have a6 := q 2 0 (by decide)
        simp [hexa1, sixTetra, Matrix.mulVec, dotProduct, Fin.sum_univ_three] at a1 a2 a3 a4 a5 a6
        refine ⟨?_, ?_⟩
        · ext i j
          fin_cases i <;> fin_cases j <;> simp <;> linarith
        · funext i
          fin_cases i <;> simp <;> linarith
      · have a1 := q 0 0 (by decide)
        have a2 := q 0 1 (by decide)
        have a3 := q 0 2 (by decide)
        have a4 := q 1 0 (by decide)
        have a5 := q 1 1 (by decide)
        have a6 := q 2 1 (by decide)
        simp [hexa1, sixTetra, Matrix.mulVec, dotProduct, Fin.sum_univ_three] at a1 a2 a3 a4 a5 a6
        refine ⟨?_, ?_⟩
        · ext i j
          fin_cases i <;> fin_cases j <;> simp <;> linarith
        · funext i
          fin_cases i <;> simp <;> linarith
      · have a1 := q 0 0 (by decide)
        have a2 := q 0 1 (by decide)
        have a3 := q 0 2 (by decide)
        have a4 := q 2 1 (by decide)
        have a5 := q 2 0 (by decide)
        have a6 := q 1 0 (by decide)
        simp [hexa1, sixTetra, Matrix.mulVec, dotProduct, Fin.sum_univ_three] at a1 a2 a3 a4 a5 a6
        refine ⟨?_, ?_⟩
        · ext i j
          fin_cases i <;> fin_cases j <;> simp <;> linarith
        · funext i
          fin_cases i <;> simp <;> linarith
    intro i
    rw [h i, hW0.1, hW0.2]
    simp
  funext p
  have : ∃ e i, sixTetra e i = p := by decide +revert
  obtain ⟨e, i, rfl⟩ := this
  exact hz e i

/-- The cube of six tetrahedra becomes as long as that of one hexahedron. -/
example (solver : Matrix (Dof 8) (Dof 8) ℝ → (Dof 8 → ℝ) → Option (Dof 8 → ℝ)) (hex : SolvesExactly solver) (hreg : SolvesRegular solver) (c : NewtonState ℝ) (x : Dof 8 → ℝ)
    (hx : ∀ p a, cubeHolds (p, a) = true → x (p, a) = (hexa1 : Elem ℝ 3 8).node p a) :
    ∃ st F, AppliedForces .triangle1 ![![6, 1, 2], ![6, 5, 1]] (hexa1 : Elem ℝ 3 8).node (1 / 10) ⟨![50, 0, 0], 0, 1⟩ 3 st F ∧
      (staticSolve ⟨1, 0, 0, 0, 0, .always⟩ (loadedScene ((CorotState.fresh sixTetra).reinitTetra false 1000 (3 / 10) (hexa1 : Elem ℝ 3 8).node) tetraFrame4
        (hexa1 : Elem ℝ 3 8).node cubeHolds F) solver c x).2.x (6, 0) = 1 + 1 / 10 := by
  obtain ⟨st, F, hF, h⟩ := C133_tetra sixTetra (by decide) sixTetra_conforming (hexa1 : Elem ℝ 3 8).node (fun e g _ => sixTetra_det e g.position) 1000 (3 / 10) (by norm_num) (by norm_num)
    (by norm_num) _ _ _ _ _ sixTetra_bar sixTetra_cannotMove 50 (1 / 10) ⟨![50, 0, 0], 0, 1⟩ rfl 3 (by norm_num) (by norm_num) ⟨1, 0, 0, 0, 0, .always⟩ le_rfl solver hex hreg c x hx
  refine ⟨st, F, hF, ?_⟩
  rcases h with h | h
  · rw [h.1 6 0, loadFactor, if_pos (by norm_num)]
    simp [stretchedBar, hexa1]
    norm_num
  · exact absurd h.2.1 (lt_irrefl 0)

/-- A Neo-Hookean cube of tetrahedra stretched to twice its length: some traction and some width make an equilibrium. -/
example : ∃ b t, 0 < b ∧ b ≤ 1 ∧ ∃ st F, AppliedForces .triangle1 ![![6, 1, 2], ![6, 5, 1]] (hexa1 : Elem ℝ 3 8).node (1 / 10) ⟨![t, 0, 0], 0, 1⟩ 3 st F ∧ ∀ p i, cubeHolds (p, i) = false →
    (HyperMesh.initialize SolidType.tetra1.elem SolidType.tetra1.gauss sixTetra (hexa1 : Elem ℝ 3 8).node).addForce (neoHookean 10 20)
      (stretchedBar ![-1, -1, -1] 2 b (hexa1 : Elem ℝ 3 8).node) F p i = 0 := by
  obtain ⟨b, hb, hb1, hS⟩ := C133_stress_neohookean 10 20 2 (by norm_num) (by norm_num) (by norm_num)
  exact ⟨b, 2 * (10 * (2 * 2 - b * b) / (2 * 2)), hb, hb1 (by norm_num), C133_hyper_tetra sixTetra sixTetra_conforming _ (fun e g _ => sixTetra_det e g.position) _ _ _ _ _ sixTetra_bar _ _ _ _ hS
    (2 * (10 * (2 * 2 - b * b) / (2 * 2))) (1 / 10) ⟨![_, 0, 0], 0, 1⟩ rfl 3 (by norm_num) (by norm_num) (by rw [loadFactor, if_pos (by norm_num), one_mul])⟩

/-- A Saint Venant-Kirchhoff cube of one hexahedron, longer by a half. -/
example : ∃ b, 0 < b ∧ ∃ st F, AppliedForces .quad1 (fun _ : Fin 1 => ![1, 2, 6, 5]) (hexa1 : Elem ℝ 3 8).node (1 / 10) ⟨![3 / 2 * (1000 * ((3 / 2 * (3 / 2) - 1) / 2)), 0, 0], 0, 1⟩ 3 st F ∧
    ∀ p i, cubeHolds (p, i) = false →
    (HyperMesh.initialize SolidType.hexa1.elem SolidType.hexa1.gauss (fun (_ : Fin 1) (i : Fin 8) => i) (hexa1 : Elem ℝ 3 8).node).addForce
      (saintVenantKirchhoff (lameMu 1000 (3 / 10)) (lameL 1000 (3 / 10))) (stretchedBar ![-1, -1, -1] (3 / 2) b (hexa1 : Elem ℝ 3 8).node) F p i = 0 := by
  have hb : Real.sqrt (5 / 8) * Real.sqrt (5 / 8) = 1 - 3 / 10 * (3 / 2 * (3 / 2) - 1) := by
    rw [Real.mul_self_sqrt (by norm_num)]
    norm_num
  exact ⟨Real.sqrt (5 / 8), by positivity, C133_hyper_hexa _ oneHexa_conforming _ (fun _ g _ => oneHexa_det g.position) _ _ _ _ _ oneHexa_bar _ _ _ _
    (C133_stress_svk 1000 (3 / 10) (3 / 2) _ _ (by norm_num) (by norm_num) hb) _ (1 / 10) ⟨![_, 0, 0], 0, 1⟩ rfl 3 (by norm_num) (by norm_num)
    (by rw [loadFactor, if_pos (by norm_num), one_mul])⟩

end Caribou
