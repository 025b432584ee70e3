import Verif.Lemmas.Galerkin
import Verif.Props.Consistency
import Verif.Props.CorotComponent
import Verif.Props.Stability

/-!
# C124: the quality of a linear static solution
-/

set_option autoImplicit false
set_option linter.all false

namespace Caribou

open Spec MeasureTheory

/-- What is used of the element and its quadrature. -/
structure GoodElement {n : ℕ} (E : Elem ℝ 3 n) (R : Set (Fin 3 → ℝ)) (gauss : List (GaussNode 3)) : Prop where
  compact : IsCompact R
  convex : Convex ℝ R
  world : ∀ X : Fin n → Fin 3 → ℝ, Continuous (E.worldCoordinates X)
  deriv : ∀ i k, Continuous fun ξ => E.dL ξ i k
  bound : ∀ ξ ∈ R, ∀ i k, |E.dL ξ i k| ≤ 1
  affine : ∀ (c : Fin 3 → ℝ) (A : Mat3) (X : Fin n → Fin 3 → ℝ), (∀ i, X i = c + A.mulVec (E.node i)) → ∀ ξ, (E.jacobian X ξ : Mat3) = A
  straight : ∀ (c : Fin 3 → ℝ) (A : Mat3) (X : Fin n → Fin 3 → ℝ), (∀ i, X i = c + A.mulVec (E.node i)) → ∀ ξ, E.worldCoordinates X ξ = c + A.mulVec ξ
  quadrature : ∀ (B : Mat3) (l mu : ℝ) (U V : Fin n → Fin 3 → ℝ),
    (gauss.map fun g => g.weight * strainWork l mu ((E.jacobian U g.position : Mat3) * B) ((E.jacobian V g.position : Mat3) * B)).sum =
      ∫ ξ in R, strainWork l mu ((E.jacobian U ξ : Mat3) * B) ((E.jacobian V ξ : Mat3) * B)
  gradient : ∀ (X : Fin n → Fin 3 → ℝ) (ξ : Fin 3 → ℝ), (E.jacobian X ξ : Mat3).det ≠ 0 → ∀ (S : Set (Fin 3 → ℝ)) (φ : (Fin 3 → ℝ) → Fin 3 → ℝ)
    (φ' : (Fin 3 → ℝ) → (Fin 3 → ℝ) →L[ℝ] (Fin 3 → ℝ)) (B h : ℝ), 0 ≤ B → SmoothOn S φ φ' B → (∀ i, X i ∈ S) → E.worldCoordinates X ξ ∈ S →
    (∀ i, ‖X i - E.worldCoordinates X ξ‖ ≤ h) → ∀ a b,
    |deformationGradient (gaussNodeOf E X ⟨ξ, 0⟩).dN (fun i => φ (X i)) a b - φ' (E.worldCoordinates X ξ) (Pi.single b 1) a| ≤
      (∑ i, |(gaussNodeOf E X ⟨ξ, 0⟩).dN i b|) * (B / 2 * h ^ 2)

theorem tetra1_jacobian_const (U : Fin 4 → Fin 3 → ℝ) (ξ ζ : Fin 3 → ℝ) : ((tetra1 (K := ℝ)).jacobian U ξ : Mat3) = (tetra1 (K := ℝ)).jacobian U ζ := by
  ext a b
  fin_cases b <;> simp [Elem.jacobian, tetra1]

theorem tetra_good : GoodElement (tetra1 (K := ℝ)) (canonicalSet .simplex 3) gaussTetra1 where
  compact := canonicalSet_isCompact .simplex 3
  convex := by
    intro x hx y hy a b ha hb hab
    refine ⟨fun j => ?_, ?_⟩
    · show 0 ≤ a * x j + b * y j
      exact add_nonneg (mul_nonneg ha (hx.1 j)) (mul_nonneg hb (hy.1 j))
    · have h1 : ∑ j, (a • x + b • y) j = a * ∑ j, x j + b * ∑ j, y j := by
        simp [Finset.sum_add_distrib, Finset.mul_sum]
      rw [h1]
      have h2 := mul_le_mul_of_nonneg_left hx.2 ha
      have h3 := mul_le_mul_of_nonneg_left hy.2 hb
      linarith
  straight c A X hX ξ := affImage_world .tetra1 c A X hX ξ
  world X := world_continuous .tetra1 X
  deriv i k := by
    fin_cases i <;> fin_cases k <;> simp only [tetra1, Matrix.cons_val, Fin.isValue, Fin.reduceFinMk, Fin.zero_eta, Fin.mk_one] <;> fun_prop
  bound ξ _ i k := by
    fin_cases i <;> fin_cases k <;> simp [tetra1]
  affine c A X hX ξ := affImage_jacobian .tetra1 c A X hX ξ
  quadrature B l mu U V := by
    obtain ⟨c, hc⟩ : ∃ c : ℝ, ∀ ξ, strainWork l mu (((tetra1 (K := ℝ)).jacobian U ξ : Mat3) * B) (((tetra1 (K := ℝ)).jacobian V ξ : Mat3) * B) = c :=
      ⟨_, fun ξ => by rw [tetra1_jacobian_const U ξ 0, tetra1_jacobian_const V ξ 0]⟩
    simp only [hc]
    have e : (affineFn c 0 : (Fin ElementType.tetra1.dim → ℝ) → ℝ) = fun _ => c := by
      funext ξ
      simp [affineFn]
    have h := gauss_affine .tetra1 c 0
    rw [e, integral_eq_setIntegral .tetra1 continuous_const] at h
    exact h
  gradient X ξ := C121_gradient .tetra1 X ⟨ξ, 0⟩

theorem hexa1_jacobian_deg (U : Fin 8 → Fin 3 → ℝ) (a k : Fin 3) : Deg ![1, 1, 1] fun ξ => ((hexa1 (K := ℝ)).jacobian U ξ : Mat3) a k := by
  have h : ∀ i j, Deg (![![0, 1, 1], ![1, 0, 1], ![1, 1, 0]] j) fun ξ => (hexa1 (K := ℝ)).jacobian U ξ i j := by
    intro i j
    fin_cases j
    · exact Deg.linear _ fun k => (hexa1_dL_deg k).1
    · exact Deg.linear _ fun k => (hexa1_dL_deg k).2.1
    · exact Deg.linear _ fun k => (hexa1_dL_deg k).2.2
  refine (h a k).mono ?_
  intro j
  fin_cases k <;> fin_cases j <;> decide

theorem hexa1_product_deg (B : Mat3) (U : Fin 8 → Fin 3 → ℝ) (a b : Fin 3) :
    Deg ![1, 1, 1] fun ξ => (((hexa1 (K := ℝ)).jacobian U ξ : Mat3) * B) a b := by
  have := Deg.linear (fun k => B k b) fun k => hexa1_jacobian_deg U a k
  convert this using 2 with ξ
  rw [Matrix.mul_apply]
  exact Finset.sum_congr rfl fun k _ => mul_comm _ _

theorem strainWork_deg {P Q : (Fin 3 → ℝ) → Mat3} {p q : Fin 3 → ℕ} (hP : ∀ a b, Deg p fun ξ => P ξ a b) (hQ : ∀ a b, Deg q fun ξ => Q ξ a b) (l mu : ℝ) :
    Deg (p + q) fun ξ => strainWork l mu (P ξ) (Q ξ) := by
  have h : ∀ G H : Mat3, strainWork l mu G H = l * ((∑ a, G a a) * ∑ a, H a a) + 2 * mu * ∑ i, ∑ j, (1 / 2 * (G i j + G j i)) * (1 / 2 * (H i j + H j i)) :=
    fun G H => rfl
  have hc : ∀ (r : Fin 3 → ℕ) (f : (Fin 3 → ℝ) → ℝ) (c : ℝ), Deg r f → Deg r fun ξ => c * f ξ := fun r f c hf =>
    ((Deg.const c).mul hf).mono fun j => by simp
  have e1 : Deg p fun ξ => ∑ a, P ξ a a := Deg.sum _ fun a _ => hP a a
  have e2 : Deg q fun ξ => ∑ a, Q ξ a a := Deg.sum _ fun a _ => hQ a a
  have e3 : ∀ i j, Deg p fun ξ => 1 / 2 * (P ξ i j + P ξ j i) := fun i j => hc _ _ _ (((hP i j).add (hP j i)).mono fun k => by simp)
  have e4 : ∀ i j, Deg q fun ξ => 1 / 2 * (Q ξ i j + Q ξ j i) := fun i j => hc _ _ _ (((hQ i j).add (hQ j i)).mono fun k => by simp)
  have e5 : Deg (p + q) fun ξ => ∑ i : Fin 3, ∑ j : Fin 3, (1 / 2 * (P ξ i j + P ξ j i)) * (1 / 2 * (Q ξ i j + Q ξ j i)) :=
    Deg.sum _ fun i _ => Deg.sum _ fun j _ => (e3 i j).mul (e4 i j)
  have e0 : Deg (p + q) fun ξ => (∑ a, P ξ a a) * ∑ a, Q ξ a a := e1.mul e2
  have e6 := ((hc _ _ l e0).add (hc _ _ (2 * mu) e5)).mono (b := p + q) fun k => by simp
  have e7 : (fun ξ => strainWork l mu (P ξ) (Q ξ)) = fun ξ => l * ((∑ a, P ξ a a) * ∑ a, Q ξ a a) +
      2 * mu * ∑ i, ∑ j, (1 / 2 * (P ξ i j + P ξ j i)) * (1 / 2 * (Q ξ i j + Q ξ j i)) := by
    funext ξ
    exact h _ _
  rw [e7]
  exact e6

theorem abs_le_one_of_halves {c x y : ℝ} (hc : |c| ≤ 1 / 8) (hx : |x| ≤ 2) (hy : |y| ≤ 2) : |c * x * y| ≤ 1 := by
  rw [abs_mul, abs_mul]
  have h1 : |c| * |x| ≤ 1 / 8 * 2 := mul_le_mul hc hx (abs_nonneg _) (by norm_num)
  have h2 : |c| * |x| * |y| ≤ 1 / 8 * 2 * 2 := mul_le_mul h1 hy (abs_nonneg _) (by norm_num)
  linarith

theorem hexa_good : GoodElement (hexa1 (K := ℝ)) (canonicalSet .cube 3) gaussHexa where
  compact := canonicalSet_isCompact .cube 3
  convex := by
    rw [canonicalSet_cube]
    exact convex_Icc _ _
  straight c A X hX ξ := affImage_world .hexa1 c A X hX ξ
  world X := world_continuous .hexa1 X
  deriv i k := by
    fin_cases i <;> fin_cases k <;> simp only [hexa1, Matrix.cons_val, Fin.isValue, Fin.reduceFinMk, Fin.zero_eta, Fin.mk_one] <;> fun_prop
  bound ξ hξ i k := by
    have hp : ∀ j, |1 + ξ j| ≤ 2 := fun j => by
      have := hξ j
      rw [abs_le]
      constructor <;> linarith [this.1, this.2]
    have hm : ∀ j, |1 - ξ j| ≤ 2 := fun j => by
      have := hξ j
      rw [abs_le]
      constructor <;> linarith [this.1, this.2]
    have c1 : |(1 / 8 : ℝ)| ≤ 1 / 8 := by norm_num [abs_le]
    have c2 : |(-1 / 8 : ℝ)| ≤ 1 / 8 := by norm_num [abs_le]
    fin_cases i <;> fin_cases k <;> simp only [hexa1, Fin.zero_eta, Fin.mk_one, Fin.reduceFinMk, Fin.isValue, Matrix.cons_val] <;>
      exact abs_le_one_of_halves (by first | exact c1 | exact c2) (by first | exact hp _ | exact hm _) (by first | exact hp _ | exact hm _)
  affine c A X hX ξ := affImage_jacobian .hexa1 c A X hX ξ
  quadrature B l mu U V := by
    have hd := strainWork_deg (hexa1_product_deg B U) (hexa1_product_deg B V) l mu
    obtain ⟨k, hk⟩ := deg_cubic3 (hd.mono (fun j => by fin_cases j <;> decide))
    have h := C12_tensor_exact.2.2.2.2.2.2.1 k
    have hcont : Continuous (cubic3 k) := by unfold cubic3; fun_prop
    rw [← hk] at h hcont
    rw [show intCube3 (fun ξ => strainWork l mu (((hexa1 (K := ℝ)).jacobian U ξ : Mat3) * B) (((hexa1 (K := ℝ)).jacobian V ξ : Mat3) * B)) = _ from
      integral_eq_setIntegral .hexa1 hcont] at h
    exact h
  gradient X ξ := C121_gradient .hexa1 X ⟨ξ, 0⟩

/-! ### The classes -/

/-- The quadrature of the class. -/
noncomputable def CorotClass.gaussOf : CorotClass → List (GaussNode 3)
  | .tetra => gaussTetra1
  | .hexa => gaussHexa

theorem CorotClass.good (C : CorotClass) : GoodElement C.elem C.canonical C.gaussOf := by
  cases C
  · exact tetra_good
  · exact hexa_good

theorem class_ready {N M : ℕ} (C : CorotClass) (d : CorotData) (hm : d.method = .regular) (idx : Fin M → Fin C.nodes → Fin N) (X : Fin N → Fin 3 → ℝ) :
    CorotReady (CorotClass.reinitState d X C (CorotState.fresh idx)) (elasticityMatrix d.young d.poisson) ∧
    (∀ e, (CorotClass.reinitState d X C (CorotState.fresh idx)).qnodes e = C.gaussOf.map (signedGaussNodeOf C.elem fun i => X (idx e i))) ∧
    (CorotClass.reinitState d X C (CorotState.fresh idx)).idx = idx ∧
    (∀ e, (CorotClass.reinitState d X C (CorotState.fresh idx)).currentRotation e = 1) := by
  cases C
  · exact ⟨reinitTetra_ready _ _ _ _ _, fun e => rfl, rfl, fun e => rfl⟩
  · refine ⟨⟨elasticityMatrix_symm _ _, fun _ => rfl, (HexaHistory.fresh.reinit _ d.corotated d.young d.poisson d.method X).inv.2.1⟩, fun e => ?_, rfl, fun e => rfl⟩
    show [] ++ (hexaQuadrature d.method).map _ = _
    rw [hm]
    rfl

theorem class_initial {N M : ℕ} (C : CorotClass) (d : CorotData) (hc : d.corotated = false) (idx : Fin M → Fin C.nodes → Fin N) (X : Fin N → Fin 3 → ℝ) (e : Fin M) :
    (CorotClass.reinitState d X C (CorotState.fresh idx)).initialRotation e = 1 := by
  cases C
  · simp [CorotClass.reinitState, CorotState.reinitTetra, hc, CorotState.fresh]
  · simp [CorotClass.reinitState, CorotState.reinitHexa, hc, CorotState.fresh]

/-- What is used of the mesh. -/
structure MeshFacts {n N M : ℕ} (E : Elem ℝ 3 n) (R : Set (Fin 3 → ℝ)) (idx : Fin M → Fin n → Fin N) (X : Fin N → Fin 3 → ℝ) (Ω : Set (Fin 3 → ℝ)) (h : ℝ) : Prop where
  point : ∀ e, ∀ ξ ∈ R, E.worldCoordinates (fun i => X (idx e i)) ξ ∈ Ω
  node : ∀ e i, ∃ ξ ∈ R, E.worldCoordinates (fun i => X (idx e i)) ξ = X (idx e i)
  size : ∀ e i, ∀ ξ ∈ R, ‖X (idx e i) - E.worldCoordinates (fun i => X (idx e i)) ξ‖ ≤ h
  total : ∀ f : (Fin 3 → ℝ) → ℝ, ContinuousOn f Ω → overElements E R idx X (fun e ξ => f (E.worldCoordinates (fun i => X (idx e i)) ξ)) = ∫ x in Ω, f x

theorem meshFacts (C : CorotClass) {N M : ℕ} (idx : Fin M → Fin C.nodes → Fin N) (X : Fin N → Fin 3 → ℝ) (Ω : Set (Fin 3 → ℝ)) (h : ℝ)
    (m : C.MeshOf Ω h X idx) : MeshFacts C.elem C.canonical idx X Ω h := by
  have key : ∀ (T : ElementType) (idx : Fin M → Fin T.numNodes → Fin N) (X : Fin N → Fin T.dim → ℝ) (Ω : Set (Fin T.dim → ℝ)) (m : Spec.MeshOf T idx X Ω h)
      (f : (Fin T.dim → ℝ) → ℝ), ContinuousOn f Ω → (∑ e, ∫ ξ in canonicalSet T.shape T.dim, |(T.elem.jacobian (fun i => X (idx e i)) ξ).det| *
        f (T.elem.worldCoordinates (fun i => X (idx e i)) ξ)) = ∫ x in Ω, f x := by
    intro T idx X Ω m f hf
    rw [m.integral_eq hf]
    exact Finset.sum_congr rfl fun e _ => (region_integral T _ (m.unfolded e) f).symm
  cases C
  · exact
      { point := fun e ξ hξ => Spec.MeshOf.sub (T := .tetra1) m e ⟨ξ, hξ, rfl⟩
        node := fun e i => node_mem_region .tetra1 (fun i => X (idx e i)) i
        size := fun e i ξ hξ => Spec.MeshOf.size (T := .tetra1) m e _ (node_mem_region .tetra1 (fun i => X (idx e i)) i) _ ⟨ξ, hξ, rfl⟩
        total := key .tetra1 idx X Ω m }
  · exact
      { point := fun e ξ hξ => Spec.MeshOf.sub (T := .hexa1) m e ⟨ξ, hξ, rfl⟩
        node := fun e i => node_mem_region .hexa1 (fun i => X (idx e i)) i
        size := fun e i ξ hξ => Spec.MeshOf.size (T := .hexa1) m e _ (node_mem_region .hexa1 (fun i => X (idx e i)) i) _ ⟨ξ, hξ, rfl⟩
        total := key .hexa1 idx X Ω m }

/-! ### The estimates -/

section

variable {n N M : ℕ} {E : Elem ℝ 3 n} {R : Set (Fin 3 → ℝ)} {gauss : List (GaussNode 3)} {s : CorotState N n M} {X : Fin N → Fin 3 → ℝ}

theorem corot_quasi (hE : GoodElement E R gauss) {young poisson : ℝ} (h1 : 0 < young) (h2 : -1 < poisson) (h3 : poisson < 1 / 2)
    (hs : CorotReady s (elasticityMatrix young poisson)) (hR : ∀ e, s.currentRotation e = 1) (hR0 : ∀ e, s.initialRotation e = 1)
    (hq : ∀ e, s.qnodes e = gauss.map (signedGaussNodeOf E fun i => X (s.idx e i))) {σ h : ℝ} (hS : Straight E s.idx X σ h)
    (frame : (Fin n → Fin 3 → ℝ) → Mat3) (U F : Fin N → Fin 3 → ℝ) (fixed : Set (Fin N)) (u' : (Fin 3 → ℝ) → Mat3)
    (hu' : ∀ e a b, ContinuousOn (fun ξ => u' (E.worldCoordinates (fun i => X (s.idx e i)) ξ) a b) R) (η : ℝ)
    (hη : ∀ V G, (∀ p ∈ fixed, V p = 0) → FieldGradient E R s.idx X V G →
      (overElements E R s.idx X (fun e ξ => strainWork (lameL young poisson) (lameMu young poisson) (u' (E.worldCoordinates (fun i => X (s.idx e i)) ξ)) (G e ξ)) - power F V +
        power (s.addForce false frame X (X + U) F).2 V) ^ 2 ≤
        η ^ 2 * overElements E R s.idx X fun e ξ => strainWork (lameL young poisson) (lameMu young poisson) (G e ξ) (G e ξ))
    (GU : Fin M → (Fin 3 → ℝ) → Mat3) (hGU : FieldGradient E R s.idx X U GU) (W : Fin N → Fin 3 → ℝ) (hW : ∀ p ∈ fixed, W p = U p)
    (GW : Fin M → (Fin 3 → ℝ) → Mat3) (hGW : FieldGradient E R s.idx X W GW) :
    energyError (lameL young poisson) (lameMu young poisson) E R s.idx X u' GU ≤
      energyError (lameL young poisson) (lameMu young poisson) E R s.idx X u' GW + η ^ 2 := by
  obtain ⟨hmu, hl⟩ := lame_strict h1 h2 h3
  choose c A hdet hσ hX using hS
  have hA : ∀ e ξ, (E.jacobian (fun i => X (s.idx e i)) ξ : Mat3) = A e := fun e ξ => hE.affine (c e) (A e) _ (hX e) ξ
  refine galerkin_core hA hE.compact hE.deriv hdet hmu.le hl.le (fun e P Q => ((s.qnodes e).map fun q => (q.detJ * q.weight) *
      strainWork (lameL young poisson) (lameMu young poisson) (deformationGradient q.dN P) (deformationGradient q.dN Q)).sum) ?_ U F _
      (corot_work hs hR hR0 frame X U F) fixed u' hu' η hη GU hGU W hW GW hGW
  intro e P Q
  show (List.map _ _).sum = _
  rw [hq e, List.map_map, integral_const_mul, ← hE.quadrature, ← List.sum_map_mul_left]
  congr 1
  refine List.map_congr_left fun g _ => ?_
  simp only [Function.comp_apply]
  rw [signed_gradient, signed_gradient]
  have e1 : (Matrix.of (E.jacobian (fun i => X (s.idx e i)) g.position) : Mat3) = A e := hA e g.position
  rw [e1]
  have e2 : (signedGaussNodeOf E (fun i => X (s.idx e i)) g).detJ = (A e).det := by
    rw [← e1]
    rfl
  have e3 : (signedGaussNodeOf E (fun i => X (s.idx e i)) g).weight = g.weight := rfl
  rw [e2, e3, mul_assoc]
  rfl

theorem corot_virtual (hE : GoodElement E R gauss) {young poisson : ℝ} (hs : CorotReady s (elasticityMatrix young poisson)) (hR : ∀ e, s.currentRotation e = 1)
    (hR0 : ∀ e, s.initialRotation e = 1) (hq : ∀ e, s.qnodes e = gauss.map (signedGaussNodeOf E fun i => X (s.idx e i))) {c : Fin M → Fin 3 → ℝ} {A : Fin M → Mat3}
    (hdet : ∀ e, 0 < (A e).det) (hX : ∀ e i, X (s.idx e i) = c e + (A e).mulVec (E.node i))
    (frame : (Fin n → Fin 3 → ℝ) → Mat3) (U F V : Fin N → Fin 3 → ℝ) (GU GV : Fin M → (Fin 3 → ℝ) → Mat3) (hGU : FieldGradient E R s.idx X U GU)
    (hGV : FieldGradient E R s.idx X V GV) : power (s.addForce false frame X (X + U) F).2 V =
      power F V - overElements E R s.idx X fun e ξ => strainWork (lameL young poisson) (lameMu young poisson) (GU e ξ) (GV e ξ) := by
  have hA : ∀ e ξ, (E.jacobian (fun i => X (s.idx e i)) ξ : Mat3) = A e := fun e ξ => hE.affine (c e) (A e) _ (hX e) ξ
  rw [corot_work hs hR hR0 frame X U F V]
  congr 1
  refine Finset.sum_congr rfl fun e _ => ?_
  have h0 : ∫ ξ in R, |(E.jacobian (fun i => X (s.idx e i)) ξ : Mat3).det| * strainWork (lameL young poisson) (lameMu young poisson) (GU e ξ) (GV e ξ) =
      ∫ ξ in R, (A e).det * strainWork (lameL young poisson) (lameMu young poisson) ((E.jacobian (fun i => U (s.idx e i)) ξ : Mat3) * (A e)⁻¹)
        ((E.jacobian (fun i => V (s.idx e i)) ξ : Mat3) * (A e)⁻¹) := by
    refine setIntegral_congr_fun hE.compact.measurableSet fun ξ hξ => ?_
    show _ * _ = _ * _
    rw [hA, abs_of_pos (hdet e), fieldGradient_eq hA hdet hGU e ξ hξ, fieldGradient_eq hA hdet hGV e ξ hξ]
  rw [h0, hq e, List.map_map, integral_const_mul, ← hE.quadrature, ← List.sum_map_mul_left]
  congr 1
  refine List.map_congr_left fun g _ => ?_
  simp only [Function.comp_apply]
  rw [signed_gradient, signed_gradient]
  have e1 : (Matrix.of (E.jacobian (fun i => X (s.idx e i)) g.position) : Mat3) = A e := hA e g.position
  rw [e1]
  have e2 : (signedGaussNodeOf E (fun i => X (s.idx e i)) g).detJ = (A e).det := by
    rw [← e1]
    rfl
  have e3 : (signedGaussNodeOf E (fun i => X (s.idx e i)) g).weight = g.weight := rfl
  rw [e2, e3, mul_assoc]
  rfl

theorem strainWork_small {l mu δ : ℝ} (hmu : 0 ≤ mu) (hδ : 0 ≤ δ) (D : Mat3) (h : ∀ a b, |D a b| ≤ δ) :
    strainWork l mu D D ≤ 9 * (|l| + 2 * mu) * δ ^ 2 := by
  have ht : D.trace ^ 2 ≤ 9 * δ ^ 2 := by
    have : |D.trace| ≤ 3 * δ := by
      simp only [Matrix.trace, Matrix.diag, sum_fin3]
      have h0 := abs_le.1 (h 0 0)
      have h1 := abs_le.1 (h 1 1)
      have h2 := abs_le.1 (h 2 2)
      rw [abs_le]
      constructor <;> linarith [h0.1, h0.2, h1.1, h1.2, h2.1, h2.2]
    have h2 := pow_le_pow_left₀ (abs_nonneg _) this 2
    rw [sq_abs] at h2
    nlinarith
  have hs : ∀ a b, (symPart D a b) ^ 2 ≤ δ ^ 2 := by
    intro a b
    have : |symPart D a b| ≤ δ := by
      have e : symPart D a b = 1 / 2 * (D a b + D b a) := rfl
      have h0 := abs_le.1 (h a b)
      have h1 := abs_le.1 (h b a)
      rw [e, abs_le]
      constructor <;> linarith [h0.1, h0.2, h1.1, h1.2]
    have h2 := pow_le_pow_left₀ (abs_nonneg _) this 2
    rwa [sq_abs] at h2
  have hd : ddot (symPart D) (symPart D) ≤ 9 * δ ^ 2 := by
    have : ddot (symPart D) (symPart D) ≤ ∑ i : Fin 3, ∑ j : Fin 3, δ ^ 2 :=
      Finset.sum_le_sum fun i _ => Finset.sum_le_sum fun j _ => by rw [← sq]; exact hs i j
    refine this.trans (le_of_eq ?_)
    simp
    ring
  have e1 : l * (D.trace * D.trace) ≤ |l| * (9 * δ ^ 2) := by
    rw [← sq]
    exact (mul_le_mul_of_nonneg_right (le_abs_self l) (sq_nonneg _)).trans (mul_le_mul_of_nonneg_left ht (abs_nonneg _))
  have e2 : 2 * mu * ddot (symPart D) (symPart D) ≤ 2 * mu * (9 * δ ^ 2) := mul_le_mul_of_nonneg_left hd (by linarith)
  rw [strainWork]
  linarith

theorem lameForm_coercive (l mu : ℝ) (S : Mat3) : min (2 * mu) (3 * l + 2 * mu) * ddot S S ≤ lameForm l mu S := by
  have ht : S.trace ^ 2 ≤ 3 * ddot S S := by
    simp only [Matrix.trace, Matrix.diag, ddot, sum_fin3]
    nlinarith [sq_nonneg (S 0 0 - S 1 1), sq_nonneg (S 0 0 - S 2 2), sq_nonneg (S 1 1 - S 2 2), sq_nonneg (S 0 1), sq_nonneg (S 0 2), sq_nonneg (S 1 0),
      sq_nonneg (S 1 2), sq_nonneg (S 2 0), sq_nonneg (S 2 1)]
  have hd : 0 ≤ ddot S S := by
    have := sq_nonneg S.trace
    linarith
  rw [lameForm]
  rcases le_or_gt 0 l with hl | hl
  · have := mul_le_mul_of_nonneg_right (min_le_left (2 * mu) (3 * l + 2 * mu)) hd
    have h2 := mul_nonneg hl (sq_nonneg S.trace)
    linarith
  · have := mul_le_mul_of_nonneg_right (min_le_right (2 * mu) (3 * l + 2 * mu)) hd
    have h2 := mul_le_mul_of_nonneg_left ht (neg_nonneg.2 hl.le)
    nlinarith

theorem derivMatrix_continuousOn {Ω : Set (Fin 3 → ℝ)} {u' : (Fin 3 → ℝ) → (Fin 3 → ℝ) →L[ℝ] (Fin 3 → ℝ)} {B : ℝ} (hB : 0 ≤ B)
    (hu : ∀ x ∈ Ω, ∀ y ∈ Ω, ‖u' x - u' y‖ ≤ B * ‖x - y‖) (a b : Fin 3) : ContinuousOn (fun x => derivMatrix u' x a b) Ω := by
  have h : LipschitzOnWith ⟨B, hB⟩ u' Ω := LipschitzOnWith.of_dist_le_mul fun x hx y hy => by
    rw [dist_eq_norm, dist_eq_norm]
    exact hu x hx y hy
  have h2 : Continuous fun φ : (Fin 3 → ℝ) →L[ℝ] (Fin 3 → ℝ) => φ (Pi.single b 1) a := by fun_prop
  exact h2.comp_continuousOn h.continuousOn

theorem interp_error (hE : GoodElement E R gauss) {idx : Fin M → Fin n → Fin N} {Ω : Set (Fin 3 → ℝ)} {σ h : ℝ} (hS : Straight E idx X σ h)
    (m : MeshFacts E R idx X Ω h) (u : (Fin 3 → ℝ) → Fin 3 → ℝ) (u' : (Fin 3 → ℝ) → (Fin 3 → ℝ) →L[ℝ] (Fin 3 → ℝ)) {B : ℝ} (hB : 0 ≤ B)
    (hd : ∀ x ∈ Ω, HasFDerivAt u (u' x) x) (hu : ∀ x ∈ Ω, ∀ y ∈ Ω, ‖u' x - u' y‖ ≤ B * ‖x - y‖)
    (G : Fin M → (Fin 3 → ℝ) → Mat3) (hG : FieldGradient E R idx X (fun p => u (X p)) G) (e : Fin M) (ξ : Fin 3 → ℝ) (hξ : ξ ∈ R) (a b : Fin 3) :
    |(derivMatrix u' (E.worldCoordinates (fun i => X (idx e i)) ξ) - G e ξ) a b| ≤ 3 * n * σ * (B / 2) * h := by
  choose c A hdet hσ hX using hS
  have hA : ∀ e ξ, (E.jacobian (fun i => X (idx e i)) ξ : Mat3) = A e := fun e ξ => hE.affine (c e) (A e) _ (hX e) ξ
  set S : Set (Fin 3 → ℝ) := E.worldCoordinates (fun i => X (idx e i)) '' R with hSdef
  have hsub : S ⊆ Ω := by
    rintro _ ⟨ζ, hζ, rfl⟩
    exact m.point e ζ hζ
  have hconv : Convex ℝ S := by
    have e1 : S = (fun x => c e + x) '' (Matrix.toLin' (A e) '' R) := by
      rw [hSdef, Set.image_image]
      refine Set.image_congr fun ζ _ => ?_
      rw [hE.straight (c e) (A e) _ (hX e), Matrix.toLin'_apply]
    rw [e1]
    exact (hE.convex.linear_image _).translate _
  have hsm : SmoothOn S u u' B := ⟨hconv, fun x hx => hd x (hsub hx), fun x hx y hy => hu x (hsub hx) y (hsub hy)⟩
  have hne : (E.jacobian (fun i => X (idx e i)) ξ : Mat3).det ≠ 0 := by
    rw [hA]
    exact (hdet e).ne'
  have key := hE.gradient (fun i => X (idx e i)) ξ hne S u u' B h hB hsm (fun i => ?_) ⟨ξ, hξ, rfl⟩ (fun i => m.size e i ξ hξ) a b
  swap
  · obtain ⟨ζ, hζ, h0⟩ := m.node e i
    exact ⟨ζ, hζ, h0⟩
  have e2 : deformationGradient (gaussNodeOf E (fun i => X (idx e i)) ⟨ξ, 0⟩).dN (fun i => u (X (idx e i))) = G e ξ := by
    rw [← signedGaussNodeOf_dN, signed_gradient, fieldGradient_eq hA hdet hG e ξ hξ]
    have e3 : (Matrix.of (E.jacobian (fun i => X (idx e i)) ξ) : Mat3) = A e := hA e ξ
    show _ * (Matrix.of (E.jacobian (fun i => X (idx e i)) ξ) : Mat3)⁻¹ = _
    rw [e3]
    rfl
  rw [e2] at key
  have hsw : |(derivMatrix u' (E.worldCoordinates (fun i => X (idx e i)) ξ) - G e ξ) a b| =
      |G e ξ a b - u' (E.worldCoordinates (fun i => X (idx e i)) ξ) (Pi.single b 1) a| := by
    rw [abs_sub_comm]
    rfl
  rw [hsw]
  refine key.trans ?_
  have hdN : ∀ i, |(gaussNodeOf E (fun i => X (idx e i)) ⟨ξ, 0⟩).dN i b| * h ≤ 3 * σ := by
    intro i
    have hh : 0 ≤ h := (norm_nonneg _).trans (m.size e i ξ hξ)
    rw [gaussNodeOf_dN]
    have e4 : (E.jacobian (fun i => X (idx e i)) (⟨ξ, 0⟩ : GaussNode 3).position : Mat3)⁻¹ = (A e)⁻¹ := by rw [hA]
    rw [e4]
    have : |∑ k, E.dL ξ i k * (A e)⁻¹ k b| ≤ ∑ k, |(A e)⁻¹ k b| := by
      refine (Finset.abs_sum_le_sum_abs _ _).trans (Finset.sum_le_sum fun k _ => ?_)
      rw [abs_mul]
      exact mul_le_of_le_one_left (abs_nonneg _) (hE.bound ξ hξ i k)
    refine (mul_le_mul_of_nonneg_right this hh).trans ?_
    rw [Finset.sum_mul]
    refine (Finset.sum_le_sum fun k _ => hσ e k b).trans (le_of_eq ?_)
    simp
  have hsum : (∑ i, |(gaussNodeOf E (fun i => X (idx e i)) ⟨ξ, 0⟩).dN i b|) * h ≤ n * (3 * σ) := by
    rw [Finset.sum_mul]
    refine (Finset.sum_le_sum fun i _ => hdN i).trans (le_of_eq ?_)
    simp
  by_cases hn : n = 0
  · subst hn
    simp
  · have hh : 0 ≤ h := (norm_nonneg _).trans (m.size e ⟨0, Nat.pos_of_ne_zero hn⟩ ξ hξ)
    have := mul_le_mul_of_nonneg_right hsum (mul_nonneg (by positivity : 0 ≤ B / 2) hh)
    calc _ = ((∑ i, |(gaussNodeOf E (fun i => X (idx e i)) ⟨ξ, 0⟩).dN i b|) * h) * (B / 2 * h) := by ring
      _ ≤ _ := this
      _ = _ := by ring

end

/-! ### The theorems -/

section

variable {N M : ℕ} (C : CorotClass) (d : CorotData) (idx : Fin M → Fin C.nodes → Fin N) (X : Fin N → Fin 3 → ℝ)

/-- The forces on the nodes, those of the force field after `init` and the loads `F`, when the nodes are displaced by `U`. -/
noncomputable def netForce (U F : Fin N → Fin 3 → ℝ) : Fin N → Fin 3 → ℝ :=
  ((CorotClass.reinitState d X C (CorotState.fresh idx)).addForce d.corotated C.frame X (X + U) F).2

variable {d idx X}

/-- **C124 (unfinished solves).** Linear elastic tetrahedra and hexahedra: when the work of the remaining forces on the displacements which leave the fixed nodes
in place is at most `η` times the square root of the energy of the displacement, the energy of the error of the computed displacement exceeds that of any displacement
of the mesh with the same fixed values by at most `η²`. -/
theorem C124_unfinished (hc : d.corotated = false) (hm : d.method = .regular) (h1 : 0 < d.young) (h2 : -1 < d.poisson) (h3 : d.poisson < 1 / 2) {σ h : ℝ}
    (hS : Straight C.elem idx X σ h) (U F : Fin N → Fin 3 → ℝ) (fixed : Set (Fin N)) (u' : (Fin 3 → ℝ) → Mat3)
    (hu' : ∀ e a b, ContinuousOn (fun ξ => u' (C.elem.worldCoordinates (fun i => X (idx e i)) ξ) a b) C.canonical)
    (hw : WeakSolution (lameL d.young d.poisson) (lameMu d.young d.poisson) C.elem C.canonical idx X fixed F u') (η : ℝ)
    (hη : ∀ V G, (∀ p ∈ fixed, V p = 0) → FieldGradient C.elem C.canonical idx X V G → (power (netForce C d idx X U F) V) ^ 2 ≤
      η ^ 2 * overElements C.elem C.canonical idx X fun e ξ => strainWork (lameL d.young d.poisson) (lameMu d.young d.poisson) (G e ξ) (G e ξ))
    (GU : Fin M → (Fin 3 → ℝ) → Mat3) (hGU : FieldGradient C.elem C.canonical idx X U GU) (W : Fin N → Fin 3 → ℝ) (hW : ∀ p ∈ fixed, W p = U p)
    (GW : Fin M → (Fin 3 → ℝ) → Mat3) (hGW : FieldGradient C.elem C.canonical idx X W GW) :
    energyError (lameL d.young d.poisson) (lameMu d.young d.poisson) C.elem C.canonical idx X u' GU ≤
      energyError (lameL d.young d.poisson) (lameMu d.young d.poisson) C.elem C.canonical idx X u' GW + η ^ 2 := by
  obtain ⟨r1, r2, r3, r4⟩ := class_ready C d hm idx X
  have r5 := class_initial C d hc idx X
  unfold netForce at hη
  rw [hc] at hη
  generalize CorotClass.reinitState d X C (CorotState.fresh idx) = s at r1 r2 r3 r4 r5 hη
  subst r3
  refine corot_quasi C.good h1 h2 h3 r1 r4 r5 r2 hS C.frame U F fixed u' hu' η (fun V G hV hG => ?_) GU hGU W hW GW hGW
  rw [hw V G hV hG, sub_self, zero_add]
  exact hη V G hV hG

theorem power_fixed {f V : Fin N → Fin 3 → ℝ} {fixed : Set (Fin N)} (hf : ∀ p, p ∉ fixed → f p = 0) (hV : ∀ p ∈ fixed, V p = 0) : power f V = 0 := by
  refine Finset.sum_eq_zero fun p _ => ?_
  by_cases hp : p ∈ fixed
  · simp [hV p hp]
  · simp [hf p hp]

/-- **C124 (best approximation).** Linear elastic tetrahedra and hexahedra in static equilibrium: no displacement of the mesh with the same values at the fixed nodes
is closer, in energy, to the displacement of the elastic body under these loads. -/
theorem C124_best (hc : d.corotated = false) (hm : d.method = .regular) (h1 : 0 < d.young) (h2 : -1 < d.poisson) (h3 : d.poisson < 1 / 2) {σ h : ℝ}
    (hS : Straight C.elem idx X σ h) (U F : Fin N → Fin 3 → ℝ) (fixed : Set (Fin N)) (u' : (Fin 3 → ℝ) → Mat3)
    (hu' : ∀ e a b, ContinuousOn (fun ξ => u' (C.elem.worldCoordinates (fun i => X (idx e i)) ξ) a b) C.canonical)
    (hw : WeakSolution (lameL d.young d.poisson) (lameMu d.young d.poisson) C.elem C.canonical idx X fixed F u')
    (hr : ∀ p, p ∉ fixed → netForce C d idx X U F p = 0)
    (GU : Fin M → (Fin 3 → ℝ) → Mat3) (hGU : FieldGradient C.elem C.canonical idx X U GU) (W : Fin N → Fin 3 → ℝ) (hW : ∀ p ∈ fixed, W p = U p)
    (GW : Fin M → (Fin 3 → ℝ) → Mat3) (hGW : FieldGradient C.elem C.canonical idx X W GW) :
    energyError (lameL d.young d.poisson) (lameMu d.young d.poisson) C.elem C.canonical idx X u' GU ≤
      energyError (lameL d.young d.poisson) (lameMu d.young d.poisson) C.elem C.canonical idx X u' GW := by
  have := C124_unfinished C hc hm h1 h2 h3 hS U F fixed u' hu' hw 0 (fun V G hV hG => ?_) GU hGU W hW GW hGW
  · simpa using this
  · rw [power_fixed hr hV]
    simp

theorem fieldGradient_exists {A : Fin M → Mat3} {c : Fin M → Fin 3 → ℝ} (hdet : ∀ e, 0 < (A e).det) (hX : ∀ e i, X (idx e i) = c e + (A e).mulVec (C.elem.node i))
    (V : Fin N → Fin 3 → ℝ) : FieldGradient C.elem C.canonical idx X V fun e ξ => (C.elem.jacobian (fun i => V (idx e i)) ξ : Mat3) * (A e)⁻¹ := by
  intro e ξ _
  rw [C.good.affine (c e) (A e) _ (hX e), Matrix.mul_assoc, Matrix.nonsing_inv_mul _ (isUnit_iff_ne_zero.2 (hdet e).ne'), Matrix.mul_one]

/-- **C124 (virtual work).** The work of the forces on a displacement of the mesh is that of the loads minus that of the stress, integrated exactly. -/
theorem C124_virtual (hc : d.corotated = false) (hm : d.method = .regular) {σ h : ℝ} (hS : Straight C.elem idx X σ h) (U F V : Fin N → Fin 3 → ℝ)
    (GU GV : Fin M → (Fin 3 → ℝ) → Mat3) (hGU : FieldGradient C.elem C.canonical idx X U GU) (hGV : FieldGradient C.elem C.canonical idx X V GV) :
    power (netForce C d idx X U F) V = power F V -
      overElements C.elem C.canonical idx X fun e ξ => strainWork (lameL d.young d.poisson) (lameMu d.young d.poisson) (GU e ξ) (GV e ξ) := by
  obtain ⟨r1, r2, r3, r4⟩ := class_ready C d hm idx X
  have r5 := class_initial C d hc idx X
  unfold netForce
  rw [hc]
  generalize CorotClass.reinitState d X C (CorotState.fresh idx) = s at r1 r2 r3 r4 r5
  subst r3
  choose c A hdet hσ hX using hS
  exact corot_virtual C.good r1 r4 r5 r2 hdet hX C.frame U F V GU GV hGU hGV

/-- **C124 (patch test).** When the displacement of the body is affine, its values at the nodes are a static solution. -/
theorem C124_patch (hc : d.corotated = false) (hm : d.method = .regular) {σ h : ℝ} (hS : Straight C.elem idx X σ h) (F : Fin N → Fin 3 → ℝ) (fixed : Set (Fin N))
    (b : Fin 3 → ℝ) (G : Mat3) (hw : WeakSolution (lameL d.young d.poisson) (lameMu d.young d.poisson) C.elem C.canonical idx X fixed F fun _ => G)
    (p : Fin N) (hp : p ∉ fixed) : netForce C d idx X (fun p => b + G.mulVec (X p)) F p = 0 := by
  funext a
  have hS' := hS
  choose c A hdet hσ hX using hS'
  set V : Fin N → Fin 3 → ℝ := Pi.single p (Pi.single a 1) with hV
  have hGV := fieldGradient_exists C hdet hX V
  have hGU : FieldGradient C.elem C.canonical idx X (fun p => b + G.mulVec (X p)) fun _ _ => G := by
    intro e ξ _
    rw [C.good.affine (c e) (A e) _ (hX e)]
    refine C.good.affine (b + G.mulVec (c e)) (G * A e) _ (fun i => ?_) ξ
    show b + G.mulVec (X (idx e i)) = _
    rw [hX, Matrix.mulVec_add, Matrix.mulVec_mulVec, add_assoc]
  have h1 := C124_virtual C hc hm hS (fun p => b + G.mulVec (X p)) F V _ _ hGU hGV
  have h0 : ∀ q ∈ fixed, V q = 0 := fun q hq => by
    have : q ≠ p := fun h => hp (h ▸ hq)
    rw [hV, Pi.single_eq_of_ne this]
  rw [hw V _ h0 hGV, sub_self] at h1
  have h2 : power (netForce C d idx X (fun p => b + G.mulVec (X p)) F) V = netForce C d idx X (fun p => b + G.mulVec (X p)) F p a := by
    rw [power, Finset.sum_eq_single p]
    · rw [hV, Pi.single_eq_same, dotProduct_single, mul_one]
    · intro q _ hq
      rw [hV, Pi.single_eq_of_ne hq, dotProduct_zero]
    · exact fun h => absurd (Finset.mem_univ _) h
  rw [← h2, h1]
  rfl

/-- **C124 (loads).** For every displacement of the body with continuous derivatives there are loads at the nodes for which it satisfies the principle of virtual work. -/
theorem C124_loads (l mu : ℝ) {σ h : ℝ} (hS : Straight C.elem idx X σ h) (u' : (Fin 3 → ℝ) → Mat3)
    (hu' : ∀ e a b, ContinuousOn (fun ξ => u' (C.elem.worldCoordinates (fun i => X (idx e i)) ξ) a b) C.canonical) :
    ∃ F, WeakSolution l mu C.elem C.canonical idx X ∅ F u' := by
  choose c A hdet hσ hX using hS
  have hA : ∀ e ξ, (C.elem.jacobian (fun i => X (idx e i)) ξ : Mat3) = A e := fun e ξ => C.good.affine (c e) (A e) _ (hX e) ξ
  set g : (Fin N → Fin 3 → ℝ) → Fin M → (Fin 3 → ℝ) → Mat3 := fun V e ξ => (C.elem.jacobian (fun i => V (idx e i)) ξ : Mat3) * (A e)⁻¹ with hg
  have hgc : ∀ V e, ContinuousOn (fun ξ => strainWork l mu (u' (C.elem.worldCoordinates (fun i => X (idx e i)) ξ)) (g V e ξ)) C.canonical := fun V e =>
    strainWork_continuousOn (hu' e) (fieldGradient_continuous hA C.good.deriv hdet (fieldGradient_exists C hdet hX V) e)
  have hj : ∀ V W : Fin N → Fin 3 → ℝ, ∀ e ξ, g (V + W) e ξ = g V e ξ + g W e ξ := by
    intro V W e ξ
    rw [hg]
    simp only
    rw [← Matrix.add_mul]
    congr 1
    ext a b
    simp [Elem.jacobian, add_mul, Finset.sum_add_distrib]
  have hk : ∀ (r : ℝ) (V : Fin N → Fin 3 → ℝ) e ξ, g (r • V) e ξ = r • g V e ξ := by
    intro r V e ξ
    rw [hg]
    simp only
    rw [← Matrix.smul_mul]
    congr 1
    ext a b
    simp [Elem.jacobian, Finset.mul_sum, mul_assoc]
  let L : (Fin N → Fin 3 → ℝ) →ₗ[ℝ] ℝ :=
    { toFun := fun V => overElements C.elem C.canonical idx X fun e ξ => strainWork l mu (u' (C.elem.worldCoordinates (fun i => X (idx e i)) ξ)) (g V e ξ)
      map_add' := fun V W => by
        rw [← overElements_add hA C.good.compact (hgc V) (hgc W)]
        refine overElements_congr C.good.compact.measurableSet fun e ξ _ => ?_
        rw [hj, strainWork_comm, strainWork_add_left, strainWork_comm, strainWork_comm l mu (g W e ξ)]
      map_smul' := fun r V => by
        rw [RingHom.id_apply, smul_eq_mul, ← overElements_smul hA]
        refine overElements_congr C.good.compact.measurableSet fun e ξ _ => ?_
        rw [hk]
        simp only [strainWork, symPart, ddot, Matrix.trace_smul, Matrix.transpose_smul, Matrix.smul_apply, Matrix.add_apply, smul_eq_mul, Finset.mul_sum, mul_add]
        ring_nf }
  refine ⟨fun p a => L (Pi.single p (Pi.single a 1)), fun V G _ hG => ?_⟩
  have e1 : overElements C.elem C.canonical idx X (fun e ξ => strainWork l mu (u' (C.elem.worldCoordinates (fun i => X (idx e i)) ξ)) (G e ξ)) = L V :=
    overElements_congr C.good.compact.measurableSet fun e ξ hξ => by rw [fieldGradient_eq hA hdet hG e ξ hξ]
  rw [e1]
  have e2 : V = ∑ p, ∑ a, V p a • (Pi.single p (Pi.single a 1) : Fin N → Fin 3 → ℝ) := by
    funext q b
    simp only [Finset.sum_apply, Pi.smul_apply, smul_eq_mul]
    rw [Finset.sum_eq_single q, Finset.sum_eq_single b]
    · simp
    · intro a _ ha
      simp [Pi.single_eq_of_ne ha.symm]
    · exact fun h => absurd (Finset.mem_univ _) h
    · intro p _ hp
      simp [Pi.single_eq_of_ne hp.symm]
    · exact fun h => absurd (Finset.mem_univ _) h
  conv_lhs => rw [e2]
  simp only [map_sum, map_smul, smul_eq_mul, power, dotProduct]
  exact Finset.sum_congr rfl fun p _ => Finset.sum_congr rfl fun a _ => mul_comm _ _

/-- **C124 (integrals).** The integrals over the elements are the integrals over the body. -/
theorem C124_integral {Ω : Set (Fin 3 → ℝ)} {h : ℝ} (m : C.MeshOf Ω h X idx) (f : (Fin 3 → ℝ) → ℝ) (hf : ContinuousOn f Ω) :
    overElements C.elem C.canonical idx X (fun e ξ => f (C.elem.worldCoordinates (fun i => X (idx e i)) ξ)) = ∫ x in Ω, f x :=
  (meshFacts C idx X Ω h m).total f hf

/-- **C124 (error).** On a mesh of size `h` the energy of the error is at most the volume of the body times a constant, which depends on the material, on the
second derivatives of the displacement and on the flatness of the elements, times the square of the mesh size; to this an unfinished solve adds `η²`. -/
theorem C124_error (hc : d.corotated = false) (hm : d.method = .regular) (h1 : 0 < d.young) (h2 : -1 < d.poisson) (h3 : d.poisson < 1 / 2)
    {Ω : Set (Fin 3 → ℝ)} {σ h : ℝ} (m : C.MeshOf Ω h X idx) (hS : Straight C.elem idx X σ h) (U F : Fin N → Fin 3 → ℝ) (fixed : Set (Fin N))
    (u : (Fin 3 → ℝ) → Fin 3 → ℝ) (u' : (Fin 3 → ℝ) → (Fin 3 → ℝ) →L[ℝ] (Fin 3 → ℝ)) {B : ℝ} (hB : 0 ≤ B) (hd : ∀ x ∈ Ω, HasFDerivAt u (u' x) x)
    (hu : ∀ x ∈ Ω, ∀ y ∈ Ω, ‖u' x - u' y‖ ≤ B * ‖x - y‖)
    (hw : WeakSolution (lameL d.young d.poisson) (lameMu d.young d.poisson) C.elem C.canonical idx X fixed F (derivMatrix u'))
    (hfix : ∀ p ∈ fixed, U p = u (X p)) (η : ℝ)
    (hη : ∀ V G, (∀ p ∈ fixed, V p = 0) → FieldGradient C.elem C.canonical idx X V G → (power (netForce C d idx X U F) V) ^ 2 ≤
      η ^ 2 * overElements C.elem C.canonical idx X fun e ξ => strainWork (lameL d.young d.poisson) (lameMu d.young d.poisson) (G e ξ) (G e ξ))
    (GU : Fin M → (Fin 3 → ℝ) → Mat3) (hGU : FieldGradient C.elem C.canonical idx X U GU) :
    energyError (lameL d.young d.poisson) (lameMu d.young d.poisson) C.elem C.canonical idx X (derivMatrix u') GU ≤
      9 * (|lameL d.young d.poisson| + 2 * lameMu d.young d.poisson) * (3 * C.nodes * σ * (B / 2)) ^ 2 * (volume Ω).toReal * h ^ 2 + η ^ 2 := by
  obtain ⟨hmu, hl⟩ := lame_strict h1 h2 h3
  have mf := meshFacts C idx X Ω h m
  have hu' : ∀ e a b, ContinuousOn (fun ξ => derivMatrix u' (C.elem.worldCoordinates (fun i => X (idx e i)) ξ) a b) C.canonical := fun e a b =>
    (derivMatrix_continuousOn hB hu a b).comp (C.good.world _).continuousOn fun ξ hξ => mf.point e ξ hξ
  have hS' := hS
  choose c A hdet hσ hX using hS'
  have hA : ∀ e ξ, (C.elem.jacobian (fun i => X (idx e i)) ξ : Mat3) = A e := fun e ξ => C.good.affine (c e) (A e) _ (hX e) ξ
  obtain ⟨GW, hGW⟩ : ∃ GW, FieldGradient C.elem C.canonical idx X (fun p => u (X p)) GW := by
    refine ⟨fun e ξ => (C.elem.jacobian (fun i => u (X (idx e i))) ξ : Mat3) * (A e)⁻¹, fun e ξ _ => ?_⟩
    rw [hA, Matrix.mul_assoc, Matrix.nonsing_inv_mul _ (isUnit_iff_ne_zero.2 (hdet e).ne'), Matrix.mul_one]
  refine (C124_unfinished C hc hm h1 h2 h3 hS U F fixed (derivMatrix u') hu' hw η hη GU hGU (fun p => u (X p)) (fun p hp => (hfix p hp).symm) GW hGW).trans ?_
  refine add_le_add_left ?_ _
  have cW := fieldGradient_continuous hA C.good.deriv hdet hGW
  have cE : ∀ e a b, ContinuousOn (fun ξ => (derivMatrix u' (C.elem.worldCoordinates (fun i => X (idx e i)) ξ) - GW e ξ) a b) C.canonical := fun e a b => by
    simp only [Matrix.sub_apply]
    exact (hu' e a b).sub (cW e a b)
  have hδ : ∀ e, ∀ ξ ∈ C.canonical, ∀ a b, |(derivMatrix u' (C.elem.worldCoordinates (fun i => X (idx e i)) ξ) - GW e ξ) a b| ≤ 3 * C.nodes * σ * (B / 2) * h :=
    fun e ξ hξ a b => interp_error C.good hS mf u u' hB hd hu GW hGW e ξ hξ a b
  set K : ℝ := 9 * (|lameL d.young d.poisson| + 2 * lameMu d.young d.poisson) * (3 * C.nodes * σ * (B / 2)) ^ 2 * h ^ 2 with hK
  have h5 : energyError (lameL d.young d.poisson) (lameMu d.young d.poisson) C.elem C.canonical idx X (derivMatrix u') GW ≤
      overElements C.elem C.canonical idx X fun _ _ => K := by
    refine overElements_mono hA C.good.compact (fun e => strainWork_continuousOn (cE e) (cE e)) (fun e => continuousOn_const) fun e ξ hξ => ?_
    have := strainWork_small (l := lameL d.young d.poisson) hmu.le ((abs_nonneg _).trans (hδ e ξ hξ 0 0)) _ (hδ e ξ hξ)
    refine this.trans (le_of_eq ?_)
    rw [hK]
    ring
  refine h5.trans (le_of_eq ?_)
  rw [mf.total (fun _ => K) continuousOn_const, setIntegral_const, smul_eq_mul, hK]
  show (volume Ω).toReal * _ = _
  ring

/-- **C124 (strains).** The strains of the computed displacement are as close to the true ones as the energy of the error says. -/
theorem C124_strains (h1 : 0 < d.young) (h2 : -1 < d.poisson) (h3 : d.poisson < 1 / 2) {σ h : ℝ} (hS : Straight C.elem idx X σ h) (u' : (Fin 3 → ℝ) → Mat3)
    (hu' : ∀ e a b, ContinuousOn (fun ξ => u' (C.elem.worldCoordinates (fun i => X (idx e i)) ξ) a b) C.canonical) (U : Fin N → Fin 3 → ℝ)
    (GU : Fin M → (Fin 3 → ℝ) → Mat3) (hGU : FieldGradient C.elem C.canonical idx X U GU) :
    0 < min (2 * lameMu d.young d.poisson) (3 * lameL d.young d.poisson + 2 * lameMu d.young d.poisson) ∧
    min (2 * lameMu d.young d.poisson) (3 * lameL d.young d.poisson + 2 * lameMu d.young d.poisson) * strainError C.elem C.canonical idx X u' GU ≤
      energyError (lameL d.young d.poisson) (lameMu d.young d.poisson) C.elem C.canonical idx X u' GU := by
  obtain ⟨hmu, hl⟩ := lame_strict h1 h2 h3
  refine ⟨lt_min (by linarith) hl, ?_⟩
  choose c A hdet hσ hX using hS
  have hA : ∀ e ξ, (C.elem.jacobian (fun i => X (idx e i)) ξ : Mat3) = A e := fun e ξ => C.good.affine (c e) (A e) _ (hX e) ξ
  have cU := fieldGradient_continuous hA C.good.deriv hdet hGU
  have cE : ∀ e a b, ContinuousOn (fun ξ => (u' (C.elem.worldCoordinates (fun i => X (idx e i)) ξ) - GU e ξ) a b) C.canonical := fun e a b => by
    simp only [Matrix.sub_apply]
    exact (hu' e a b).sub (cU e a b)
  have cS : ∀ e, ContinuousOn (fun ξ => ddot (symPart (u' (C.elem.worldCoordinates (fun i => X (idx e i)) ξ) - GU e ξ))
      (symPart (u' (C.elem.worldCoordinates (fun i => X (idx e i)) ξ) - GU e ξ))) C.canonical := by
    intro e
    have := strainWork_continuousOn (l := 0) (mu := 1 / 2) (cE e) (cE e)
    refine this.congr fun ξ _ => ?_
    simp [strainWork]
  rw [strainError, energyError, ← overElements_smul hA]
  refine overElements_mono hA C.good.compact (fun e => continuousOn_const.mul (cS e)) (fun e => strainWork_continuousOn (cE e) (cE e)) fun e ξ _ => ?_
  rw [strainWork_self]
  exact lameForm_coercive _ _ _

end

/-- **C124 (convergence).** The strains of static solutions converge to those of the elastic body when the meshes are refined with elements of bounded flatness. -/
theorem C124_converges (C : CorotClass) (d : CorotData) (hc : d.corotated = false) (hm : d.method = .regular) (h1 : 0 < d.young) (h2 : -1 < d.poisson)
    (h3 : d.poisson < 1 / 2) (Ω : Set (Fin 3 → ℝ)) (u : (Fin 3 → ℝ) → Fin 3 → ℝ) (u' : (Fin 3 → ℝ) → (Fin 3 → ℝ) →L[ℝ] (Fin 3 → ℝ)) (B : ℝ) (hB : 0 ≤ B)
    (hd : ∀ x ∈ Ω, HasFDerivAt u (u' x) x) (hu : ∀ x ∈ Ω, ∀ y ∈ Ω, ‖u' x - u' y‖ ≤ B * ‖x - y‖) (σ ε : ℝ) (hε : 0 < ε) :
    ∃ h₀ > 0, ∀ (N M : ℕ) (idx : Fin M → Fin C.nodes → Fin N) (X : Fin N → Fin 3 → ℝ) (h : ℝ), 0 ≤ h → h ≤ h₀ → C.MeshOf Ω h X idx → Straight C.elem idx X σ h →
      ∀ (fixed : Set (Fin N)) (U F : Fin N → Fin 3 → ℝ),
      WeakSolution (lameL d.young d.poisson) (lameMu d.young d.poisson) C.elem C.canonical idx X fixed F (derivMatrix u') →
      (∀ p ∈ fixed, U p = u (X p)) → (∀ p, p ∉ fixed → netForce C d idx X U F p = 0) →
      ∀ G, FieldGradient C.elem C.canonical idx X U G → strainError C.elem C.canonical idx X (derivMatrix u') G ≤ ε := by
  obtain ⟨hmu, hl⟩ := lame_strict h1 h2 h3
  set κ := min (2 * lameMu d.young d.poisson) (3 * lameL d.young d.poisson + 2 * lameMu d.young d.poisson) with hκ
  have hκ0 : 0 < κ := lt_min (by linarith) hl
  set K : ℝ := 9 * (|lameL d.young d.poisson| + 2 * lameMu d.young d.poisson) * (3 * C.nodes * σ * (B / 2)) ^ 2 * (volume Ω).toReal with hK
  have hK0 : 0 ≤ K := by positivity
  refine ⟨min 1 (κ * ε / (K + 1)), lt_min one_pos (by positivity), ?_⟩
  intro N M idx X h hh0 hh m hS fixed U F hw hfix hr G hG
  have e1 := C124_error C hc hm h1 h2 h3 m hS U F fixed u u' hB hd hu hw hfix 0 (fun V G hV hG => by rw [power_fixed hr hV]; simp) G hG
  have mf := meshFacts C idx X Ω h m
  have hu' : ∀ e a b, ContinuousOn (fun ξ => derivMatrix u' (C.elem.worldCoordinates (fun i => X (idx e i)) ξ) a b) C.canonical := fun e a b =>
    (derivMatrix_continuousOn hB hu a b).comp (C.good.world _).continuousOn fun ξ hξ => mf.point e ξ hξ
  have e2 := (C124_strains (d := d) C h1 h2 h3 hS (derivMatrix u') hu' U G hG).2
  rw [← hκ] at e2
  rw [← hK] at e1
  have e3 : h ^ 2 ≤ κ * ε / (K + 1) := by
    have a1 : h ≤ 1 := hh.trans (min_le_left _ _)
    have a2 : h ≤ κ * ε / (K + 1) := hh.trans (min_le_right _ _)
    nlinarith
  have e4 : K * h ^ 2 ≤ κ * ε := by
    have := mul_le_mul_of_nonneg_left e3 hK0
    refine this.trans ?_
    rw [mul_div_assoc', div_le_iff₀ (by positivity)]
    nlinarith [mul_pos hκ0 hε]
  have e5 : κ * strainError C.elem C.canonical idx X (derivMatrix u') G ≤ κ * ε := by
    have : (0 : ℝ) ^ 2 = 0 := by norm_num
    linarith
  exact le_of_mul_le_mul_left e5 hκ0

/-- The unit tetrahedron: its straightness, and a stretched solution with its loads. -/
example : ∃ F : Fin 4 → Fin 3 → ℝ, WeakSolution (lameL 1 0) (lameMu 1 0) (CorotClass.elem .tetra) (CorotClass.canonical .tetra) (fun _ : Fin 1 => id)
      (tetra1 (K := ℝ)).node ∅ F (fun _ => Matrix.diagonal ![1, 0, 0]) ∧
    (∀ p, netForce .tetra ⟨false, 1, 0, .regular⟩ (fun _ : Fin 1 => id) (tetra1 (K := ℝ)).node
      (fun p => 0 + (Matrix.diagonal ![1, 0, 0]).mulVec ((tetra1 (K := ℝ)).node p)) F p = 0) := by
  have hS : Straight (CorotClass.elem .tetra) (fun _ : Fin 1 => id) (tetra1 (K := ℝ)).node 1 1 := by
    intro e
    refine ⟨0, 1, by simp, fun a b => ?_, fun i => ?_⟩
    · fin_cases a <;> fin_cases b <;> simp
    · simp [CorotClass.elem]
  obtain ⟨F, hF⟩ := C124_loads .tetra (lameL 1 0) (lameMu 1 0) hS (fun _ => Matrix.diagonal ![1, 0, 0]) fun _ _ _ => continuousOn_const
  exact ⟨F, hF, fun p => C124_patch .tetra rfl rfl hS F ∅ 0 _ hF p (by simp)⟩

/-- A displacement with a strain which is not uniform meets the hypotheses of the convergence on the cube. -/
example (ε : ℝ) (hε : 0 < ε) : ∃ h₀ > 0, ∀ (N M : ℕ) (idx : Fin M → Fin 8 → Fin N) (X : Fin N → Fin 3 → ℝ) (h : ℝ), 0 ≤ h → h ≤ h₀ →
      CorotClass.MeshOf (Set.Icc 0 1) h X .hexa idx → Straight (CorotClass.elem .hexa) idx X 4 h → ∀ (fixed : Set (Fin N)) (U F : Fin N → Fin 3 → ℝ),
      WeakSolution (lameL 1 0) (lameMu 1 0) (CorotClass.elem .hexa) (CorotClass.canonical .hexa) idx X fixed F (derivMatrix fun x => x 0 •
        (ContinuousLinearMap.proj (R := ℝ) (φ := fun _ : Fin 3 => ℝ) 0).smulRight (Pi.single 0 1 : Fin 3 → ℝ)) →
      (∀ p ∈ fixed, U p = (X p 0 ^ 2 / 2) • (Pi.single 0 1 : Fin 3 → ℝ)) → (∀ p, p ∉ fixed → netForce .hexa ⟨false, 1, 0, .regular⟩ idx X U F p = 0) →
      ∀ G, FieldGradient (CorotClass.elem .hexa) (CorotClass.canonical .hexa) idx X U G → strainError (CorotClass.elem .hexa) (CorotClass.canonical .hexa) idx X
        (derivMatrix fun x => x 0 • (ContinuousLinearMap.proj (R := ℝ) (φ := fun _ : Fin 3 => ℝ) 0).smulRight (Pi.single 0 1 : Fin 3 → ℝ)) G ≤ ε := by
  set L : (Fin 3 → ℝ) →L[ℝ] (Fin 3 → ℝ) := (ContinuousLinearMap.proj (R := ℝ) (φ := fun _ : Fin 3 => ℝ) 0).smulRight (Pi.single 0 1 : Fin 3 → ℝ) with hL
  refine C124_converges .hexa ⟨false, 1, 0, .regular⟩ rfl rfl one_pos (by norm_num) (by norm_num) (Set.Icc 0 1)
    (fun x => (x 0 ^ 2 / 2) • (Pi.single 0 1 : Fin 3 → ℝ)) (fun x => x 0 • L) ‖L‖ (norm_nonneg _) (fun x _ => ?_) (fun x _ y _ => ?_) 4 ε hε
  · have h1 : HasFDerivAt (fun x : Fin 3 → ℝ => x 0) (ContinuousLinearMap.proj (R := ℝ) (φ := fun _ : Fin 3 => ℝ) 0) x := hasFDerivAt_apply 0 x
    have h2 : HasDerivAt (fun t : ℝ => t ^ 2 / 2) (x 0) (x 0) := by
      have := (hasDerivAt_pow 2 (x 0)).div_const 2
      simpa using this
    have h3 := (h2.comp_hasFDerivAt x h1).smul_const (Pi.single 0 1 : Fin 3 → ℝ)
    refine h3.congr_fderiv ?_
    ext v a
    simp [hL, mul_assoc]
  · have h0 : x 0 • L - y 0 • L = (x 0 - y 0) • L := (sub_smul (x 0) (y 0) L).symm
    show ‖x 0 • L - y 0 • L‖ ≤ _
    rw [h0, norm_smul, mul_comm]
    exact mul_le_mul_of_nonneg_left (norm_le_pi_norm (x - y) 0) (norm_nonneg _)

end Caribou
