import Verif.Spec.OrderRaise
import Verif.Props.Quadrature
import Verif.Props.Stability

/-!
# Lemmas for C145: linear and quadratic meshes of one body
-/

set_option autoImplicit false
set_option linter.all false

namespace Caribou

open Spec

/-! ### Middles of edges -/

theorem tetra2OfLinear_mid (v : Fin 4 → Fin 3 → ℝ) (i : Fin 10) (a b : Fin 4)
    (h : (tetra2 (K := ℝ)).node i = (1 / 2 : ℝ) • ((tetra1 (K := ℝ)).node a + (tetra1 (K := ℝ)).node b)) :
    tetra2OfLinear v i = (1 / 2 : ℝ) • (v a + v b) := by
  have e1 : ∀ (c : Fin 3 → ℝ), c = (1 / 2 : ℝ) • ((tetra1 (K := ℝ)).node a + (tetra1 (K := ℝ)).node b) → tetra1.worldCoordinates v c = (1 / 2 : ℝ) • (v a + v b) := by
    intro c hc
    have hL : ∀ j, (tetra1 (K := ℝ)).L c j = 1 / 2 * ((tetra1 (K := ℝ)).L ((tetra1 (K := ℝ)).node a) j + (tetra1 (K := ℝ)).L ((tetra1 (K := ℝ)).node b) j) := by
      intro j
      rw [hc]
      fin_cases j <;> simp [tetra1] <;> ring
    have h2 : ∀ k, tetra1.worldCoordinates v ((tetra1 (K := ℝ)).node k) = v k := fun k => C02_interpolate_at_node .tetra1 v k
    funext x
    have ha := congrFun (h2 a) x
    have hb := congrFun (h2 b) x
    simp only [Elem.worldCoordinates, Elem.interpolate] at ha hb ⊢
    simp only [hL, Pi.smul_apply, Pi.add_apply, smul_eq_mul]
    rw [← ha, ← hb, ← Finset.sum_add_distrib, Finset.mul_sum]
    exact Finset.sum_congr rfl fun j _ => by ring
  rw [← e1 _ h]
  have h2 : ∀ k, tetra1.worldCoordinates v ((tetra1 (K := ℝ)).node k) = v k := fun k => C02_interpolate_at_node .tetra1 v k
  have h20 := h2 0
  have h21 := h2 1
  have h22 := h2 2
  have h23 := h2 3
  fin_cases i
  · exact h20.symm
  · exact h21.symm
  · exact h22.symm
  · exact h23.symm
  all_goals rfl

/-- The nodes of the hexahedra, as integers. -/
def hexaCorner : Fin 8 → Fin 3 → ℤ :=
  ![![-1, -1, -1], ![1, -1, -1], ![1, 1, -1], ![-1, 1, -1], ![-1, -1, 1], ![1, -1, 1], ![1, 1, 1], ![-1, 1, 1]]

def hexaPoint : Fin 20 → Fin 3 → ℤ :=
  ![![-1, -1, -1], ![1, -1, -1], ![1, 1, -1], ![-1, 1, -1], ![-1, -1, 1], ![1, -1, 1], ![1, 1, 1], ![-1, 1, 1],
    ![0, -1, -1], ![1, 0, -1], ![0, 1, -1], ![-1, 0, -1], ![0, -1, 1], ![1, 0, 1], ![0, 1, 1], ![-1, 0, 1],
    ![-1, -1, 0], ![1, -1, 0], ![1, 1, 0], ![-1, 1, 0]]

def hexaEnds : Fin 20 → Fin 8 × Fin 8 :=
  ![(0, 0), (1, 1), (2, 2), (3, 3), (4, 4), (5, 5), (6, 6), (7, 7), (0, 1), (1, 2), (2, 3), (3, 0), (4, 5), (5, 6), (6, 7), (7, 4), (0, 4), (1, 5), (2, 6), (3, 7)]

theorem hexaCorner_cast (a : Fin 8) (k : Fin 3) : (hexa1 (K := ℝ)).node a k = (hexaCorner a k : ℝ) := by
  fin_cases a <;> fin_cases k <;> simp [hexa1, hexaCorner]

theorem hexaPoint_cast (a : Fin 20) (k : Fin 3) : (hexa2 (K := ℝ)).node a k = (hexaPoint a k : ℝ) := by
  have h : (hexa2 (K := ℝ)).node =
      ![![-1, -1, -1], ![1, -1, -1], ![1, 1, -1], ![-1, 1, -1], ![-1, -1, 1], ![1, -1, 1], ![1, 1, 1], ![-1, 1, 1],
        ![0, -1, -1], ![1, 0, -1], ![0, 1, -1], ![-1, 0, -1], ![0, -1, 1], ![1, 0, 1], ![0, 1, 1], ![-1, 0, 1],
        ![-1, -1, 0], ![1, -1, 0], ![1, 1, 0], ![-1, 1, 0]] := rfl
  rw [h]
  fin_cases a <;> fin_cases k <;> simp [hexaPoint]

theorem hexa_ends_unique : ∀ (i : Fin 20) (a b : Fin 8), (∀ k, 2 * hexaPoint i k = hexaCorner a k + hexaCorner b k) → (a, b) = hexaEnds i ∨ (b, a) = hexaEnds i := by
  decide +kernel

theorem hexa2OfLinear_ends (v : Fin 8 → Fin 3 → ℝ) (i : Fin 20) : hexa2OfLinear v i = (1 / 2 : ℝ) • (v (hexaEnds i).1 + v (hexaEnds i).2) := by
  funext x
  fin_cases i <;> simp [hexa2OfLinear, hexaEnds, Elem.worldCoordinates, Elem.interpolate, sum_fin8, hexa1] <;> ring

theorem hexa2OfLinear_mid (v : Fin 8 → Fin 3 → ℝ) (i : Fin 20) (a b : Fin 8)
    (h : (hexa2 (K := ℝ)).node i = (1 / 2 : ℝ) • ((hexa1 (K := ℝ)).node a + (hexa1 (K := ℝ)).node b)) :
    hexa2OfLinear v i = (1 / 2 : ℝ) • (v a + v b) := by
  have h1 : ∀ k, 2 * hexaPoint i k = hexaCorner a k + hexaCorner b k := by
    intro k
    have := congrFun h k
    simp only [Pi.smul_apply, Pi.add_apply, smul_eq_mul, hexaPoint_cast, hexaCorner_cast] at this
    have h2 : (2 : ℝ) * hexaPoint i k = hexaCorner a k + hexaCorner b k := by rw [this]; ring
    exact_mod_cast h2
  rw [hexa2OfLinear_ends]
  rcases hexa_ends_unique i a b h1 with h2 | h2
  · rw [← h2]
  · rw [← h2, add_comm]

/-! ### One element -/

section

variable {T T' : SolidType} {N N' M : ℕ} {idx : Fin M → Fin T.numNodes → Fin N} {idx' : Fin M → Fin T'.numNodes → Fin N'} {ends : Fin N' → Fin N × Fin N}

/-- The Jacobian of a raised field is that of the field. -/
theorem raised_jacobian (hT : RaisedType T T') (hm : RaisedMesh T T' idx idx' ends) (v : Fin N → Fin 3 → ℝ) (e : Fin M) (ξ : Fin 3 → ℝ) :
    (T'.elem.jacobian (fun i => raised ends v (idx' e i)) ξ : Mat3) = T.elem.jacobian (fun i => v (idx e i)) ξ := by
  cases hT
  · have h : (fun i => raised ends v (idx' e i)) = tetra2OfLinear fun i => v (idx e i) := by
      funext i
      obtain ⟨a, b, h1, h2⟩ := hm e i
      rw [raised, h2]
      exact (tetra2OfLinear_mid (fun i => v (idx e i)) i a b h1).symm
    rw [h]
    ext a j
    exact (jacobian_eq_of_world .tetra2 .tetra1 rfl _ _ (fun ξ => C08_tetra_from_linear (fun i => v (idx e i)) ξ) ξ a j)
  · have h : (fun i => raised ends v (idx' e i)) = hexa2OfLinear fun i => v (idx e i) := by
      funext i
      obtain ⟨a, b, h1, h2⟩ := hm e i
      rw [raised, h2]
      exact (hexa2OfLinear_mid (fun i => v (idx e i)) i a b h1).symm
    rw [h]
    ext a j
    exact (jacobian_eq_of_world .hexa2 .hexa1 rfl _ _ (fun ξ => C08_hexa_from_linear (fun i => v (idx e i)) ξ) ξ a j)

theorem tetra1_jacobian_const (v : Fin 4 → Fin 3 → ℝ) (ξ ξ' : Fin 3 → ℝ) : (tetra1 (K := ℝ)).jacobian v ξ = (tetra1 (K := ℝ)).jacobian v ξ' := rfl

/-- Sums on the quadrature points of both classes. -/
theorem raised_points (hT : RaisedType T T') (hm : RaisedMesh T T' idx idx' ends) {ι : Type} (v : ι → Fin N → Fin 3 → ℝ) (e : Fin M) (h : (ι → Mat3) → ℝ) :
    (T'.gauss.map fun g => g.weight * h fun k => T'.elem.jacobian (fun i => raised ends (v k) (idx' e i)) g.position).sum =
      (T.gauss.map fun g => g.weight * h fun k => T.elem.jacobian (fun i => v k (idx e i)) g.position).sum := by
  simp only [raised_jacobian hT hm]
  cases hT
  · have h1 : ∀ ξ : Fin 3 → ℝ, (h fun k => SolidType.tetra1.elem.jacobian (fun i => v k (idx e i)) ξ) = h fun k => SolidType.tetra1.elem.jacobian (fun i => v k (idx e i)) 0 :=
      fun ξ => rfl
    simp only [h1]
    generalize (h fun k => SolidType.tetra1.elem.jacobian (fun i => v k (idx e i)) 0) = c
    simp only [SolidType.gauss, gaussTetra1, gaussTetra2, List.map_cons, List.map_nil, List.sum_cons, List.sum_nil]
    ring
  · rfl

theorem defGrad_jacobian {n : ℕ} (E : Elem ℝ 3 n) (X y : Fin n → Fin 3 → ℝ) (g : GaussNode 3) :
    deformationGradient (gaussNodeOf E X g).dN y = (E.jacobian y g.position : Mat3) * (E.jacobian X g.position : Mat3)⁻¹ := by
  ext a b
  rw [defGrad_apply]
  simp only [gaussNodeOf_dN, Matrix.mul_apply, Elem.jacobian, Finset.mul_sum, Finset.sum_mul]
  rw [Finset.sum_comm]
  exact Finset.sum_congr rfl fun k _ => Finset.sum_congr rfl fun i _ => by ring

/-- Sums of functions of gradients. -/
theorem raised_gradients (hT : RaisedType T T') (hm : RaisedMesh T T' idx idx' ends) {ι : Type} (X : Fin N → Fin 3 → ℝ) (v : ι → Fin N → Fin 3 → ℝ) (e : Fin M) (h : (ι → Mat3) → ℝ) :
    ((getGaussNodes T'.elem T'.gauss fun i => raised ends X (idx' e i)).map fun q =>
        q.detJ * q.weight * h fun k => deformationGradient q.dN fun i => raised ends (v k) (idx' e i)).sum =
      ((getGaussNodes T.elem T.gauss fun i => X (idx e i)).map fun q => q.detJ * q.weight * h fun k => deformationGradient q.dN fun i => v k (idx e i)).sum := by
  have key := raised_points hT hm (ι := Option ι) (fun o => o.elim X v) e fun G => |(G none).det| * h fun k => G (some k) * (G none)⁻¹
  have h1 : ∀ (S : SolidType) (Y : Fin S.numNodes → Fin 3 → ℝ) (w : ι → Fin S.numNodes → Fin 3 → ℝ),
      ((getGaussNodes S.elem S.gauss Y).map fun q => q.detJ * q.weight * h fun k => deformationGradient q.dN (w k)).sum =
        (S.gauss.map fun g => g.weight * (|(S.elem.jacobian Y g.position : Mat3).det| * h fun k =>
          (S.elem.jacobian (w k) g.position : Mat3) * (S.elem.jacobian Y g.position : Mat3)⁻¹)).sum := by
    intro S Y w
    rw [getGaussNodes, List.map_map]
    congr 1
    refine List.map_congr_left fun g _ => ?_
    simp only [Function.comp, defGrad_jacobian]
    simp only [gaussNodeOf]
    ring
  rw [h1 T' (fun i => raised ends X (idx' e i)) fun k i => raised ends (v k) (idx' e i), h1 T (fun i => X (idx e i)) fun k i => v k (idx e i)]
  exact key

end

/-! ### Forces -/

theorem gaussForce_work {n : ℕ} (mat : Material) (q : QNode n) (x v : Fin n → Fin 3 → ℝ) :
    ∑ i, gaussForce mat q x i ⬝ᵥ v i = q.detJ * q.weight *
      ddot (deformationGradient q.dN x * mat.stress (deformationGradient q.dN x).det ((deformationGradient q.dN x).transpose * deformationGradient q.dN x)) (deformationGradient q.dN v) := by
  simp only [gaussForce]
  generalize mat.stress (deformationGradient q.dN x).det ((deformationGradient q.dN x).transpose * deformationGradient q.dN x) = S
  generalize deformationGradient q.dN x = F
  rw [Matrix.smul_mul]
  generalize F * S = P
  simp only [Matrix.smul_mulVec, smul_dotProduct, smul_eq_mul, ← Finset.mul_sum]
  congr 1
  simp only [ddot, dotProduct, Matrix.mulVec, defGrad_apply, Finset.mul_sum, Finset.sum_mul]
  rw [Finset.sum_comm]
  refine Finset.sum_congr rfl fun a _ => ?_
  rw [Finset.sum_comm]
  exact Finset.sum_congr rfl fun b _ => Finset.sum_congr rfl fun i _ => by ring

theorem hyper_power {N n M : ℕ} (m : HyperMesh N n M) (mat : Material) (x v : Fin N → Fin 3 → ℝ) :
    power (m.addForce mat x 0) v = -∑ e, ((m.qnodes e).map fun q => q.detJ * q.weight *
      ddot (deformationGradient q.dN (m.gather x e) * mat.stress (deformationGradient q.dN (m.gather x e)).det
        ((deformationGradient q.dN (m.gather x e)).transpose * deformationGradient q.dN (m.gather x e))) (deformationGradient q.dN (m.gather v e))).sum := by
  simp only [power, HyperMesh.addForce, Pi.zero_apply, zero_sub, neg_dotProduct, Finset.sum_neg_distrib]
  congr 1
  simp only [sum_dotProduct]
  rw [Finset.sum_comm]
  refine Finset.sum_congr rfl fun e _ => ?_
  rw [Finset.sum_comm]
  have h1 : ∀ i, (∑ p, (if m.idx e i = p then nodalForces mat (m.qnodes e) (m.gather x e) i else 0) ⬝ᵥ v p) = nodalForces mat (m.qnodes e) (m.gather x e) i ⬝ᵥ m.gather v e i := by
    intro i
    rw [Finset.sum_eq_single (m.idx e i)]
    · rw [if_pos rfl]
      rfl
    · intro p _ hp
      rw [if_neg (Ne.symm hp), zero_dotProduct]
    · simp
  simp only [h1]
  simp only [nodalForces]
  have h2 : ∀ (l : List (QNode n)), ∑ i, (l.map fun g => gaussForce mat g (m.gather x e) i).sum ⬝ᵥ m.gather v e i = (l.map fun q => ∑ i, gaussForce mat q (m.gather x e) i ⬝ᵥ m.gather v e i).sum := by
    intro l
    induction l with
    | nil => simp
    | cons q l ih =>
      simp only [List.map_cons, List.sum_cons, add_dotProduct, Finset.sum_add_distrib, ih]
  rw [h2]
  simp only [gaussForce_work]

theorem power_raised {N N' : ℕ} (ends : Fin N' → Fin N × Fin N) (f : Fin N' → Fin 3 → ℝ) (v : Fin N → Fin 3 → ℝ) : power f (raised ends v) = power (lowered ends f) v := by
  simp only [power, raised, lowered, sum_dotProduct, smul_dotProduct, dotProduct_smul, dotProduct_add, smul_eq_mul]
  rw [Finset.sum_comm]
  refine Finset.sum_congr rfl fun p _ => ?_
  simp only [add_mul, Finset.sum_add_distrib, ite_mul, zero_mul, Finset.sum_ite_eq, Finset.mem_univ, if_true]
  ring

theorem power_ext' {N : ℕ} {f g : Fin N → Fin 3 → ℝ} (h : ∀ v, power f v = power g v) : f = g := by
  funext p a
  have := h (Pi.single p (Pi.single a 1))
  have key : ∀ f : Fin N → Fin 3 → ℝ, power f (Pi.single p (Pi.single a 1)) = f p a := by
    intro f
    rw [power, Finset.sum_eq_single p]
    · simp
    · intro q _ hq
      rw [Pi.single_eq_of_ne hq, dotProduct_zero]
    · simp
  rwa [key, key] at this

end Caribou
