import Verif.Lemmas.TractionWork

/-!
# Property C132: a traction load does the work of a load on the surface
-/

set_option autoImplicit false

namespace Caribou

open Spec Matrix

/-- The elements are flat with straight sides and regularly placed nodes: element `e` is the image of the canonical element by `ξ ↦ c e + A e ξ`. -/
def FlatSurface (T : SurfaceType) {N M : ℕ} (idx : Fin M → Fin T.numNodes → Fin N) (X : Fin N → Fin 3 → ℝ) (c : Fin M → Fin 3 → ℝ) (A : Fin M → Matrix (Fin 3) (Fin 2) ℝ) : Prop :=
  ∀ e i, X (idx e i) = c e + A e *ᵥ T.elem.node i

/-- The forces which the field adds after its initialisation and `k` time steps, when the part of the traction applied is `load`. -/
def AppliedForces (T : SurfaceType) {N M : ℕ} (idx : Fin M → Fin T.numNodes → Fin N) (X0 : Fin N → Fin 3 → ℝ) (eps : ℝ) (d : TractionData 3) (k : ℕ) (s : TractionState 3 N T.numNodes M)
    (F : Fin N → Fin 3 → ℝ) : Prop :=
  ∃ s0, (TractionState.fresh 3 idx).init d eps (TractionState.nodes3 T) X0 = .ok s0 ∧ s0.afterSteps d k = .ok s ∧ ∀ f, s.addForce f = .ok (f + F)

/-- Part of the traction applied after `k` time steps: all of it when the slope is null, else one more `slope` at each increment. -/
noncomputable def loadFactor (eps : ℝ) (d : TractionData 3) (k : ℕ) : ℝ :=
  if d.slope < eps then 1 else min (incrementsDue d.steps k * d.slope) 1

variable (T : SurfaceType) {N M : ℕ} (idx : Fin M → Fin T.numNodes → Fin N) (X0 : Fin N → Fin 3 → ℝ) (c : Fin M → Fin 3 → ℝ) (A : Fin M → Matrix (Fin 3) (Fin 2) ℝ)
  (eps : ℝ) (d : TractionData 3) (k : ℕ)

/-- **C132 (work).** On flat elements of every type the work of the forces in any displacement of the nodes is the integral over the surface of the traction applied times the displacement
interpolated on it. -/
theorem C132_work (hX : FlatSurface T idx X0 c A) (heps : 0 < eps) (hs : -eps < d.slope) : ∃ s F, AppliedForces T idx X0 eps d k s F ∧
    ∀ u : Fin N → Fin 3 → ℝ, ∑ p, ∑ a, F p a * u p a =
      loadFactor eps d k * ∑ e, flatIntegral T.shape (fun a => A e a 0) (fun a => A e a 1) fun ξ => ∑ a, d.traction a * T.elem.interpolate ξ (fun i => u (idx e i)) a := by
  have h : NodalForce idx (TractionState.nodes3 T) X0 eps d k (fun p => ∑ e, ((TractionState.nodes3 T fun i => X0 (idx e i)).map fun g =>
      ∑ i, if idx e i = p then g.N i * (g.weight * g.detJ) else 0).sum) (loadFactor eps d k) := by
    rw [loadFactor]
    split_ifs with h
    · exact TractionState.nodal_constant idx _ X0 (nodes_sum_one T _) eps d hs h k
    · exact TractionState.nodal_incremental idx _ X0 (nodes_sum_one T _) eps heps d (not_lt.1 h) k
  obtain ⟨s0, s, h1, h2, h3⟩ := h
  refine ⟨s, _, ⟨s0, h1, h2, h3⟩, fun u => ?_⟩
  have hw : ∀ e, (flatIntegral T.shape (fun a => A e a 0) (fun a => A e a 1) fun ξ => ∑ a, d.traction a * T.elem.interpolate ξ (fun i => u (idx e i)) a) =
      ((TractionState.nodes3 T fun i => X0 (idx e i)).map fun g => ∑ i, g.N i * (g.weight * g.detJ) * ∑ a, d.traction a * u (idx e i) a).sum := by
    intro e
    rw [element_work T (c e) (A e) _ (hX e)]
    congr 1
    funext ξ
    simp only [Elem.interpolate, Finset.mul_sum]
    rw [Finset.sum_comm]
    refine Finset.sum_congr rfl fun i _ => Finset.sum_congr rfl fun a _ => ?_
    ring
  have hv : ∀ e, ((TractionState.nodes3 T fun i => X0 (idx e i)).map fun g => ∑ i, g.N i * (g.weight * g.detJ) * ∑ a, d.traction a * u (idx e i) a).sum =
      ∑ p, ((TractionState.nodes3 T fun i => X0 (idx e i)).map fun g => ∑ i, if idx e i = p then g.N i * (g.weight * g.detJ) else 0).sum * ∑ a, d.traction a * u p a :=
    fun e => (share_work (TractionState.nodes3 T fun i => X0 (idx e i)) (fun g i => g.N i * (g.weight * g.detJ)) (idx e) fun p => ∑ a, d.traction a * u p a).symm
  simp only [hw, hv]
  rw [Finset.sum_comm (s := Finset.univ (α := Fin M)), Finset.mul_sum]
  refine Finset.sum_congr rfl fun p _ => ?_
  rw [← Finset.sum_mul, Finset.mul_sum, Finset.mul_sum]
  refine Finset.sum_congr rfl fun a _ => ?_
  simp only [Pi.smul_apply, smul_eq_mul]
  ring

/-- The corners of an element. -/
def SurfaceType.corners : (T : SurfaceType) → (Fin T.numNodes → Fin 3 → ℝ) → List (Fin 3 → ℝ)
  | .triangle1, X => let X : Fin 3 → Fin 3 → ℝ := X; [X 0, X 1, X 2]
  | .triangle2, X => let X : Fin 6 → Fin 3 → ℝ := X; [X 0, X 1, X 2]
  | .quad1, X => let X : Fin 4 → Fin 3 → ℝ := X; [X 0, X 1, X 2, X 3]
  | .quad2, X => let X : Fin 8 → Fin 3 → ℝ := X; [X 0, X 1, X 2, X 3]

/-- Area of the flat element with the given corners. -/
noncomputable def cornerArea : List (Fin 3 → ℝ) → ℝ
  | [a, b, c] => triangleArea a b c
  | [a, b, _, c] => parallelogramArea (b - a) (c - a)
  | _ => 0

theorem flat_corners (X : Fin T.numNodes → Fin 3 → ℝ) (c : Fin 3 → ℝ) (A : Matrix (Fin 3) (Fin 2) ℝ) (hX : ∀ i, X i = c + A *ᵥ T.elem.node i) (b : ℝ) (g : Fin 3 → ℝ) :
    flatIntegral T.shape (fun a => A a 0) (fun a => A a 1) (fun ξ => b + ∑ a, g a * (c + A *ᵥ ξ) a) =
      cornerArea (T.corners X) * (b + ∑ a, g a * meanPoint (T.corners X) a) := by
  have hf : (fun ξ : Fin 2 → ℝ => b + ∑ a, g a * (c + A *ᵥ ξ) a) = affineFn (b + ∑ a, g a * c a) (fun j => ∑ a, g a * A a j) := by
    funext ξ
    simp only [affineFn, Pi.add_apply, mulVec, dotProduct, Fin.sum_univ_three, Fin.sum_univ_two]
    ring
  have hq : ∀ u v : Fin 3 → ℝ, parallelogramArea ((2 : ℝ) • u) ((2 : ℝ) • v) = 4 * parallelogramArea u v := by
    intro u v
    have : crossProduct ((2 : ℝ) • u) ((2 : ℝ) • v) = (4 : ℝ) • crossProduct u v := by
      funext k
      fin_cases k <;> simp [cross_apply] <;> ring
    rw [parallelogramArea, ← norm2_eq, this, norm2_smul (by norm_num), norm2_eq, parallelogramArea]
  have hc : ∀ a, (A *ᵥ ![0, 0]) a = 0 ∧ (A *ᵥ ![1, 0]) a = A a 0 ∧ (A *ᵥ ![0, 1]) a = A a 1 := fun a => by simp [mulVec, dotProduct, Fin.sum_univ_two]
  have h := canonical_mean T (b + ∑ a, g a * c a) (fun j => ∑ a, g a * A a j)
  rw [hf]
  have tri : ∀ P : Fin 3 → Fin 3 → ℝ, P 0 = c + A *ᵥ ![0, 0] → P 1 = c + A *ᵥ ![1, 0] → P 2 = c + A *ᵥ ![0, 1] →
      parallelogramArea (fun a => A a 0) (fun a => A a 1) * (1 / 2 * (b + ∑ a, g a * c a + (∑ a, g a * A a 0 + ∑ a, g a * A a 1) / 3)) =
        triangleArea (P 0) (P 1) (P 2) * (b + ∑ a, g a * meanPoint [P 0, P 1, P 2] a) := by
    intro P h0 h1 h2
    have e1 : P 1 - P 0 = fun a => A a 0 := by funext a; simp [h0, h1, hc]
    have e2 : P 2 - P 0 = fun a => A a 1 := by funext a; simp [h0, h2, hc]
    rw [triangleArea, e1, e2, parallelogramArea]
    have e3 : ∀ a, meanPoint [P 0, P 1, P 2] a = c a + (A a 0 + A a 1) / 3 := by
      intro a
      simp [meanPoint, h0, h1, h2, hc]
      ring
    simp only [e3, Fin.sum_univ_three]
    ring
  have quad : ∀ P : Fin 4 → Fin 3 → ℝ, P 0 = c + A *ᵥ ![-1, -1] → P 1 = c + A *ᵥ ![1, -1] → P 2 = c + A *ᵥ ![1, 1] → P 3 = c + A *ᵥ ![-1, 1] →
      parallelogramArea (fun a => A a 0) (fun a => A a 1) * (4 * (b + ∑ a, g a * c a)) =
        parallelogramArea (P 1 - P 0) (P 3 - P 0) * (b + ∑ a, g a * meanPoint [P 0, P 1, P 2, P 3] a) := by
    intro P h0 h1 h2 h3
    have e1 : P 1 - P 0 = (2 : ℝ) • fun a => A a 0 := by funext a; simp [h0, h1, mulVec, dotProduct, Fin.sum_univ_two]; ring
    have e2 : P 3 - P 0 = (2 : ℝ) • fun a => A a 1 := by funext a; simp [h0, h3, mulVec, dotProduct, Fin.sum_univ_two]; ring
    rw [e1, e2, hq]
    have e3 : ∀ a, meanPoint [P 0, P 1, P 2, P 3] a = c a := by
      intro a
      simp [meanPoint, h0, h1, h2, h3, mulVec, dotProduct, Fin.sum_univ_two]
      ring
    simp only [e3]
    ring
  cases T with
  | triangle1 =>
    change Fin 3 → Fin 3 → ℝ at X
    exact (congrArg _ h).trans (tri X (hX (0 : Fin 3)) (hX (1 : Fin 3)) (hX (2 : Fin 3)))
  | triangle2 =>
    change Fin 6 → Fin 3 → ℝ at X
    exact (congrArg _ h).trans (tri ![X 0, X 1, X 2] (hX (0 : Fin 6)) (hX (1 : Fin 6)) (hX (2 : Fin 6)))
  | quad1 =>
    change Fin 4 → Fin 3 → ℝ at X
    exact (congrArg _ h).trans (quad X (hX (0 : Fin 4)) (hX (1 : Fin 4)) (hX (2 : Fin 4)) (hX (3 : Fin 4)))
  | quad2 =>
    change Fin 8 → Fin 3 → ℝ at X
    exact (congrArg _ h).trans (quad ![X 0, X 1, X 2, X 3] (hX (0 : Fin 8)) (hX (1 : Fin 8)) (hX (2 : Fin 8)) (hX (3 : Fin 8)))

/-- **C132 (resultant).** The forces have the resultant and the moment, about any point, of the traction applied times the area of each element at the centre of its corners: the work in the displacement
`x ↦ b + B x` of the nodes is the sum of the work of these loads. -/
theorem C132_affine (hX : FlatSurface T idx X0 c A) (heps : 0 < eps) (hs : -eps < d.slope) : ∃ s F, AppliedForces T idx X0 eps d k s F ∧
    ∀ (b : Fin 3 → ℝ) (B : Matrix (Fin 3) (Fin 3) ℝ), ∑ p, F p ⬝ᵥ (b + B *ᵥ X0 p) =
      loadFactor eps d k * ∑ e, cornerArea (T.corners fun i => X0 (idx e i)) * (d.traction ⬝ᵥ (b + B *ᵥ meanPoint (T.corners fun i => X0 (idx e i)))) := by
  obtain ⟨s, F, hF, h⟩ := C132_work T idx X0 c A eps d k hX heps hs
  refine ⟨s, F, hF, fun b B => ?_⟩
  have h' := h fun p => b + B *ᵥ X0 p
  simp only [dotProduct] at h' ⊢
  rw [h']
  congr 1
  refine Finset.sum_congr rfl fun e _ => ?_
  have := flat_corners T (fun i => X0 (idx e i)) (c e) (A e) (hX e) (∑ a, d.traction a * b a) (fun j => ∑ a, d.traction a * B a j)
  have e1 : (∑ a, d.traction a * b a) + ∑ j, (∑ a, d.traction a * B a j) * meanPoint (T.corners fun i => X0 (idx e i)) j =
      ∑ a, d.traction a * (b + B *ᵥ meanPoint (T.corners fun i => X0 (idx e i))) a := by
    simp only [Pi.add_apply, mulVec, dotProduct, Fin.sum_univ_three]; ring
  rw [e1] at this
  rw [← this]
  congr 1
  funext ξ
  have rep : ∀ a, T.elem.interpolate ξ (fun i => b + B *ᵥ X0 (idx e i)) a = (b + B *ᵥ (c e + A e *ᵥ ξ)) a := by
    intro a
    have r := surface_reproduction T (b a + (B *ᵥ c e) a) (fun j => ∑ m, B a m * A e m j) ξ
    have r1 : ∀ η : Fin 2 → ℝ, affineFn (b a + (B *ᵥ c e) a) (fun j => ∑ m, B a m * A e m j) η = (b + B *ᵥ (c e + A e *ᵥ η)) a := by
      intro η
      simp only [affineFn, Pi.add_apply, mulVec, dotProduct, Fin.sum_univ_three, Fin.sum_univ_two]; ring
    simp only [r1] at r
    rw [← r, Elem.interpolate]
    refine Finset.sum_congr rfl fun i _ => ?_
    rw [hX e i]
    first | rfl | exact mul_comm _ _
  simp only [rep]
  simp only [Pi.add_apply, mulVec, dotProduct, Fin.sum_univ_three, Fin.sum_univ_two]; ring

/-- **C132 (moment).** -/
theorem C132_moment (hX : FlatSurface T idx X0 c A) (heps : 0 < eps) (hs : -eps < d.slope) : ∃ s F, AppliedForces T idx X0 eps d k s F ∧
    ∀ o : Fin 3 → ℝ, ∑ p, crossProduct (X0 p - o) (F p) =
      loadFactor eps d k • ∑ e, cornerArea (T.corners fun i => X0 (idx e i)) • crossProduct (meanPoint (T.corners fun i => X0 (idx e i)) - o) d.traction := by
  obtain ⟨s, F, hF, h⟩ := C132_affine T idx X0 c A eps d k hX heps hs
  refine ⟨s, F, hF, fun o => ?_⟩
  funext a
  simp only [Finset.sum_apply, Pi.smul_apply, smul_eq_mul]
  have key : ∀ (m : Fin 3 → ℝ) (x f : Fin 3 → ℝ), m ⬝ᵥ crossProduct (x - o) f = f ⬝ᵥ (crossProduct m (-o) + !![0, -m 2, m 1; m 2, 0, -m 0; -m 1, m 0, 0] *ᵥ x) := by
    intro m x f
    simp [dotProduct, mulVec, cross_apply, Fin.sum_univ_three, Matrix.vecHead, Matrix.vecTail]
    ring
  have single : ∀ v : Fin 3 → ℝ, v a = (Pi.single a 1 : Fin 3 → ℝ) ⬝ᵥ v := fun v => by rw [single_dotProduct, one_mul]
  have h' := h (crossProduct (Pi.single a 1) (-o)) !![0, -(Pi.single a 1 : Fin 3 → ℝ) 2, (Pi.single a 1 : Fin 3 → ℝ) 1; (Pi.single a 1 : Fin 3 → ℝ) 2, 0, -(Pi.single a 1 : Fin 3 → ℝ) 0;
    -(Pi.single a 1 : Fin 3 → ℝ) 1, (Pi.single a 1 : Fin 3 → ℝ) 0, 0]
  simp only [← key] at h'
  simp only [← single] at h'
  exact h'

theorem AppliedForces.unique {s s' : TractionState 3 N T.numNodes M} {F F' : Fin N → Fin 3 → ℝ} (h : AppliedForces T idx X0 eps d k s F) (h' : AppliedForces T idx X0 eps d k s' F') :
    s = s' ∧ F = F' := by
  obtain ⟨s0, a1, a2, a3⟩ := h
  obtain ⟨t0, b1, b2, b3⟩ := h'
  rw [a1] at b1
  cases b1
  rw [a2] at b2
  cases b2
  refine ⟨rfl, ?_⟩
  have := a3 0
  rw [b3 0] at this
  simpa using (Outcome.ok.inj this).symm

/-- **C132, negation for the energy.** The energy which the field reports is not a potential of the forces it adds: it is zero whatever the load and the positions. -/
theorem C132_violated (hX : FlatSurface T idx X0 c A) (heps : 0 < eps) (hs : -eps < d.slope) (ha : 0 < ∑ e, cornerArea (T.corners fun i => X0 (idx e i))) (ht : d.traction ≠ 0)
    (hl : loadFactor eps d k ≠ 0) (s : TractionState 3 N T.numNodes M) (F : Fin N → Fin 3 → ℝ) (hF : AppliedForces T idx X0 eps d k s F) :
    ¬ IsPotential s.getPotentialEnergy F := by
  intro hp
  obtain ⟨s', F', hF', h⟩ := C132_affine T idx X0 c A eps d k hX heps hs
  obtain ⟨rfl, rfl⟩ := hF.unique T idx X0 eps d k hF'
  have h1 := hp 0 fun _ => d.traction
  have h2 := h d.traction 0
  simp only [zero_mulVec, add_zero, dotProduct, ← Finset.sum_mul] at h2
  simp only [TractionState.getPotentialEnergy, sub_self] at h1
  rw [h2, eq_comm, neg_eq_zero] at h1
  have h3 : 0 < ∑ a, d.traction a * d.traction a := by
    obtain ⟨a, ha⟩ := Function.ne_iff.1 ht
    exact Finset.sum_pos' (fun i _ => mul_self_nonneg _) ⟨a, Finset.mem_univ a, mul_self_pos.2 ha⟩
  exact mul_ne_zero hl (mul_pos ha h3).ne' h1

/-- A triangle with legs of length three under a vertical traction of 2 per unit of area: the moment about the corner is that of the load 9 at the point `(1, 1, 0)`. -/
example : ∃ s F, AppliedForces .triangle1 (fun _ : Fin 1 => ![0, 1, 2]) (![![0, 0, 0], ![3, 0, 0], ![0, 3, 0]] : Fin 3 → Fin 3 → ℝ) (1 / 10) ⟨![0, 0, 2], 0, 1⟩ 7 s F ∧
    ∑ p, crossProduct ((![![0, 0, 0], ![3, 0, 0], ![0, 3, 0]] : Fin 3 → Fin 3 → ℝ) p) (F p) = ![9, -9, 0] := by
  have hX : FlatSurface .triangle1 (fun _ : Fin 1 => ![0, 1, 2]) (![![0, 0, 0], ![3, 0, 0], ![0, 3, 0]] : Fin 3 → Fin 3 → ℝ) (fun _ => 0) (fun _ => !![3, 0; 0, 3; 0, 0]) := by
    intro e i
    change Fin 3 at i
    fin_cases i <;> funext a <;> fin_cases a <;> simp [SurfaceType.elem, triangle1, mulVec, dotProduct]
  obtain ⟨s, F, hF, h⟩ := C132_moment .triangle1 (fun _ : Fin 1 => ![0, 1, 2]) (![![0, 0, 0], ![3, 0, 0], ![0, 3, 0]] : Fin 3 → Fin 3 → ℝ) (fun _ => 0) (fun _ => !![3, 0; 0, 3; 0, 0])
    (1 / 10) ⟨![0, 0, 2], 0, 1⟩ 7 hX (by norm_num) (by norm_num)
  refine ⟨s, F, hF, ?_⟩
  have h0 := h 0
  simp only [sub_zero] at h0
  rw [h0]
  have ha : triangleArea (![0, 0, 0] : Fin 3 → ℝ) ![3, 0, 0] ![0, 3, 0] = 9 / 2 := by
    have : Real.sqrt ((9 : ℝ) ^ 2) = 9 := Real.sqrt_sq (by norm_num)
    simp [triangleArea, cross_apply, Fin.sum_univ_three]
    norm_num at this ⊢
  have hl : loadFactor (1 / 10) ⟨![0, 0, 2], 0, 1⟩ 7 = 1 := by rw [loadFactor, if_pos (by norm_num)]
  rw [hl, one_smul]
  simp only [SurfaceType.corners, cornerArea, Finset.univ_unique, Finset.sum_singleton]
  change triangleArea (![0, 0, 0] : Fin 3 → ℝ) ![3, 0, 0] ![0, 3, 0] • crossProduct (meanPoint [![0, 0, 0], ![3, 0, 0], ![0, 3, 0]]) ![0, 0, 2] = _
  rw [ha]
  funext a
  fin_cases a <;> simp [meanPoint, cross_apply] <;> norm_num

end Caribou
