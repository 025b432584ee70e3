import Mathlib.Analysis.Convex.Topology
import Mathlib.Analysis.Convex.Combination
import Verif.Model.Drawing
import Verif.Spec.Drawing
import Verif.Spec.HeldBody
import Verif.Props.HeldBody

/-!
# Property C107: the drawn elements are the elements moved apart
-/

set_option autoImplicit false

namespace Caribou

open Spec Matrix

/-! ### Inside -/

/-- The elements of which this is shown: linear ones which are not flat at the centre and straight ones. -/
def DrawableShape (T : SolidType) (X : Fin T.numNodes → Fin 3 → ℝ) : Prop :=
  ((T = .tetra1 ∨ T = .hexa1) ∧ (T.elem.jacobian X T.centre : Mat3).det ≠ 0) ∨ AffineShape T.elem.node X

theorem centre_sum (T : SolidType) : ∑ i, T.elem.L T.centre i = 1 := by
  cases T
  · exact C01_partition_of_unity (K := ℝ) .tetra1 _
  · exact C01_partition_of_unity (K := ℝ) .tetra2 _
  · exact C01_partition_of_unity (K := ℝ) .hexa1 _
  · exact C01_partition_of_unity (K := ℝ) .hexa2 _

theorem centre_node (T : SolidType) (a : Fin 3) : ∑ i, T.elem.node i a * T.elem.L T.centre i = T.centre a := by
  cases T
  · show ∑ i : Fin 4, tetra1.node i a * tetra1.L ![1/4, 1/4, 1/4] i = (![1/4, 1/4, 1/4] : Fin 3 → ℝ) a
    fin_cases a <;> simp only [tetra1, sum_fin4, Fin.zero_eta, Fin.mk_one, Fin.reduceFinMk, Matrix.cons_val] <;> norm_num
  · show ∑ i : Fin 10, tetra2.node i a * tetra2.L ![1/4, 1/4, 1/4] i = (![1/4, 1/4, 1/4] : Fin 3 → ℝ) a
    fin_cases a <;> simp only [tetra2, sum_fin10, Fin.zero_eta, Fin.mk_one, Fin.reduceFinMk, Matrix.cons_val] <;> norm_num
  · show ∑ i : Fin 8, hexa1.node i a * hexa1.L ![0, 0, 0] i = (![0, 0, 0] : Fin 3 → ℝ) a
    fin_cases a <;> simp only [hexa1, sum_fin8, Fin.zero_eta, Fin.mk_one, Fin.reduceFinMk, Matrix.cons_val] <;> norm_num
  · show ∑ i : Fin 20, hexa2.node i a * hexa2.L ![0, 0, 0] i = (![0, 0, 0] : Fin 3 → ℝ) a
    fin_cases a <;> simp only [hexa2, hexa2Mid, sum_fin20, Fin.zero_eta, Fin.mk_one, Fin.reduceFinMk, Matrix.cons_val] <;> norm_num

theorem mean_node (T : SolidType) (a : Fin 3) : ∑ i, T.elem.node i a * (1 / (T.numNodes : ℝ)) = T.centre a := by
  cases T
  · show ∑ i : Fin 4, tetra1.node i a * (1 / ((4 : ℕ) : ℝ)) = (![1/4, 1/4, 1/4] : Fin 3 → ℝ) a
    fin_cases a <;> simp only [tetra1, sum_fin4, Fin.zero_eta, Fin.mk_one, Fin.reduceFinMk, Matrix.cons_val] <;> norm_num
  · show ∑ i : Fin 10, tetra2.node i a * (1 / ((10 : ℕ) : ℝ)) = (![1/4, 1/4, 1/4] : Fin 3 → ℝ) a
    fin_cases a <;> simp only [tetra2, sum_fin10, Fin.zero_eta, Fin.mk_one, Fin.reduceFinMk, Matrix.cons_val] <;> norm_num
  · show ∑ i : Fin 8, hexa1.node i a * (1 / ((8 : ℕ) : ℝ)) = (![0, 0, 0] : Fin 3 → ℝ) a
    fin_cases a <;> simp only [hexa1, sum_fin8, Fin.zero_eta, Fin.mk_one, Fin.reduceFinMk, Matrix.cons_val] <;> norm_num
  · show ∑ i : Fin 20, hexa2.node i a * (1 / ((20 : ℕ) : ℝ)) = (![0, 0, 0] : Fin 3 → ℝ) a
    fin_cases a <;> simp only [hexa2, hexa2Mid, sum_fin20, Fin.zero_eta, Fin.mk_one, Fin.reduceFinMk, Matrix.cons_val] <;> norm_num

theorem numNodes_pos (T : SolidType) : 0 < (T.numNodes : ℝ) := by
  cases T
  · show 0 < ((4 : ℕ) : ℝ); norm_num
  · show 0 < ((10 : ℕ) : ℝ); norm_num
  · show 0 < ((8 : ℕ) : ℝ); norm_num
  · show 0 < ((20 : ℕ) : ℝ); norm_num

theorem centre_weights (T : SolidType) (hT : T = .tetra1 ∨ T = .hexa1) (i : Fin T.numNodes) : 0 < T.elem.L T.centre i := by
  rcases hT with rfl | rfl
  · show 0 < tetra1.L ![1/4, 1/4, 1/4] (i : Fin 4)
    change Fin 4 at i
    fin_cases i <;> simp only [tetra1, Fin.zero_eta, Fin.mk_one, Fin.reduceFinMk, Matrix.cons_val] <;> norm_num
  · show 0 < hexa1.L ![0, 0, 0] (i : Fin 8)
    change Fin 8 at i
    fin_cases i <;> simp only [hexa1, Fin.zero_eta, Fin.mk_one, Fin.reduceFinMk, Matrix.cons_val] <;> norm_num

theorem combination_mem {n : ℕ} (X : Fin n → Fin 3 → ℝ) (w : Fin n → ℝ) (h0 : ∀ i, 0 ≤ w i) (h1 : ∑ i, w i = 1) :
    (fun a => ∑ i, X i a * w i) ∈ convexHull ℝ (Set.range X) := by
  have := (convex_convexHull ℝ (Set.range X)).sum_mem (t := Finset.univ) (w := w) (z := X) (fun i _ => h0 i) h1
    fun i _ => subset_convexHull ℝ _ ⟨i, rfl⟩
  convert this using 1
  funext a
  rw [Finset.sum_apply]
  exact Finset.sum_congr rfl fun i _ => by rw [Pi.smul_apply, smul_eq_mul, mul_comm]

/-- A combination with positive weights is inside when the nodes can be moved in all directions. -/
theorem positive_interior {n : ℕ} (X : Fin n → Fin 3 → ℝ) (w : Fin n → ℝ) (h0 : ∀ i, 0 < w i) (h1 : ∑ i, w i = 1)
    (D : Fin n → Fin 3 → ℝ) (hD : ∀ k, ∑ i, D i k = 0) (hdet : (Matrix.of fun a k => ∑ i, X i a * D i k : Mat3).det ≠ 0) :
    (fun a => ∑ i, X i a * w i) ∈ interior (convexHull ℝ (Set.range X)) := by
  obtain ⟨J, hJ⟩ : ∃ J : Mat3, J = Matrix.of fun a k => ∑ i, X i a * D i k := ⟨_, rfl⟩
  rw [← hJ] at hdet
  -- the weights of a point near the combination
  have hcont : Continuous fun y : Fin 3 → ℝ => fun i => w i + ∑ k, D i k * (J⁻¹ *ᵥ (y - fun a => ∑ i, X i a * w i)) k := by
    refine continuous_pi fun i => continuous_const.add (continuous_finsetSum _ fun k _ => continuous_const.mul ?_)
    exact (continuous_apply k).comp (Continuous.matrix_mulVec continuous_const (continuous_id.sub continuous_const))
  have hopen : IsOpen {v : Fin n → ℝ | ∀ i, 0 < v i} := by
    have : {v : Fin n → ℝ | ∀ i, 0 < v i} = Set.pi Set.univ fun _ => Set.Ioi 0 := by ext v; simp
    rw [this]
    exact isOpen_set_pi Set.finite_univ fun _ _ => isOpen_Ioi
  refine mem_interior.2 ⟨_, ?_, hopen.preimage hcont, ?_⟩
  · intro y hy
    obtain ⟨η, hη⟩ : ∃ η, η = J⁻¹ *ᵥ (y - fun a => ∑ i, X i a * w i) := ⟨_, rfl⟩
    have hy' : ∀ i, 0 < w i + ∑ k, D i k * η k := by
      intro i
      rw [hη]
      exact hy i
    have e : y = fun a => ∑ i, X i a * (w i + ∑ k, D i k * η k) := by
      have h2 : J *ᵥ η = y - fun a => ∑ i, X i a * w i := by
        rw [hη, mulVec_mulVec, Matrix.mul_nonsing_inv _ (isUnit_iff_ne_zero.2 hdet), one_mulVec]
      funext a
      have h3 := congrFun h2 a
      simp only [mulVec, dotProduct, hJ, Matrix.of_apply, Pi.sub_apply] at h3
      simp only [mul_add, Finset.sum_add_distrib]
      have : ∑ i, X i a * ∑ k, D i k * η k = ∑ k, (∑ i, X i a * D i k) * η k := by
        simp only [Finset.mul_sum, Finset.sum_mul]
        rw [Finset.sum_comm]
        exact Finset.sum_congr rfl fun k _ => Finset.sum_congr rfl fun i _ => by ring
      rw [this, h3]
      ring
    rw [e]
    refine combination_mem X _ (fun i => (hy' i).le) ?_
    rw [Finset.sum_add_distrib, h1, Finset.sum_comm]
    simp only [← Finset.sum_mul, hD, zero_mul, Finset.sum_const_zero, add_zero]
  · show ∀ i, 0 < _
    intro i
    simp only [sub_self, mulVec_zero, Pi.zero_apply, mul_zero, Finset.sum_const_zero, add_zero]
    exact h0 i

theorem affine_mean {n : ℕ} {node X : Fin n → Fin 3 → ℝ} {A : Mat3} {b c : Fin 3 → ℝ} (hX : ∀ i, X i = A.mulVec (node i) + b)
    {w : Fin n → ℝ} (h1 : ∑ i, w i = 1) (hc : ∀ a, ∑ i, node i a * w i = c a) : (fun a => ∑ i, X i a * w i) = A.mulVec c + b := by
  funext a
  simp only [hX, Pi.add_apply, mulVec, dotProduct, add_mul, Finset.sum_add_distrib, ← Finset.mul_sum, h1, mul_one, Finset.sum_mul, ← hc]
  congr 1
  rw [Finset.sum_comm]
  refine Finset.sum_congr rfl fun k _ => ?_
  rw [Finset.mul_sum]
  exact Finset.sum_congr rfl fun i _ => by ring

theorem centre_interior (T : SolidType) (X : Fin T.numNodes → Fin 3 → ℝ) (h : DrawableShape T X) :
    T.elem.worldCoordinates X T.centre ∈ interior (convexHull ℝ (Set.range X)) := by
  rcases h with ⟨hT, hJ⟩ | h
  · exact positive_interior X _ (centre_weights T hT) (centre_sum T) (T.elem.dL T.centre) (fun k => T.dsum _ k) hJ
  · have hJ := solid_affine_jacobian T h T.centre
    have hn := numNodes_pos T
    have h1 : ∑ _i : Fin T.numNodes, 1 / (T.numNodes : ℝ) = 1 := by
      rw [Finset.sum_const, Finset.card_univ, Fintype.card_fin, nsmul_eq_mul, mul_one_div_cancel hn.ne']
    have := positive_interior X (fun _ => 1 / (T.numNodes : ℝ)) (fun _ => one_div_pos.2 hn) h1 (T.elem.dL T.centre)
      (fun k => T.dsum _ k) hJ
    have e : T.elem.worldCoordinates X T.centre = fun a => ∑ i, X i a * (1 / (T.numNodes : ℝ)) := by
      obtain ⟨A, b, -, hX⟩ := h
      rw [affine_mean hX (centre_sum T) (centre_node T) |> fun h => (show T.elem.worldCoordinates X T.centre = _ from h)]
      exact (affine_mean hX h1 (mean_node T)).symm
    rw [e]
    exact this

theorem shrunk_interior (T : SolidType) (X : Fin T.numNodes → Fin 3 → ℝ) (h : DrawableShape T X) (s : ℝ) (h0 : 0 ≤ s) (h1 : s < 1)
    (i : Fin T.numNodes) : T.shrunk s X i ∈ interior (convexHull ℝ (Set.range X)) := by
  have := (convex_convexHull ℝ (Set.range X)).combo_interior_self_mem_interior (centre_interior T X h)
    (subset_convexHull ℝ _ ⟨i, rfl⟩) (sub_pos.2 h1) h0 (sub_add_cancel 1 s)
  convert this using 1
  unfold SolidType.shrunk
  module

/-- **C107 (inside).** For a scale in `[0, 1)` what is drawn of an element which is linear or straight is inside of the convex hull of its
nodes; for the scale 1 it is in the hull. -/
theorem C107_inside (T : SolidType) (X : Fin T.numNodes → Fin 3 → ℝ) (h : DrawableShape T X) (s : ℝ) (h0 : 0 ≤ s) :
    (s < 1 → ∀ l ∈ T.drawElement s X, ∀ t ∈ l, convexHull ℝ (Set.range t) ⊆ interior (convexHull ℝ (Set.range X))) ∧
    (s = 1 → ∀ l ∈ T.drawElement s X, ∀ t ∈ l, convexHull ℝ (Set.range t) ⊆ convexHull ℝ (Set.range X)) := by
  have key : ∀ (K : Set (Fin 3 → ℝ)), Convex ℝ K → (∀ i, T.shrunk s X i ∈ K) → ∀ l ∈ T.drawElement s X, ∀ t ∈ l,
      convexHull ℝ (Set.range t) ⊆ K := by
    intro K hK hs l hl t ht
    obtain ⟨f, -, rfl⟩ := List.mem_map.1 hl
    obtain ⟨n, -, rfl⟩ := List.mem_map.1 ht
    refine convexHull_min ?_ hK
    rintro _ ⟨k, rfl⟩
    exact hs _
  refine ⟨fun h1 => key _ (convex_convexHull ℝ _).interior fun i => ?_, fun h1 => key _ (convex_convexHull ℝ _) fun i => ?_⟩
  · exact shrunk_interior T X h s h0 h1 i
  · have := subset_convexHull ℝ (Set.range X) ⟨i, rfl⟩
    convert this using 1
    unfold SolidType.shrunk
    subst h1
    module

/-- **C107 (apart).** Elements which do not overlap are drawn without a common point when the scale is less than one. -/
theorem C107_apart (T U : SolidType) (X : Fin T.numNodes → Fin 3 → ℝ) (Y : Fin U.numNodes → Fin 3 → ℝ) (hX : DrawableShape T X)
    (hY : DrawableShape U Y) (s : ℝ) (h0 : 0 ≤ s) (h1 : s < 1)
    (hd : Disjoint (interior (convexHull ℝ (Set.range X))) (interior (convexHull ℝ (Set.range Y)))) :
    ∀ l ∈ T.drawElement s X, ∀ t ∈ l, ∀ l' ∈ U.drawElement s Y, ∀ t' ∈ l',
      Disjoint (convexHull ℝ (Set.range t)) (convexHull ℝ (Set.range t')) :=
  fun l hl t ht l' hl' t' ht' => hd.mono ((C107_inside T X hX s h0).1 h1 l hl t ht) ((C107_inside U Y hY s h0).1 h1 l' hl' t' ht')

/-! ### Groups -/

/-- **C107 (groups).** The group of the face `f` holds the triangles of this face of all the elements in their order: one triangle
for each element with the tetrahedra and two with the hexahedra. -/
theorem C107_groups (T : SolidType) (s : ℝ) {N M : ℕ} (idx : Fin M → Fin T.numNodes → Fin N) (x : Fin N → Fin 3 → ℝ) :
    T.draw s idx x = T.faceTriangles.map fun l =>
      (List.finRange M).flatMap fun e => l.map fun t k => T.shrunk s (fun i => x (idx e i)) (t k) := by
  have key : ∀ (es : List (Fin M)) (g : List (Fin 3 → Fin T.numNodes) → List DrawnTriangle),
      es.foldl (fun groups e => List.zipWith (· ++ ·) groups (T.drawElement s fun i => x (idx e i))) (T.faceTriangles.map g) =
        T.faceTriangles.map fun l => g l ++ es.flatMap fun e => l.map fun t k => T.shrunk s (fun i => x (idx e i)) (t k) := by
    intro es
    induction es with
    | nil => intro g; simp
    | cons e es ih =>
      intro g
      rw [List.foldl_cons]
      have : List.zipWith (· ++ ·) (T.faceTriangles.map g) (T.drawElement s fun i => x (idx e i)) =
          T.faceTriangles.map fun l => g l ++ l.map fun t k => T.shrunk s (fun i => x (idx e i)) (t k) := by
        unfold SolidType.drawElement
        rw [List.zipWith_map, List.zipWith_self]
      rw [this, ih]
      simp [List.flatMap_cons, List.append_assoc]
  unfold SolidType.draw
  rw [key]
  simp

/-! ### Volumes -/

theorem shrunk_det (c a b d : Fin 3 → ℝ) (s : ℝ) : (Matrix.of ![c + s • (a - c), c + s • (b - c), c + s • (d - c)]).det =
    s ^ 3 * (Matrix.of ![a, b, d]).det + s ^ 2 * (1 - s) * ((Matrix.of ![c, b, d]).det + (Matrix.of ![a, c, d]).det + (Matrix.of ![a, b, c]).det) := by
  simp only [det_fin_three, Matrix.of_apply, Matrix.cons_val, Pi.add_apply, Pi.smul_apply, Pi.sub_apply, smul_eq_mul]
  ring

theorem enclosed_affine (T : SolidType) (X : Fin T.numNodes → Fin 3 → ℝ) (s : ℝ) (c : Fin 3 → ℝ) :
    enclosedVolume ((T.faceTriangles.map fun l => l.map fun t k => c + s • (X (t k) - c)).flatten) =
      s ^ 3 * enclosedVolume ((T.faceTriangles.map fun l => l.map fun t k => X (t k)).flatten) := by
  cases T
  · change Fin 4 → Fin 3 → ℝ at X
    simp only [SolidType.faceTriangles, enclosedVolume, List.ofFn_succ, List.ofFn_zero, List.map_cons, List.map_nil, List.flatten_cons,
      List.flatten_nil, List.cons_append, List.nil_append, List.sum_cons, List.sum_nil, det_fin_three, Matrix.of_apply, Matrix.cons_val,
      tetra1Sides, Pi.add_apply, Pi.smul_apply, Pi.sub_apply, smul_eq_mul, Fin.succ_zero_eq_one, Fin.succ_one_eq_two, Fin.reduceSucc]
    ring
  · change Fin 10 → Fin 3 → ℝ at X
    simp only [SolidType.faceTriangles, enclosedVolume, List.ofFn_succ, List.ofFn_zero, List.map_cons, List.map_nil, List.flatten_cons,
      List.flatten_nil, List.cons_append, List.nil_append, List.sum_cons, List.sum_nil, det_fin_three, Matrix.of_apply, Matrix.cons_val,
      tetra2Sides, Pi.add_apply, Pi.smul_apply, Pi.sub_apply, smul_eq_mul, Fin.succ_zero_eq_one, Fin.succ_one_eq_two, Fin.reduceSucc]
    ring
  · change Fin 8 → Fin 3 → ℝ at X
    simp only [SolidType.faceTriangles, enclosedVolume, List.ofFn_succ, List.ofFn_zero, List.map_cons, List.map_nil, List.flatten_cons,
      List.flatten_nil, List.cons_append, List.nil_append, List.sum_cons, List.sum_nil, det_fin_three, Matrix.of_apply, Matrix.cons_val,
      hexa1Sides, Pi.add_apply, Pi.smul_apply, Pi.sub_apply, smul_eq_mul, Fin.succ_zero_eq_one, Fin.succ_one_eq_two, Fin.reduceSucc]
    ring
  · change Fin 20 → Fin 3 → ℝ at X
    simp only [SolidType.faceTriangles, enclosedVolume, List.ofFn_succ, List.ofFn_zero, List.map_cons, List.map_nil, List.flatten_cons,
      List.flatten_nil, List.cons_append, List.nil_append, List.sum_cons, List.sum_nil, det_fin_three, Matrix.of_apply, Matrix.cons_val,
      hexa2Sides, Pi.add_apply, Pi.smul_apply, Pi.sub_apply, smul_eq_mul, Fin.succ_zero_eq_one, Fin.succ_one_eq_two, Fin.reduceSucc]
    ring

/-- **C107 (volume).** The drawn surface encloses the volume of the surface drawn with the scale 1 times the cube of the scale. -/
theorem C107_volume (T : SolidType) (X : Fin T.numNodes → Fin 3 → ℝ) (s : ℝ) :
    enclosedVolume (T.drawElement s X).flatten = s ^ 3 * enclosedVolume (T.drawElement 1 X).flatten := by
  refine (enclosed_affine T X s _).trans ?_
  have h := enclosed_affine T X 1 (T.elem.worldCoordinates X T.centre)
  rw [one_pow, one_mul] at h
  rw [← h]
  rfl

/-- **C107 (tetrahedra).** A linear tetrahedron is drawn with its volume times the cube of the scale. -/
theorem C107_tetra (X : Fin 4 → Fin 3 → ℝ) (s : ℝ) : enclosedVolume (SolidType.tetra1.drawElement s X).flatten =
    s ^ 3 * (gaussTetra1.map fun g => g.weight * (tetra1.jacobian X g.position : Mat3).det).sum := by
  refine (enclosed_affine .tetra1 X s _).trans ?_
  congr 1
  simp only [SolidType.faceTriangles, enclosedVolume, List.ofFn_succ, List.ofFn_zero, List.map_cons, List.map_nil, List.flatten_cons,
    List.flatten_nil, List.cons_append, List.nil_append, List.sum_cons, List.sum_nil, det_fin_three, Matrix.of_apply, Matrix.cons_val,
    tetra1Sides, Fin.succ_zero_eq_one, Fin.succ_one_eq_two, Fin.reduceSucc, gaussTetra1, Elem.jacobian, tetra1, sum_fin4]
  ring

theorem shrunk_one (T : SolidType) (X : Fin T.numNodes → Fin 3 → ℝ) (i : Fin T.numNodes) : T.shrunk 1 X i = X i := by
  simp [SolidType.shrunk]

/-- **C107 (quadratic elements).** With the scale 1 the triangles of a quadratic element are those of the linear element with the same corners. -/
theorem C107_corners : (∀ X : Fin 10 → Fin 3 → ℝ, SolidType.tetra2.drawElement 1 X = SolidType.tetra1.drawElement 1 fun i : Fin 4 => X (Fin.castLE (by decide) i)) ∧
    ∀ X : Fin 20 → Fin 3 → ℝ, SolidType.hexa2.drawElement 1 X = SolidType.hexa1.drawElement 1 fun i : Fin 8 => X (Fin.castLE (by decide) i) := by
  have h : ∀ (T : SolidType) (X : Fin T.numNodes → Fin 3 → ℝ), T.drawElement 1 X = T.faceTriangles.map fun l => l.map fun t k => X (t k) := by
    intro T X
    simp only [SolidType.drawElement, shrunk_one]
  refine ⟨fun X => ?_, fun X => ?_⟩
  · refine (h .tetra2 X).trans (Eq.trans ?_ (h .tetra1 fun i : Fin 4 => X (Fin.castLE (by decide) i)).symm)
    simp only [SolidType.faceTriangles, List.ofFn_succ, List.ofFn_zero, List.map_cons, List.map_nil, List.cons.injEq, and_true]
    refine ⟨?_, ?_, ?_, ?_⟩ <;> (funext k; fin_cases k <;> rfl)
  · refine (h .hexa2 X).trans (Eq.trans ?_ (h .hexa1 fun i : Fin 8 => X (Fin.castLE (by decide) i)).symm)
    simp only [SolidType.faceTriangles, List.ofFn_succ, List.ofFn_zero, List.map_cons, List.map_nil, List.cons.injEq, and_true]
    refine ⟨⟨?_, ?_⟩, ⟨?_, ?_⟩, ⟨?_, ?_⟩, ⟨?_, ?_⟩, ⟨?_, ?_⟩, ⟨?_, ?_⟩⟩ <;> (funext k; fin_cases k <;> rfl)

theorem hexa_volume_faces (X : Fin 8 → Fin 3 → ℝ) :
    (gaussHexa.map fun g => g.weight * (hexa1.jacobian X g.position : Mat3).det).sum =
      ∑ f, ∑ c, X (hexa1Sides f c) 0 * quadFlux (fun i => X (hexa1Sides f i) 1) (fun i => X (hexa1Sides f i) 2) c := by
  have h : ∀ ξ : Fin 3 → ℝ, (hexa1.jacobian X ξ : Mat3).det =
      ∑ a, X a 0 * triple (hexa1.dL ξ a) (hexa1.jacobian X ξ 1) (hexa1.jacobian X ξ 2) := by
    intro ξ
    have h0 : ∀ k, hexa1.jacobian X ξ 0 k = ∑ a, X a 0 * hexa1.dL ξ a k := fun _ => rfl
    rw [det_fin_three, h0, h0, h0]
    simp only [triple, sum_fin8]
    ring
  have h1 : ∀ l : List (GaussNode 3), (l.map fun g => g.weight * (hexa1.jacobian X g.position : Mat3).det).sum =
      ∑ a, X a 0 * (l.map fun g => g.weight * triple (hexa1.dL g.position a) (hexa1.jacobian X g.position 1)
        (hexa1.jacobian X g.position 2)).sum := by
    intro l
    induction l with
    | nil => simp
    | cons g l ih =>
      simp only [List.map_cons, List.sum_cons, ih, mul_add, Finset.sum_add_distrib]
      congr 1
      rw [h, Finset.mul_sum]
      exact Finset.sum_congr rfl fun a _ => by ring
  rw [h1]
  have h2 : ∀ a, (gaussHexa.map fun g => g.weight * triple (hexa1.dL g.position a) (hexa1.jacobian X g.position 1)
      (hexa1.jacobian X g.position 2)).sum = ∑ f, ∑ c, if hexa1Sides f c = a then
        quadFlux (fun i => X (hexa1Sides f i) 1) (fun i => X (hexa1Sides f i) 2) c else 0 := fun a => hexa_nodal X a 0
  simp only [h2, Finset.mul_sum]
  rw [Finset.sum_comm]
  refine Finset.sum_congr rfl fun f _ => ?_
  rw [Finset.sum_comm]
  refine Finset.sum_congr rfl fun c _ => ?_
  simp only [mul_ite, mul_zero, Finset.sum_ite_eq, Finset.mem_univ, if_true]

/-- **C107 (hexahedra).** A linear hexahedron is drawn with its volume times the cube of the scale, but for half of the volume of the four
corners of every face, which is null when the face is plane. -/
theorem C107_hexa (X : Fin 8 → Fin 3 → ℝ) (s : ℝ) : enclosedVolume (SolidType.hexa1.drawElement s X).flatten =
    s ^ 3 * ((gaussHexa.map fun g => g.weight * (hexa1.jacobian X g.position : Mat3).det).sum -
      ∑ f, volume6 (X (hexa1Sides f 0)) (X (hexa1Sides f 1)) (X (hexa1Sides f 2)) (X (hexa1Sides f 3)) / 12) := by
  refine (enclosed_affine .hexa1 X s _).trans ?_
  congr 1
  rw [hexa_volume_faces]
  simp only [SolidType.faceTriangles, enclosedVolume, List.ofFn_succ, List.ofFn_zero, List.map_cons, List.map_nil, List.flatten_cons,
    List.flatten_nil, List.cons_append, List.nil_append, List.sum_cons, List.sum_nil, det_fin_three, Matrix.of_apply, Matrix.cons_val,
    hexa1Sides, Fin.succ_zero_eq_one, Fin.succ_one_eq_two, Fin.reduceSucc, quadFlux, volume6, sum_fin4, sum_fin6, Fin.reduceAdd, zero_add]
  ring

/-- Plane faces: the volume of the element times the cube of the scale. -/
theorem C107_hexa_plane (X : Fin 8 → Fin 3 → ℝ) (s : ℝ)
    (h : ∀ f, volume6 (X (hexa1Sides f 0)) (X (hexa1Sides f 1)) (X (hexa1Sides f 2)) (X (hexa1Sides f 3)) = 0) :
    enclosedVolume (SolidType.hexa1.drawElement s X).flatten =
      s ^ 3 * (gaussHexa.map fun g => g.weight * (hexa1.jacobian X g.position : Mat3).det).sum := by
  rw [C107_hexa]
  simp only [h, zero_div, Finset.sum_const_zero, sub_zero]

example : enclosedVolume (SolidType.hexa1.drawElement (85 / 100) (hexa1 : Elem ℝ 3 8).node).flatten = (85 / 100) ^ 3 * 8 := by
  rw [C107_hexa_plane]
  · congr 1
    rw [hexa_volume_faces]
    simp only [hexa1, hexa1Sides, quadFlux, sum_fin4, sum_fin6, Fin.reduceAdd, zero_add, Matrix.cons_val]
    norm_num
  · intro f
    fin_cases f <;> simp only [hexa1, hexa1Sides, volume6, Fin.zero_eta, Fin.mk_one, Fin.reduceFinMk, Matrix.cons_val] <;> norm_num

/-- A hexahedron is drawable when its nodes are the canonical ones: all four types are. -/
theorem drawable_canonical (T : SolidType) : DrawableShape T T.elem.node := .inr (canonical_shape _)

example : ∀ l ∈ SolidType.hexa2.drawElement (85 / 100) SolidType.hexa2.elem.node, ∀ t ∈ l,
    convexHull ℝ (Set.range t) ⊆ interior (convexHull ℝ (Set.range SolidType.hexa2.elem.node)) :=
  (C107_inside _ _ (drawable_canonical .hexa2) _ (by norm_num)).1 (by norm_num)

/-- Two cubes with a common face are drawn apart. -/
example : ∀ l ∈ SolidType.hexa1.drawElement (85 / 100) (hexa1 : Elem ℝ 3 8).node, ∀ t ∈ l,
    ∀ l' ∈ SolidType.hexa1.drawElement (85 / 100) (fun i => (hexa1 : Elem ℝ 3 8).node i + ![2, 0, 0]), ∀ t' ∈ l',
      Disjoint (convexHull ℝ (Set.range t)) (convexHull ℝ (Set.range t')) := by
  refine C107_apart .hexa1 .hexa1 _ _ (drawable_canonical .hexa1) (.inr ⟨1, ![2, 0, 0], by simp, fun i => by rw [one_mulVec]; rfl⟩) _
    (by norm_num) (by norm_num) ?_
  have h1 : convexHull ℝ (Set.range (hexa1 : Elem ℝ 3 8).node) ⊆ (fun y : Fin 3 → ℝ => y 0) ⁻¹' Set.Iic 1 := by
    refine convexHull_min ?_ (convex_halfSpace_le (LinearMap.isLinear (LinearMap.proj 0 : (Fin 3 → ℝ) →ₗ[ℝ] ℝ)) _)
    rintro _ ⟨i, rfl⟩
    show (hexa1 : Elem ℝ 3 8).node i 0 ≤ 1
    fin_cases i <;> simp only [hexa1, Fin.zero_eta, Fin.mk_one, Fin.reduceFinMk, Matrix.cons_val] <;> norm_num
  have h2 : convexHull ℝ (Set.range fun i => (hexa1 : Elem ℝ 3 8).node i + ![2, 0, 0]) ⊆ (fun y : Fin 3 → ℝ => y 0) ⁻¹' Set.Ici 1 := by
    refine convexHull_min ?_ (convex_halfSpace_ge (LinearMap.isLinear (LinearMap.proj 0 : (Fin 3 → ℝ) →ₗ[ℝ] ℝ)) _)
    rintro _ ⟨i, rfl⟩
    show 1 ≤ ((hexa1 : Elem ℝ 3 8).node i + ![2, 0, 0] : Fin 3 → ℝ) 0
    fin_cases i <;> simp only [hexa1, Pi.add_apply, Fin.zero_eta, Fin.mk_one, Fin.reduceFinMk, Matrix.cons_val] <;> norm_num
  have h3 := interior_mono h1
  have h4 := interior_mono h2
  rw [← (isOpenMap_eval 0).preimage_interior_eq_interior_preimage (continuous_apply 0), interior_Iic] at h3
  rw [← (isOpenMap_eval 0).preimage_interior_eq_interior_preimage (continuous_apply 0), interior_Ici] at h4
  refine Set.disjoint_left.2 fun y hy hy' => ?_
  have a : y 0 < 1 := h3 hy
  have b : 1 < y 0 := h4 hy'
  linarith

/-! ### The older components -/

/-- The vertices of the older hexahedra are those of the newer ones with the scale 0.85. -/
theorem hexaForceDraw_eq (X : Fin 8 → Fin 3 → ℝ) :
    hexaForceDraw X = hexaForceTriangles.map fun t k => SolidType.hexa1.shrunk (85 / 100) X (t k) := by
  have h : ∀ i : Fin 8, X i - (15 / 100 : ℝ) • (X i - (125 / 1000 : ℝ) • (X 0 + X 1 + X 2 + X 3 + X 4 + X 6 + X 5 + X 7)) =
      SolidType.hexa1.shrunk (85 / 100) X i := by
    intro i
    have hc : SolidType.hexa1.elem.worldCoordinates X SolidType.hexa1.centre =
        (125 / 1000 : ℝ) • (X 0 + X 1 + X 2 + X 3 + X 4 + X 6 + X 5 + X 7) := by
      funext a
      show ∑ i : Fin 8, X i a * hexa1.L ![0, 0, 0] i = _
      simp only [hexa1, sum_fin8, Matrix.cons_val, Pi.smul_apply, Pi.add_apply, smul_eq_mul]
      ring
    unfold SolidType.shrunk
    rw [hc]
    module
  unfold hexaForceDraw
  simp only [h]

/-- **C107 (older hexahedra).** `HexahedronElasticForce` draws inside of the elements. -/
theorem C107_hexaForce_partial (X : Fin 8 → Fin 3 → ℝ) (h : DrawableShape .hexa1 X) :
    ∀ t ∈ hexaForceDraw X, convexHull ℝ (Set.range t) ⊆ interior (convexHull ℝ (Set.range X)) := by
  intro t ht
  rw [hexaForceDraw_eq] at ht
  obtain ⟨n, -, rfl⟩ := List.mem_map.1 ht
  refine convexHull_min ?_ (convex_convexHull ℝ _).interior
  rintro _ ⟨k, rfl⟩
  exact shrunk_interior .hexa1 X h (85 / 100) (by norm_num) (by norm_num) _

/-- **C107 (older hexahedra, faces).** Twelve triangles are drawn: for each face of the hexahedron, the two triangles into which one of its
diagonals divides it, with the nodes moved towards the centre. -/
theorem C107_hexaForce_faces (X : Fin 8 → Fin 3 → ℝ) : (hexaForceDraw X).length = 12 ∧
    ∀ f, ∃ a : Fin 4, ∃ t ∈ hexaForceDraw X, ∃ u ∈ hexaForceDraw X,
      Set.range t = (fun c => SolidType.hexa1.shrunk (85 / 100) X (hexa1Sides f c)) '' {a, a + 1, a + 2} ∧
      Set.range u = (fun c => SolidType.hexa1.shrunk (85 / 100) X (hexa1Sides f c)) '' {a, a + 2, a + 3} := by
  have key : ∀ f, ∃ a : Fin 4, ∃ t ∈ hexaForceTriangles, ∃ u ∈ hexaForceTriangles,
      Finset.univ.image t = ({a, a + 1, a + 2} : Finset (Fin 4)).image (hexa1Sides f) ∧
      Finset.univ.image u = ({a, a + 2, a + 3} : Finset (Fin 4)).image (hexa1Sides f) := by decide
  have conv : ∀ (f : Fin 6) (t : Fin 3 → Fin 8) (A : Finset (Fin 4)), Finset.univ.image t = A.image (hexa1Sides f) →
      Set.range (fun k => SolidType.hexa1.shrunk (85 / 100) X (t k))
        = (fun c => SolidType.hexa1.shrunk (85 / 100) X (hexa1Sides f c)) '' (A : Set (Fin 4)) := by
    intro f t A h
    have h' : Set.range t = hexa1Sides f '' (A : Set (Fin 4)) := by
      have := congrArg (fun s : Finset (Fin 8) => (s : Set (Fin 8))) h
      simpa using this
    rw [show (fun k => SolidType.hexa1.shrunk (85 / 100) X (t k)) = (fun n : Fin 8 => SolidType.hexa1.shrunk (85 / 100) X n) ∘ t from rfl,
      Set.range_comp, h', Set.image_image]
  rw [hexaForceDraw_eq]
  refine ⟨by rw [List.length_map]; rfl, fun f => ?_⟩
  obtain ⟨a, t, ht, u, hu, e1, e2⟩ := key f
  refine ⟨a, _, List.mem_map.2 ⟨t, ht, rfl⟩, _, List.mem_map.2 ⟨u, hu, rfl⟩, ?_, ?_⟩
  · rw [conv f t _ e1]; simp
  · rw [conv f u _ e2]; simp

/-- **C107 is false of the orientation of the older hexahedra.** The triangles of the faces (0, 1, 2, 3) and (0, 3, 7, 4) turn clockwise
seen from outside, the others counterclockwise: the surface drawn for a cube does not enclose its volume, whichever side is taken as the outside. -/
theorem C107_orientation_violated : ∃ X : Fin 8 → Fin 3 → ℝ, AffineShape (hexa1 : Elem ℝ 3 8).node X ∧
    enclosedVolume (SolidType.hexa1.drawElement (85 / 100) X).flatten = (85 / 100) ^ 3 * 8 ∧
    enclosedVolume (hexaForceDraw X) = (85 / 100) ^ 3 * 8 / 3 := by
  refine ⟨(hexa1 : Elem ℝ 3 8).node, canonical_shape _, ?_, ?_⟩
  · rw [C107_hexa_plane]
    · congr 1
      rw [hexa_volume_faces]
      simp only [hexa1, hexa1Sides, quadFlux, sum_fin4, sum_fin6, Fin.reduceAdd, zero_add, Matrix.cons_val]
      norm_num
    · intro f
      fin_cases f <;> simp only [hexa1, hexa1Sides, volume6, Fin.zero_eta, Fin.mk_one, Fin.reduceFinMk, Matrix.cons_val] <;> norm_num
  · simp only [hexaForceDraw, hexaForceTriangles, enclosedVolume, List.map_cons, List.map_nil, List.sum_cons, List.sum_nil, det_fin_three,
      Matrix.of_apply, Matrix.cons_val, hexa1, Pi.add_apply, Pi.smul_apply, Pi.sub_apply, smul_eq_mul]
    norm_num

/-- The vertex drawn by the older tetrahedra: the node moved towards the mean by the factor 0.666667, and the mean times 5e-7. -/
theorem C107_tetraForce_partial (X : Fin 4 → Fin 3 → ℝ) (i : Fin 4) :
    tetraForceVertex X i = SolidType.tetra1.shrunk (666667 / 1000000) X i +
      (5 / 10000000 : ℝ) • SolidType.tetra1.elem.worldCoordinates X SolidType.tetra1.centre := by
  have hc : SolidType.tetra1.elem.worldCoordinates X SolidType.tetra1.centre = (1 / 4 : ℝ) • (X 0 + X 1 + X 2 + X 3) := by
    funext a
    show ∑ i : Fin 4, X i a * tetra1.L ![1/4, 1/4, 1/4] i = _
    simp only [tetra1, sum_fin4, Matrix.cons_val, Pi.smul_apply, Pi.add_apply, smul_eq_mul]
    ring
  unfold SolidType.shrunk tetraForceVertex
  rw [hc]
  module

/-- **C107 (older tetrahedra, faces).** Four triangles are drawn, one for each face of the tetrahedron (the face opposite to a node). -/
theorem C107_tetraForce_faces (X : Fin 4 → Fin 3 → ℝ) : (tetraForceDraw X).length = 4 ∧
    ∀ n : Fin 4, ∃ t ∈ tetraForceDraw X, Set.range t = tetraForceVertex X '' {n}ᶜ := by
  have key : ∀ n : Fin 4, ∃ t ∈ tetraForceTriangles, Finset.univ.image t = ({n} : Finset (Fin 4))ᶜ := by decide
  refine ⟨by unfold tetraForceDraw; rw [List.length_map]; rfl, fun n => ?_⟩
  obtain ⟨t, ht, e⟩ := key n
  refine ⟨_, List.mem_map.2 ⟨t, ht, rfl⟩, ?_⟩
  have h' : Set.range t = {n}ᶜ := by
    have := congrArg (fun s : Finset (Fin 4) => (s : Set (Fin 4))) e
    simpa using this
  rw [← h', ← Set.range_comp]
  rfl

/-- **C107 is false of the older tetrahedra.** The two constants which place a vertex do not fit: the drawing moves away from the origin with
the distance to it, and a tetrahedron ten million times its size away from the origin is drawn outside of itself. -/
theorem C107_tetraForce_violated : ∃ X : Fin 4 → Fin 3 → ℝ, DrawableShape .tetra1 X ∧
    ∀ t ∈ tetraForceDraw X, Disjoint (convexHull ℝ (Set.range t)) (convexHull ℝ (Set.range X)) := by
  refine ⟨fun i => (tetra1 : Elem ℝ 3 4).node i + ![10000000, 0, 0], .inr ⟨1, _, by simp, fun i => by rw [one_mulVec]; rfl⟩, ?_⟩
  intro t ht
  obtain ⟨n, -, rfl⟩ := List.mem_map.1 ht
  have hlo : convexHull ℝ (Set.range fun i => (tetra1 : Elem ℝ 3 4).node i + ![10000000, 0, 0]) ⊆ {y | y 0 ≤ 10000001} := by
    refine convexHull_min ?_ (convex_halfSpace_le (LinearMap.isLinear (LinearMap.proj 0 : (Fin 3 → ℝ) →ₗ[ℝ] ℝ)) _)
    rintro _ ⟨i, rfl⟩
    show ((tetra1 : Elem ℝ 3 4).node i + ![10000000, 0, 0] : Fin 3 → ℝ) 0 ≤ 10000001
    fin_cases i <;> simp only [tetra1, Pi.add_apply, Fin.zero_eta, Fin.mk_one, Fin.reduceFinMk, Matrix.cons_val] <;> norm_num
  have hhi : convexHull ℝ (Set.range fun k => tetraForceVertex (fun i => (tetra1 : Elem ℝ 3 4).node i + ![10000000, 0, 0]) (n k)) ⊆
      {y | 10000002 ≤ y 0} := by
    refine convexHull_min ?_ (convex_halfSpace_ge (LinearMap.isLinear (LinearMap.proj 0 : (Fin 3 → ℝ) →ₗ[ℝ] ℝ)) _)
    rintro _ ⟨k, rfl⟩
    show 10000002 ≤ tetraForceVertex (fun i => (tetra1 : Elem ℝ 3 4).node i + ![10000000, 0, 0]) (n k) 0
    generalize n k = i
    unfold tetraForceVertex
    fin_cases i <;> simp only [tetra1, Pi.add_apply, Pi.smul_apply, smul_eq_mul, Fin.zero_eta, Fin.mk_one, Fin.reduceFinMk, Matrix.cons_val] <;>
      norm_num
  refine Set.disjoint_left.2 fun y hy hy' => ?_
  have a : 10000002 ≤ y 0 := hhi hy
  have b : y 0 ≤ 10000001 := hlo hy'
  linarith

end Caribou
