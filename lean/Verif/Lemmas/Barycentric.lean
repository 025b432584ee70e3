import Verif.Model.Barycentric
import Verif.Props.HashGrid
import Verif.Props.LocalCoordinates
import Verif.Props.Canonical

/-! Lemmas on the barycentric container. -/

set_option autoImplicit false
set_option linter.all false

namespace Caribou

open Spec

section Hull

variable {K : Type*} [Field K] [LinearOrder K] [IsStrictOrderedRing K]

/-- Every point of the canonical element is a convex combination of the canonical nodes. -/
def InHull {d n : ℕ} (node : Fin n → Fin d → K) (ξ : Fin d → K) : Prop :=
  ∃ w : Fin n → K, (∀ i, 0 ≤ w i) ∧ ∑ i, w i = 1 ∧ ∀ j, ∑ i, w i * node i j = ξ j

theorem hull_segment1 (ξ : Fin 1 → K) (h : Shape.cube.Mem ξ) : InHull (segment1 (K := K)).node ξ := by
  have h0 := h 0
  refine ⟨![(1 - ξ 0) / 2, (1 + ξ 0) / 2], ?_, ?_, ?_⟩
  · intro i
    fin_cases i <;> simp only [Matrix.cons_val, Fin.isValue, Fin.reduceFinMk, Fin.zero_eta, Fin.mk_one] <;> linarith
  · simp only [sum_fin2, Matrix.cons_val]; ring
  · intro j
    fin_cases j
    simp only [sum_fin2, segment1, Matrix.cons_val, Fin.isValue, Fin.zero_eta]; ring

theorem hull_segment2 (ξ : Fin 1 → K) (h : Shape.cube.Mem ξ) : InHull (segment2 (K := K)).node ξ := by
  have h0 := h 0
  refine ⟨![(1 - ξ 0) / 2, (1 + ξ 0) / 2, 0], ?_, ?_, ?_⟩
  · intro i
    fin_cases i <;> simp only [Matrix.cons_val, Fin.isValue, Fin.reduceFinMk, Fin.zero_eta, Fin.mk_one] <;> linarith
  · simp only [sum_fin3, Matrix.cons_val]; ring
  · intro j
    fin_cases j
    simp only [sum_fin3, segment2, Matrix.cons_val, Fin.isValue, Fin.zero_eta]; ring

theorem hull_triangle1 (ξ : Fin 2 → K) (h : Shape.simplex.Mem ξ) : InHull (triangle1 (K := K)).node ξ := by
  have h0 := h.1 0
  have h1 := h.1 1
  have h2 := h.2
  rw [sum_fin2] at h2
  refine ⟨![1 - ξ 0 - ξ 1, ξ 0, ξ 1], ?_, ?_, ?_⟩
  · intro i
    fin_cases i <;> simp only [Matrix.cons_val, Fin.isValue, Fin.reduceFinMk, Fin.zero_eta, Fin.mk_one] <;> linarith
  · simp only [sum_fin3, Matrix.cons_val]; ring
  · intro j
    fin_cases j <;> simp only [sum_fin3, triangle1, Matrix.cons_val, Fin.isValue, Fin.zero_eta, Fin.mk_one] <;> ring

theorem hull_triangle2 (ξ : Fin 2 → K) (h : Shape.simplex.Mem ξ) : InHull (triangle2 (K := K)).node ξ := by
  have h0 := h.1 0
  have h1 := h.1 1
  have h2 := h.2
  rw [sum_fin2] at h2
  refine ⟨![1 - ξ 0 - ξ 1, ξ 0, ξ 1, 0, 0, 0], ?_, ?_, ?_⟩
  · intro i
    fin_cases i <;> simp only [Matrix.cons_val, Fin.isValue, Fin.reduceFinMk, Fin.zero_eta, Fin.mk_one] <;> linarith
  · simp only [sum_fin6, Matrix.cons_val]; ring
  · intro j
    fin_cases j <;> simp only [sum_fin6, triangle2, Matrix.cons_val, Fin.isValue, Fin.zero_eta, Fin.mk_one] <;> ring

theorem hull_tetra1 (ξ : Fin 3 → K) (h : Shape.simplex.Mem ξ) : InHull (tetra1 (K := K)).node ξ := by
  have h0 := h.1 0
  have h1 := h.1 1
  have h2 := h.1 2
  have h3 := h.2
  rw [sum_fin3] at h3
  refine ⟨![1 - ξ 0 - ξ 1 - ξ 2, ξ 0, ξ 1, ξ 2], ?_, ?_, ?_⟩
  · intro i
    fin_cases i <;> simp only [Matrix.cons_val, Fin.isValue, Fin.reduceFinMk, Fin.zero_eta, Fin.mk_one] <;> linarith
  · simp only [sum_fin4, Matrix.cons_val]; ring
  · intro j
    fin_cases j <;> simp only [sum_fin4, tetra1, Matrix.cons_val, Fin.isValue, Fin.zero_eta, Fin.mk_one, Fin.reduceFinMk] <;> ring

theorem hull_tetra2 (ξ : Fin 3 → K) (h : Shape.simplex.Mem ξ) : InHull (tetra2 (K := K)).node ξ := by
  have h0 := h.1 0
  have h1 := h.1 1
  have h2 := h.1 2
  have h3 := h.2
  rw [sum_fin3] at h3
  refine ⟨![1 - ξ 0 - ξ 1 - ξ 2, ξ 0, ξ 1, ξ 2, 0, 0, 0, 0, 0, 0], ?_, ?_, ?_⟩
  · intro i
    fin_cases i <;> simp only [Matrix.cons_val, Fin.isValue, Fin.reduceFinMk, Fin.zero_eta, Fin.mk_one] <;> linarith
  · simp only [sum_fin10, Matrix.cons_val]; ring
  · intro j
    fin_cases j <;> simp only [sum_fin10, tetra2, Matrix.cons_val, Fin.isValue, Fin.zero_eta, Fin.mk_one, Fin.reduceFinMk] <;> ring

theorem hull_quad1 (ξ : Fin 2 → K) (h : Shape.cube.Mem ξ) : InHull (quad1 (K := K)).node ξ := by
  obtain ⟨a0, b0⟩ := h 0
  obtain ⟨a1, b1⟩ := h 1
  have a0 : 0 ≤ 1 + ξ 0 := by linarith
  have b0 : 0 ≤ 1 - ξ 0 := by linarith
  have a1 : 0 ≤ 1 + ξ 1 := by linarith
  have b1 : 0 ≤ 1 - ξ 1 := by linarith
  refine ⟨![(1 - ξ 0) * (1 - ξ 1) / 4, (1 + ξ 0) * (1 - ξ 1) / 4, (1 + ξ 0) * (1 + ξ 1) / 4, (1 - ξ 0) * (1 + ξ 1) / 4], ?_, ?_, ?_⟩
  · intro i
    fin_cases i <;> simp only [Matrix.cons_val, Fin.isValue, Fin.reduceFinMk, Fin.zero_eta, Fin.mk_one] <;> positivity
  · simp only [sum_fin4, Matrix.cons_val]; ring
  · intro j
    fin_cases j <;> simp only [sum_fin4, quad1, Matrix.cons_val, Fin.isValue, Fin.zero_eta, Fin.mk_one] <;> ring

theorem hull_quad2 (ξ : Fin 2 → K) (h : Shape.cube.Mem ξ) : InHull (quad2 (K := K)).node ξ := by
  obtain ⟨a0, b0⟩ := h 0
  obtain ⟨a1, b1⟩ := h 1
  have a0 : 0 ≤ 1 + ξ 0 := by linarith
  have b0 : 0 ≤ 1 - ξ 0 := by linarith
  have a1 : 0 ≤ 1 + ξ 1 := by linarith
  have b1 : 0 ≤ 1 - ξ 1 := by linarith
  refine ⟨![(1 - ξ 0) * (1 - ξ 1) / 4, (1 + ξ 0) * (1 - ξ 1) / 4, (1 + ξ 0) * (1 + ξ 1) / 4, (1 - ξ 0) * (1 + ξ 1) / 4,
    0, 0, 0, 0], ?_, ?_, ?_⟩
  · intro i
    fin_cases i <;> simp only [Matrix.cons_val, Fin.isValue, Fin.reduceFinMk, Fin.zero_eta, Fin.mk_one] <;> positivity
  · simp only [sum_fin8, Matrix.cons_val]; ring
  · intro j
    fin_cases j <;> simp only [sum_fin8, quad2, Matrix.cons_val, Fin.isValue, Fin.zero_eta, Fin.mk_one] <;> ring

theorem hull_hexa1 (ξ : Fin 3 → K) (h : Shape.cube.Mem ξ) : InHull (hexa1 (K := K)).node ξ := by
  obtain ⟨a0, b0⟩ := h 0
  obtain ⟨a1, b1⟩ := h 1
  obtain ⟨a2, b2⟩ := h 2
  have a0 : 0 ≤ 1 + ξ 0 := by linarith
  have b0 : 0 ≤ 1 - ξ 0 := by linarith
  have a1 : 0 ≤ 1 + ξ 1 := by linarith
  have b1 : 0 ≤ 1 - ξ 1 := by linarith
  have a2 : 0 ≤ 1 + ξ 2 := by linarith
  have b2 : 0 ≤ 1 - ξ 2 := by linarith
  refine ⟨![(1 - ξ 0) * (1 - ξ 1) * (1 - ξ 2) / 8, (1 + ξ 0) * (1 - ξ 1) * (1 - ξ 2) / 8,
    (1 + ξ 0) * (1 + ξ 1) * (1 - ξ 2) / 8, (1 - ξ 0) * (1 + ξ 1) * (1 - ξ 2) / 8,
    (1 - ξ 0) * (1 - ξ 1) * (1 + ξ 2) / 8, (1 + ξ 0) * (1 - ξ 1) * (1 + ξ 2) / 8,
    (1 + ξ 0) * (1 + ξ 1) * (1 + ξ 2) / 8, (1 - ξ 0) * (1 + ξ 1) * (1 + ξ 2) / 8], ?_, ?_, ?_⟩
  · intro i
    fin_cases i <;> simp only [Matrix.cons_val, Fin.isValue, Fin.reduceFinMk, Fin.zero_eta, Fin.mk_one] <;> positivity
  · simp only [sum_fin8, Matrix.cons_val]; ring
  · intro j
    fin_cases j <;> simp only [sum_fin8, hexa1, Matrix.cons_val, Fin.isValue, Fin.zero_eta, Fin.mk_one, Fin.reduceFinMk] <;> ring

theorem hull_hexa2 (ξ : Fin 3 → K) (h : Shape.cube.Mem ξ) : InHull (hexa2 (K := K)).node ξ := by
  obtain ⟨a0, b0⟩ := h 0
  obtain ⟨a1, b1⟩ := h 1
  obtain ⟨a2, b2⟩ := h 2
  have a0 : 0 ≤ 1 + ξ 0 := by linarith
  have b0 : 0 ≤ 1 - ξ 0 := by linarith
  have a1 : 0 ≤ 1 + ξ 1 := by linarith
  have b1 : 0 ≤ 1 - ξ 1 := by linarith
  have a2 : 0 ≤ 1 + ξ 2 := by linarith
  have b2 : 0 ≤ 1 - ξ 2 := by linarith
  refine ⟨![(1 - ξ 0) * (1 - ξ 1) * (1 - ξ 2) / 8, (1 + ξ 0) * (1 - ξ 1) * (1 - ξ 2) / 8,
    (1 + ξ 0) * (1 + ξ 1) * (1 - ξ 2) / 8, (1 - ξ 0) * (1 + ξ 1) * (1 - ξ 2) / 8,
    (1 - ξ 0) * (1 - ξ 1) * (1 + ξ 2) / 8, (1 + ξ 0) * (1 - ξ 1) * (1 + ξ 2) / 8,
    (1 + ξ 0) * (1 + ξ 1) * (1 + ξ 2) / 8, (1 - ξ 0) * (1 + ξ 1) * (1 + ξ 2) / 8,
    0, 0, 0, 0, 0, 0, 0, 0, 0, 0, 0, 0], ?_, ?_, ?_⟩
  · intro i
    fin_cases i <;> simp only [Matrix.cons_val, Fin.isValue, Fin.reduceFinMk, Fin.zero_eta, Fin.mk_one] <;> positivity
  · simp only [sum_fin20, Matrix.cons_val]; ring
  · intro j
    fin_cases j <;> simp only [sum_fin20, hexa2, Matrix.cons_val, Fin.isValue, Fin.zero_eta, Fin.mk_one, Fin.reduceFinMk] <;> ring

theorem hull (T : ElementType) (ξ : Fin T.dim → K) (h : T.shape.Mem ξ) : InHull (T.elem (K := K)).node ξ := by
  cases T
  · exact hull_segment1 ξ h
  · exact hull_segment2 ξ h
  · exact hull_triangle1 ξ h
  · exact hull_triangle2 ξ h
  · exact hull_quad1 ξ h
  · exact hull_quad2 ξ h
  · exact hull_tetra1 ξ h
  · exact hull_tetra2 ξ h
  · exact hull_hexa1 ξ h
  · exact hull_hexa2 ξ h
  · exact hull_quad1 ξ h
  · exact hull_quad2 ξ h
  · exact hull_hexa1 ξ h
  · exact hull_hexa2 ξ h

/-- A convex combination is not below all of the values. -/
theorem exists_le_combination {n : ℕ} (w x : Fin n → K) (h0 : ∀ i, 0 ≤ w i) (h1 : ∑ i, w i = 1) :
    (∃ i, x i ≤ ∑ i, w i * x i) ∧ ∃ i, ∑ i, w i * x i ≤ x i := by
  constructor
  · by_contra hc
    push Not at hc
    have hlt : ∑ i, w i * (∑ i, w i * x i) < ∑ i, w i * x i := by
      refine Finset.sum_lt_sum (fun i _ => mul_le_mul_of_nonneg_left (hc i).le (h0 i)) ?_
      by_contra hall
      push Not at hall
      have : ∀ i, w i = 0 := fun i => by
        have := hall i (Finset.mem_univ i)
        rcases (h0 i).lt_or_eq with h | h
        · exact absurd (mul_lt_mul_of_pos_left (hc i) h) (not_lt.mpr this)
        · exact h.symm
      simp [this] at h1
    rw [← Finset.sum_mul, h1, one_mul] at hlt
    exact lt_irrefl _ hlt
  · by_contra hc
    push Not at hc
    have hlt : ∑ i, w i * x i < ∑ i, w i * (∑ i, w i * x i) := by
      refine Finset.sum_lt_sum (fun i _ => mul_le_mul_of_nonneg_left (hc i).le (h0 i)) ?_
      by_contra hall
      push Not at hall
      have : ∀ i, w i = 0 := fun i => by
        have := hall i (Finset.mem_univ i)
        rcases (h0 i).lt_or_eq with h | h
        · exact absurd (mul_lt_mul_of_pos_left (hc i) h) (not_lt.mpr this)
        · exact h.symm
      simp [this] at h1
    rw [← Finset.sum_mul, h1, one_mul] at hlt
    exact lt_irrefl _ hlt

theorem box_of_hull {d m n : ℕ} {node : Fin n → Fin d → K} {ξ : Fin d → K} (h : InHull node ξ) (c : Fin m → K)
    (A : Matrix (Fin m) (Fin d) K) : InBoxOf (fun i => affineMap c A (node i)) (affineMap c A ξ) := by
  obtain ⟨w, h0, h1, h2⟩ := h
  intro a
  have e : affineMap c A ξ a = ∑ i, w i * affineMap c A (node i) a := by
    simp only [affineMap, mul_add, Finset.sum_add_distrib, ← Finset.sum_mul, h1, one_mul, ← h2, Finset.mul_sum]
    rw [Finset.sum_comm]
    congr 1
    refine Finset.sum_congr rfl fun i _ => Finset.sum_congr rfl fun j _ => by ring
  rw [e]
  exact exists_le_combination w (fun i => affineMap c A (node i) a) h0 h1

end Hull

section Container

variable {K : Type*} [Field K] [LinearOrder K] [IsStrictOrderedRing K] [FloorRing K] {m d n : ℕ}

/-- The history of insertions of the constructor. -/
def MeshDomain.history (D : MeshDomain K m n) : List ((Fin n → Fin m → K) × ℕ) :=
  (List.finRange D.numElements).map fun e => (D.element e, (e : ℕ))

theorem hashGrid_eq (D : MeshDomain K m n) : D.hashGrid = HashGrid.ofHistory D.cellSize D.history := by
  rw [MeshDomain.hashGrid, HashGrid.ofHistory, MeshDomain.history, List.foldl_map]

theorem mem_history (D : MeshDomain K m n) (nodes : Fin n → Fin m → K) (id : ℕ) :
    (nodes, id) ∈ D.history ↔ ∃ e : Fin D.numElements, D.element e = nodes ∧ (e : ℕ) = id := by
  simp [MeshDomain.history]

/-- Extents of the elements are not negative. -/
theorem extent_nonneg (hn : 0 < n) (X : Fin n → Fin m → K) (a : Fin m) : 0 ≤ maxCoeff X a - minCoeff X a := by
  have h1 := (minCoeff_spec hn X a).1 ⟨0, hn⟩
  have h2 := (maxCoeff_spec hn X a).1 ⟨0, hn⟩
  linarith

theorem le_cellSize (D : MeshDomain K m n) (a : Fin m) : D.meanSize a ≤ D.cellSize := by
  unfold MeshDomain.cellSize
  have hmem : D.meanSize a ∈ List.ofFn D.meanSize := List.mem_ofFn.mpr ⟨a, rfl⟩
  cases hL : List.ofFn D.meanSize with
  | nil => rw [hL] at hmem; simp at hmem
  | cons x xs =>
    rw [hL] at hmem
    obtain ⟨h1, h2, _⟩ := le_foldl_max xs x
    rcases List.mem_cons.mp hmem with h | h
    · change _ ≤ xs.foldl max x; rw [h]; exact h1
    · exact h2 _ h

theorem cellSize_pos (hn : 0 < n) (D : MeshDomain K m n) (e : Fin D.numElements) (a : Fin m) (i j : Fin n)
    (h : D.element e i a ≠ D.element e j a) : 0 < D.cellSize := by
  refine lt_of_lt_of_le ?_ (le_cellSize D a)
  have hN : 0 < D.numElements := Fin.pos e
  refine div_pos ?_ (by exact_mod_cast hN)
  refine Finset.sum_pos' (fun e _ => extent_nonneg hn _ a) ⟨e, Finset.mem_univ e, ?_⟩
  obtain ⟨mi, _⟩ := minCoeff_spec hn (D.element e) a
  obtain ⟨ma, _⟩ := maxCoeff_spec hn (D.element e) a
  rcases lt_or_gt_of_ne h with h | h
  · linarith [mi i, ma j]
  · linarith [mi j, ma i]

/-- The candidates are elements of the domain. -/
theorem candidate_lt (D : MeshDomain K m n) (p : Fin m → K) (id : ℕ) (h : id ∈ D.hashGrid.get p) : id < D.numElements := by
  rw [hashGrid_eq, HashGrid.mem_get] at h
  obtain ⟨c, _, h⟩ := h
  rw [HashGrid.ofHistory, HashGrid.mem_table_foldl] at h
  rcases h with h | ⟨⟨nodes, id'⟩, hh, rfl, _⟩
  · exact absurd h (by simp [HashGrid.empty])
  · obtain ⟨e, _, he⟩ := (mem_history D nodes id').mp hh
    rw [← he]
    exact e.isLt

theorem findElement_spec (ops : ElementOps K m d n) (D : MeshDomain K m n) (p : Fin m → K) (ids : List ℕ)
    (hids : ∀ id ∈ ids, id < D.numElements) :
    (∀ e, (D.findElement ops p ids).elementIndex = some e →
      (e : ℕ) ∈ ids ∧ (D.findElement ops p ids).localCoordinates = ops.localCoordinates (D.element e) p ∧
      ops.containsLocal (D.element e) (ops.localCoordinates (D.element e) p) = true ∧
      ∀ e' : Fin D.numElements, ids.Pairwise (· < ·) → (e' : ℕ) ∈ ids → e' < e →
        ops.containsLocal (D.element e') (ops.localCoordinates (D.element e') p) = false) ∧
    ((D.findElement ops p ids).elementIndex = none → (D.findElement ops p ids).localCoordinates = 0 ∧
      ∀ e : Fin D.numElements, (e : ℕ) ∈ ids → ops.containsLocal (D.element e) (ops.localCoordinates (D.element e) p) = false) := by
  induction ids with
  | nil =>
    refine ⟨fun e h => by simp [MeshDomain.findElement] at h, fun _ => ⟨rfl, fun e h => by simp at h⟩⟩
  | cons id rest ih =>
    obtain ⟨ih1, ih2⟩ := ih (fun x hx => hids x (List.mem_cons_of_mem _ hx))
    have hid := hids id (by simp)
    by_cases hc : ops.containsLocal (D.element ⟨id, hid⟩) (ops.localCoordinates (D.element ⟨id, hid⟩) p) = true
    · have e : D.findElement ops p (id :: rest) = ⟨some ⟨id, hid⟩, ops.localCoordinates (D.element ⟨id, hid⟩) p⟩ := by
        rw [MeshDomain.findElement]; simp [hid, hc]
      rw [e]
      refine ⟨?_, fun h => by simp at h⟩
      intro e' h
      simp only [Option.some.injEq] at h
      subst h
      refine ⟨by simp, rfl, hc, ?_⟩
      intro e'' hs hmem hlt
      exfalso
      have hp := (List.pairwise_cons.mp hs).1
      rcases List.mem_cons.mp hmem with h | h
      · have : (e'' : ℕ) < id := hlt
        omega
      · have h1 := hp _ h
        have : (e'' : ℕ) < id := hlt
        omega
    · have e : D.findElement ops p (id :: rest) = D.findElement ops p rest := by
        rw [MeshDomain.findElement]; simp [hid, hc]
      rw [e]
      constructor
      · intro e' h
        obtain ⟨k1, k2, k3, k4⟩ := ih1 e' h
        refine ⟨List.mem_cons_of_mem _ k1, k2, k3, ?_⟩
        intro e'' hs hmem hlt
        rcases List.mem_cons.mp hmem with h | h
        · have : e'' = ⟨id, hid⟩ := Fin.ext h
          subst this
          simpa using hc
        · exact k4 e'' (List.pairwise_cons.mp hs).2 h hlt
      · intro h
        obtain ⟨k1, k2⟩ := ih2 h
        refine ⟨k1, ?_⟩
        intro e'' hmem
        rcases List.mem_cons.mp hmem with h | h
        · have : e'' = ⟨id, hid⟩ := Fin.ext h
          subst this
          simpa using hc
        · exact k2 e'' h

/-- An affine image of the canonical element is not flat along any axis. -/
theorem affine_extent (T : ElementType) (c : Fin T.dim → K) (A : Matrix (Fin T.dim) (Fin T.dim) K) (hA : A.det ≠ 0) (a : Fin T.dim) :
    ∃ i j, affineMap c A (T.elem.node i) a ≠ affineMap c A (T.elem.node j) a := by
  by_contra hc
  push Not at hc
  apply hA
  refine Matrix.det_eq_zero_of_row_eq_zero a fun j => ?_
  have key : ∀ ξ : Fin T.dim → K, affineMap c A ξ a = affineMap c A 0 a := by
    have hconst : ∀ ξ η : Fin T.dim → K, affineMap c A ξ a = affineMap c A η a := by
      intro ξ η
      have h := fun ξ => congrFun (affine_world' T c A ξ) a
      have i0 : Fin T.numNodes := by cases T <;> exact ⟨0, by decide⟩
      have e : ∀ ξ, affineMap c A ξ a = affineMap c A (T.elem.node i0) a := fun ξ => by
        rw [← h ξ, Elem.worldCoordinates, Elem.interpolate]
        have : ∀ i, affineMap c A (T.elem.node i) a = affineMap c A (T.elem.node i0) a := fun i => hc i i0
        simp only [this, ← Finset.mul_sum]
        rw [C01_partition_of_unity T ξ, mul_one]
      rw [e ξ, e η]
    exact fun ξ => hconst ξ 0
  have := key (fun k => if k = j then 1 else 0)
  simpa [affineMap] using this

end Container

end Caribou
