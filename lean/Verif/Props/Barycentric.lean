import Verif.Lemmas.Barycentric

/-! # C33–C36: barycentric container

`T.ops` are the operations of the isoparametric element classes with their default arguments.  `T.Isoparametric` excludes the
rectangular classes, whose `local_coordinates` is a different function. -/

set_option autoImplicit false

namespace Caribou

open Spec

/-- The classes whose `local_coordinates` is the Newton search of `Element.h`. -/
def ElementType.Isoparametric (T : ElementType) : Prop :=
  T ≠ .rectQuad1 ∧ T ≠ .rectQuad2 ∧ T ≠ .rectHexa1 ∧ T ≠ .rectHexa2

instance (T : ElementType) : Decidable T.Isoparametric := by unfold ElementType.Isoparametric; infer_instance

variable {K : Type*} [Field K] [LinearOrder K] [IsStrictOrderedRing K] [FloorRing K] {m d n : ℕ}

/-- **C33 (found).** Whatever the element class: a returned element is a candidate that accepts the local coordinates of the
point, these are the ones returned, and no candidate with a smaller index accepts the point. -/
theorem C33_found (ops : ElementOps K m d n) (D : MeshDomain K m n) (p : Fin m → K) (e : Fin D.numElements)
    (h : (D.barycentricPoint ops p).elementIndex = some e) :
    (D.barycentricPoint ops p).localCoordinates = ops.localCoordinates (D.element e) p ∧
    ops.containsLocal (D.element e) (D.barycentricPoint ops p).localCoordinates = true ∧
    (e : ℕ) ∈ D.hashGrid.get p ∧
    ∀ e' : Fin D.numElements, (e' : ℕ) ∈ D.hashGrid.get p → e' < e →
      ops.containsLocal (D.element e') (ops.localCoordinates (D.element e') p) = false := by
  obtain ⟨h1, h2, h3, h4⟩ := (findElement_spec ops D p (D.hashGrid.get p) (candidate_lt D p)).1 e h
  have h2' : (D.barycentricPoint ops p).localCoordinates = ops.localCoordinates (D.element e) p := h2
  exact ⟨h2', by rw [h2']; exact h3, h1, fun e' => h4 e' (HashGrid.sorted_get _ _)⟩

/-- **C33 (not found).** When no element is returned, no candidate accepts the point; in particular no element with the point in
the bounding box of its nodes does (the cell size being positive, which holds unless all elements are points). -/
theorem C33_not_found (hm : IsDim m) (hn : 0 < n) (ops : ElementOps K m d n) (D : MeshDomain K m n) (p : Fin m → K)
    (h : (D.barycentricPoint ops p).elementIndex = none) :
    (D.barycentricPoint ops p).localCoordinates = 0 ∧
    (∀ e : Fin D.numElements, (e : ℕ) ∈ D.hashGrid.get p →
      ops.containsLocal (D.element e) (ops.localCoordinates (D.element e) p) = false) ∧
    (0 < D.cellSize → ∀ e : Fin D.numElements, InBoxOf (D.element e) p →
      ops.containsLocal (D.element e) (ops.localCoordinates (D.element e) p) = false) := by
  obtain ⟨h1, h2⟩ := (findElement_spec ops D p (D.hashGrid.get p) (candidate_lt D p)).2 h
  refine ⟨h1, h2, fun hs e hb => h2 e ?_⟩
  rw [hashGrid_eq]
  exact C31_complete hm hn _ hs _ _ _ ((mem_history D _ _).mpr ⟨e, rfl, rfl⟩) p hb

/-- **C33 (affine elements).** For an element that is an affine image of the canonical one, the returned coordinates are in the
canonical element enlarged by `1e-10`, and either they map back to the point, or they are the origin and the image of the
origin is closer than `1e-5` to the point.  Missing with respect to C33: exact inversion in the second case, which is false
(`C33_violated`). -/
theorem C33_affine_partial (T : ElementType) (hT : T.Isoparametric) (D : MeshDomain K T.dim T.numNodes) (p : Fin T.dim → K)
    (e : Fin D.numElements) (h : (D.barycentricPoint (T.ops T.dim) p).elementIndex = some e)
    (c : Fin T.dim → K) (A : Matrix (Fin T.dim) (Fin T.dim) K) (hA : A.det ≠ 0)
    (haff : D.element e = fun i => affineMap c A (T.elem.node i)) :
    let ξ := (D.barycentricPoint (T.ops T.dim) p).localCoordinates
    T.shape.MemEps ξ (1 / 10 ^ 10) ∧
    (T.elem.worldCoordinates (D.element e) ξ = p ∨
      (ξ = 0 ∧ dist2 p (T.elem.worldCoordinates (D.element e) 0) < (1 / 100000) ^ 2)) := by
  intro ξ
  obtain ⟨h1, h2, -, -⟩ := C33_found (T.ops T.dim) D p e h
  have hT' : T.HasContains := ⟨hT.1, hT.2.1⟩
  constructor
  · rw [← C14_contains_iff T hT' ξ _ (by linarith [show (0 : K) < 1 / 10 ^ 10 by positivity])]
    change (T.containsLocal ξ (1 / 10 ^ 10)).getD false = true at h2
    cases hc : T.containsLocal ξ (1 / 10 ^ 10) with
    | none => rw [hc] at h2; exact absurd h2 (by simp)
    | some b => rw [hc] at h2; simp only [Option.getD_some] at h2; rw [h2]
  · have hξ : ξ = localCoordinates T.elem (D.element e) p 0 (1 / 100000) 5 := h1
    have := C15_affine_inverse T c A hA p 0 (1 / 100000) 5
    rw [← haff] at this
    rw [hξ]
    rcases this with h | h
    · exact .inr h
    · exact .inl h

/-- **C34.** A point of an element that is an affine image of the canonical one is found, whatever the other elements of the
domain. -/
theorem C34_complete (T : ElementType) (hT : T.Isoparametric) (D : MeshDomain K T.dim T.numNodes)
    (e : Fin D.numElements) (c : Fin T.dim → K) (A : Matrix (Fin T.dim) (Fin T.dim) K) (hA : A.det ≠ 0)
    (haff : D.element e = fun i => affineMap c A (T.elem.node i)) (ξ : Fin T.dim → K) (hξ : T.shape.Mem ξ) :
    ∃ e', (D.barycentricPoint (T.ops T.dim) (T.elem.worldCoordinates (D.element e) ξ)).elementIndex = some e' ∧ e' ≤ e := by
  set p := T.elem.worldCoordinates (D.element e) ξ with hp
  have hpa : p = affineMap c A ξ := by rw [hp, haff, affine_world']
  have hm : IsDim T.dim := by cases T <;> simp [IsDim, ElementType.dim]
  have hn : 0 < T.numNodes := by cases T <;> decide
  have hbox : InBoxOf (D.element e) p := by rw [hpa, haff]; exact box_of_hull (hull T ξ hξ) c A
  have a0 : Fin T.dim := by cases T <;> exact ⟨0, by decide⟩
  obtain ⟨i, j, hij⟩ := affine_extent T c A hA a0
  have hs : 0 < D.cellSize := cellSize_pos hn D e a0 i j (by rw [haff]; exact hij)
  have hacc : (T.ops T.dim).containsLocal (D.element e) ((T.ops T.dim).localCoordinates (D.element e) p) = true := by
    have hT' : T.HasContains := ⟨hT.1, hT.2.1⟩
    have hmem : T.shape.Mem ((T.ops T.dim).localCoordinates (D.element e) p) := by
      have hinv := C15_affine_inverse T c A hA p 0 (1 / 100000) 5
      have huni := C15_unique T c A hA
      rw [← haff] at hinv huni
      rcases hinv with ⟨h, _⟩ | h
      · change T.shape.Mem (localCoordinates T.elem (D.element e) p 0 (1 / 100000) 5)
        rw [h]
        cases T.shape
        · exact fun j => ⟨by simp, by simp⟩
        · exact ⟨fun j => le_refl _, by simp⟩
      · change T.shape.Mem (localCoordinates T.elem (D.element e) p 0 (1 / 100000) 5)
        rw [huni _ ξ (h.trans hp)]
        exact hξ
    have := C14_accepts T hT' _ (1 / 10 ^ 10) (.inl (by positivity)) hmem
    change (T.containsLocal _ (1 / 10 ^ 10)).getD false = true
    rw [this]; rfl
  cases hres : (D.barycentricPoint (T.ops T.dim) p).elementIndex with
  | none =>
    have := (C33_not_found hm hn (T.ops T.dim) D p hres).2.2 hs e hbox
    rw [hacc] at this
    exact absurd this (by simp)
  | some e' =>
    refine ⟨e', rfl, ?_⟩
    by_contra hlt
    have hcand : (e : ℕ) ∈ D.hashGrid.get p := by
      rw [hashGrid_eq]
      exact C31_complete hm hn _ hs _ _ _ ((mem_history D _ _).mpr ⟨e, rfl, rfl⟩) p hbox
    have := (C33_found (T.ops T.dim) D p e' hres).2.2.2 e hcand (not_le.mp hlt)
    rw [hacc] at this
    exact absurd this (by simp)

/-- **C34 (triangles).** In a plane mesh of linear triangles every point of every triangle with nonzero area is found. -/
theorem C34_triangle (D : MeshDomain K 2 3) (e : Fin D.numElements)
    (harea : area2 (D.element e 0) (D.element e 1) (D.element e 2) ≠ 0) (w : Fin 3 → K) (h0 : ∀ i, 0 ≤ w i) (h1 : ∑ i, w i = 1) :
    ∃ e', (D.barycentricPoint (ElementType.triangle1.ops 2) (fun a => ∑ i, w i * D.element e i a)).elementIndex = some e' := by
  have haff : D.element e = fun i => affineMap (D.element e 0) (Matrix.of fun a (j : Fin 2) => D.element e j.succ a - D.element e 0 a)
      ((triangle1 (K := K)).node i) := by
    funext i a
    fin_cases i <;>
      simp only [affineMap, triangle1, sum_fin2, Matrix.of_apply, Matrix.cons_val, Fin.isValue, Fin.reduceFinMk, Fin.zero_eta,
        Fin.mk_one, Fin.succ_zero_eq_one, Fin.succ_one_eq_two] <;> ring
  have hdet : (Matrix.of fun a (j : Fin 2) => D.element e j.succ a - D.element e 0 a).det ≠ 0 := by
    rw [Matrix.det_fin_two]
    simp only [Matrix.of_apply, Fin.succ_zero_eq_one, Fin.succ_one_eq_two]
    intro h
    apply harea
    rw [area2]
    linear_combination h
  have hmem : ElementType.triangle1.shape.Mem (![w 1, w 2] : Fin 2 → K) := by
    refine ⟨fun j => ?_, ?_⟩
    · change Fin 2 at j
      fin_cases j
      · exact h0 1
      · exact h0 2
    · change ∑ j : Fin 2, (![w 1, w 2] : Fin 2 → K) j ≤ 1
      rw [sum_fin2]
      simp only [Matrix.cons_val]
      rw [sum_fin3] at h1
      linarith [h0 0]
  obtain ⟨e', h, _⟩ := C34_complete .triangle1 (by decide) D e _ _ hdet haff _ hmem
  refine ⟨e', ?_⟩
  rw [← h]
  congr 2
  funext a
  change _ = ∑ i : Fin 3, D.element e i a * (triangle1 (K := K)).L ![w 1, w 2] i
  rw [sum_fin3] at h1
  simp only [sum_fin3, triangle1, Matrix.cons_val]
  linear_combination D.element e 0 a * h1

/-- **C34 (tetrahedra).** In a mesh of linear tetrahedra every point of every tetrahedron with nonzero volume is found. -/
theorem C34_tetra (D : MeshDomain K 3 4) (e : Fin D.numElements)
    (hvol : volume6 (D.element e 0) (D.element e 1) (D.element e 2) (D.element e 3) ≠ 0) (w : Fin 4 → K) (h0 : ∀ i, 0 ≤ w i)
    (h1 : ∑ i, w i = 1) :
    ∃ e', (D.barycentricPoint (ElementType.tetra1.ops 3) (fun a => ∑ i, w i * D.element e i a)).elementIndex = some e' := by
  have h3 : (Fin.succ 2 : Fin 4) = 3 := rfl
  have haff : D.element e = fun i => affineMap (D.element e 0) (Matrix.of fun a (j : Fin 3) => D.element e j.succ a - D.element e 0 a)
      ((tetra1 (K := K)).node i) := by
    funext i a
    fin_cases i <;>
      simp only [affineMap, tetra1, sum_fin3, Matrix.of_apply, Matrix.cons_val, Fin.isValue, Fin.reduceFinMk, Fin.zero_eta,
        Fin.mk_one, Fin.succ_zero_eq_one, Fin.succ_one_eq_two, h3] <;> ring
  have hdet : (Matrix.of fun a (j : Fin 3) => D.element e j.succ a - D.element e 0 a).det ≠ 0 := by
    rw [Matrix.det_fin_three]
    simp only [Matrix.of_apply, Fin.succ_zero_eq_one, Fin.succ_one_eq_two, h3]
    intro h
    apply hvol
    rw [volume6]
    linear_combination h
  have hmem : ElementType.tetra1.shape.Mem (![w 1, w 2, w 3] : Fin 3 → K) := by
    refine ⟨fun j => ?_, ?_⟩
    · change Fin 3 at j
      fin_cases j
      · exact h0 1
      · exact h0 2
      · exact h0 3
    · change ∑ j : Fin 3, (![w 1, w 2, w 3] : Fin 3 → K) j ≤ 1
      rw [sum_fin3]
      simp only [Matrix.cons_val]
      rw [sum_fin4] at h1
      linarith [h0 0]
  obtain ⟨e', h, _⟩ := C34_complete .tetra1 (by decide) D e _ _ hdet haff _ hmem
  refine ⟨e', ?_⟩
  rw [← h]
  congr 2
  funext a
  change _ = ∑ i : Fin 4, D.element e i a * (tetra1 (K := K)).L ![w 1, w 2, w 3] i
  rw [sum_fin4] at h1
  simp only [sum_fin4, tetra1, Matrix.cons_val]
  linear_combination D.element e 0 a * h1

/-- **C34 (curves and surfaces).** The same in a world of another dimension: a point on an element that is an injective affine
image of the canonical one is found. -/
theorem C34_surface (T : ElementType) (hT : T.Isoparametric) (hm : IsDim m) (hmd : m ≠ T.dim) (D : MeshDomain K m T.numNodes)
    (e : Fin D.numElements) (c : Fin m → K) (A : Matrix (Fin m) (Fin T.dim) K) (hA : (A.transpose * A).det ≠ 0)
    (haff : D.element e = fun i => affineMap c A (T.elem.node i)) (ξ : Fin T.dim → K) (hξ : T.shape.Mem ξ) :
    ∃ e', (D.barycentricPoint (T.ops m) (T.elem.worldCoordinates (D.element e) ξ)).elementIndex = some e' ∧ e' ≤ e := by
  set p := T.elem.worldCoordinates (D.element e) ξ with hp
  have hpa : p = affineMap c A ξ := by rw [hp, haff, affine_world']
  have hn : 0 < T.numNodes := by cases T <;> decide
  have hbox : InBoxOf (D.element e) p := by rw [hpa, haff]; exact box_of_hull (hull T ξ hξ) c A
  have hinj : ∀ η, T.elem.worldCoordinates (D.element e) η = p → η = ξ := fun η h => by
    rw [hpa, haff, affine_world'] at h
    have h2 : A.mulVec (η - ξ) = 0 := by
      funext a
      have := congrFun h a
      simp only [affineMap] at this
      simp only [Matrix.mulVec, dotProduct, Pi.sub_apply, mul_sub, Finset.sum_sub_distrib, Pi.zero_apply]
      linear_combination this
    have h3 : (A.transpose * A).mulVec (η - ξ) = 0 := by rw [← Matrix.mulVec_mulVec, h2, Matrix.mulVec_zero]
    have h4 := congrArg (fun x => (A.transpose * A)⁻¹.mulVec x) h3
    simp only [Matrix.mulVec_mulVec, Matrix.nonsing_inv_mul _ (isUnit_iff_ne_zero.mpr hA), Matrix.one_mulVec, Matrix.mulVec_zero] at h4
    exact sub_eq_zero.mp h4
  have hs : 0 < D.cellSize := by
    by_contra hneg
    have hconst : ∀ a i j, D.element e i a = D.element e j a := fun a i j => by
      by_contra hne
      exact hneg (cellSize_pos hn D e a i j hne)
    have hA0 : A = 0 := by
      ext a j
      have i0 : Fin T.numNodes := ⟨0, hn⟩
      have hw : ∀ η, T.elem.worldCoordinates (D.element e) η a = D.element e i0 a := fun η => by
        rw [Elem.worldCoordinates, Elem.interpolate]
        simp only [hconst a _ i0, ← Finset.mul_sum]
        rw [C01_partition_of_unity T η, mul_one]
      have h1 := hw fun k => if k = j then 1 else 0
      rw [← hw 0, haff, affine_world', affine_world'] at h1
      simpa [affineMap] using h1
    have j0 : Fin T.dim := by cases T <;> exact ⟨0, by decide⟩
    rw [hA0] at hA
    apply hA
    exact Matrix.det_eq_zero_of_row_eq_zero j0 fun j => by simp
  have hacc : (T.ops m).containsLocal (D.element e) ((T.ops m).localCoordinates (D.element e) p) = true := by
    have hT' : T.HasContains := ⟨hT.1, hT.2.1⟩
    have hmem : T.shape.Mem ((T.ops m).localCoordinates (D.element e) p) := by
      have hinv := C17_projection T hmd c A hA p 0 (1 / 100000) 5
      rw [← haff] at hinv
      change T.shape.Mem (localCoordinates T.elem (D.element e) p 0 (1 / 100000) 5)
      rcases hinv with ⟨h, _⟩ | ⟨_, h⟩
      · rw [h]
        cases T.shape
        · exact fun j => ⟨by simp, by simp⟩
        · exact ⟨fun j => le_refl _, by simp⟩
      · have hle := h ξ
        rw [← hp] at hle
        have h0 : dist2 p p = 0 := by simp [dist2]
        rw [h0] at hle
        have hz : dist2 p (T.elem.worldCoordinates (D.element e) (localCoordinates T.elem (D.element e) p 0 (1 / 100000) 5)) = 0 :=
          le_antisymm hle (Finset.sum_nonneg fun j _ => sq_nonneg _)
        rw [dist2, Finset.sum_eq_zero_iff_of_nonneg fun j _ => sq_nonneg _] at hz
        rw [hinj _ (funext fun a => (sub_eq_zero.mp (pow_eq_zero_iff (two_ne_zero)|>.mp (hz a (Finset.mem_univ a)))).symm)]
        exact hξ
    have := C14_accepts T hT' _ (1 / 10 ^ 10) (.inl (by positivity)) hmem
    change (T.containsLocal _ (1 / 10 ^ 10)).getD false = true
    rw [this]; rfl
  cases hres : (D.barycentricPoint (T.ops m) p).elementIndex with
  | none =>
    have := (C33_not_found hm hn (T.ops m) D p hres).2.2 hs e hbox
    rw [hacc] at this
    exact absurd this (by simp)
  | some e' =>
    refine ⟨e', rfl, ?_⟩
    by_contra hlt
    have hcand : (e : ℕ) ∈ D.hashGrid.get p := by
      rw [hashGrid_eq]
      exact C31_complete hm hn _ hs _ _ _ ((mem_history D _ _).mpr ⟨e, rfl, rfl⟩) p hbox
    have := (C33_found (T.ops m) D p e' hres).2.2.2 e hcand (not_le.mp hlt)
    rw [hacc] at this
    exact absurd this (by simp)

example : ((!![1, 0; 0, 1; 0, 0] : Matrix (Fin 3) (Fin 2) ℚ).transpose *
      (!![1, 0; 0, 1; 0, 0] : Matrix (Fin 3) (Fin 2) ℚ)).det ≠ 0 ∧
    ElementType.triangle1.Isoparametric ∧ IsDim 3 ∧ 3 ≠ ElementType.triangle1.dim := by
  refine ⟨?_, by decide, Or.inr (Or.inr rfl), by decide⟩
  rw [Matrix.det_fin_two]
  simp [Matrix.mul_apply, sum_fin3]

/-! ### C35 -/

private theorem embed_foldl (ops : ElementOps K m d n) (D : MeshDomain K m n) (ps : List (Fin m → K))
    (s : MeshDomain.Embedded K d D.numElements) (k : ℕ) :
    ps.foldl (D.embedStep ops) (s, k) =
      (⟨s.points ++ ps.map (D.barycentricPoint ops),
        s.outside ++ ((List.range ps.length).filter fun i =>
          ((ps[i]?.map fun p => (D.barycentricPoint ops p).elementIndex.isNone).getD false)).map (k + ·)⟩, k + ps.length) := by
  induction ps generalizing s k with
  | nil => simp
  | cons p ps ih =>
    rw [List.foldl_cons]
    simp only [MeshDomain.embedStep]
    rw [ih]
    have e1 : k + 1 + ps.length = k + (p :: ps).length := by simp; omega
    have e2 : ∀ l : List ℕ, (l.map (k + 1 + ·)) = (l.map Nat.succ).map (k + ·) := fun l => by
      rw [List.map_map]; congr 1; funext x; simp; omega
    rw [e1]
    congr 1
    congr 1
    · simp
    · rw [List.length_cons, List.range_succ_eq_map, List.filter_cons]
      simp only [List.getElem?_cons_zero, Option.map_some, Option.getD_some, List.filter_map]
      rw [e2]
      have e3 : ((fun i => (((p :: ps)[i]?.map fun p => (D.barycentricPoint ops p).elementIndex.isNone).getD false)) ∘ Nat.succ) =
          fun i => ((ps[i]?.map fun p => (D.barycentricPoint ops p).elementIndex.isNone).getD false) := by
        funext i; simp
      rw [e3]
      split_ifs <;> simp

/-- **C35.** A container is built unless the domain has no element.  There is then one barycentric point per embedded point, in
the same order, and the outside nodes are the indices of the points located in no element, in increasing order. -/
theorem C35_bookkeeping (ops : ElementOps K m d n) (D : MeshDomain K m n) (ps : List (Fin m → K)) :
    (D.container ops ps = none ↔ D.numElements = 0) ∧
    ∀ s, D.container ops ps = some s →
      s.points.length = ps.length ∧
      (∀ (i : ℕ) (h : i < ps.length), s.points[i]? = some (D.barycentricPoint ops ps[i])) ∧
      (∀ i, i ∈ s.outside ↔ ∃ h : i < ps.length, (D.barycentricPoint ops ps[i]).elementIndex = none) ∧
      s.outside.Pairwise (· < ·) := by
  constructor
  · unfold MeshDomain.container
    split_ifs with h <;> simp [h]
  · intro s hs
    unfold MeshDomain.container at hs
    split_ifs at hs with h
    simp only [Option.some.injEq, MeshDomain.setEmbeddedPoints] at hs
    rw [embed_foldl] at hs
    subst hs
    simp only [List.nil_append, List.length_map, zero_add, List.map_id']
    refine ⟨trivial, ?_, ?_, ?_⟩
    · intro i hi
      simp [hi]
    · intro i
      simp only [List.mem_filter, List.mem_range]
      constructor
      · rintro ⟨hi, h⟩
        refine ⟨hi, ?_⟩
        simpa [List.getElem?_eq_getElem hi] using h
      · rintro ⟨hi, h⟩
        exact ⟨hi, by simp [List.getElem?_eq_getElem hi, h]⟩
    · exact List.Pairwise.filter _ List.pairwise_lt_range

/-! ### C36 -/

/-- **C36 (linearity).** Every interpolated row is linear in the nodal values. -/
theorem C36_linear (ops : ElementOps K m d n) (D : MeshDomain K m n) (s : MeshDomain.Embedded K d D.numElements) {k : ℕ}
    (v w : Fin D.numNodes → Fin k → K) (α β : K) (i : ℕ) (x y : Fin k → K)
    (hx : (D.interpolate ops s v)[i]? = some (some x)) (hy : (D.interpolate ops s w)[i]? = some (some y)) :
    (D.interpolate ops s (fun j a => α * v j a + β * w j a))[i]? = some (some fun a => α * x a + β * y a) := by
  simp only [MeshDomain.interpolate, List.getElem?_map] at hx hy ⊢
  cases hbp : s.points[i]? with
  | none => rw [hbp] at hx; simp at hx
  | some bp =>
    rw [hbp] at hx hy
    simp only [Option.map_some, Option.some.injEq] at hx hy ⊢
    cases he : bp.elementIndex with
    | none => rw [he] at hx; simp at hx
    | some e =>
      rw [he] at hx hy
      simp only [Option.map_some, Option.some.injEq] at hx hy ⊢
      subst hx hy
      funext a
      simp only [add_mul, Finset.sum_add_distrib, Finset.mul_sum, mul_assoc]

/-- The nodal values of the affine function `x ↦ b + G x` of the position. -/
def affineField {k : ℕ} (D : MeshDomain K m n) (b : Fin k → K) (G : Fin k → Fin m → K) : Fin D.numNodes → Fin k → K :=
  fun v a => affineFn (b a) (G a) (D.position v)

/-- **C36 (any element).** For every element class, the interpolated row of an affine function is its value at the image of the
local coordinates found. -/
theorem C36_located (T : ElementType) (D : MeshDomain K m T.numNodes) (s : MeshDomain.Embedded K T.dim D.numElements) {k : ℕ}
    (b : Fin k → K) (G : Fin k → Fin m → K) (i : ℕ) (bp : BarycentricPoint K T.dim D.numElements) (e : Fin D.numElements)
    (hi : s.points[i]? = some bp) (he : bp.elementIndex = some e) :
    (D.interpolate (T.ops m) s (affineField D b G))[i]? =
      some (some fun a => affineFn (b a) (G a) (T.elem.worldCoordinates (D.element e) bp.localCoordinates)) := by
  simp only [MeshDomain.interpolate, List.getElem?_map, hi, Option.map_some, he, Option.some.injEq]
  funext a
  simp only [affineField, affineFn, ElementType.ops, Elem.worldCoordinates, Elem.interpolate, add_mul, Finset.sum_add_distrib,
    ← Finset.mul_sum, MeshDomain.element]
  rw [C01_partition_of_unity T, mul_one]
  congr 1
  simp only [Finset.sum_mul, Finset.mul_sum, mul_assoc]
  exact Finset.sum_comm

/-- **C36 (affine elements).** Embed points in a domain.  If the `i`-th point `p` is located in an element that is an affine
image of the canonical one, the interpolated row of an affine function of position is its value at `p`, or `p` is closer than
`1e-5` to the image of the local origin and the squared error is below `|G|² 1e-10`.
Missing with respect to C36: exactness in the second case, which is false (`C36_violated`). -/
theorem C36_affine_partial (T : ElementType) (hT : T.Isoparametric) (D : MeshDomain K T.dim T.numNodes) (ps : List (Fin T.dim → K))
    (s : MeshDomain.Embedded K T.dim D.numElements) (hs : D.container (T.ops T.dim) ps = some s) {k : ℕ}
    (b : Fin k → K) (G : Fin k → Fin T.dim → K) (i : ℕ) (hi : i < ps.length)
    (e : Fin D.numElements) (he : (D.barycentricPoint (T.ops T.dim) ps[i]).elementIndex = some e)
    (c : Fin T.dim → K) (A : Matrix (Fin T.dim) (Fin T.dim) K) (hA : A.det ≠ 0)
    (haff : D.element e = fun i => affineMap c A (T.elem.node i)) :
    ∃ row, (D.interpolate (T.ops T.dim) s (affineField D b G))[i]? = some (some row) ∧
      ((∀ a, row a = affineFn (b a) (G a) ps[i]) ∨
        (dist2 ps[i] (T.elem.worldCoordinates (D.element e) 0) < (1 / 100000) ^ 2 ∧
          ∀ a, (row a - affineFn (b a) (G a) ps[i]) ^ 2 ≤ (∑ j, G a j ^ 2) * (1 / 100000) ^ 2)) := by
  have hpt := ((C35_bookkeeping (T.ops T.dim) D ps).2 s hs).2.1 i hi
  refine ⟨_, C36_located T D s b G i _ e hpt he, ?_⟩
  rcases (C33_affine_partial T hT D ps[i] e he c A hA haff).2 with h | ⟨h1, h2⟩
  · left
    intro a
    rw [h]
  · right
    refine ⟨h2, fun a => ?_⟩
    rw [h1]
    set q := T.elem.worldCoordinates (D.element e) 0 with hq
    have e1 : affineFn (b a) (G a) q - affineFn (b a) (G a) ps[i] = ∑ j, G a j * (q j - ps[i] j) := by
      simp only [affineFn, mul_sub, Finset.sum_sub_distrib]; ring
    rw [e1]
    refine (Finset.sum_mul_sq_le_sq_mul_sq _ _ _).trans ?_
    refine mul_le_mul_of_nonneg_left ?_ (Finset.sum_nonneg fun j _ => sq_nonneg _)
    have : ∑ j, (q j - ps[i] j) ^ 2 = dist2 ps[i] q := by
      simp only [dist2]
      exact Finset.sum_congr rfl fun j _ => by ring
    rw [this]
    exact h2.le

/-! ### Where the tolerance of the Newton search shows -/

private theorem located_single (ops : ElementOps K m d n) (D : MeshDomain K m n) (p : Fin m → K) (h0 : 0 < D.numElements)
    (ξ : Fin d → K) (hget : D.hashGrid.get p = [0]) (hloc : ops.localCoordinates (D.element ⟨0, h0⟩) p = ξ)
    (hacc : ops.containsLocal (D.element ⟨0, h0⟩) ξ = true) : D.barycentricPoint ops p = ⟨some ⟨0, h0⟩, ξ⟩ := by
  rw [MeshDomain.barycentricPoint, hget, MeshDomain.findElement, dif_pos h0]
  simp only [hloc, hacc, if_true]

theorem container_single (ops : ElementOps K m d n) (D : MeshDomain K m n) (p : Fin m → K) (h0 : D.numElements ≠ 0)
    (bp : BarycentricPoint K d D.numElements) (h : D.barycentricPoint ops p = bp) (hb : bp.elementIndex.isNone = false) :
    D.container ops [p] = some ⟨[bp], []⟩ := by
  rw [MeshDomain.container, if_neg h0, MeshDomain.setEmbeddedPoints]
  simp [List.foldl_cons, List.foldl_nil, MeshDomain.embedStep, h, hb]

/-- One right triangle with sides of length `1e-6`. -/
def smallTriangle : MeshDomain ℚ 2 3 where
  numNodes := 3
  position := ![![0, 0], ![1 / 1000000, 0], ![0, 1 / 1000000]]
  numElements := 1
  indices := ![![0, 1, 2]]

instance : NeZero smallTriangle.numElements := ⟨by decide⟩

theorem smallTriangle_located : smallTriangle.barycentricPoint (ElementType.triangle1.ops 2) ![9 / 10000000, 9 / 10000000] =
    ⟨some 0, 0⟩ := by
  have hget : smallTriangle.hashGrid.get ![9 / 10000000, 9 / 10000000] = [0] := by decide +kernel
  have hloc : (ElementType.triangle1.ops (K := ℚ) 2).localCoordinates (smallTriangle.element 0) ![9 / 10000000, 9 / 10000000] = 0 := by
    change localCoordinates triangle1 (smallTriangle.element 0) ![9 / 10000000, 9 / 10000000] 0 (1 / 100000) 5 = 0
    rw [localCoordinates, localCoordinatesTrace, if_pos]
    change residual2 triangle1 (smallTriangle.element 0) ![9 / 10000000, 9 / 10000000] 0 < _
    simp only [residual2, sqNorm, sum_fin2, Elem.worldCoordinates, Elem.interpolate, sum_fin3, triangle1, smallTriangle,
      MeshDomain.element, Pi.sub_apply, Pi.zero_apply, Matrix.cons_val]
    norm_num
  have hacc : (ElementType.triangle1.ops (K := ℚ) 2).containsLocal (smallTriangle.element 0) (0 : Fin 2 → ℚ) = true := by
    change (some (containsTriangle (0 : Fin 2 → ℚ) (1 / 10 ^ 10))).getD false = true
    decide +kernel
  exact located_single _ _ _ (by decide) 0 hget hloc hacc

/-- **C33 is false.** The triangle is much smaller than the tolerance `1e-5` of the Newton search: a point outside of it is
reported inside, with local coordinates `(0, 0)` that do not map back to it. -/
theorem C33_violated :
    let p : Fin 2 → ℚ := ![9 / 10000000, 9 / 10000000]
    let bp := smallTriangle.barycentricPoint (ElementType.triangle1.ops 2) p
    bp.elementIndex = some 0 ∧ (triangle1 (K := ℚ)).worldCoordinates (smallTriangle.element 0) bp.localCoordinates ≠ p ∧
    ∀ ξ : Fin 2 → ℚ, (triangle1 (K := ℚ)).worldCoordinates (smallTriangle.element 0) ξ = p → ¬ Shape.simplex.Mem ξ := by
  intro p bp
  have hbp : bp = ⟨some 0, 0⟩ := smallTriangle_located
  refine ⟨by rw [hbp], ?_, ?_⟩
  · rw [hbp]
    intro h
    have := congrFun h 0
    change (triangle1 (K := ℚ)).worldCoordinates (smallTriangle.element 0) 0 0 = p 0 at this
    simp only [Elem.worldCoordinates, Elem.interpolate, sum_fin3, triangle1, smallTriangle, MeshDomain.element, Pi.zero_apply,
      Matrix.cons_val, p] at this
    norm_num at this
  · intro ξ h hm
    have h0 := congrFun h 0
    have h1 := congrFun h 1
    simp only [Elem.worldCoordinates, Elem.interpolate, sum_fin3, triangle1, smallTriangle, MeshDomain.element,
      Matrix.cons_val, p] at h0 h1
    have := hm.2
    rw [sum_fin2] at this
    linarith

/-- **C36 is false.** The coordinate function `x` is interpolated as `0` at the point `(4e-7, 4e-7)` of the triangle. -/
theorem C36_violated :
    let p : Fin 2 → ℚ := ![4 / 10000000, 4 / 10000000]
    ∃ s, smallTriangle.container (ElementType.triangle1.ops 2) [p] = some s ∧ s.outside = [] ∧
      (∃ ξ : Fin 2 → ℚ, Shape.simplex.Mem ξ ∧ (triangle1 (K := ℚ)).worldCoordinates (smallTriangle.element 0) ξ = p) ∧
      ∃ row : Fin 1 → ℚ, smallTriangle.interpolate (ElementType.triangle1.ops 2) s
        (affineField smallTriangle (fun _ => 0) fun _ => ![1, 0]) = [some row] ∧ row 0 = 0 ∧ row 0 ≠ p 0 := by
  intro p
  have hloc : smallTriangle.barycentricPoint (ElementType.triangle1.ops 2) p = ⟨some 0, 0⟩ := by
    have hget : smallTriangle.hashGrid.get ![4 / 10000000, 4 / 10000000] = [0] := by decide +kernel
    have hloc : (ElementType.triangle1.ops (K := ℚ) 2).localCoordinates (smallTriangle.element 0) p = 0 := by
      change localCoordinates triangle1 (smallTriangle.element 0) p 0 (1 / 100000) 5 = 0
      rw [localCoordinates, localCoordinatesTrace, if_pos]
      change residual2 triangle1 (smallTriangle.element 0) p 0 < _
      simp only [residual2, sqNorm, sum_fin2, Elem.worldCoordinates, Elem.interpolate, sum_fin3, triangle1, smallTriangle,
        MeshDomain.element, Pi.sub_apply, Pi.zero_apply, Matrix.cons_val, p]
      norm_num
    have hacc : (ElementType.triangle1.ops (K := ℚ) 2).containsLocal (smallTriangle.element 0) (0 : Fin 2 → ℚ) = true := by
      change (some (containsTriangle (0 : Fin 2 → ℚ) (1 / 10 ^ 10))).getD false = true
      decide +kernel
    exact located_single _ _ _ (by decide) 0 hget hloc hacc
  refine ⟨⟨[⟨some 0, 0⟩], []⟩, ?_, rfl, ⟨![4 / 10, 4 / 10], ?_, ?_⟩, ?_⟩
  · exact container_single _ _ p (by decide) _ hloc rfl
  · refine ⟨fun j => ?_, ?_⟩
    · fin_cases j <;> norm_num
    · rw [sum_fin2]; norm_num
  · funext a
    fin_cases a <;>
      simp only [Elem.worldCoordinates, Elem.interpolate, sum_fin3, triangle1, smallTriangle, MeshDomain.element,
        Matrix.cons_val, p, Fin.isValue, Fin.zero_eta, Fin.mk_one] <;> norm_num
  · refine ⟨_, rfl, ?_, ?_⟩
    · change ∑ i : Fin 3, affineField smallTriangle (fun _ => 0) (fun _ => ![1, 0]) (smallTriangle.indices 0 i) 0 *
        (triangle1 (K := ℚ)).L 0 i = 0
      simp only [sum_fin3, affineField, affineFn, sum_fin2, smallTriangle, triangle1, Matrix.cons_val, Pi.zero_apply]
      norm_num
    · change ∑ i : Fin 3, affineField smallTriangle (fun _ => 0) (fun _ => ![1, 0]) (smallTriangle.indices 0 i) 0 *
        (triangle1 (K := ℚ)).L 0 i ≠ p 0
      simp only [sum_fin3, affineField, affineFn, sum_fin2, smallTriangle, triangle1, Matrix.cons_val, Pi.zero_apply, p]
      norm_num

/-! ### Example: two triangles sharing an edge -/

/-- The unit square cut in two triangles. -/
def twoTriangles : MeshDomain ℚ 2 3 where
  numNodes := 4
  position := ![![0, 0], ![1, 0], ![1, 1], ![0, 1]]
  numElements := 2
  indices := ![![0, 1, 2], ![0, 2, 3]]

instance : NeZero twoTriangles.numElements := ⟨by decide⟩

example : twoTriangles.cellSize = 1 ∧ twoTriangles.hashGrid.get ![1 / 2, 1 / 2] = [0, 1] ∧
    ∃ e, (twoTriangles.barycentricPoint (ElementType.triangle1.ops 2)
      (fun a => ∑ i, (![1 / 2, 1 / 4, 1 / 4] : Fin 3 → ℚ) i * twoTriangles.element 1 i a)).elementIndex = some e := by
  refine ⟨by decide +kernel, by decide +kernel, C34_triangle twoTriangles 1 ?_ _ ?_ ?_⟩
  · change area2 (![0, 0] : Fin 2 → ℚ) ![1, 1] ![0, 1] ≠ 0
    norm_num [area2]
  · intro i
    fin_cases i <;> norm_num
  · rw [sum_fin3]; simp only [Matrix.cons_val]; norm_num

end Caribou
