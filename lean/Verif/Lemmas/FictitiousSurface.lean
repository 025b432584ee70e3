import Verif.Model.FictitiousSurface
import Verif.Spec.FictitiousSurface
import Verif.Props.FictitiousTags
import Verif.Props.FictitiousSparse
import Verif.Props.GridLocate
import Verif.Props.Intersect

/-! Immersion of a triangle mesh in a fictitious grid. -/

set_option autoImplicit false
set_option linter.all false

namespace Caribou

open Spec FictitiousGrid

/-! ### Boxes and triangles -/

theorem orthonormal_one : OrthonormalCols (1 : Matrix (Fin 3) (Fin 3) ℝ) := by simp [OrthonormalCols]

theorem inBox_one (e : Box 3 ℝ) (he : ∀ a, 0 < e.size a) (x : Fin 3 → ℝ) :
    InBox e.center e.size (1 : Matrix (Fin 3) (Fin 3) ℝ) 0 x ↔ InCellBox e x := by
  constructor
  · rintro ⟨s, hs, hb⟩ a
    have h1 := hs a
    simp only [Matrix.one_apply, ite_mul, one_mul, zero_mul, Finset.sum_ite_eq, Finset.mem_univ, if_true] at h1
    have h2 := hb a
    rw [abs_of_pos (he a), abs_le] at h2
    simp only [lower, upper]
    constructor <;> linarith [h2.1, h2.2]
  · intro h
    refine ⟨fun a => x a - e.center a, fun a => ?_, fun a => ?_⟩
    · simp [Matrix.one_apply]
    · have := h a
      simp only [lower, upper] at this
      rw [abs_of_pos (he a), abs_le]
      constructor <;> linarith [this.1, this.2]

theorem hexa_intersects (e : Box 3 ℝ) (he : ∀ a, 0 < e.size a) (t : Fin 3 → Fin 3 → ℝ) :
    e.hexa.intersectsTriangle t 0 = true ↔ ∃ x, InTriangle (t 0) (t 1) (t 2) x ∧ InCellBox e x := by
  rw [C22_world e.hexa orthonormal_one (fun j => (he j).ne') t]
  exact exists_congr fun x => and_congr_right fun _ => inBox_one e he x

/-- Convexity of boxes. -/
theorem inCellBox_segment {D : ℕ} {b : Box D ℝ} {p q : Fin D → ℝ} (hp : InCellBox b p) (hq : InCellBox b q) (t : ℝ) (h0 : 0 ≤ t)
    (h1 : t ≤ 1) : InCellBox b fun a => (1 - t) * p a + t * q a := by
  intro a
  have := hp a
  have := hq a
  constructor <;> nlinarith

theorem inBoundingBox_triangle {t : Fin 3 → Fin 3 → ℝ} {x : Fin 3 → ℝ}
    (hx : InTriangle (t 0) (t 1) (t 2) x) : InBoundingBox [t 0, t 1, t 2] x := by
  obtain ⟨α, β, γ, hα, hβ, hγ, hsum, hx⟩ := hx
  intro a
  rw [hx a]
  constructor
  · by_contra hc
    push Not at hc
    have h0 := hc (t 0) (by simp)
    have h1 := hc (t 1) (by simp)
    have h2 := hc (t 2) (by simp)
    have e : α * t 0 a + β * t 1 a + γ * t 2 a = (α + β + γ) * (α * t 0 a + β * t 1 a + γ * t 2 a) := by rw [hsum, one_mul]
    set v := α * t 0 a + β * t 1 a + γ * t 2 a
    have k0 := mul_le_mul_of_nonneg_left h0.le hα
    have k1 := mul_le_mul_of_nonneg_left h1.le hβ
    have k2 := mul_le_mul_of_nonneg_left h2.le hγ
    have hv : v = α * t 0 a + β * t 1 a + γ * t 2 a := rfl
    have : α * (t 0 a - v) + β * (t 1 a - v) + γ * (t 2 a - v) = 0 := by
      have : α * (t 0 a - v) + β * (t 1 a - v) + γ * (t 2 a - v) = v - (α + β + γ) * v := by rw [hv]; ring
      rw [this, hsum]; ring
    have p0 := mul_nonneg hα (sub_nonneg.mpr h0.le)
    have p1 := mul_nonneg hβ (sub_nonneg.mpr h1.le)
    have p2 := mul_nonneg hγ (sub_nonneg.mpr h2.le)
    have z0 : α = 0 := by
      rcases mul_eq_zero.mp (show α * (t 0 a - v) = 0 by linarith) with h | h
      · exact h
      · exact absurd h (by linarith)
    have z1 : β = 0 := by
      rcases mul_eq_zero.mp (show β * (t 1 a - v) = 0 by linarith) with h | h
      · exact h
      · exact absurd h (by linarith)
    have z2 : γ = 0 := by
      rcases mul_eq_zero.mp (show γ * (t 2 a - v) = 0 by linarith) with h | h
      · exact h
      · exact absurd h (by linarith)
    rw [z0, z1, z2] at hsum
    norm_num at hsum
  · by_contra hc
    push Not at hc
    have h0 := hc (t 0) (by simp)
    have h1 := hc (t 1) (by simp)
    have h2 := hc (t 2) (by simp)
    set v := α * t 0 a + β * t 1 a + γ * t 2 a
    have hv : v = α * t 0 a + β * t 1 a + γ * t 2 a := rfl
    have : α * (v - t 0 a) + β * (v - t 1 a) + γ * (v - t 2 a) = 0 := by
      have : α * (v - t 0 a) + β * (v - t 1 a) + γ * (v - t 2 a) = (α + β + γ) * v - v := by rw [hv]; ring
      rw [this, hsum]; ring
    have p0 := mul_nonneg hα (sub_nonneg.mpr h0.le)
    have p1 := mul_nonneg hβ (sub_nonneg.mpr h1.le)
    have p2 := mul_nonneg hγ (sub_nonneg.mpr h2.le)
    have z0 : α = 0 := by
      rcases mul_eq_zero.mp (show α * (v - t 0 a) = 0 by linarith) with h | h
      · exact h
      · exact absurd h (by linarith)
    have z1 : β = 0 := by
      rcases mul_eq_zero.mp (show β * (v - t 1 a) = 0 by linarith) with h | h
      · exact h
      · exact absurd h (by linarith)
    have z2 : γ = 0 := by
      rcases mul_eq_zero.mp (show γ * (v - t 2 a) = 0 by linarith) with h | h
      · exact h
      · exact absurd h (by linarith)
    rw [z0, z1, z2] at hsum
    norm_num at hsum

/-! ### Cells of the grid -/

theorem isCell_of_index {g : Grid 3 ℝ} (hf : Fits g.n) {i : ℤ} (h0 : 0 ≤ i) (h1 : i < g.numberOfCells) :
    IsCell g.n (g.cellCoordinatesAt i) ∧ g.cellIndexAt (g.cellCoordinatesAt i) = i := by
  have := C24_index (by simp [IsDim] : IsDim 3) g hf i h0 h1
  exact this

theorem inCellBox_gridBox (g : Grid 3 ℝ) (i : ℤ) (x : Fin 3 → ℝ) :
    InCellBox (gridBox g i) x ↔ InCell g.anchor g.H (g.cellCoordinatesAt i) x := by
  unfold InCellBox InCell InClosedBox
  refine forall_congr' fun a => ?_
  have e1 : lower (gridBox g i) a = gridPoint g.anchor g.H (fun a => (g.cellCoordinatesAt i a : ℝ)) a := by
    simp only [lower, gridBox, Grid.cellCenter, gridPoint]; ring
  have e2 : upper (gridBox g i) a = gridPoint g.anchor g.H (fun a => (g.cellCoordinatesAt i a : ℝ) + 1) a := by
    simp only [upper, gridBox, Grid.cellCenter, gridPoint]; ring
  rw [e1, e2]

/-- The triangle meets the cell of the grid. -/
def TriMeets (t : Fin 3 → Fin 3 → ℝ) (b : Box 3 ℝ) : Prop := ∃ x, InTriangle (t 0) (t 1) (t 2) x ∧ InCellBox b x

theorem inTriangle_corner (t : Fin 3 → Fin 3 → ℝ) : InTriangle (t 0) (t 1) (t 2) (t 0) :=
  ⟨1, 0, 0, by norm_num, le_refl _, le_refl _, by norm_num, fun j => by ring⟩

theorem enclosing_triangle {g : Grid 3 ℝ} (hg : Proper g) (hf : Fits g.n) {t : Fin 3 → Fin 3 → ℝ}
    (ht : ∀ i, InGrid g.anchor g.size (t i)) :
    (∃ cell ∈ g.cellsEnclosing (t 0) [t 1, t 2], TriMeets t (gridBox g cell)) ∧
    ∀ i, 0 ≤ i → i < g.numberOfCells → TriMeets t (gridBox g i) → i ∈ g.cellsEnclosing (t 0) [t 1, t 2] := by
  have hd : IsDim 3 := by simp [IsDim]
  have hp : ∀ p ∈ t 0 :: [t 1, t 2], InGrid g.anchor g.size p := by
    intro p hp
    simp only [List.mem_cons, List.not_mem_nil, or_false] at hp
    rcases hp with rfl | rfl | rfl <;> exact ht _
  have h30 := (C30_partial hd g hg hf (t 0) [t 1, t 2] hp).2.2
  constructor
  · obtain ⟨c, hc, _, _, hcp, _⟩ := C28_partial hd g hg hf (t 0) (ht 0)
    refine ⟨g.cellIndexAt c, h30 c hc ⟨t 0, hcp, inBoundingBox_triangle (inTriangle_corner t)⟩, t 0, inTriangle_corner t, ?_⟩
    rw [inCellBox_gridBox, (C24_coordinates hd g hf c hc).2.2]
    exact hcp
  · rintro i h0 h1 ⟨x, hx, hb⟩
    obtain ⟨hc, e⟩ := C24_index hd g hf i h0 h1
    rw [← e]
    exact h30 _ hc ⟨x, (inCellBox_gridBox g i x).mp hb, inBoundingBox_triangle hx⟩

/-! ### First pass -/

theorem gridBox_size {g : Grid 3 ℝ} (hg : Proper g) (i : ℤ) (a : Fin 3) : 0 < (gridBox g i).size a := hg.H_pos a

theorem add_triangles (s : SurfaceTags) (cell : ℤ) (k : ℕ) (i : ℤ) (m : ℕ) :
    m ∈ (s.add cell k).triangles i ↔ m ∈ s.triangles i ∨ (m = k ∧ i = cell) := by
  by_cases h : i = cell
  · subst h; simp [SurfaceTags.add]
  · simp [SurfaceTags.add, Function.update_of_ne h, h]

theorem add_types (s : SurfaceTags) (cell : ℤ) (k : ℕ) (i : ℤ) :
    (s.add cell k).types i = if i = cell then .boundary else s.types i := by
  by_cases h : i = cell
  · subst h; simp [SurfaceTags.add]
  · simp [SurfaceTags.add, Function.update_of_ne h, h]

theorem tagCell_fold {g : Grid 3 ℝ} (hg : Proper g) (t : Fin 3 → Fin 3 → ℝ) (k : ℕ) (l : List ℤ) : ∀ s : SurfaceTags,
    (∀ i m, m ∈ (l.foldl (tagCell g t k) s).triangles i ↔ m ∈ s.triangles i ∨ (m = k ∧ i ∈ l ∧ TriMeets t (gridBox g i))) ∧
    (∀ i, (l.foldl (tagCell g t k) s).types i =
      open Classical in if i ∈ l ∧ TriMeets t (gridBox g i) then .boundary else s.types i) ∧
    (l.foldl (tagCell g t k) s).outside = s.outside := by
  classical
  induction l with
  | nil => simp
  | cons a l ih =>
    intro s
    rw [List.foldl_cons]
    obtain ⟨h1, h2, h3⟩ := ih (tagCell g t k s a)
    by_cases ha : TriMeets t (gridBox g a)
    · have e : tagCell g t k s a = s.add a k := if_pos ((hexa_intersects _ (gridBox_size hg a) t).mpr ha)
      refine ⟨fun i m => ?_, fun i => ?_, ?_⟩
      · rw [h1, e, add_triangles, List.mem_cons]
        constructor
        · rintro ((h | ⟨h, rfl⟩) | h)
          · exact .inl h
          · exact .inr ⟨h, .inl rfl, ha⟩
          · exact .inr ⟨h.1, .inr h.2.1, h.2.2⟩
        · rintro (h | ⟨h, rfl | h', hm⟩)
          · exact .inl (.inl h)
          · exact .inl (.inr ⟨h, rfl⟩)
          · exact .inr ⟨h, h', hm⟩
      · rw [h2, e, add_types]
        by_cases hi : i = a
        · subst hi; simp [ha]
        · simp [hi]
      · rw [h3, e]; rfl
    · have e : tagCell g t k s a = s := if_neg fun h => ha ((hexa_intersects _ (gridBox_size hg a) t).mp h)
      refine ⟨fun i m => ?_, fun i => ?_, ?_⟩
      · rw [h1, e, List.mem_cons]
        constructor
        · rintro (h | h)
          · exact .inl h
          · exact .inr ⟨h.1, .inr h.2.1, h.2.2⟩
        · rintro (h | ⟨h, rfl | h', hm⟩)
          · exact .inl h
          · exact absurd hm ha
          · exact .inr ⟨h, h', hm⟩
      · rw [h2, e]
        by_cases hi : i = a
        · subst hi; simp [ha]
        · simp [hi]
      · rw [h3, e]

theorem tagTriangles_cons {g : Grid 3 ℝ} (hg : Proper g) (hf : Fits g.n) (S : SurfaceMesh) (t : Fin 3 → ℕ) (L : List (Fin 3 → ℕ))
    (ht : ∀ i, t i < S.positions.length) (hp : ∀ i, InGrid g.anchor g.size (S.corners t i)) (k : ℕ) (s : SurfaceTags) :
    ∃ s', tagTriangles g S (t :: L) k s = tagTriangles g S L (k + 1) s' ∧ s'.outside = s.outside ∧
      ∀ i, 0 ≤ i → i < g.numberOfCells →
        (∀ m, m ∈ s'.triangles i ↔ m ∈ s.triangles i ∨ (m = k ∧ TriMeets (S.corners t) (gridBox g i))) ∧
        (s'.types i = open Classical in if TriMeets (S.corners t) (gridBox g i) then .boundary else s.types i) := by
  classical
  obtain ⟨⟨cell, hcell, hmeet⟩, hall⟩ := enclosing_triangle hg hf hp
  have c1 : ((List.finRange 3).any fun i => decide (t i ≥ S.positions.length)) = false := by
    rw [List.any_eq_false]
    intro i _
    simpa using ht i
  have c2 : ((List.finRange 3).any fun i => !g.contains (S.corners t i) (gridEps ℝ)) = false := by
    rw [List.any_eq_false]
    intro i _
    simp [contains_of_inGrid hg (hp i)]
  rw [tagTriangles]
  simp only [c1, c2, Bool.false_eq_true, if_false]
  have single : ∀ x, g.cellsEnclosing (S.corners t 0) [S.corners t 1, S.corners t 2] = [x] →
      ∀ i, 0 ≤ i → i < g.numberOfCells → (i = x ↔ TriMeets (S.corners t) (gridBox g i)) := by
    intro x hx i h0 h1
    rw [hx] at hcell hall
    constructor
    · rintro rfl
      rw [← List.mem_singleton.mp hcell]; exact hmeet
    · exact fun hm => List.mem_singleton.mp (hall i h0 h1 hm)
  split
  · rename_i h
    rw [h] at hcell
    exact absurd hcell (by simp)
  · rename_i x h
    refine ⟨_, rfl, rfl, fun i h0 h1 => ⟨fun m => ?_, ?_⟩⟩
    · rw [add_triangles, single x h i h0 h1]
    · rw [add_types]; simp only [single x h i h0 h1]
  · obtain ⟨f1, f2, f3⟩ := tagCell_fold hg (S.corners t) k (g.cellsEnclosing (S.corners t 0) [S.corners t 1, S.corners t 2]) s
    refine ⟨_, rfl, f3, fun i h0 h1 => ⟨fun m => ?_, ?_⟩⟩
    · rw [f1]
      exact or_congr_right (and_congr_right fun _ => ⟨fun h => h.2, fun h => ⟨hall i h0 h1 h, h⟩⟩)
    · rw [f2]
      refine if_congr ⟨fun h => h.2, fun h => ⟨hall i h0 h1 h, h⟩⟩ rfl rfl

theorem tagTriangles_spec {g : Grid 3 ℝ} (hg : Proper g) (hf : Fits g.n) (S : SurfaceMesh) (L : List (Fin 3 → ℕ))
    (ht : ∀ t ∈ L, ∀ i, t i < S.positions.length) (hp : ∀ t ∈ L, ∀ i, InGrid g.anchor g.size (S.corners t i)) :
    ∀ (k : ℕ) (s : SurfaceTags), (tagTriangles g S L k s).2 = true ∧ (tagTriangles g S L k s).1.outside = s.outside ∧
      ∀ i, 0 ≤ i → i < g.numberOfCells →
        (∀ m, m ∈ (tagTriangles g S L k s).1.triangles i ↔
          m ∈ s.triangles i ∨ ∃ j t, L[j]? = some t ∧ m = k + j ∧ TriMeets (S.corners t) (gridBox g i)) ∧
        ((tagTriangles g S L k s).1.types i =
          open Classical in if ∃ t ∈ L, TriMeets (S.corners t) (gridBox g i) then .boundary else s.types i) := by
  classical
  induction L with
  | nil => simp [tagTriangles]
  | cons t L ih =>
    intro k s
    obtain ⟨s', e, ho, hs⟩ := tagTriangles_cons hg hf S t L (ht t (by simp)) (hp t (by simp)) k s
    obtain ⟨g1, g2, g3⟩ := ih (fun t h => ht t (by simp [h])) (fun t h => hp t (by simp [h])) (k + 1) s'
    rw [e]
    refine ⟨g1, g2.trans ho, fun i h0 h1 => ⟨fun m => ?_, ?_⟩⟩
    · rw [(g3 i h0 h1).1, (hs i h0 h1).1]
      constructor
      · rintro ((h | ⟨h, hm⟩) | ⟨j, t', hj, hk, hm⟩)
        · exact .inl h
        · exact .inr ⟨0, t, by simp, by omega, hm⟩
        · exact .inr ⟨j + 1, t', by simpa using hj, by omega, hm⟩
      · rintro (h | ⟨j, t', hj, hk, hm⟩)
        · exact .inl (.inl h)
        · cases j with
          | zero =>
            have : t = t' := by simpa using hj
            subst this
            exact .inl (.inr ⟨by omega, hm⟩)
          | succ j => exact .inr ⟨j, t', by simpa using hj, by omega, hm⟩
    · rw [(g3 i h0 h1).2, (hs i h0 h1).2]
      by_cases h : TriMeets (S.corners t) (gridBox g i)
      · simp [h]
      · simp [h]

/-! ### Leaves after the subdivision -/

theorem boxBelow_size (e : Box 3 ℝ) (he : ∀ a, 0 < e.size a) (p : List (Fin (2 ^ 3))) (a : Fin 3) : 0 < (boxBelow e p).size a := by
  induction p generalizing e with
  | nil => exact he a
  | cons i p ih => exact ih _ fun a => half_pos (he a)

theorem boxBelow_in (e : Box 3 ℝ) (he : ∀ a, 0 < e.size a) (p : List (Fin (2 ^ 3))) (x : Fin 3 → ℝ) (hx : InCellBox (boxBelow e p) x) :
    InCellBox e x := fun a => by
  have := boxBelow_subset (Or.inr rfl) e (fun a => (he a).le) p a
  exact ⟨this.1.trans (hx a).1, (hx a).2.trans this.2⟩

theorem meets_iff (S : SurfaceMesh) (b : Box 3 ℝ) :
    Meets (surfaceOf (S.triangles.map S.corners)) b ↔ ∃ t ∈ S.triangles, TriMeets (S.corners t) b := by
  constructor
  · rintro ⟨x, ⟨t', ht', hx⟩, hb⟩
    obtain ⟨t, ht, rfl⟩ := List.mem_map.mp ht'
    exact ⟨t, ht, x, hx, hb⟩
  · rintro ⟨t, ht, x, hx, hb⟩
    exact ⟨x, ⟨_, List.mem_map_of_mem ht, hx⟩, hb⟩

theorem classifySurface_spec {g : Grid 3 ℝ} (hg : Proper g) (hf : Fits g.n) (S : SurfaceMesh)
    (ht : ∀ t ∈ S.triangles, ∀ i, t i < S.positions.length)
    (hp : ∀ t ∈ S.triangles, ∀ i, InGrid g.anchor g.size (S.corners t i)) (i : ℤ) (h0 : 0 ≤ i) (h1 : i < g.numberOfCells)
    (p : List (Fin (2 ^ 3))) :
    classifySurface S ((tagIntersectedCells g S).1.triangles i) (boxBelow (gridBox g i) p) =
      open Classical in if Meets (surfaceOf (S.triangles.map S.corners)) (boxBelow (gridBox g i) p) then (.boundary, true) else (.undef, false) := by
  classical
  have hmem := ((tagTriangles_spec hg hf S S.triangles ht hp 0 ⟨fun _ => .undef, fun _ => [], []⟩).2.2 i h0 h1).1
  unfold classifySurface
  refine if_congr ?_ rfl rfl
  rw [List.any_eq_true, meets_iff]
  constructor
  · rintro ⟨m, hm, hi⟩
    rw [tagIntersectedCells, hmem] at hm
    rcases hm with hm | ⟨j, t, hj, rfl, _⟩
    · simp at hm
    · have e : S.triangles.getD (0 + j) 0 = t := by simp [List.getD_eq_getElem?_getD, hj]
      rw [e, hexa_intersects _ (boxBelow_size _ (gridBox_size hg i) p)] at hi
      exact ⟨t, List.mem_of_getElem? hj, hi⟩
  · rintro ⟨t, htm, x, hx, hb⟩
    obtain ⟨j, hj⟩ := List.getElem?_of_mem htm
    refine ⟨j, ?_, ?_⟩
    · rw [tagIntersectedCells, hmem]
      exact .inr ⟨j, t, hj, by omega, x, hx, boxBelow_in _ (gridBox_size hg i) p x hb⟩
    · have e : S.triangles.getD j 0 = t := by simp [List.getD_eq_getElem?_getD, hj]
      rw [e, hexa_intersects _ (boxBelow_size _ (gridBox_size hg i) p)]
      exact ⟨x, hx, hb⟩

/-! ### Types written in the leaves -/

section Retype

variable {D : ℕ} {K : Type*}

theorem retype_leaf (type : List (Fin (2 ^ D)) → CellType) (t : CellTree D (CellData K)) (acc p : List (Fin (2 ^ D))) (d' : CellData K) :
    LeafAt (t.retype type acc) p d' ↔ ∃ d, LeafAt t p d ∧ d' = { d with type := type (p.reverse ++ acc) } := by
  induction t generalizing acc p with
  | leaf d =>
    rw [CellTree.retype, leafAt_leaf]
    constructor
    · rintro ⟨rfl, rfl⟩
      exact ⟨d, .here d, rfl⟩
    · rintro ⟨d0, h, rfl⟩
      obtain ⟨rfl, rfl⟩ := leafAt_leaf.mp h
      exact ⟨rfl, rfl⟩
  | node ch ih =>
    rw [CellTree.retype, leafAt_node]
    constructor
    · rintro ⟨i, q, rfl, h⟩
      obtain ⟨d, hd, rfl⟩ := (ih i _ _).mp h
      exact ⟨d, .child ch i q d hd, by simp⟩
    · rintro ⟨d, h, rfl⟩
      obtain ⟨i, q, rfl, hq⟩ := leafAt_node.mp h
      exact ⟨i, q, rfl, (ih i _ _).mpr ⟨d, hq, by simp⟩⟩

theorem retype_find (type : List (Fin (2 ^ D)) → CellType) (t : CellTree D (CellData K)) (p : List (Fin (2 ^ D))) :
    (t.retype type []).find p = (t.find p).map fun s => s.retype type p := by
  induction p with
  | nil => rfl
  | cons i p ih =>
    rw [CellTree.find, CellTree.find, ih]
    rcases t.find p with _ | (d | ch)
    · rfl
    · rfl
    · rfl

variable [Field K]

theorem retype_isLeaf (type : ℤ → List (Fin (2 ^ D)) → CellType) (cells : ℤ → CellTree D (CellData K)) :
    isLeafRef (fun i => (cells i).retype (type i) []) = isLeafRef cells := by
  funext c
  simp only [isLeafRef, retype_find]
  rcases (cells c.top).find c.path with _ | (d | ch) <;> rfl

theorem retype_weight (type : ℤ → List (Fin (2 ^ D)) → CellType) (cells : ℤ → CellTree D (CellData K)) :
    leafWeight (fun i => (cells i).retype (type i) []) = leafWeight cells := by
  funext c
  simp only [leafWeight, retype_find]
  rcases (cells c.top).find c.path with _ | (d | ch) <;> rfl

theorem tagRegions_cells (g : Grid D K) (s : Tagging (CellRef D)) :
    ((tagRegions g s).regions.map fun r => r.cells) = s.regions.map fun r => r.cells := by
  rw [tagRegions, tagInside, (tagInside_spec _ _).1, tagOutside, (tagOutside_spec _ _ _).1]
  simp only [List.nil_append, List.map_map]
  refine List.map_congr_left fun r _ => ?_
  simp only [Function.comp]
  split_ifs <;> rfl

theorem validate_retype [LinearOrder K] (type : ℤ → List (Fin (2 ^ D)) → CellType) (cells : ℤ → CellTree D (CellData K)) (g : Grid D K)
    (s : Tagging (CellRef D)) :
    validateGrid g (fun i => (cells i).retype (type i) []) (tagRegions g s).regions = validateGrid g cells s.regions := by
  unfold validateGrid
  rw [retype_isLeaf, retype_weight]
  have : (tagRegions g s).regions.flatMap (fun r => r.cells) = s.regions.flatMap fun r => r.cells := by
    rw [List.flatMap_def, tagRegions_cells, ← List.flatMap_def]
  rw [this]

end Retype

end Caribou
