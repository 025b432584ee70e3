import Verif.Props.FictitiousSurface

/-!
# Property C91, first pass: triangles out of the grid
-/

set_option autoImplicit false

namespace Caribou

open Spec FictitiousGrid

/-- **Spec.** A point out of the box of the grid by more than the tolerance `1e-19` times the size of the box. -/
def Spec.FarFrom (g : Grid 3 ℝ) (p : Fin 3 → ℝ) : Prop :=
  ∃ a, p a < g.anchor a - 1 / 10 ^ 19 * g.size a ∨ g.anchor a + g.size a + 1 / 10 ^ 19 * g.size a < p a

theorem contains_far {g : Grid 3 ℝ} (hg : Proper g) {p : Fin 3 → ℝ} (h : FarFrom g p) : g.contains p (gridEps ℝ) = false := by
  obtain ⟨a, h⟩ := h
  rw [Bool.eq_false_iff]
  intro hc
  simp only [Grid.contains, List.all_eq_true, List.mem_finRange, forall_true_left, Bool.not_eq_true', Bool.or_eq_false_iff,
    decide_eq_false_iff_not, not_lt, gt_iff_lt] at hc
  obtain ⟨h1, h2⟩ := hc a
  have hs := (hg a).2
  rw [le_div_iff₀ hs] at h1
  rw [div_le_iff₀ hs] at h2
  unfold gridEps at h1 h2
  rcases h with h | h <;> linarith

theorem far_not_inGrid {g : Grid 3 ℝ} (hg : Proper g) {p : Fin 3 → ℝ} (h : FarFrom g p) : ¬ InGrid g.anchor g.size p := by
  intro hin
  have := contains_of_inGrid hg hin
  rw [contains_far hg h] at this
  exact absurd this (by simp)

theorem tagTriangles_mixed {g : Grid 3 ℝ} (hg : Proper g) (hf : Fits g.n) (S : SurfaceMesh) (L : List (Fin 3 → ℕ))
    (ht : ∀ t ∈ L, ∀ i, t i < S.positions.length)
    (hp : ∀ t ∈ L, (∀ i, InGrid g.anchor g.size (S.corners t i)) ∨ ∃ i, FarFrom g (S.corners t i)) :
    ∀ (k : ℕ) (s : SurfaceTags), (tagTriangles g S L k s).2 = true ∧
      (∀ m, m ∈ (tagTriangles g S L k s).1.outside ↔
        m ∈ s.outside ∨ ∃ j t, L[j]? = some t ∧ m = k + j ∧ ∃ i, FarFrom g (S.corners t i)) ∧
      ∀ i, 0 ≤ i → i < g.numberOfCells →
        ((tagTriangles g S L k s).1.types i =
          open Classical in if ∃ t ∈ L, (∀ i, InGrid g.anchor g.size (S.corners t i)) ∧ TriMeets (S.corners t) (gridBox g i)
            then .boundary else s.types i) := by
  classical
  induction L with
  | nil => simp [tagTriangles]
  | cons t L ih =>
    intro k s
    have split : ∀ (far : Prop), ((∃ i, FarFrom g (S.corners t i)) ↔ far) → ∀ m, (∃ j t', (t :: L)[j]? = some t' ∧ m = k + j ∧
        ∃ i, FarFrom g (S.corners t' i)) ↔ (m = k ∧ far) ∨ ∃ j t', L[j]? = some t' ∧ m = k + 1 + j ∧ ∃ i, FarFrom g (S.corners t' i) := by
      intro far hfar m
      constructor
      · rintro ⟨j, t', hj, hm, hi⟩
        cases j with
        | zero =>
          have : t = t' := by simpa using hj
          subst this
          exact .inl ⟨by omega, hfar.1 hi⟩
        | succ j => exact .inr ⟨j, t', by simpa using hj, by omega, hi⟩
      · rintro (⟨hm, hi⟩ | ⟨j, t', hj, hm, hi⟩)
        · exact ⟨0, t, by simp, by omega, hfar.2 hi⟩
        · exact ⟨j + 1, t', by simpa using hj, by omega, hi⟩
    rcases hp t (by simp) with hin | hfar
    · obtain ⟨s', e, ho, hs⟩ := tagTriangles_cons hg hf S t L (ht t (by simp)) hin k s
      obtain ⟨g1, g2, g3⟩ := ih (fun t h => ht t (by simp [h])) (fun t h => hp t (by simp [h])) (k + 1) s'
      rw [e]
      refine ⟨g1, fun m => ?_, fun i h0 h1 => ?_⟩
      · rw [g2, ho, split False ⟨fun ⟨i, hi⟩ => far_not_inGrid hg hi (hin i), False.elim⟩]
        simp
      · rw [g3 i h0 h1, (hs i h0 h1).2]
        by_cases h : TriMeets (S.corners t) (gridBox g i)
        · simp [h, hin]
        · simp [h]
    · have c1 : ((List.finRange 3).any fun i => decide (t i ≥ S.positions.length)) = false := by
        rw [List.any_eq_false]
        intro i _
        simpa using ht t (by simp) i
      have c2 : ((List.finRange 3).any fun i => !g.contains (S.corners t i) (gridEps ℝ)) = true := by
        rw [List.any_eq_true]
        obtain ⟨i, hi⟩ := hfar
        exact ⟨i, List.mem_finRange i, by simp [contains_far hg hi]⟩
      rw [tagTriangles]
      simp only [c1, c2, Bool.false_eq_true, if_false, if_true]
      obtain ⟨g1, g2, g3⟩ := ih (fun t h => ht t (by simp [h])) (fun t h => hp t (by simp [h])) (k + 1)
        { s with outside := s.outside ++ [k] }
      refine ⟨g1, fun m => ?_, fun i h0 h1 => ?_⟩
      · rw [g2, split True ⟨fun _ => trivial, fun _ => hfar⟩]
        rw [List.mem_append, List.mem_singleton, and_true, or_assoc]
      · rw [g3 i h0 h1]
        have hno : ¬ ∀ i, InGrid g.anchor g.size (S.corners t i) := by
          obtain ⟨i, hi⟩ := hfar
          exact fun h => far_not_inGrid hg hi (h i)
        simp [hno]

/-- **C91 (triangles out of the grid).** When some triangles have a corner out of the grid, the first pass reports exactly these, and it
tags `Boundary` exactly the cells which the other triangles meet. -/
theorem C91_outside {g : Grid 3 ℝ} (hg : Proper g) (hf : Fits g.n) (S : SurfaceMesh)
    (ht : ∀ t ∈ S.triangles, ∀ i, t i < S.positions.length)
    (hp : ∀ t ∈ S.triangles, (∀ i, InGrid g.anchor g.size (S.corners t i)) ∨ ∃ i, FarFrom g (S.corners t i)) :
    (tagIntersectedCells g S).2 = true ∧
    (∀ j, j ∈ (tagIntersectedCells g S).1.outside ↔ ∃ t, S.triangles[j]? = some t ∧ ∃ i, FarFrom g (S.corners t i)) ∧
    ∀ i, 0 ≤ i → i < g.numberOfCells →
      ((tagIntersectedCells g S).1.types i = .boundary ↔
        ∃ t ∈ S.triangles, (∀ i, InGrid g.anchor g.size (S.corners t i)) ∧
          ∃ x, InTriangle (S.corners t 0) (S.corners t 1) (S.corners t 2) x ∧ InCellBox (gridBox g i) x) := by
  classical
  obtain ⟨h1, h2, h3⟩ := tagTriangles_mixed hg hf S S.triangles ht hp 0 ⟨fun _ => .undef, fun _ => [], []⟩
  refine ⟨h1, fun j => ?_, fun i a b => ?_⟩
  · rw [tagIntersectedCells, h2]
    simp only [List.not_mem_nil, false_or, Nat.zero_add]
    exact ⟨fun ⟨j', t, hj, hm, hi⟩ => ⟨t, hm ▸ hj, hi⟩, fun ⟨t, hj, hi⟩ => ⟨j, t, hj, rfl, hi⟩⟩
  · rw [tagIntersectedCells, h3 i a b]
    split_ifs with hc
    · exact ⟨fun _ => hc, fun _ => rfl⟩
    · exact ⟨fun h => by simp at h, fun h => absurd h hc⟩

/-- **C91 (resolution and bounds given).** With resolution `n` and two opposite corners in any order, the grid has `n` nodes along each
axis, and its box goes from the smallest to the largest coordinates of the corners. -/
theorem C91_resolution (n : Fin 3 → ℕ) (first second : Fin 3 → ℝ) (hn : ∀ a, 1 ≤ n a) (hb : n 0 * n 1 * n 2 < 2 ^ 64) :
    let g := gridOfCorners n first second
    g.numberOfNodes = ((n 0 * n 1 * n 2 : ℕ) : ℤ) ∧
    ∀ a, g.anchor a = min (first a) (second a) ∧ g.anchor a + g.size a = max (first a) (second a) := by
  intro g
  constructor
  · have e : ∀ a, ((g.n a : ℕ) : ℤ) + 1 = n a := fun a => by
      show ((n a - 1 : ℕ) : ℤ) + 1 = n a
      have := hn a
      omega
    rw [Grid.numberOfNodes, Fin.prod_univ_three, e, e, e, toU64_id (by positivity) (by exact_mod_cast hb)]
    push_cast
    rfl
  · intro a
    refine ⟨rfl, ?_⟩
    show min (first a) (second a) + |first a - second a| = _
    rcases le_total (first a) (second a) with h | h
    · rw [min_eq_left h, max_eq_right h, abs_of_nonpos (by linarith)]; ring
    · rw [min_eq_right h, max_eq_left h, abs_of_nonneg (by linarith)]; ring

example : (gridOfCorners ![4, 4, 2] ![1, 0, 0] ![0, 1, 1]).numberOfNodes = 32 :=
  (C91_resolution ![4, 4, 2] ![1, 0, 0] ![0, 1, 1] (by decide) (by decide)).1

/-- The example surface with one more triangle, far from the grid. -/
example :
    let S : SurfaceMesh := ⟨exampleSurface.positions ++ [![10, 0, 0]], ![0, 1, 4] :: exampleSurface.triangles⟩
    0 ∈ (tagIntersectedCells exampleSurfaceGrid S).1.outside ∧ (tagIntersectedCells exampleSurfaceGrid S).2 = true ∧
    ¬ 1 ∈ (tagIntersectedCells exampleSurfaceGrid S).1.outside := by
  intro S
  have far : ∀ t : Fin 3 → ℕ, t 2 = 4 → FarFrom exampleSurfaceGrid (S.corners t 2) := by
    intro t h
    refine ⟨0, Or.inr ?_⟩
    norm_num [S, SurfaceMesh.corners, h, exampleSurface, exampleSurfaceGrid]
  have near : ∀ t : Fin 3 → ℕ, ∀ i, t i < 4 → InGrid exampleSurfaceGrid.anchor exampleSurfaceGrid.size (S.corners t i) := by
    intro t i h a
    have : t i = 0 ∨ t i = 1 ∨ t i = 2 ∨ t i = 3 := by omega
    rcases this with e | e | e | e <;> fin_cases a <;>
      norm_num [S, SurfaceMesh.corners, e, exampleSurface, exampleSurfaceGrid]
  have ht : ∀ t ∈ S.triangles, ∀ i, t i < S.positions.length := by decide
  have hn : ∀ t ∈ exampleSurface.triangles, ∀ i, t i < 4 := by decide
  have hp : ∀ t ∈ S.triangles, (∀ i, InGrid exampleSurfaceGrid.anchor exampleSurfaceGrid.size (S.corners t i)) ∨
      ∃ i, FarFrom exampleSurfaceGrid (S.corners t i) := by
    intro t h
    rcases List.mem_cons.1 h with rfl | h
    · exact .inr ⟨2, far _ rfl⟩
    · exact .inl fun i => near t i (hn t h i)
  obtain ⟨h1, h2, -⟩ := C91_outside exampleSurface_immersible.proper exampleSurface_immersible.fits S ht hp
  refine ⟨(h2 0).2 ⟨_, rfl, 2, far _ rfl⟩, h1, fun h => ?_⟩
  obtain ⟨t, hj, i, hi⟩ := (h2 1).1 h
  have : t = ![1, 2, 3] := (Option.some.inj hj).symm
  subst this
  exact far_not_inGrid exampleSurface_immersible.proper hi (near _ i (by fin_cases i <;> decide))

end Caribou
