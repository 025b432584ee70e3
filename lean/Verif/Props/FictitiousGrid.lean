import Verif.Lemmas.FictitiousLeaves
import Verif.Lemmas.Regions

/-!
# Properties C60 – C63: subdivision, neighbours, regions and types of the cells of a fictitious grid

Sizes, positions and weights are elements of an ordered field.  All theorems are for two and three dimensions (`Is23`), for
grids whose number of nodes fits in a signed 64-bit integer (`Fits`) and, when coordinates are converted to `int`, with less
than `2^31` cells per axis.
-/

set_option autoImplicit false

namespace Caribou

open Spec FictitiousGrid

variable {D : ℕ} {K : Type*} [Field K] [LinearOrder K] [IsStrictOrderedRing K]

/-! ### C60 -/

/-- **C60 (weights).** Whatever the test deciding which cells are subdivided and the maximum depth, the weights of the leaves
below a grid cell add up to 1. -/
theorem C60_weights (classify : Box D K → CellType × Bool) (n : ℕ) (e : Box D K) :
    ((subdivide classify n e 1).leafCells.map fun x => x.2.weight).sum = 1 := leafCells_weight classify n e 1

/-- **C60 (weights are volumes).** `get_leaf_cells` enumerates the leaves (each one once), the weight of a leaf is the ratio
of the volume of its box to the volume of the grid cell, and its type is the result of the test on this box. -/
theorem C60_leaves (classify : Box D K → CellType × Bool) (n : ℕ) (e : Box D K) :
    ((subdivide classify n e 1).leafCells.map Prod.fst).Nodup ∧
    (∀ p d, (p, d) ∈ (subdivide classify n e 1).leafCells ↔ LeafAt (subdivide classify n e 1) p.reverse d) ∧
    ∀ p d, LeafAt (subdivide classify n e 1) p d →
      boxVolume (boxBelow e p) = d.weight * boxVolume e ∧ d.type = (classify (boxBelow e p)).1 ∧ p.length ≤ n := by
  refine ⟨leafCells_nodup _, fun p d => mem_leafCells _ p d, fun p d h => ?_⟩
  obtain ⟨h1, h2, h3, _⟩ := leaf_data classify n e 1 p d h
  exact ⟨by rw [boxBelow_volume, h1]; ring, h2, h3⟩

/-- **C60 (tiling).** The boxes of the leaves below a cell cover its box, stay in it, and have disjoint interiors. -/
theorem C60_tiling (h : Is23 D) {α : Type*} (t : CellTree D α) (e : Box D K) (he : ∀ a, 0 ≤ e.size a) :
    (∀ x, InCellBox e x → ∃ p d, LeafAt t p d ∧ InCellBox (boxBelow e p) x) ∧
    (∀ p d, LeafAt t p d → ∀ x, InCellBox (boxBelow e p) x → InCellBox e x) ∧
    ∀ p q d d', LeafAt t p d → LeafAt t q d' → p ≠ q → ∀ x, InsideBox (boxBelow e p) x → ¬ InsideBox (boxBelow e q) x := by
  refine ⟨fun x hx => leaf_cover h t e x hx, fun p d _ x hx a => ?_,
    fun p q d d' hp hq hne x hx => leaf_disjoint h t e he p q d d' hp hq hne x hx⟩
  have := boxBelow_subset h e he p a
  exact ⟨this.1.trans (hx a).1, (hx a).2.trans this.2⟩

/-- The element of a cell of the grid is the one returned by `cell_at` in 3D. -/
theorem gridBox_cellAt3 (g : Grid 3 K) (i : ℤ) (ξ : Fin 3 → K) :
    (gridBox g i).world ξ = (g.cellAt3 (g.cellCoordinatesAt i)).worldCoordinates ξ := by
  funext a
  simp [gridBox, Box.world, Grid.cellAt3, RectHexa.worldCoordinates]

/-- The element of a cell of the grid is the one returned by `cell_at` in 2D. -/
theorem gridBox_cellAt2 (g : Grid 2 K) (i : ℤ) (ξ : Fin 2 → K) :
    (gridBox g i).world ξ = (g.cellAt2 (g.cellCoordinatesAt i)).T2 ξ := by
  funext a
  simp [gridBox, Box.world, Grid.cellAt2, RectQuad.T2]

/-! ### C61 -/

/-- **C61.** `get_neighbors(c, axis, direction)` returns exactly the leaf cells of the grid which have a portion of the face
of `c` on that side in common with it, whatever their levels. -/
theorem C61 (h : Is23 D) {α : Type*} (g : Grid D K) (hf : Fits g.n) (hn : ∀ a, (g.n a : ℤ) < 2 ^ 31) (hH : ∀ a, 0 < g.H a)
    (cells : ℤ → CellTree D α) (c : CellRef D) (d : α) (hc : IsLeaf g cells c d) (axis : Fin D) (direction : ℤ)
    (hd : direction = 1 ∨ direction = -1) (c' : CellRef D) :
    c' ∈ getNeighbors g cells c axis direction ↔
      (∃ d', IsLeaf g cells c' d') ∧ SharesFace (refBox g c.path c.top) (refBox g c'.path c'.top) axis direction := by
  rw [mem_getNeighbors h g hf hn cells c d hc axis hd, sharesFace_iff h g hH]

omit [IsStrictOrderedRing K] in
theorem sharesFace_symm {b b' : Box D K} {axis : Fin D} {direction : ℤ} (hd : direction = 1 ∨ direction = -1)
    (h : SharesFace b b' axis direction) : SharesFace b' b axis (-direction) := by
  obtain ⟨h1, h2⟩ := h
  refine ⟨?_, fun a ha => ⟨(h2 a ha).2, (h2 a ha).1⟩⟩
  rcases hd with rfl | rfl
  · rw [if_pos rfl] at h1; rw [if_neg (by norm_num)]; exact h1.symm
  · rw [if_neg (by norm_num)] at h1; rw [if_pos (by norm_num)]; exact h1.symm

/-- **C61 (symmetry).** `c'` is a neighbour of `c` on one side exactly when `c` is a neighbour of `c'` on the other side. -/
theorem C61_symmetric (h : Is23 D) {α : Type*} (g : Grid D K) (hf : Fits g.n) (hn : ∀ a, (g.n a : ℤ) < 2 ^ 31)
    (hH : ∀ a, 0 < g.H a) (cells : ℤ → CellTree D α) (c c' : CellRef D) (d d' : α) (hc : IsLeaf g cells c d)
    (hc' : IsLeaf g cells c' d') (axis : Fin D) (direction : ℤ) (hd : direction = 1 ∨ direction = -1) :
    c' ∈ getNeighbors g cells c axis direction ↔ c ∈ getNeighbors g cells c' axis (-direction) := by
  have hd' : -direction = 1 ∨ -direction = -1 := by omega
  rw [C61 h g hf hn hH cells c d hc axis direction hd, C61 h g hf hn hH cells c' d' hc' axis (-direction) hd']
  constructor
  · rintro ⟨_, hs⟩; exact ⟨⟨d, hc⟩, sharesFace_symm hd hs⟩
  · rintro ⟨_, hs⟩; exact ⟨⟨d', hc'⟩, by simpa using sharesFace_symm hd' hs⟩

/-- **C61 (all sides).** `get_neighbors(c)` returns exactly the leaf cells which have a portion of a face of `c` in common with
it. -/
theorem C61_all (h : Is23 D) {α : Type*} (g : Grid D K) (hf : Fits g.n) (hn : ∀ a, (g.n a : ℤ) < 2 ^ 31)
    (hH : ∀ a, 0 < g.H a) (cells : ℤ → CellTree D α) (c : CellRef D) (d : α) (hc : IsLeaf g cells c d) (c' : CellRef D) :
    c' ∈ getAllNeighbors g cells c ↔ (∃ d', IsLeaf g cells c' d') ∧
      ∃ axis direction, (direction = 1 ∨ direction = -1) ∧
        SharesFace (refBox g c.path c.top) (refBox g c'.path c'.top) axis direction := by
  simp only [getAllNeighbors, List.mem_flatMap, List.mem_finRange, true_and]
  constructor
  · rintro ⟨axis, direction, hd, hm⟩
    have hd' : direction = 1 ∨ direction = -1 := by simpa [or_comm] using hd
    obtain ⟨h1, h2⟩ := (C61 h g hf hn hH cells c d hc axis direction hd' c').1 hm
    exact ⟨h1, axis, direction, hd', h2⟩
  · rintro ⟨h1, axis, direction, hd, h2⟩
    exact ⟨axis, direction, by simpa [or_comm] using hd, (C61 h g hf hn hH cells c d hc axis direction hd c').2 ⟨h1, h2⟩⟩

/-! ### C62 -/

/-- **C62.** For every finite list of cells, every type and every symmetric neighbour function which stays in the list, the
clustering terminates without exception (no more iterations of its inner loop than there are cells), two cells get the same
region exactly when a chain of neighbours of the same type joins them, the regions list their cells without repetition and
have their type, and a cell is marked as boundary of its region exactly when a side has no neighbour or one of another type. -/
theorem C62 {C S : Type*} [DecidableEq C] (type : C → CellType) (neighbors : C → S → List C) (sides : List S) (leaves : List C)
    (hclosed : ∀ x ∈ leaves, ∀ y, Adjacent neighbors sides x y → y ∈ leaves)
    (hsymm : ∀ x ∈ leaves, ∀ y, Adjacent neighbors sides x y → Adjacent neighbors sides y x)
    (fuel : ℕ) (hfuel : leaves.length ≤ fuel) :
    ∃ s, createRegions type neighbors sides fuel leaves = .ok s ∧
      (∀ x ∈ leaves, ∀ y ∈ leaves, s.regionId x = s.regionId y ↔ Connected type neighbors sides x y) ∧
      (∀ x ∈ leaves, 0 ≤ s.regionId x ∧ s.regionId x < s.regions.length) ∧
      (∀ (i : ℕ) (R : Region C), s.regions[i]? = some R → R.cells.Nodup ∧ R.cells ≠ [] ∧
        (∀ x, x ∈ R.cells ↔ x ∈ leaves ∧ s.regionId x = i) ∧ ∀ x ∈ R.cells, type x = R.type) ∧
      ∀ x ∈ leaves, (s.boundary x = true ↔ OnRegionBoundary type neighbors sides x) := by
  obtain ⟨s, e, o, n⟩ := createRegions_spec (type := type) ⟨hclosed, hsymm⟩ hfuel
  refine ⟨s, e, fun x hx y hy => ⟨fun he => o.comp x y (n x hx) he, fun hc => ?_⟩, fun x hx => ?_, fun i R hR => ?_,
    fun x hx => o.bd x (n x hx)⟩
  · clear hy
    induction hc with
    | refl => rfl
    | tail h1 h2 ih =>
      rw [ih]
      exact (o.sat _ _ (n _ (connected_leaf ⟨hclosed, hsymm⟩ hx h1)) h2).symm
  · rcases o.ids x with h | h
    · exact absurd h (n x hx)
    · exact h
  · obtain ⟨h1, h2, h3, h4⟩ := o.regs i R hR
    refine ⟨h1, h2, fun x => ?_, h4⟩
    rw [h3]
    exact ⟨fun he => ⟨o.leaf x (by omega), he⟩, fun he => he.2⟩

/-- Leaves of the grid are the cells of the queue, each one once. -/
theorem mem_allLeaves {α : Type*} (g : Grid D K) (cells : ℤ → CellTree D α) (N : ℕ) (hN : (N : ℤ) = ∏ a, (g.n a : ℤ))
    (c : CellRef D) : c ∈ allLeaves cells N ↔ ∃ d, IsLeaf g cells c d := by
  simp only [allLeaves, List.mem_flatMap, List.mem_range, List.mem_map, Prod.exists, IsLeaf, ← hN]
  constructor
  · rintro ⟨i, hi, p, d, hp, rfl⟩
    exact ⟨d, by positivity, by show (i : ℤ) < N; exact_mod_cast hi, (mem_leafCells _ p d).mp hp⟩
  · rintro ⟨d, h0, h1, hl⟩
    refine ⟨c.top.toNat, by omega, c.path, d, ?_, ?_⟩
    · rw [Int.toNat_of_nonneg h0]; exact (mem_leafCells _ _ _).mpr hl
    · rw [Int.toNat_of_nonneg h0]

theorem allLeaves_nodup {α : Type*} (cells : ℤ → CellTree D α) (N : ℕ) : (allLeaves cells N).Nodup := by
  rw [allLeaves, List.nodup_flatMap]
  refine ⟨fun i _ => ?_, ?_⟩
  · have := leafCells_nodup (cells i)
    have e : ((cells i).leafCells.map fun x => (⟨x.1, (i : ℤ)⟩ : CellRef D))
        = ((cells i).leafCells.map Prod.fst).map fun p => (⟨p, (i : ℤ)⟩ : CellRef D) := by rw [List.map_map]; rfl
    rw [e]
    exact this.map fun p q h => by cases h; rfl
  · refine (List.nodup_range (n := N)).imp fun {i j} hij => ?_
    refine List.disjoint_left.mpr fun x hx hy => hij ?_
    simp only [List.mem_map] at hx hy
    obtain ⟨u, _, rfl⟩ := hx
    obtain ⟨v, _, hv⟩ := hy
    have := congrArg CellRef.top hv
    simp only at this
    omega

theorem mem_sides {x : Fin D × ℤ} : x ∈ sides D ↔ x.2 = 1 ∨ x.2 = -1 := by
  simp only [sides, List.mem_flatMap, List.mem_finRange, true_and, List.mem_cons, List.not_mem_nil, or_false]
  constructor
  · rintro ⟨a, rfl | rfl⟩ <;> simp
  · rintro (h | h)
    · exact ⟨x.1, .inr (Prod.ext rfl h)⟩
    · exact ⟨x.1, .inl (Prod.ext rfl h)⟩

/-- The neighbour function given to the clustering. -/
abbrev gridNeighbors {α : Type*} (g : Grid D K) (cells : ℤ → CellTree D α) (c : CellRef D) (s : Fin D × ℤ) : List (CellRef D) :=
  getNeighbors g cells c s.1 s.2

/-- **C62 (grid).** The neighbours of the fictitious grid satisfy the hypotheses of C62: on every grid the clustering of the
code terminates with the connected components. -/
theorem C62_grid (h : Is23 D) {α : Type*} (g : Grid D K) (hf : Fits g.n) (hn : ∀ a, (g.n a : ℤ) < 2 ^ 31) (hH : ∀ a, 0 < g.H a)
    (cells : ℤ → CellTree D α) (N : ℕ) (hN : (N : ℤ) = g.numberOfCells) :
    (∀ x ∈ allLeaves cells N, ∀ y, Adjacent (gridNeighbors g cells) (sides D) x y → y ∈ allLeaves cells N) ∧
    ∀ x ∈ allLeaves cells N, ∀ y, Adjacent (gridNeighbors g cells) (sides D) x y → Adjacent (gridNeighbors g cells) (sides D) y x := by
  have hN' : (N : ℤ) = ∏ a, (g.n a : ℤ) := by rw [hN, C24_count g hf]
  constructor
  · rintro x hx y ⟨s, hs, hy⟩
    rw [mem_allLeaves g cells N hN'] at hx ⊢
    obtain ⟨d, hd⟩ := hx
    exact ((C61 h g hf hn hH cells x d hd s.1 s.2 (mem_sides.mp hs) y).mp hy).1
  · rintro x hx y ⟨s, hs, hy⟩
    obtain ⟨d, hd⟩ := (mem_allLeaves g cells N hN' x).mp hx
    have hs' := mem_sides.mp hs
    obtain ⟨d', hd'⟩ := ((C61 h g hf hn hH cells x d hd s.1 s.2 hs' y).mp hy).1
    refine ⟨(s.1, -s.2), mem_sides.mpr (by simp only; omega), ?_⟩
    exact (C61_symmetric h g hf hn hH cells x y d d' hd hd' s.1 s.2 hs').mp hy

/-! ### C60, validation -/

theorem flatMap_regions_perm {C S : Type*} [DecidableEq C] {type : C → CellType} {neighbors : C → S → List C} {sides : List S}
    {leaves : List C} {s : Clustering C} (o : Outer (type := type) (nb := neighbors) (sides := sides) (leaves := leaves) s)
    (n : ∀ x ∈ leaves, s.regionId x ≠ -1) (hl : leaves.Nodup) : (s.regions.flatMap fun r => r.cells).Perm leaves := by
  have hnd : (s.regions.flatMap fun r => r.cells).Nodup := by
    rw [List.nodup_flatMap]
    constructor
    · intro R hR
      obtain ⟨i, hi⟩ := List.getElem?_of_mem hR
      exact (o.regs i R hi).1
    · rw [List.pairwise_iff_getElem]
      intro i j hi hj hij
      refine List.disjoint_left.mpr fun x hx hy => ?_
      have h1 := ((o.regs i _ (List.getElem?_eq_getElem hi)).2.2.1 x).mp hx
      have h2 := ((o.regs j _ (List.getElem?_eq_getElem hj)).2.2.1 x).mp hy
      omega
  refine (List.perm_ext_iff_of_nodup hnd hl).mpr fun x => ?_
  rw [List.mem_flatMap]
  constructor
  · rintro ⟨R, hR, hx⟩
    obtain ⟨i, hi⟩ := List.getElem?_of_mem hR
    have := ((o.regs i R hi).2.2.1 x).mp hx
    exact o.leaf x (by omega)
  · intro hx
    have h0 := o.ids x
    have hlt : (s.regionId x).toNat < s.regions.length := by
      rcases h0 with h | h
      · exact absurd h (n x hx)
      · omega
    refine ⟨s.regions[(s.regionId x).toNat], List.getElem_mem hlt, ?_⟩
    refine ((o.regs _ _ (List.getElem?_eq_getElem hlt)).2.2.1 x).mpr ?_
    rcases h0 with h | h
    · exact absurd h (n x hx)
    · omega

theorem find_of_leaf {α : Type*} {t : CellTree D α} {p : List (Fin (2 ^ D))} {d : α} (hl : LeafAt t p.reverse d) :
    t.find p = some (.leaf d) := by
  obtain ⟨s, h1, h2⟩ := leaf_find (up := p) (e := []) (by simpa using hl)
  rw [h1, leafAt_nil h2]

/-- **C60 (validation).** On the regions computed from the subdivided cells, whatever the types found for them, `validate_grid`
throws no exception. -/
theorem C60_validate (h : Is23 D) (g : Grid D K) (hf : Fits g.n) (hn : ∀ a, (g.n a : ℤ) < 2 ^ 31) (hn0 : ∀ a, 0 < g.n a)
    (hs : ∀ a, 0 < g.size a) (classify : ℤ → Box D K → CellType × Bool) (n : ℕ) (type : CellRef D → CellType) (N : ℕ)
    (hN : (N : ℤ) = g.numberOfCells) (s : Clustering (CellRef D)) :
    let cells := fun i => subdivide (classify i) n (gridBox g i) 1
    createRegions type (gridNeighbors g cells) (sides D) (allLeaves cells N).length (allLeaves cells N) = .ok s →
    validateGrid g cells s.regions = true := by
  intro cells hrun
  have hH : ∀ a, 0 < g.H a := fun a => div_pos (hs a) (by exact_mod_cast hn0 a)
  have hN' : (N : ℤ) = ∏ a, (g.n a : ℤ) := by rw [hN, C24_count g hf]
  obtain ⟨hcl, hsy⟩ := C62_grid h g hf hn hH cells N hN
  obtain ⟨s', e, o, hid⟩ := createRegions_spec (type := type) ⟨hcl, hsy⟩ le_rfl
  rw [hrun] at e
  cases e
  have hp := flatMap_regions_perm o hid (allLeaves_nodup cells N)
  unfold validateGrid
  simp only [Bool.and_eq_true, List.all_eq_true, Bool.not_eq_true', decide_eq_false_iff_not, not_lt]
  constructor
  · intro c hc
    obtain ⟨d, hd⟩ := (mem_allLeaves g cells N hN' c).mp (hp.mem_iff.mp hc)
    rw [isLeafRef, find_of_leaf hd.2.2]
  · rw [← List.sum_eq_foldl, (hp.map _).sum_eq, List.sum_map_mul_right]
    have hsum : ((allLeaves cells N).map (leafWeight cells)).sum = N := by
      rw [allLeaves, List.map_flatMap, List.flatMap_def, List.sum_flatten, List.map_map]
      have : ∀ i ∈ List.range N, (List.sum ∘ fun a : ℕ => ((cells a).leafCells.map fun x => (⟨x.1, (a : ℤ)⟩ : CellRef D)).map (leafWeight cells)) i
          = (fun _ => (1 : K)) i := by
        intro i _
        simp only [Function.comp, List.map_map]
        rw [← C60_weights (classify i) n (gridBox g i)]
        refine congrArg List.sum (List.map_congr_left fun x hx => ?_)
        obtain ⟨p, d⟩ := x
        simp only [Function.comp, leafWeight]
        rw [find_of_leaf ((mem_leafCells _ p d).mp hx)]
      rw [List.map_congr_left this]
      simp
    rw [hsum]
    have hvol : (N : K) * ∏ a, g.H a = ∏ a, g.size a := by
      have : (N : K) = ∏ a, (g.n a : K) := by exact_mod_cast congrArg (Int.cast : ℤ → K) hN'
      rw [this, ← Finset.prod_mul_distrib]
      refine Finset.prod_congr rfl fun a _ => ?_
      rw [Grid.H]
      have : (g.n a : K) ≠ 0 := by exact_mod_cast (hn0 a).ne'
      field_simp
    rw [hvol, sub_self, abs_zero]
    have : 0 < ∏ a, g.size a := Finset.prod_pos fun a _ => hs a
    positivity

/-! ### Examples -/

/-- Two cells side by side, the right one subdivided once and its lower left child once more. -/
def exampleCells2 : ℤ → CellTree 2 Unit := fun i =>
  if i = 1 then .node fun j => if j = 0 then .node fun _ => .leaf () else .leaf () else .leaf ()

/-- The grid of the examples. -/
def exampleGrid2 : Grid 2 ℚ := ⟨![0, 0], ![2, 1], ![2, 1]⟩

/-- The hypotheses of C61 hold for the left cell; its three neighbours on the right are of two levels. -/
example : IsLeaf exampleGrid2 exampleCells2 ⟨[], 0⟩ () ∧ Fits exampleGrid2.n ∧ (∀ a, (exampleGrid2.n a : ℤ) < 2 ^ 31) ∧
    (∀ a, 0 < exampleGrid2.H a) ∧
    getNeighbors exampleGrid2 exampleCells2 ⟨[], 0⟩ 0 1 = [⟨[2], 1⟩, ⟨[2, 0], 1⟩, ⟨[0, 0], 1⟩] := by
  refine ⟨⟨by decide, by decide +kernel, ?_⟩, ?_, ?_, ?_, ?_⟩
  · exact .here ()
  · unfold Fits; decide +kernel
  · decide +kernel
  · decide +kernel
  · decide +kernel

/-- The neighbours of a small leaf: in its own parent, in the coarser cell on its left, and none outside of the grid. -/
example : getNeighbors exampleGrid2 exampleCells2 ⟨[1, 0], 1⟩ 0 1 = [⟨[1], 1⟩] ∧
    getNeighbors exampleGrid2 exampleCells2 ⟨[0, 0], 1⟩ 0 (-1) = [⟨[], 0⟩] ∧
    getNeighbors exampleGrid2 exampleCells2 ⟨[0, 0], 1⟩ 1 (-1) = [] := by decide +kernel

/-- A subdivision with leaves of several levels meets C60: weights 1/4 (three times) and 1/16 (four times). -/
example : ((subdivide (D := 2) (K := ℚ) (fun e => (.boundary, decide (e.center 0 < 3 / 4 ∧ e.center 1 < 3 / 4))) 2
    ⟨![1/2, 1/2], ![1, 1]⟩ 1).leafCells.map fun x => x.2.weight)
      = [1/4, 1/4, 1/4, 1/16, 1/16, 1/16, 1/16] := by decide +kernel

/-- A clustering with three regions on a line of four cells. -/
example : ∃ s, createRegions (fun i : Fin 4 => if i = 2 then .boundary else .undef)
    (fun i (s : Bool) => if s then (if h : i.val + 1 < 4 then [⟨i.val + 1, h⟩] else []) else
      (if i.val = 0 then [] else [⟨i.val - 1, by omega⟩])) [false, true] 4 [0, 1, 2, 3] = .ok s ∧
    s.regionId 0 = 0 ∧ s.regionId 1 = 0 ∧ s.regionId 2 = 1 ∧ s.regionId 3 = 2 ∧ s.boundary 0 = true ∧ s.boundary 1 = true := by
  refine ⟨_, rfl, ?_⟩
  decide +kernel

end Caribou
