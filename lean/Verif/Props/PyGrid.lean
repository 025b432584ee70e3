import Verif.Lemmas.PyGrid

/-!
# C115: regular grids used from Python

`g.pyCall geometry name args` is the call `grid.name(args)` in Python, where `geometry` tells whether the module `Caribou.Geometry` has been
imported; `g.pyCallAs geometry cls name args` is the call `cls.name(grid, args)` through one of the base classes.  The grid is any grid of
two or three dimensions whose nodes can be numbered with 64-bit integers (`Fits`), whatever its position and size unless said otherwise.
-/

set_option autoImplicit false

namespace Caribou

open Spec

variable {d : ℕ} {K : Type*} [Field K] [LinearOrder K] [FloorRing K]

/-- The grids of Python have two or three dimensions, `Python/Topology/Grid.cpp:85-89`. -/
def IsPyDim (d : ℕ) : Prop := d = 2 ∨ d = 3

theorem IsPyDim.isDim (hd : IsPyDim d) : IsDim d := Or.inr hd

/-- **C115 (nodes).** From Python, the nodes are numbered from zero to `number_of_nodes() - 1`: `node_coordinates_at` gives the coordinates
of a node, from which `node_index_at` gives its index back, and `node` is its position. -/
theorem C115_nodes (hd : IsPyDim d) (g : Grid d K) (hf : Fits g.n) (geo : Bool) :
    g.pyCall geo .numberOfNodes [] = .ok (.int (∏ a, ((g.n a : ℤ) + 1))) ∧
    (∀ i, 0 ≤ i → i < ∏ a, ((g.n a : ℤ) + 1) → ∃ c, IsNode g.n c ∧
      g.pyCall geo .nodeCoordinatesAt [.int i] = .ok (.coordinates c) ∧
      g.pyCall geo .nodeIndexAt [.ints (List.ofFn c)] = .ok (.int i) ∧
      g.pyCall geo .node [.int i] = .ok (.point (gridPoint g.anchor (fun a => g.size a / g.n a) fun a => (c a : K)))) ∧
    (∀ c, IsNode g.n c → ∃ i, 0 ≤ i ∧ i < ∏ a, ((g.n a : ℤ) + 1) ∧
      g.pyCall geo .nodeIndexAt [.ints (List.ofFn c)] = .ok (.int i) ∧
      g.pyCall geo .nodeCoordinatesAt [.int i] = .ok (.coordinates c)) := by
  have hcount := C23_count g hf
  have hle := numberOfNodes_le g hf
  refine ⟨by rw [← hcount]; exact (pyCall_counts g geo).2.1, fun i h0 h1 => ?_, fun c hc => ?_⟩
  · rw [← hcount] at h1
    obtain ⟨hn, hi⟩ := C23_index hd.isDim g hf i h0 h1
    obtain ⟨_, e1, e2, _⟩ := pyCall_index (g := g) (geo := geo) h0 (by omega)
    refine ⟨_, hn, e1, ?_, e2⟩
    rw [(pyCall_coordinates (node_fits g hf hn)).1, hi]
  · obtain ⟨h0, h1, h2⟩ := C23_coordinates hd.isDim g hf c hc
    refine ⟨_, h0, by rw [← hcount]; exact h1, (pyCall_coordinates (node_fits g hf hc)).1, ?_⟩
    rw [(pyCall_index (g := g) (geo := geo) h0 (by omega)).2.1, h2]

/-- **C115 (cells).** The cells are numbered in the same way, and `node_indices_of` gives the same nodes from the index of a cell and from
its coordinates: they are at the corners of the cell. -/
theorem C115_cells [CharZero K] (hd : IsPyDim d) (g : Grid d K) (hf : Fits g.n) (geo : Bool) :
    g.pyCall geo .numberOfCells [] = .ok (.int (∏ a, (g.n a : ℤ))) ∧
    (∀ i, 0 ≤ i → i < ∏ a, (g.n a : ℤ) → ∃ c l, IsCell g.n c ∧
      g.pyCall geo .cellCoordinatesAt [.int i] = .ok (.coordinates c) ∧
      g.pyCall geo .cellIndexAt [.ints (List.ofFn c)] = .ok (.int i) ∧
      g.pyCall geo .nodeIndicesOf [.int i] = .ok (.indices l) ∧
      g.pyCall geo .nodeIndicesOf [.ints (List.ofFn c)] = .ok (.indices l) ∧
      l.length = 2 ^ d ∧ l.Nodup ∧
      ∀ m ∈ l, ∃ e, (∀ a, e a = c a ∨ e a = c a + 1) ∧ g.pyCall geo .nodeCoordinatesAt [.int m] = .ok (.coordinates e)) ∧
    (∀ c, IsCell g.n c → ∃ i, 0 ≤ i ∧ i < ∏ a, (g.n a : ℤ) ∧
      g.pyCall geo .cellIndexAt [.ints (List.ofFn c)] = .ok (.int i) ∧
      g.pyCall geo .cellCoordinatesAt [.int i] = .ok (.coordinates c)) := by
  have hcount := C24_count g hf
  have hle := numberOfCells_le g hf
  have hnle := numberOfNodes_le g hf
  refine ⟨by rw [← hcount]; exact (pyCall_counts g geo).1, fun i h0 h1 => ?_, fun c hc => ?_⟩
  · rw [← hcount] at h1
    obtain ⟨hn, hi⟩ := C24_index hd.isDim g hf i h0 h1
    obtain ⟨e0, _, _, e3, _⟩ := pyCall_index (g := g) (geo := geo) h0 (by omega)
    obtain ⟨_, f1, f2, _⟩ := pyCall_coordinates (g := g) (geo := geo) (cell_fits g hf hn)
    refine ⟨_, _, hn, e0, by rw [f1, hi], e3, f2, ?_⟩
    rcases hd with rfl | rfl
    · obtain ⟨hb, hinj, _, _⟩ := C25_2d g hf i h0 h1
      refine ⟨by simp [Grid.nodeIndicesList], ?_, fun m hm => ?_⟩
      · exact List.nodup_ofFn.mpr hinj
      · obtain ⟨k, rfl⟩ := (List.mem_ofFn' _ _).mp hm
        have ho : ∀ i a, offset2 i a = 0 ∨ offset2 i a = 1 := by decide
        obtain ⟨c0, c1, c2⟩ := corner_node (Or.inr (Or.inl rfl)) g hf _ _ hn (ho k)
        rw [nodeIndicesOf2_eq]
        refine ⟨_, fun a => ?_, by rw [(pyCall_index (g := g) (geo := geo) c0 (by omega)).2.1, c2]⟩
        rcases ho k a with h | h <;> simp [h]
    · obtain ⟨hb, hinj, _, _⟩ := C25_3d g hf i h0 h1
      refine ⟨by simp [Grid.nodeIndicesList], ?_, fun m hm => ?_⟩
      · exact List.nodup_ofFn.mpr hinj
      · obtain ⟨k, rfl⟩ := (List.mem_ofFn' _ _).mp hm
        have ho : ∀ i a, offset3 i a = 0 ∨ offset3 i a = 1 := by decide
        obtain ⟨c0, c1, c2⟩ := corner_node (Or.inr (Or.inr rfl)) g hf _ _ hn (ho k)
        rw [nodeIndicesOf3_eq]
        refine ⟨_, fun a => ?_, by rw [(pyCall_index (g := g) (geo := geo) c0 (by omega)).2.1, c2]⟩
        rcases ho k a with h | h <;> simp [h]
  · obtain ⟨h0, h1, h2⟩ := C24_coordinates hd.isDim g hf c hc
    refine ⟨_, h0, by rw [← hcount]; exact h1, (pyCall_coordinates (cell_fits g hf hc)).2.1, ?_⟩
    rw [(pyCall_index (g := g) (geo := geo) h0 (by omega)).1, h2]

/-- **C115 (elements, three dimensions).** Once `Caribou.Geometry` is imported, `cell_at` gives the same element from the index and from the
coordinates of a cell, and its nodes are, in order, the positions of the nodes `node_indices_of`. -/
theorem C115_cell_at_partial [CharZero K] (g : Grid 3 K) (hf : Fits g.n) (i : ℤ) (h0 : 0 ≤ i) (h1 : i < ∏ a, (g.n a : ℤ)) :
    ∃ c l h, g.pyCall true .cellCoordinatesAt [.int i] = .ok (.coordinates c) ∧
      g.pyCall true .nodeIndicesOf [.int i] = .ok (.indices (List.ofFn l)) ∧
      g.pyCall true .cellAt [.int i] = .ok (.hexa h) ∧ g.pyCall true .cellAt [.ints (List.ofFn c)] = .ok (.hexa h) ∧
      ∀ k : Fin 8, g.pyCall true .node [.int (l k)] = .ok (.point (h.nodes hexa1 k)) := by
  have hcount := C24_count g hf
  have hle := numberOfCells_le g hf
  have hnle := numberOfNodes_le g hf
  rw [← hcount] at h1
  obtain ⟨hn, hi⟩ := C24_index (Or.inr (Or.inr rfl)) g hf i h0 h1
  obtain ⟨e0, _, _, e3, e4⟩ := pyCall_index (g := g) (geo := true) h0 (by omega)
  obtain ⟨_, _, _, f3, _⟩ := pyCall_coordinates (g := g) (geo := true) (cell_fits g hf hn)
  obtain ⟨hb, _, hp, _⟩ := C25_3d g hf i h0 h1
  refine ⟨_, _, _, e0, e3, e4, f3, fun k => ?_⟩
  rw [(pyCall_index (g := g) (geo := true) (hb k).1 (by have := (hb k).2; omega)).2.2.1, hp k]

/-- **C115 is false for `cell_at`.** `Grid2D.cell_at` raises an exception whatever its arguments, and so does `Grid3D.cell_at` as long as
`Caribou.Geometry` has not been imported. -/
theorem C115_cell_at_violated :
    (∀ (g : Grid 2 K) (geo : Bool) (args : List (PyVal K)), g.pyCall geo .cellAt args = .typeError) ∧
    ∀ (g : Grid 3 K) (args : List (PyVal K)), g.pyCall false .cellAt args = .typeError := by
  constructor
  · intro g geo args
    match args with
    | [] => simp [Grid.pyCall, Grid.pyCallAs, resolveCall, GridClass.mro, lookupName, gridOverloads, firstAccepting, take1]
    | _ :: _ :: _ => simp [Grid.pyCall, Grid.pyCallAs, resolveCall, GridClass.mro, lookupName, gridOverloads, firstAccepting, take1]
    | [x] =>
      rcases h1 : asCoordinates 2 x with _ | c <;> rcases h2 : asIndex x with _ | i <;>
        simp [Grid.pyCall, Grid.pyCallAs, resolveCall, GridClass.mro, lookupName, gridOverloads, firstAccepting, take1, h1, h2, Grid.run,
          Grid.cellVal, Grid.toPython]
  · intro g args
    match args with
    | [] => simp [Grid.pyCall, Grid.pyCallAs, resolveCall, GridClass.mro, lookupName, gridOverloads, firstAccepting, take1]
    | _ :: _ :: _ => simp [Grid.pyCall, Grid.pyCallAs, resolveCall, GridClass.mro, lookupName, gridOverloads, firstAccepting, take1]
    | [x] =>
      rcases h1 : asCoordinates 3 x with _ | c <;> rcases h2 : asIndex x with _ | i <;>
        simp [Grid.pyCall, Grid.pyCallAs, resolveCall, GridClass.mro, lookupName, gridOverloads, firstAccepting, take1, h1, h2, Grid.run,
          Grid.cellVal, Grid.toPython]

/-- **C115 (edges).** The indices below `number_of_edges()` list every pair of neighbouring nodes exactly once, and nothing else. -/
theorem C115_edges (hd : IsPyDim d) (g : Grid d K) (hn : ∀ a, 0 < g.n a) (hf : Fits g.n) (geo : Bool) :
    ∃ count : ℕ, g.pyCall geo .numberOfEdges [] = .ok (.int count) ∧
      (count ≤ 2 ^ 63 →
        (∀ i : ℕ, i < count → ∃ c a v w, IsNode g.n c ∧ IsNode g.n (next a c) ∧
          g.pyCall geo .nodeIndexAt [.ints (List.ofFn c)] = .ok (.int v) ∧
          g.pyCall geo .nodeIndexAt [.ints (List.ofFn (next a c))] = .ok (.int w) ∧
          g.pyCall geo .edge [.int i] = .ok (.indices [v, w])) ∧
        ∀ c a, IsNode g.n c → IsNode g.n (next a c) → ∃! i : ℕ, i < count ∧ ∃ v w,
          g.pyCall geo .nodeIndexAt [.ints (List.ofFn c)] = .ok (.int v) ∧
          g.pyCall geo .nodeIndexAt [.ints (List.ofFn (next a c))] = .ok (.int w) ∧
          g.pyCall geo .edge [.int i] = .ok (.indices [v, w])) := by
  have h1d : 1 < d := by rcases hd with rfl | rfl <;> norm_num
  refine ⟨g.edgeCount, (pyCall_edge geo h1d le_rfl (by norm_num)).1, fun hle => ?_⟩
  have hedge : ∀ i : ℕ, i < g.edgeCount → g.pyCall geo .edge [.int i] = .ok (.indices (g.edgeList (i : ℤ))) := fun i hi =>
    (pyCall_edge geo h1d (by positivity) (by
      have : (i : ℤ) < g.edgeCount := by exact_mod_cast hi
      have : (g.edgeCount : ℤ) ≤ 2 ^ 63 := by exact_mod_cast hle
      omega)).2
  have key : ∀ i : ℕ, i < g.edgeCount → ∀ c a, IsNode g.n c → IsNode g.n (next a c) → (∃ v w,
      g.pyCall geo .nodeIndexAt [.ints (List.ofFn c)] = .ok (.int v) ∧
      g.pyCall geo .nodeIndexAt [.ints (List.ofFn (next a c))] = .ok (.int w) ∧
      g.pyCall geo .edge [.int i] = .ok (.indices [v, w])) →
      g.edgeList (i : ℤ) = [g.nodeIndexAt c, g.nodeIndexAt (next a c)] := by
    rintro i hi c a hc hc' ⟨v, w, h1, h2, h3⟩
    rw [(pyCall_coordinates (node_fits g hf hc)).1] at h1
    rw [(pyCall_coordinates (node_fits g hf hc')).1] at h2
    rw [hedge i hi] at h3
    injection h1 with h1; injection h1 with h1
    injection h2 with h2; injection h2 with h2
    injection h3 with h3; injection h3 with h3
    rw [h3, h1, h2]
  have back : ∀ i : ℕ, i < g.edgeCount → ∀ c a, IsNode g.n c → IsNode g.n (next a c) →
      g.edgeList (i : ℤ) = [g.nodeIndexAt c, g.nodeIndexAt (next a c)] → ∃ v w,
      g.pyCall geo .nodeIndexAt [.ints (List.ofFn c)] = .ok (.int v) ∧
      g.pyCall geo .nodeIndexAt [.ints (List.ofFn (next a c))] = .ok (.int w) ∧
      g.pyCall geo .edge [.int i] = .ok (.indices [v, w]) := fun i hi c a hc hc' h =>
    ⟨_, _, (pyCall_coordinates (node_fits g hf hc)).1, (pyCall_coordinates (node_fits g hf hc')).1, by rw [hedge i hi, h]⟩
  rcases hd with rfl | rfl
  · refine ⟨fun i hi => ?_, fun c a hc hc' => ?_⟩
    · obtain ⟨c, a, hc, hc', e1, e2⟩ := C26_2d_sound g hf i hi
      obtain ⟨v, w, h⟩ := back i hi c a hc hc' (by rw [edgeList2, e1, e2])
      exact ⟨c, a, v, w, hc, hc', h⟩
    · obtain ⟨i, ⟨hi, _, _, e1, e2⟩, hu⟩ := C26_2d g hf c a hc hc'
      refine ⟨i, ⟨hi, back i hi c a hc hc' (by rw [edgeList2, e1, e2])⟩, fun j ⟨hj, hj'⟩ => hu j ⟨hj, ?_⟩⟩
      have := key j hj c a hc hc' hj'
      rw [edgeList2] at this
      simp only [List.cons.injEq, and_true] at this
      exact ⟨hc, hc', this.1, this.2⟩
  · refine ⟨fun i hi => ?_, fun c a hc hc' => ?_⟩
    · obtain ⟨c, a, hc, hc', e1, e2⟩ := C26_3d_sound g hf hn i hi
      obtain ⟨v, w, h⟩ := back i hi c a hc hc' (by rw [edgeList3, e1, e2])
      exact ⟨c, a, v, w, hc, hc', h⟩
    · obtain ⟨i, ⟨hi, _, _, e1, e2⟩, hu⟩ := C26_3d g hf hn c a hc hc'
      refine ⟨i, ⟨hi, back i hi c a hc hc' (by rw [edgeList3, e1, e2])⟩, fun j ⟨hj, hj'⟩ => hu j ⟨hj, ?_⟩⟩
      have := key j hj c a hc hc' hj'
      rw [edgeList3] at this
      simp only [List.cons.injEq, and_true] at this
      exact ⟨hc, hc', this.1, this.2⟩

/-- **C115 (faces).** Two dimensional grids have no `face`; in three dimensions the indices below `number_of_faces()` list every face exactly
once, with its four corners in turn, and nothing else. -/
theorem C115_faces :
    (∀ (g : Grid 2 K) (geo : Bool) (args : List (PyVal K)),
      g.pyCall geo .numberOfFaces args = .attributeError ∧ g.pyCall geo .face args = .attributeError) ∧
    ∀ (g : Grid 3 K) (_ : Fits g.n) (geo : Bool), ∃ count : ℕ, g.pyCall geo .numberOfFaces [] = .ok (.int count) ∧
      (count ≤ 2 ^ 63 → (∀ i : ℕ, i < count → ∃ f c a b, IsFace g f c a b ∧ g.pyCall geo .face [.int i] = .ok (.indices (List.ofFn f))) ∧
        ∀ c (a b : Fin 3), a < b → IsNode g.n c → IsNode g.n (next b (next a c)) → ∃! i : ℕ, i < count ∧ g.pyCall geo .face [.int i]
          = .ok (.indices [g.nodeIndexAt c, g.nodeIndexAt (next a c), g.nodeIndexAt (next b (next a c)), g.nodeIndexAt (next b c)])) := by
  refine ⟨fun g geo args => ⟨?_, ?_⟩, fun g hf geo => ⟨g.faceCount, (pyCall_face geo le_rfl (by norm_num)).1, fun hle => ?_⟩⟩
  · simp [Grid.pyCall, Grid.pyCallAs, resolveCall, GridClass.mro, lookupName, gridOverloads]
  · simp [Grid.pyCall, Grid.pyCallAs, resolveCall, GridClass.mro, lookupName, gridOverloads]
  · have hface : ∀ i : ℕ, i < g.faceCount → g.pyCall geo .face [.int i] = .ok (.indices (List.ofFn (g.face3 i))) := fun i hi => by
      rw [← faceList3]
      exact (pyCall_face geo (by positivity) (by
        have : (i : ℤ) < g.faceCount := by exact_mod_cast hi
        have : (g.faceCount : ℤ) ≤ 2 ^ 63 := by exact_mod_cast hle
        omega)).2
    have hlist : ∀ f : Fin 4 → ℤ, List.ofFn f = [f 0, f 1, f 2, f 3] := fun f => rfl
    refine ⟨fun i hi => ?_, fun c a b hab hc hc' => ?_⟩
    · obtain ⟨c, a, b, h⟩ := C27_sound g hf i hi
      exact ⟨_, c, a, b, h, hface i hi⟩
    obtain ⟨i, ⟨hi, h⟩, hu⟩ := C27 g hf c a b hab hc hc'
    refine ⟨i, ⟨hi, ?_⟩, fun j ⟨hj, hj'⟩ => hu j ⟨hj, ?_⟩⟩
    · rw [hface i hi, hlist, h.2.2.2.2.2.1, h.2.2.2.2.2.2.1, h.2.2.2.2.2.2.2.1, h.2.2.2.2.2.2.2.2]
    · rw [hface j hj, hlist] at hj'
      injection hj' with hj'; injection hj' with hj'
      simp only [List.cons.injEq, and_true] at hj'
      exact ⟨hab, hc, h.2.2.1, h.2.2.2.1, h.2.2.2.2.1, hj'.1, hj'.2.1, hj'.2.2.1, hj'.2.2.2⟩

variable [IsStrictOrderedRing K]

/-- **C115 (points).** From Python, `cell_index_containing` without its second argument tests the upper border (unlike in C++): a point of
the closed grid is located in a cell which contains it, whose coordinates `cell_coordinates_at` gives; `cells_around` has every cell which
contains the point; and `contains` without tolerance accepts every point of the grid, and no point farther than `EPSILON` times its size. -/
theorem C115_points (hd : IsPyDim d) (g : Grid d K) (hg : Proper g) (hf : Fits g.n) (geo : Bool) (p : Fin d → K) :
    (InGrid g.anchor g.size p → ∃ i c l, g.pyCall geo .cellIndexContaining [.floats (List.ofFn p)] = .ok (.int i) ∧
      g.pyCall geo .cellCoordinatesAt [.int i] = .ok (.coordinates c) ∧ IsCell g.n c ∧
      InCell g.anchor (fun a => g.size a / g.n a) c p ∧
      g.pyCall geo .cellsAround [.floats (List.ofFn p)] = .ok (.indices l) ∧ i ∈ l ∧
      ∀ c', IsCell g.n c' → InCell g.anchor (fun a => g.size a / g.n a) c' p → ∃ j ∈ l,
        g.pyCall geo .cellIndexAt [.ints (List.ofFn c')] = .ok (.int j)) ∧
    ∃ b, g.pyCall geo .contains [.floats (List.ofFn p)] = .ok (.flag b) ∧
      (b = true ↔ ∀ a, g.anchor a - gridEps K * g.size a ≤ p a ∧ p a ≤ g.anchor a + (1 + gridEps K) * g.size a) := by
  obtain ⟨e1, _, e3, e4, _⟩ := pyCall_point g geo p
  refine ⟨fun hp => ?_, _, e4, ?_⟩
  · obtain ⟨c, hc, h1, _, h3, h4, h5⟩ := C28_partial hd.isDim g hg hf p hp
    obtain ⟨_, hA, _⟩ := C29_partial hd.isDim g hg hf p hp
    have hle := numberOfCells_le g hf
    refine ⟨_, c, _, e1, ?_, hc, h3, e3, ?_, fun c' hc' hp' => ⟨_, hA c' hc' hp', (pyCall_coordinates (cell_fits g hf hc')).2.1⟩⟩
    · rw [(pyCall_index (g := g) (geo := geo) h4 (by omega)).1, h1, (C24_coordinates hd.isDim g hf c hc).2.2]
    · rw [h1]; exact hA c hc h3
  · unfold Grid.contains
    rw [List.all_eq_true]
    simp only [List.mem_finRange, true_implies, Bool.not_eq_true', Bool.or_eq_false_iff, decide_eq_false_iff_not, not_lt, gt_iff_lt]
    refine forall_congr' fun a => ?_
    have hs := (hg a).2
    rw [le_div_iff₀ hs, div_le_iff₀ hs]
    constructor <;> rintro ⟨h, h'⟩ <;> constructor <;> linarith

/-- **C115 is false for `cell_coordinates_at` and `node`.** The functions of the base class with these names are hidden: from a grid, the
cell which contains a point cannot be asked with `cell_coordinates_at`, with the flag or without it, and the position of a node cannot be
asked from its coordinates. -/
theorem C115_violated (g : Grid d K) (geo : Bool) :
    (∀ l, g.pyCall geo .cellCoordinatesAt [.floats l] = .typeError) ∧ (∀ l, g.pyCall geo .cellCoordinatesAt [.ints l] = .typeError) ∧
    (∀ x y, g.pyCall geo .cellCoordinatesAt [x, y] = .typeError) ∧
    (∀ l, g.pyCall geo .node [.ints l] = .typeError) ∧ ∀ l, g.pyCall geo .node [.floats l] = .typeError := by
  refine ⟨fun l => ?_, fun l => ?_, fun x y => ?_, fun l => ?_, fun l => ?_⟩
  · rw [pyCall_cellCoordinatesAt]; rfl
  · rw [pyCall_cellCoordinatesAt]; rfl
  · rw [pyCall_cellCoordinatesAt]; rfl
  · rw [pyCall_node]; rfl
  · rw [pyCall_node]; rfl

/-- **C115 (through the base class).** The hidden functions can be called as `BaseGrid3D.cell_coordinates_at(grid, p, True)` and
`BaseGrid3D.node(grid, c)`: they give a cell which contains the point, and the position of the node. -/
theorem C115_base_partial (hd : IsPyDim d) (g : Grid d K) (hg : Proper g) (hf : Fits g.n) (geo : Bool) :
    (∀ p, InGrid g.anchor g.size p → ∃ c, IsCell g.n c ∧ InCell g.anchor (fun a => g.size a / g.n a) c p ∧
      g.pyCallAs geo .base .cellCoordinatesAt [.floats (List.ofFn p), .flag true] = .ok (.coordinates c)) ∧
    (∀ p, InGrid g.anchor g.size p → (∀ a, p a < g.anchor a + g.size a) → ∃ c, IsCell g.n c ∧
      InCell g.anchor (fun a => g.size a / g.n a) c p ∧
      g.pyCallAs geo .base .cellCoordinatesAt [.floats (List.ofFn p)] = .ok (.coordinates c)) ∧
    ∀ c, IsNode g.n c → ∃ i, g.pyCall geo .nodeIndexAt [.ints (List.ofFn c)] = .ok (.int i) ∧
      g.pyCallAs geo .base .node [.ints (List.ofFn c)] = g.pyCall geo .node [.int i] := by
  refine ⟨fun p hp => ?_, fun p hp hu => ?_, fun c hc => ?_⟩
  · obtain ⟨c, hc, _, h2, h3, _⟩ := C28_partial hd.isDim g hg hf p hp
    exact ⟨c, hc, h3, by rw [(pyCall_point g geo p).2.2.2.2.2.2, h2]⟩
  · obtain ⟨c, hc, h1, h3, h4, h5⟩ := C28_open_partial hd.isDim g hg hf p hp hu
    refine ⟨g.cellCoordinatesOfPoint p false, ?_, ?_, (pyCall_point g geo p).2.2.2.2.2.1⟩
    · rw [inGrid_iff hg] at hp
      have hlt : ∀ a, g.absolute p a < g.n a := fun a => by
        have h := hu a
        rw [hg.size_eq a, point_eq hg p a] at h
        exact lt_of_mul_lt_mul_right (by linarith) (hg.H_pos a).le
      exact fun a => (located_axis_open hg p a (hp a).1 (hlt a)).1
    · rw [inGrid_iff hg] at hp
      have hlt : ∀ a, g.absolute p a < g.n a := fun a => by
        have h := hu a
        rw [hg.size_eq a, point_eq hg p a] at h
        exact lt_of_mul_lt_mul_right (by linarith) (hg.H_pos a).le
      change InCell g.anchor g.H _ p
      rw [inCell_iff hg]
      exact fun a => ⟨(located_axis_open hg p a (hp a).1 (hlt a)).2.1, (located_axis_open hg p a (hp a).1 (hlt a)).2.2.le⟩
  · obtain ⟨h0, h1, h2⟩ := C23_coordinates hd.isDim g hf c hc
    have hle := numberOfNodes_le g hf
    refine ⟨_, (pyCall_coordinates (node_fits g hf hc)).1, ?_⟩
    rw [(pyCall_coordinates (geo := geo) (node_fits g hf hc)).2.2.2.2, (pyCall_index (g := g) (geo := geo) h0 (by omega)).2.2.1, Grid.node, h2]

/-- **C115 (construction).** A grid made from three arrays of `d` entries, the second one of positive integers, has the given anchor, size
and numbers of cells; arrays of another length are refused. -/
theorem C115_make (o s : Fin d → K) (n : Fin d → ℕ) (hn : ∀ a, (n a : ℤ) < 2 ^ 63) (geo : Bool) :
    (∃ g : Grid d K, Grid.pyMake d [.floats (List.ofFn o), .ints (List.ofFn fun a => (n a : ℤ)), .floats (List.ofFn s)] = .ok g ∧
      g.pyCall geo .anchorPosition [] = .ok (.point o) ∧ g.pyCall geo .size [] = .ok (.point s) ∧
      g.pyCall geo .subdivisions [] = .ok (.coordinates fun a => (n a : ℤ)) ∧
      g.pyCall geo .cellSize [] = .ok (.point fun a => s a / n a)) ∧
    ∀ x y : PyVal K, ∀ l : List K, l.length ≠ d →
      Grid.pyMake d [.floats l, x, y] = .typeError ∧ Grid.pyMake d [x, .floats l, y] = .typeError ∧
      Grid.pyMake d [x, y, .floats l] = .typeError := by
  constructor
  · refine ⟨⟨o, n, s⟩, ?_, (pyCall_counts _ geo).2.2.1, (pyCall_counts _ geo).2.2.2.1, (pyCall_counts _ geo).2.2.2.2.2,
      (pyCall_counts _ geo).2.2.2.2.1⟩
    have hsub : asSubdivisions (K := K) d (.ints (List.ofFn fun a => (n a : ℤ))) = some n := by
      simp only [asSubdivisions]
      rw [if_pos (by
        rw [List.all_eq_true]
        intro x hx
        obtain ⟨i, rfl⟩ := (List.mem_ofFn' _ _).mp hx
        exact fits64_of (by positivity) (hn i)), List.map_ofFn]
      rw [listFn_ofFn]
      congr 1
      funext a
      simp only [Function.comp, toU64]
      have := hn a
      rw [Int.emod_eq_of_lt (by positivity) (by omega)]
      simp
    simp only [Grid.pyMake, asPoint_ofFn, hsub]
  · intro x y l hl
    have h1 : asPoint d (.floats l) = none := listFn_none l hl
    have h2 : asSubdivisions d (.floats l) = none := listFn_none _ (by simpa using hl)
    refine ⟨?_, ?_, ?_⟩
    · simp only [Grid.pyMake, h1]
    · simp only [Grid.pyMake, h2]
      cases asPoint d x <;> rfl
    · simp only [Grid.pyMake, h1]
      cases asPoint d x <;> cases asSubdivisions d y <;> rfl

/-- **Arguments are not checked.** A negative number of cells is accepted, and gives `2^64 - 1` cells along the axis; coordinates given as
floating point numbers are accepted and truncated, so that the cell at `(-0.9, 0)` is the cell at the origin. -/
theorem C115_make_violated :
    (∃ g : Grid 2 ℚ, Grid.pyMake 2 [.floats [0, 0], .ints [-1, 1], .floats [1, 1]] = .ok g ∧
      g.pyCall true .subdivisions [] = .ok (.coordinates ![18446744073709551615, 1])) ∧
    unitGrid2.pyCall true .cellIndexAt [.floats [-9 / 10, 0]] = .ok (.int 0) ∧
    unitGrid2.pyCall true .cellIndexAt [.ints [0, 0]] = .ok (.int 0) := by
  refine ⟨⟨⟨_, _, _⟩, rfl, ?_⟩, ?_, ?_⟩
  · refine ((pyCall_counts _ true).2.2.2.2.2).trans ?_
    congr 2
    funext a
    fin_cases a <;> decide +kernel
  · have h : asCoordinates (K := ℚ) 2 (.floats [-9 / 10, 0]) = some ![0, 0] := by decide +kernel
    simp [Grid.pyCall, Grid.pyCallAs, resolveCall, GridClass.mro, lookupName, gridOverloads, firstAccepting, take1, h, Grid.run,
      Grid.toPython]
    decide
  · have h : asCoordinates (K := ℚ) 2 (.ints [0, 0]) = some ![0, 0] := by decide +kernel
    simp [Grid.pyCall, Grid.pyCallAs, resolveCall, GridClass.mro, lookupName, gridOverloads, firstAccepting, take1, h, Grid.run,
      Grid.toPython]
    decide

/-! ### Concrete cases -/

/-- Three dimensional example of the test of the project, `Caribou_Topology_Test.py:240-330`. -/
example : IsPyDim 3 ∧ Fits exampleGrid.n ∧ Proper exampleGrid ∧ InGrid exampleGrid.anchor exampleGrid.size ![4, 3, 13] := by
  refine ⟨Or.inr rfl, by unfold Fits; decide +kernel, ?_, ?_⟩
  · intro a
    fin_cases a <;> norm_num [exampleGrid]
  · intro a
    fin_cases a <;> norm_num [exampleGrid]

example : IsPyDim 2 ∧ Fits unitGrid2.n ∧ (∀ a, 0 < unitGrid2.n a) ∧ unitGrid2.edgeCount = 12 := by
  refine ⟨Or.inl rfl, by unfold Fits; decide +kernel, by decide, by decide⟩

/-- The upper corner of the grid of the example is located in its last cell. -/
example : exampleGrid.pyCall false .cellIndexContaining [.floats [4, 3, 13]] = .ok (.int 29) := by
  refine ((pyCall_point exampleGrid false ![4, 3, 13]).1).trans ?_
  congr 2
  decide +kernel

/-- **C115 (flags).** Numbers are accepted for the flag of `cell_index_containing` and mean true unless they are zero; lists are refused. -/
theorem C115_flags (g : Grid d K) (geo : Bool) (p : Fin d → K) :
    (∀ z : ℤ, g.pyCall geo .cellIndexContaining [.floats (List.ofFn p), .int z] = g.pyCall geo .cellIndexContaining [.floats (List.ofFn p), .flag (decide (z ≠ 0))]) ∧
    (∀ x : K, g.pyCall geo .cellIndexContaining [.floats (List.ofFn p), .float x] = g.pyCall geo .cellIndexContaining [.floats (List.ofFn p), .flag (decide (x ≠ 0))]) ∧
    (∀ l, g.pyCall geo .cellIndexContaining [.floats (List.ofFn p), .ints l] = .typeError) ∧
    ∀ l, g.pyCall geo .cellIndexContaining [.floats (List.ofFn p), .floats l] = .typeError := by
  refine ⟨fun z => ?_, fun x => ?_, fun l => ?_, fun l => ?_⟩ <;>
    simp [Grid.pyCall, Grid.pyCallAs, resolveCall, GridClass.mro, lookupName, gridOverloads, firstAccepting, take2, asFlag]

/-- **C115 (tolerances).** Integers and booleans are accepted for the tolerance of `contains` and mean the numbers they are, true being one; lists are refused. -/
theorem C115_numbers (g : Grid d K) (geo : Bool) (p : Fin d → K) :
    (∀ z : ℤ, g.pyCall geo .contains [.floats (List.ofFn p), .int z] = .ok (.flag (g.contains p z))) ∧
    g.pyCall geo .contains [.floats (List.ofFn p), .flag true] = .ok (.flag (g.contains p 1)) ∧
    g.pyCall geo .contains [.floats (List.ofFn p), .flag false] = .ok (.flag (g.contains p 0)) ∧
    (∀ l, g.pyCall geo .contains [.floats (List.ofFn p), .ints l] = .typeError) ∧
    ∀ l, g.pyCall geo .contains [.floats (List.ofFn p), .floats l] = .typeError := by
  have h := asPoint_ofFn p
  refine ⟨fun z => ?_, ?_, ?_, fun l => ?_, fun l => ?_⟩ <;>
    simp [Grid.pyCall, Grid.pyCallAs, resolveCall, GridClass.mro, lookupName, gridOverloads, firstAccepting, take2, h, Grid.run, Grid.toPython, asNumber]

/-- **C115 (integers).** An integer is accepted as an index exactly when it fits in 64 bits with a sign; a boolean is an integer, a number which is not an integer is refused. -/
theorem C115_integers (g : Grid d K) (geo : Bool) :
    (∀ z : ℤ, g.pyCall geo .cellCoordinatesAt [.int z] = if -9223372036854775808 ≤ z ∧ z < 9223372036854775808 then .ok (.coordinates (g.cellCoordinatesAt z)) else .typeError) ∧
    (∀ b : Bool, g.pyCall geo .cellCoordinatesAt [.flag b] = .ok (.coordinates (g.cellCoordinatesAt (if b then 1 else 0)))) ∧
    ∀ x : K, g.pyCall geo .cellCoordinatesAt [.float x] = .typeError := by
  refine ⟨fun z => ?_, fun b => ?_, fun x => ?_⟩
  · rw [pyCall_cellCoordinatesAt]
    by_cases h : -9223372036854775808 ≤ z ∧ z < 9223372036854775808
    · have hz : fits64 z = true := by
        rw [fits64, Bool.and_eq_true, decide_eq_true_eq, decide_eq_true_eq]
        constructor <;> norm_num <;> omega
      rw [if_pos h]
      simp [take1, asIndex, hz, Grid.run, Grid.toPython]
    · have hz : fits64 z = false := by
        rw [← Bool.not_eq_true, fits64, Bool.and_eq_true, decide_eq_true_eq, decide_eq_true_eq]
        intro h'
        apply h
        norm_num at h'
        exact h'
      rw [if_neg h]
      simp [take1, asIndex, hz]
  · rw [pyCall_cellCoordinatesAt]
    simp [take1, asIndex, Grid.run, Grid.toPython]
  · rw [pyCall_cellCoordinatesAt]
    simp [take1, asIndex]

/-- The point `(1, 1)` is in the unit grid whatever the tolerance is; `2^63` is not an index. -/
example : unitGrid2.pyCall true .cellCoordinatesAt [.int 9223372036854775808] = .typeError ∧ unitGrid2.pyCall true .cellCoordinatesAt [.int (-1)] ≠ .typeError := by
  constructor
  · exact (C115_integers unitGrid2 true).1 _
  · rw [(C115_integers unitGrid2 true).1]
    simp

end Caribou
