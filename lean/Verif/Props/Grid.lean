import Verif.Lemmas.GridEdges

/-!
# Properties C23 – C27: numbering of nodes, cells, edges and faces of grids

All theorems are for grids whose number of nodes fits in a signed 64-bit integer (`Fits`).
-/

set_option autoImplicit false

namespace Caribou

open Spec

variable {d : ℕ} {K : Type*}

/-- **C23 (coordinates → index → coordinates).** -/
theorem C23_coordinates (hd : IsDim d) (g : Grid d K) (hf : Fits g.n) (c : Fin d → ℤ) (hc : IsNode g.n c) :
    0 ≤ g.nodeIndexAt c ∧ g.nodeIndexAt c < g.numberOfNodes ∧ g.nodeCoordinatesAt (g.nodeIndexAt c) = c := by
  have hc' : ∀ a, 0 ≤ c a ∧ c a < (g.n a : ℤ) + 1 := fun a => ⟨(hc a).1, by linarith [(hc a).2]⟩
  obtain ⟨h0, h1⟩ := flat_bound hd _ c hc'
  rw [nodeIndexAt_eq hd g hf c hc, numberOfNodes_eq g hf]
  exact ⟨h0, h1, by rw [nodeCoordinatesAt_eq hd g hf _ h0 h1, unflat_flat hd _ c hc']⟩

/-- **C23 (index → coordinates → index).** -/
theorem C23_index (hd : IsDim d) (g : Grid d K) (hf : Fits g.n) (m : ℤ) (h0 : 0 ≤ m) (h1 : m < g.numberOfNodes) :
    IsNode g.n (g.nodeCoordinatesAt m) ∧ g.nodeIndexAt (g.nodeCoordinatesAt m) = m := by
  rw [numberOfNodes_eq g hf] at h1
  have e := nodeCoordinatesAt_eq hd g hf m h0 h1
  have hb := unflat_bound hd (fun a => (g.n a : ℤ) + 1) (fun a => by positivity) m h0 h1
  have hn : IsNode g.n (g.nodeCoordinatesAt m) := fun a => by
    rw [e]; exact ⟨(hb a).1, by linarith [(hb a).2]⟩
  refine ⟨hn, ?_⟩
  rw [nodeIndexAt_eq hd g hf _ hn, e, flat_unflat hd]

/-- **C23 (count).** The indices are exactly `0, …, ∏(nᵢ+1) − 1`. -/
theorem C23_count (g : Grid d K) (hf : Fits g.n) : g.numberOfNodes = ∏ a, ((g.n a : ℤ) + 1) := numberOfNodes_eq g hf

/-- **C24 (coordinates → index → coordinates).** -/
theorem C24_coordinates (hd : IsDim d) (g : Grid d K) (hf : Fits g.n) (c : Fin d → ℤ) (hc : IsCell g.n c) :
    0 ≤ g.cellIndexAt c ∧ g.cellIndexAt c < g.numberOfCells ∧ g.cellCoordinatesAt (g.cellIndexAt c) = c := by
  obtain ⟨h0, h1⟩ := flat_bound hd _ c hc
  rw [cellIndexAt_eq hd g hf c hc, numberOfCells_eq g hf]
  exact ⟨h0, h1, by rw [(cellCoordinatesAt_eq hd g hf _ h0 h1).2, unflat_flat hd _ c hc]⟩

/-- **C24 (index → coordinates → index).** -/
theorem C24_index (hd : IsDim d) (g : Grid d K) (hf : Fits g.n) (m : ℤ) (h0 : 0 ≤ m) (h1 : m < g.numberOfCells) :
    IsCell g.n (g.cellCoordinatesAt m) ∧ g.cellIndexAt (g.cellCoordinatesAt m) = m := by
  rw [numberOfCells_eq g hf] at h1
  obtain ⟨hn, e⟩ := cellCoordinatesAt_eq hd g hf m h0 h1
  have hb := unflat_bound hd (fun a => (g.n a : ℤ)) (fun a => by exact_mod_cast hn a) m h0 h1
  have hc : IsCell g.n (g.cellCoordinatesAt m) := fun a => by rw [e]; exact hb a
  refine ⟨hc, ?_⟩
  rw [cellIndexAt_eq hd g hf _ hc, e, flat_unflat hd]

/-- **C24 (count).** -/
theorem C24_count (g : Grid d K) (hf : Fits g.n) : g.numberOfCells = ∏ a, (g.n a : ℤ) := numberOfCells_eq g hf

/-- A `3 × 2 × 5` grid used in the examples. -/
def exampleGrid : Grid 3 ℚ := ⟨![1, 2, 3], ![3, 2, 5], ![3, 1, 10]⟩

example : Fits exampleGrid.n ∧ IsDim 3 ∧ IsCell exampleGrid.n ![2, 1, 4] ∧ exampleGrid.cellIndexAt ![2, 1, 4] = 29 ∧
    exampleGrid.numberOfNodes = 72 ∧ exampleGrid.nodeCoordinatesAt 71 = ![3, 2, 5] := by
  refine ⟨?_, Or.inr (Or.inr rfl), by decide, by decide, by decide +kernel, by decide⟩
  simp [Fits, exampleGrid, Fin.prod_univ_three]

section Corners

variable [Field K]

theorem corner_node (hd : IsDim d) (g : Grid d K) (hf : Fits g.n) (c o : Fin d → ℤ) (hc : IsCell g.n c)
    (ho : ∀ a, o a = 0 ∨ o a = 1) :
    0 ≤ g.nodeIndexAt (c + o) ∧ g.nodeIndexAt (c + o) < g.numberOfNodes ∧
      g.nodeCoordinatesAt (g.nodeIndexAt (c + o)) = c + o := by
  refine C23_coordinates hd g hf (c + o) fun a => ?_
  have := hc a
  rw [Pi.add_apply]
  rcases ho a with h | h <;> rw [h] <;> omega

/-- Offsets of the corners of a quad, in the canonical node order. -/
def offset2 : Fin 4 → Fin 2 → ℤ := ![![0, 0], ![1, 0], ![1, 1], ![0, 1]]

/-- Offsets of the corners of a hexahedron, in the canonical node order. -/
def offset3 : Fin 8 → Fin 3 → ℤ :=
  ![![0, 0, 0], ![1, 0, 0], ![1, 1, 0], ![0, 1, 0], ![0, 0, 1], ![1, 0, 1], ![1, 1, 1], ![0, 1, 1]]

theorem nodeIndicesOf2_eq (g : Grid 2 K) (c : Fin 2 → ℤ) (i : Fin 4) :
    g.nodeIndicesOf2 c i = g.nodeIndexAt (c + offset2 i) := by
  have e0 : c = c + offset2 0 := by funext a; fin_cases a <;> simp [offset2]
  fin_cases i
  · exact congrArg g.nodeIndexAt e0
  all_goals simp [Grid.nodeIndicesOf2, offset2, add_assoc]

theorem nodeIndicesOf3_eq (g : Grid 3 K) (c : Fin 3 → ℤ) (i : Fin 8) :
    g.nodeIndicesOf3 c i = g.nodeIndexAt (c + offset3 i) := by
  have e0 : c = c + offset3 0 := by funext a; fin_cases a <;> simp [offset3]
  fin_cases i
  · exact congrArg g.nodeIndexAt e0
  all_goals simp [Grid.nodeIndicesOf3, offset3, add_assoc]

/-- **C25 (1D).** The two nodes of a cell of a 1D grid are valid, distinct, and located at the canonical nodes of the
segment `cell_at(index)`, the two ends of the cell. -/
theorem C25_1d [CharZero K] (g : Grid 1 K) (hf : Fits g.n) (m : ℤ) (h0 : 0 ≤ m) (h1 : m < g.numberOfCells) :
    (∀ i, 0 ≤ g.nodeIndicesOf1 m i ∧ g.nodeIndicesOf1 m i < g.numberOfNodes) ∧
    Function.Injective (g.nodeIndicesOf1 m) ∧
    (∀ i, g.node (g.nodeIndicesOf1 m i) = g.cellNodes1 m i) ∧
    ∀ i a, g.node (g.nodeIndicesOf1 m i) a
      = gridPoint g.anchor g.H (fun a => (g.cellCoordinatesAt m a : K) + (1 + segment1.node i a) / 2) a := by
  have hn : g.numberOfNodes = g.n 0 + 1 := by rw [C23_count g hf]; simp
  have hc : g.numberOfCells = g.n 0 := by rw [C24_count g hf]; simp
  refine ⟨fun i => ?_, fun i j h => ?_, fun i => ?_, fun i a => ?_⟩
  · fin_cases i
    · change 0 ≤ m ∧ m < _; omega
    · change 0 ≤ m + 1 ∧ m + 1 < _; omega
  · fin_cases i <;> fin_cases j <;> simp [Grid.nodeIndicesOf1] at h ⊢
  · fin_cases i <;> rfl
  · fin_cases i
    · simp [Grid.nodeIndicesOf1, Grid.node, Grid.nodeAtCoordinates, Grid.nodeCoordinatesAt, gridPoint,
        Grid.cellCoordinatesAt, segment1]
    · simp [Grid.nodeIndicesOf1, Grid.node, Grid.nodeAtCoordinates, Grid.nodeCoordinatesAt, gridPoint,
        Grid.cellCoordinatesAt, segment1, one_add_one_eq_two]

/-- **C25 (2D).** The four nodes of a cell are valid, pairwise distinct, located at the corners of the cell's box in the
canonical order of the quad, and they are the nodes of the element `cell_at(index)`. -/
theorem C25_2d [CharZero K] (g : Grid 2 K) (hf : Fits g.n) (m : ℤ) (h0 : 0 ≤ m) (h1 : m < g.numberOfCells) :
    (∀ i, 0 ≤ g.nodeIndicesOf2 (g.cellCoordinatesAt m) i ∧ g.nodeIndicesOf2 (g.cellCoordinatesAt m) i < g.numberOfNodes) ∧
    Function.Injective (g.nodeIndicesOf2 (g.cellCoordinatesAt m)) ∧
    (∀ i, g.node (g.nodeIndicesOf2 (g.cellCoordinatesAt m) i) = (g.cellAt2 (g.cellCoordinatesAt m)).nodes2 quad1 i) ∧
    ∀ i a, g.node (g.nodeIndicesOf2 (g.cellCoordinatesAt m) i) a
      = gridPoint g.anchor g.H (fun a => (g.cellCoordinatesAt m a : K) + (1 + quad1.node i a) / 2) a := by
  have hd : IsDim 2 := Or.inr (Or.inl rfl)
  have hcell := (C24_index hd g hf m h0 h1).1
  set c := g.cellCoordinatesAt m
  have ho : ∀ i a, offset2 i a = 0 ∨ offset2 i a = 1 := by decide
  have hK : ∀ i a, ((offset2 i a : ℤ) : K) = (1 + quad1.node i a) / 2 := fun i a => by
    fin_cases i <;> fin_cases a <;> simp [offset2, quad1, one_add_one_eq_two]
  have pos : ∀ i a, g.node (g.nodeIndicesOf2 c i) a
      = gridPoint g.anchor g.H (fun a => (c a : K) + (1 + quad1.node i a) / 2) a := fun i a => by
    rw [nodeIndicesOf2_eq, Grid.node, (corner_node hd g hf c _ hcell (ho i)).2.2, Grid.nodeAtCoordinates, gridPoint, ← hK,
      Pi.add_apply, Int.cast_add]
  refine ⟨fun i => ?_, fun i j h => ?_, fun i => funext fun a => ?_, pos⟩
  · rw [nodeIndicesOf2_eq]
    have := corner_node hd g hf c _ hcell (ho i)
    exact ⟨this.1, this.2.1⟩
  · rw [nodeIndicesOf2_eq, nodeIndicesOf2_eq] at h
    have e := (corner_node hd g hf c _ hcell (ho i)).2.2
    rw [h, (corner_node hd g hf c _ hcell (ho j)).2.2] at e
    have inj : Function.Injective offset2 := by decide
    exact inj (add_left_cancel e).symm
  · rw [pos i a]
    simp only [gridPoint, RectQuad.nodes2, RectQuad.T2, Grid.cellAt2, Grid.cellCenter, Pi.add_apply, Matrix.one_mulVec]
    ring

/-- **C25 (3D).** The eight nodes of a cell are valid, pairwise distinct, located at the corners of the cell's box in the
canonical order of the hexahedron, and they are the nodes of the element `cell_at(index)`. -/
theorem C25_3d [CharZero K] (g : Grid 3 K) (hf : Fits g.n) (m : ℤ) (h0 : 0 ≤ m) (h1 : m < g.numberOfCells) :
    (∀ i, 0 ≤ g.nodeIndicesOf3 (g.cellCoordinatesAt m) i ∧ g.nodeIndicesOf3 (g.cellCoordinatesAt m) i < g.numberOfNodes) ∧
    Function.Injective (g.nodeIndicesOf3 (g.cellCoordinatesAt m)) ∧
    (∀ i, g.node (g.nodeIndicesOf3 (g.cellCoordinatesAt m) i) = (g.cellAt3 (g.cellCoordinatesAt m)).nodes hexa1 i) ∧
    ∀ i a, g.node (g.nodeIndicesOf3 (g.cellCoordinatesAt m) i) a
      = gridPoint g.anchor g.H (fun a => (g.cellCoordinatesAt m a : K) + (1 + hexa1.node i a) / 2) a := by
  have hd : IsDim 3 := Or.inr (Or.inr rfl)
  have hcell := (C24_index hd g hf m h0 h1).1
  set c := g.cellCoordinatesAt m
  have ho : ∀ i a, offset3 i a = 0 ∨ offset3 i a = 1 := by decide
  have hK : ∀ i a, ((offset3 i a : ℤ) : K) = (1 + hexa1.node i a) / 2 := fun i a => by
    fin_cases i <;> fin_cases a <;> simp [offset3, hexa1, one_add_one_eq_two]
  have pos : ∀ i a, g.node (g.nodeIndicesOf3 c i) a
      = gridPoint g.anchor g.H (fun a => (c a : K) + (1 + hexa1.node i a) / 2) a := fun i a => by
    rw [nodeIndicesOf3_eq, Grid.node, (corner_node hd g hf c _ hcell (ho i)).2.2, Grid.nodeAtCoordinates, gridPoint, ← hK,
      Pi.add_apply, Int.cast_add]
  refine ⟨fun i => ?_, fun i j h => ?_, fun i => funext fun a => ?_, pos⟩
  · rw [nodeIndicesOf3_eq]
    have := corner_node hd g hf c _ hcell (ho i)
    exact ⟨this.1, this.2.1⟩
  · rw [nodeIndicesOf3_eq, nodeIndicesOf3_eq] at h
    have e := (corner_node hd g hf c _ hcell (ho i)).2.2
    rw [h, (corner_node hd g hf c _ hcell (ho j)).2.2] at e
    have inj : Function.Injective offset3 := by decide
    exact inj (add_left_cancel e).symm
  · rw [pos i a]
    simp only [gridPoint, RectHexa.nodes, RectHexa.worldCoordinates, Grid.cellAt3, Grid.cellCenter, Pi.add_apply,
      Matrix.one_mulVec]
    ring

example : exampleGrid.nodeIndicesOf3 ![2, 1, 4] = ![54, 55, 59, 58, 66, 67, 71, 70] := by decide

end Corners

section Edges

variable [Field K]

theorem next_inj {n : Fin d → ℕ} {c c' : Fin d → ℤ} {a a' : Fin d} (hc : c = c') (h : next a c = next a' c') : a = a' := by
  subst hc
  by_contra hne
  have := congrFun h a
  simp [next, hne] at this

/-- Two edges with the same end points are the same pair (node, axis). -/
theorem edge_unique (hd : IsDim d) (g : Grid d K) (hf : Fits g.n) {c c' : Fin d → ℤ} {a a' : Fin d}
    (h1 : IsNode g.n c) (h2 : IsNode g.n (next a c)) (h1' : IsNode g.n c') (h2' : IsNode g.n (next a' c'))
    (e1 : g.nodeIndexAt c = g.nodeIndexAt c') (e2 : g.nodeIndexAt (next a c) = g.nodeIndexAt (next a' c')) :
    c = c' ∧ a = a' := by
  have hc : c = c' := by
    rw [← (C23_coordinates hd g hf c h1).2.2, e1, (C23_coordinates hd g hf c' h1').2.2]
  have hn : next a c = next a' c' := by
    rw [← (C23_coordinates hd g hf _ h2).2.2, e2, (C23_coordinates hd g hf _ h2').2.2]
  exact ⟨hc, next_inj (n := g.n) hc hn⟩

theorem nodeIndex2 (g : Grid 2 K) (hf : Fits g.n) {c : Fin 2 → ℤ} {x y : ℕ} (h : IsNode g.n c) (hx : c 0 = x) (hy : c 1 = y) :
    g.nodeIndexAt c = ((y * (g.n 0 + 1) + x : ℕ) : ℤ) := by
  rw [nodeIndexAt_eq (Or.inr (Or.inl rfl)) g hf c h]
  simp only [flat, hx, hy]
  push_cast
  ring

theorem nodeIndex3 (g : Grid 3 K) (hf : Fits g.n) {c : Fin 3 → ℤ} {x y z : ℕ} (h : IsNode g.n c) (hx : c 0 = x) (hy : c 1 = y)
    (hz : c 2 = z) : g.nodeIndexAt c = ((z * (g.n 0 + 1) * (g.n 1 + 1) + y * (g.n 0 + 1) + x : ℕ) : ℤ) := by
  rw [nodeIndexAt_eq (Or.inr (Or.inr rfl)) g hf c h]
  simp only [flat, hx, hy, hz]
  push_cast
  ring

/-- The pair of node numbers listed for an edge. -/
def IsEdge (g : Grid d K) (e : ℕ × ℕ) (c : Fin d → ℤ) (a : Fin d) : Prop :=
  IsNode g.n c ∧ IsNode g.n (next a c) ∧ (e.1 : ℤ) = g.nodeIndexAt c ∧ (e.2 : ℤ) = g.nodeIndexAt (next a c)

theorem isNode2 {n : Fin 2 → ℕ} {c : Fin 2 → ℤ} {x y : ℕ} (h0 : c 0 = x) (h1 : c 1 = y) (hx : x ≤ n 0) (hy : y ≤ n 1) :
    IsNode n c := by
  intro a; fin_cases a
  · change 0 ≤ c 0 ∧ c 0 ≤ n 0; omega
  · change 0 ≤ c 1 ∧ c 1 ≤ n 1; omega

theorem isNode3 {n : Fin 3 → ℕ} {c : Fin 3 → ℤ} {x y z : ℕ} (h0 : c 0 = x) (h1 : c 1 = y) (h2 : c 2 = z) (hx : x ≤ n 0)
    (hy : y ≤ n 1) (hz : z ≤ n 2) : IsNode n c := by
  intro a; fin_cases a
  · change 0 ≤ c 0 ∧ c 0 ≤ n 0; omega
  · change 0 ≤ c 1 ∧ c 1 ≤ n 1; omega
  · change 0 ≤ c 2 ∧ c 2 ≤ n 2; omega

theorem edge2_isEdge0 (g : Grid 2 K) (hf : Fits g.n) {x y : ℕ} (hx : x < g.n 0) (hy : y ≤ g.n 1) :
    IsEdge g (g.edge2 (y * (2 * g.n 0 + 1) + x)) ![(x : ℤ), (y : ℤ)] 0 := by
  have n1 : IsNode g.n ![(x : ℤ), (y : ℤ)] := isNode2 rfl rfl hx.le hy
  have n2 : IsNode g.n (next 0 ![(x : ℤ), (y : ℤ)]) :=
    isNode2 (x := x + 1) (y := y) (by simp [next]) (by simp [next]) hx hy
  refine ⟨n1, n2, ?_, ?_⟩
  · rw [(edge2_dir0 g hx hy).2, nodeIndex2 g hf n1 rfl rfl]
  · rw [(edge2_dir0 g hx hy).2, nodeIndex2 g hf n2 (x := x + 1) (y := y) (by simp [next]) (by simp [next])]
    rfl

theorem edge2_isEdge1 (g : Grid 2 K) (hf : Fits g.n) {x y : ℕ} (hx : x ≤ g.n 0) (hy : y < g.n 1) :
    IsEdge g (g.edge2 (y * (2 * g.n 0 + 1) + (g.n 0 + x))) ![(x : ℤ), (y : ℤ)] 1 := by
  have n1 : IsNode g.n ![(x : ℤ), (y : ℤ)] := isNode2 rfl rfl hx hy.le
  have n2 : IsNode g.n (next 1 ![(x : ℤ), (y : ℤ)]) :=
    isNode2 (x := x) (y := y + 1) (by simp [next]) (by simp [next]) hx hy
  refine ⟨n1, n2, ?_, ?_⟩
  · rw [(edge2_dir1 g hx hy).2, nodeIndex2 g hf n1 rfl rfl]
  · rw [(edge2_dir1 g hx hy).2, nodeIndex2 g hf n2 (x := x) (y := y + 1) (by simp [next]) (by simp [next])]

/-- **C26 (2D, nothing else).** Every listed edge joins two nodes that are neighbours along one axis. -/
theorem C26_2d_sound (g : Grid 2 K) (hf : Fits g.n) (i : ℕ) (hi : i < g.numberOfEdges2) : ∃ c a, IsEdge g (g.edge2 i) c a := by
  obtain ⟨x, y, ⟨hx, hy, rfl⟩ | ⟨hx, hy, rfl⟩⟩ := edge2_cases g hi
  · exact ⟨_, _, edge2_isEdge0 g hf hx hy⟩
  · exact ⟨_, _, edge2_isEdge1 g hf hx hy⟩

/-- **C26 (2D, exactly once).** Every pair of neighbours is listed by exactly one edge index. -/
theorem C26_2d (g : Grid 2 K) (hf : Fits g.n) (c : Fin 2 → ℤ) (a : Fin 2) (h1 : IsNode g.n c) (h2 : IsNode g.n (next a c)) :
    ∃! i, i < g.numberOfEdges2 ∧ IsEdge g (g.edge2 i) c a := by
  obtain ⟨m, hm, hmn⟩ := toNat_coords h1
  have hmc : c = ![(m 0 : ℤ), (m 1 : ℤ)] := by rw [hm]; funext b; fin_cases b <;> rfl
  have hlt : m a < g.n a := by
    have := (h2 a).2
    simp only [next, if_true, hm] at this
    omega
  have uniq : ∀ (x y : ℕ) (b : Fin 2), ![(x : ℤ), (y : ℤ)] = c → b = a → x = m 0 ∧ y = m 1 := by
    intro x y b h _
    rw [hmc] at h
    have e0 := congrFun h 0
    have e1 := congrFun h 1
    simp only [Matrix.cons_val] at e0 e1
    omega
  have hall : ∀ i, i < g.numberOfEdges2 → IsEdge g (g.edge2 i) c a →
      (a = 0 → i = m 1 * (2 * g.n 0 + 1) + m 0) ∧ (a = 1 → i = m 1 * (2 * g.n 0 + 1) + (g.n 0 + m 0)) := by
    intro i hi he
    obtain ⟨x, y, ⟨hx, hy, rfl⟩ | ⟨hx, hy, rfl⟩⟩ := edge2_cases g hi
    · have h := edge2_isEdge0 g hf hx hy
      obtain ⟨ec, ea⟩ := edge_unique (Or.inr (Or.inl rfl)) g hf h.1 h.2.1 he.1 he.2.1 (h.2.2.1.symm.trans he.2.2.1)
        (h.2.2.2.symm.trans he.2.2.2)
      obtain ⟨rfl, rfl⟩ := uniq x y _ ec ea
      exact ⟨fun _ => rfl, fun h => absurd (ea.trans h) (by decide)⟩
    · have h := edge2_isEdge1 g hf hx hy
      obtain ⟨ec, ea⟩ := edge_unique (Or.inr (Or.inl rfl)) g hf h.1 h.2.1 he.1 he.2.1 (h.2.2.1.symm.trans he.2.2.1)
        (h.2.2.2.symm.trans he.2.2.2)
      obtain ⟨rfl, rfl⟩ := uniq x y _ ec ea
      exact ⟨fun h => absurd (ea.trans h) (by decide), fun _ => rfl⟩
  have hcase : a = 0 ∨ a = 1 := by omega
  rcases hcase with rfl | rfl
  · refine ⟨_, ⟨(edge2_dir0 g hlt (hmn 1)).1, ?_⟩, fun i hi => (hall i hi.1 hi.2).1 rfl⟩
    have := edge2_isEdge0 g hf hlt (hmn 1)
    rwa [← hmc] at this
  · refine ⟨_, ⟨(edge2_dir1 g (hmn 0) hlt).1, ?_⟩, fun i hi => (hall i hi.1 hi.2).2 rfl⟩
    have := edge2_isEdge1 g hf (hmn 0) hlt
    rwa [← hmc] at this

example : ∃ g : Grid 2 ℚ, Fits g.n ∧ g.numberOfEdges2 = 17 ∧ g.edge2 5 = (2, 6) :=
  ⟨⟨![0, 0], ![3, 2], ![1, 1]⟩, by simp [Fits, Fin.prod_univ_two], by decide, by decide⟩

/-- Index of the first edge of a slice. -/
def edgeSlice (g : Grid 3 K) (z : ℕ) : ℕ :=
  z * ((2 * g.n 0 + 1) * g.n 1 + g.n 0 + (g.n 0 + 1) * (g.n 1 + 1))

/-- Index of the edge leaving the node `(x, y, z)` along the axis `a`. -/
def edgeNumber (g : Grid 3 K) (a : Fin 3) (x y z : ℕ) : ℕ :=
  ![edgeSlice g z + (y * (2 * g.n 0 + 1) + x), edgeSlice g z + (y * (2 * g.n 0 + 1) + (g.n 0 + x)),
    edgeSlice g z + ((2 * g.n 0 + 1) * g.n 1 + g.n 0 + (y * (g.n 0 + 1) + x))] a

theorem edge3_isEdge (g : Grid 3 K) (hf : Fits g.n) (h0 : 0 < g.n 0) (a : Fin 3) {x y z : ℕ}
    (hx : x ≤ g.n 0) (hy : y ≤ g.n 1) (hz : z ≤ g.n 2) (ha : ![x, y, z] a < g.n a) :
    edgeNumber g a x y z < g.numberOfEdges3 ∧ IsEdge g (g.edge3 (edgeNumber g a x y z)) ![(x : ℤ), (y : ℤ), (z : ℤ)] a := by
  have n1 : IsNode g.n ![(x : ℤ), (y : ℤ), (z : ℤ)] := isNode3 rfl rfl rfl hx hy hz
  have hcase : a = 0 ∨ a = 1 ∨ a = 2 := by omega
  rcases hcase with rfl | rfl | rfl
  · have n2 : IsNode g.n (next 0 ![(x : ℤ), (y : ℤ), (z : ℤ)]) :=
      isNode3 (x := x + 1) (y := y) (z := z) (by simp [next]) (by simp [next]) (by simp [next]) ha hy hz
    have h := edge3_dir0 g h0 (show x < g.n 0 from ha) hy hz
    refine ⟨h.1, n1, n2, ?_, ?_⟩
    · exact (congrArg (fun e : ℕ × ℕ => (e.1 : ℤ)) h.2).trans (nodeIndex3 g hf n1 rfl rfl rfl).symm
    · exact (congrArg (fun e : ℕ × ℕ => (e.2 : ℤ)) h.2).trans
        (nodeIndex3 g hf n2 (x := x + 1) (y := y) (z := z) (by simp [next]) (by simp [next]) (by simp [next])).symm
  · have n2 : IsNode g.n (next 1 ![(x : ℤ), (y : ℤ), (z : ℤ)]) :=
      isNode3 (x := x) (y := y + 1) (z := z) (by simp [next]) (by simp [next]) (by simp [next]) hx ha hz
    have h := edge3_dir1 g h0 hx (show y < g.n 1 from ha) hz
    refine ⟨h.1, n1, n2, ?_, ?_⟩
    · exact (congrArg (fun e : ℕ × ℕ => (e.1 : ℤ)) h.2).trans (nodeIndex3 g hf n1 rfl rfl rfl).symm
    · exact (congrArg (fun e : ℕ × ℕ => (e.2 : ℤ)) h.2).trans
        (nodeIndex3 g hf n2 (x := x) (y := y + 1) (z := z) (by simp [next]) (by simp [next]) (by simp [next])).symm
  · have n2 : IsNode g.n (next 2 ![(x : ℤ), (y : ℤ), (z : ℤ)]) :=
      isNode3 (x := x) (y := y) (z := z + 1) (by simp [next]) (by simp [next]) (by simp [next]) hx hy ha
    have h := edge3_dir2 g h0 hx hy (show z < g.n 2 from ha)
    refine ⟨h.1, n1, n2, ?_, ?_⟩
    · exact (congrArg (fun e : ℕ × ℕ => (e.1 : ℤ)) h.2).trans (nodeIndex3 g hf n1 rfl rfl rfl).symm
    · exact (congrArg (fun e : ℕ × ℕ => (e.2 : ℤ)) h.2).trans
        (nodeIndex3 g hf n2 (x := x) (y := y) (z := z + 1) (by simp [next]) (by simp [next]) (by simp [next])).symm

theorem edge3_number (g : Grid 3 K) (h0 : 0 < g.n 0) {i : ℕ} (hi : i < g.numberOfEdges3) :
    ∃ a x y z, x ≤ g.n 0 ∧ y ≤ g.n 1 ∧ z ≤ g.n 2 ∧ ![x, y, z] a < g.n a ∧ i = edgeNumber g a x y z := by
  obtain ⟨x, y, z, ⟨hx, hy, hz, h⟩ | ⟨hx, hy, hz, h⟩ | ⟨hx, hy, hz, h⟩⟩ := edge3_cases g h0 hi
  · exact ⟨0, x, y, z, hx.le, hy, hz, hx, h⟩
  · exact ⟨1, x, y, z, hx, hy.le, hz, hy, h⟩
  · exact ⟨2, x, y, z, hx, hy, hz.le, hz, h⟩

/-- **C26 (3D, nothing else).** -/
theorem C26_3d_sound (g : Grid 3 K) (hf : Fits g.n) (hn : ∀ a, 0 < g.n a) (i : ℕ) (hi : i < g.numberOfEdges3) :
    ∃ c a, IsEdge g (g.edge3 i) c a := by
  obtain ⟨a, x, y, z, hx, hy, hz, ha, rfl⟩ := edge3_number g (hn 0) hi
  exact ⟨_, _, (edge3_isEdge g hf (hn 0) a hx hy hz ha).2⟩

theorem coords3 {c : Fin 3 → ℤ} {m : Fin 3 → ℕ} (h : c = fun a => (m a : ℤ)) : c = ![(m 0 : ℤ), (m 1 : ℤ), (m 2 : ℤ)] := by
  rw [h]; funext b; fin_cases b <;> rfl

theorem coords3_inj {m : Fin 3 → ℕ} {x y z : ℕ} (h : ![(x : ℤ), (y : ℤ), (z : ℤ)] = ![(m 0 : ℤ), (m 1 : ℤ), (m 2 : ℤ)]) :
    x = m 0 ∧ y = m 1 ∧ z = m 2 := by
  have e0 := congrFun h 0
  have e1 := congrFun h 1
  have e2 := congrFun h 2
  simp only [Matrix.cons_val] at e0 e1 e2
  omega

/-- **C26 (3D, exactly once).** -/
theorem C26_3d (g : Grid 3 K) (hf : Fits g.n) (hn : ∀ a, 0 < g.n a) (c : Fin 3 → ℤ) (a : Fin 3) (h1 : IsNode g.n c)
    (h2 : IsNode g.n (next a c)) : ∃! i, i < g.numberOfEdges3 ∧ IsEdge g (g.edge3 i) c a := by
  obtain ⟨m, hm, hmn⟩ := toNat_coords h1
  have hmc := coords3 hm
  have hlt : ![m 0, m 1, m 2] a < g.n a := by
    have := (h2 a).2
    simp only [next, if_true, hm] at this
    have e : ![m 0, m 1, m 2] a = m a := by fin_cases a <;> rfl
    omega
  refine ⟨edgeNumber g a (m 0) (m 1) (m 2), ?_, ?_⟩
  · have := edge3_isEdge g hf (hn 0) a (hmn 0) (hmn 1) (hmn 2) hlt
    rw [← hmc] at this
    exact this
  · rintro i ⟨hi, he⟩
    obtain ⟨b, x, y, z, hx, hy, hz, hb, rfl⟩ := edge3_number g (hn 0) hi
    have h := (edge3_isEdge g hf (hn 0) b hx hy hz hb).2
    obtain ⟨ec, rfl⟩ := edge_unique (Or.inr (Or.inr rfl)) g hf h.1 h.2.1 he.1 he.2.1 (h.2.2.1.symm.trans he.2.2.1)
      (h.2.2.2.symm.trans he.2.2.2)
    rw [hmc] at ec
    obtain ⟨rfl, rfl, rfl⟩ := coords3_inj ec
    rfl

example : (∀ a, 0 < exampleGrid.n a) ∧ exampleGrid.numberOfEdges3 = 162 ∧ exampleGrid.edge3 161 = (70, 71) := by decide

end Edges

section Faces

variable [Field K]

/-- The four node numbers of the face with lowest corner `c` and directions `a < b`, around the face. -/
def IsFace (g : Grid 3 K) (f : Fin 4 → ℤ) (c : Fin 3 → ℤ) (a b : Fin 3) : Prop :=
  a < b ∧ IsNode g.n c ∧ IsNode g.n (next a c) ∧ IsNode g.n (next b (next a c)) ∧ IsNode g.n (next b c) ∧
    f 0 = g.nodeIndexAt c ∧ f 1 = g.nodeIndexAt (next a c) ∧ f 2 = g.nodeIndexAt (next b (next a c)) ∧
    f 3 = g.nodeIndexAt (next b c)

/-- Index of the first face of a slice. -/
def faceSlice (g : Grid 3 K) (z : ℕ) : ℕ := z * (g.n 0 * g.n 1 + ((g.n 0 + 1) * g.n 1 + g.n 0 * (g.n 1 + 1)))

/-- Index of the face with lowest corner `(x, y, z)` orthogonal to the axis `w`. -/
def faceNumber (g : Grid 3 K) (w : Fin 3) (x y z : ℕ) : ℕ :=
  ![faceSlice g z + (g.n 0 * g.n 1 + (g.n 0 * (g.n 1 + 1) + (y * (g.n 0 + 1) + x))),
    faceSlice g z + (g.n 0 * g.n 1 + (y * g.n 0 + x)), faceSlice g z + (y * g.n 0 + x)] w

/-- First direction of the faces orthogonal to `w`. -/
def firstDir : Fin 3 → Fin 3 := ![1, 0, 0]

/-- Second direction of the faces orthogonal to `w`. -/
def secondDir : Fin 3 → Fin 3 := ![2, 2, 1]

theorem isNode_next {n : Fin 3 → ℕ} {x y z : ℕ} (hx : x ≤ n 0) (hy : y ≤ n 1) (hz : z ≤ n 2) {a : Fin 3}
    (ha : ![x, y, z] a < n a) : IsNode n (next a ![(x : ℤ), (y : ℤ), (z : ℤ)]) := by
  have hcase : a = 0 ∨ a = 1 ∨ a = 2 := by omega
  rcases hcase with rfl | rfl | rfl
  · exact isNode3 (x := x + 1) (y := y) (z := z) (by simp [next]) (by simp [next]) (by simp [next]) ha hy hz
  · exact isNode3 (x := x) (y := y + 1) (z := z) (by simp [next]) (by simp [next]) (by simp [next]) hx ha hz
  · exact isNode3 (x := x) (y := y) (z := z + 1) (by simp [next]) (by simp [next]) (by simp [next]) hx hy ha

theorem isNode_next2 {n : Fin 3 → ℕ} {c : Fin 3 → ℤ} {a b : Fin 3} (hab : a ≠ b) (ha : IsNode n (next a c))
    (hb : IsNode n (next b c)) : IsNode n (next b (next a c)) := by
  intro e
  have h1 := ha e
  have h2 := hb e
  by_cases e1 : e = a
  · subst e1
    simp only [next, if_true, hab, if_false] at h1 h2 ⊢
    exact h1
  · by_cases e2 : e = b
    · subst e2
      simp only [next, if_true, Ne.symm hab, if_false] at h1 h2 ⊢
      exact h2
    · simp only [next, e1, e2, if_false] at h1 h2 ⊢
      exact h1

theorem vec4 (a b c d : ℤ) : (![a, b, c, d] : Fin 4 → ℤ) 0 = a ∧ (![a, b, c, d] : Fin 4 → ℤ) 1 = b ∧
    (![a, b, c, d] : Fin 4 → ℤ) 2 = c ∧ (![a, b, c, d] : Fin 4 → ℤ) 3 = d := ⟨rfl, rfl, rfl, rfl⟩

theorem face3_isFace (g : Grid 3 K) (hf : Fits g.n) (w : Fin 3) {x y z : ℕ}
    (hx : x ≤ g.n 0) (hy : y ≤ g.n 1) (hz : z ≤ g.n 2) (ha : ![x, y, z] (firstDir w) < g.n (firstDir w))
    (hb : ![x, y, z] (secondDir w) < g.n (secondDir w)) :
    faceNumber g w x y z < g.numberOfFaces3 ∧
      IsFace g (g.face3 (faceNumber g w x y z)) ![(x : ℤ), (y : ℤ), (z : ℤ)] (firstDir w) (secondDir w) := by
  have n1 : IsNode g.n ![(x : ℤ), (y : ℤ), (z : ℤ)] := isNode3 rfl rfl rfl hx hy hz
  have na := isNode_next hx hy hz ha
  have nb := isNode_next hx hy hz hb
  have hlt : ∀ w, firstDir w < secondDir w := by decide
  have nab := isNode_next2 (hlt w).ne na nb
  have key : faceNumber g w x y z < g.numberOfFaces3 ∧
      g.face3 (faceNumber g w x y z) = faceAt g ![(x : ℤ), (y : ℤ), (z : ℤ)] (firstDir w) (secondDir w) := by
    have hcase : w = 0 ∨ w = 1 ∨ w = 2 := by omega
    rcases hcase with rfl | rfl | rfl
    · have h := face3_yz g hf hx (show y < g.n 1 from ha) (show z < g.n 2 from hb)
      simpa only [faceNumber, faceSlice, firstDir, secondDir, Matrix.cons_val] using h
    · have h := face3_xz g hf (show x < g.n 0 from ha) hy (show z < g.n 2 from hb)
      simpa only [faceNumber, faceSlice, firstDir, secondDir, Matrix.cons_val] using h
    · have h := face3_xy g hf (show x < g.n 0 from ha) (show y < g.n 1 from hb) hz
      simpa only [faceNumber, faceSlice, firstDir, secondDir, Matrix.cons_val] using h
  rw [key.2, faceAt]
  obtain ⟨v0, v1, v2, v3⟩ := vec4 (g.nodeIndexAt ![(x : ℤ), (y : ℤ), (z : ℤ)])
    (g.nodeIndexAt (next (firstDir w) ![(x : ℤ), (y : ℤ), (z : ℤ)]))
    (g.nodeIndexAt (next (secondDir w) (next (firstDir w) ![(x : ℤ), (y : ℤ), (z : ℤ)])))
    (g.nodeIndexAt (next (secondDir w) ![(x : ℤ), (y : ℤ), (z : ℤ)]))
  exact ⟨key.1, hlt w, n1, na, nab, nb, v0, v1, v2, v3⟩

theorem face3_number (g : Grid 3 K) {i : ℕ} (hi : i < g.numberOfFaces3) :
    ∃ w x y z, x ≤ g.n 0 ∧ y ≤ g.n 1 ∧ z ≤ g.n 2 ∧ ![x, y, z] (firstDir w) < g.n (firstDir w) ∧
      ![x, y, z] (secondDir w) < g.n (secondDir w) ∧ i = faceNumber g w x y z := by
  obtain ⟨x, y, z, ⟨hx, hy, hz, h⟩ | ⟨hx, hy, hz, h⟩ | ⟨hx, hy, hz, h⟩⟩ := face3_cases g hi
  · exact ⟨2, x, y, z, hx.le, hy.le, hz, hx, hy, h⟩
  · exact ⟨1, x, y, z, hx.le, hy, hz.le, hx, hz, h⟩
  · exact ⟨0, x, y, z, hx, hy.le, hz.le, hy, hz, h⟩

/-- **C27 (nothing else).** Every listed face is an axis-aligned unit face of the grid, its nodes listed around it. -/
theorem C27_sound (g : Grid 3 K) (hf : Fits g.n) (i : ℕ) (hi : i < g.numberOfFaces3) : ∃ c a b, IsFace g (g.face3 i) c a b := by
  obtain ⟨w, x, y, z, hx, hy, hz, ha, hb, rfl⟩ := face3_number g hi
  exact ⟨_, _, _, (face3_isFace g hf w hx hy hz ha hb).2⟩

/-- **C27 (exactly once).** Every unit face is listed by exactly one face index. -/
theorem C27 (g : Grid 3 K) (hf : Fits g.n) (c : Fin 3 → ℤ) (a b : Fin 3) (hab : a < b) (h1 : IsNode g.n c)
    (h2 : IsNode g.n (next b (next a c))) : ∃! i, i < g.numberOfFaces3 ∧ IsFace g (g.face3 i) c a b := by
  obtain ⟨m, hm, hmn⟩ := toNat_coords h1
  have hmc := coords3 hm
  obtain ⟨w, hwa, hwb⟩ : ∃ w, firstDir w = a ∧ secondDir w = b := by
    revert hab
    have : ∀ a b : Fin 3, a < b → ∃ w, firstDir w = a ∧ secondDir w = b := by decide
    exact this a b
  have hva : ![m 0, m 1, m 2] a < g.n a := by
    have := (h2 a).2
    simp only [next, if_true, hab.ne, if_false, hm] at this
    have e : ![m 0, m 1, m 2] a = m a := by fin_cases a <;> rfl
    omega
  have hvb : ![m 0, m 1, m 2] b < g.n b := by
    have := (h2 b).2
    simp only [next, if_true, hab.ne', if_false, hm] at this
    have e : ![m 0, m 1, m 2] b = m b := by fin_cases b <;> rfl
    omega
  subst hwa hwb
  refine ⟨faceNumber g w (m 0) (m 1) (m 2), ?_, ?_⟩
  · have := face3_isFace g hf w (hmn 0) (hmn 1) (hmn 2) hva hvb
    rw [← hmc] at this
    exact this
  · rintro i ⟨hi, he⟩
    obtain ⟨v, x, y, z, hx, hy, hz, ha, hb, rfl⟩ := face3_number g hi
    have h := (face3_isFace g hf v hx hy hz ha hb).2
    have hd : IsDim 3 := Or.inr (Or.inr rfl)
    obtain ⟨_, p0, p1, p2, p3, q0, q1, q2, q3⟩ := h
    obtain ⟨_, p0', p1', p2', p3', q0', q1', q2', q3'⟩ := he
    obtain ⟨ec, ea⟩ := edge_unique hd g hf p0 p1 p0' p1' (q0.symm.trans q0') (q1.symm.trans q1')
    obtain ⟨_, eb⟩ := edge_unique hd g hf p0 p3 p0' p3' (q0.symm.trans q0') (q3.symm.trans q3')
    have inj : ∀ v w, firstDir v = firstDir w → secondDir v = secondDir w → v = w := by decide
    obtain rfl := inj v w ea eb
    rw [hmc] at ec
    obtain ⟨rfl, rfl, rfl⟩ := coords3_inj ec
    rfl

example : exampleGrid.numberOfFaces3 = 121 ∧ exampleGrid.face3 120 = ![66, 67, 71, 70] ∧
    exampleGrid.face3 6 = ![0, 1, 13, 12] := by decide +kernel

end Faces

end Caribou
