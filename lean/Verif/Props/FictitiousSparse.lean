import Verif.Model.FictitiousSparse
import Verif.Props.FictitiousGrid

/-!
# Property C64: numbering of the sparse grid
-/

set_option autoImplicit false

namespace Caribou

open Spec FictitiousGrid

variable {D : ℕ} {K : Type*}

theorem mem_indices (count i : ℤ) : i ∈ indices count ↔ 0 ≤ i ∧ i < count := by
  simp only [indices, List.mem_map, List.mem_range]
  constructor
  · rintro ⟨n, hn, rfl⟩; omega
  · rintro ⟨h0, h1⟩; exact ⟨i.toNat, by omega, by omega⟩

theorem indices_sorted (count : ℤ) : (indices count).Pairwise (· < ·) := by
  rw [indices, List.pairwise_map]
  exact List.pairwise_lt_range.imp fun h => by exact_mod_cast h

theorem indices_length (count : ℤ) (h : 0 ≤ count) : ((indices count).length : ℤ) = count := by
  simp [indices, h]

/-! ### Renumbering -/

theorem number_fold (used : ℤ → Bool) (l : List ℤ) : ∀ (s : Numbering), (s.inGrid ++ l).Nodup → (∀ x ∈ s.inGrid, used x = true) →
    (s.inGrid.length + l.length : ℤ) < 2 ^ 31 →
    (∀ (k : ℕ) (x : ℤ), s.inGrid[k]? = some x → s.inSparse x = k) → (∀ x, x ∉ s.inGrid → s.inSparse x = -1) →
    (l.foldl (number used) s).inGrid = s.inGrid ++ l.filter used ∧
    (∀ (k : ℕ) (x : ℤ), (l.foldl (number used) s).inGrid[k]? = some x → (l.foldl (number used) s).inSparse x = k) ∧
    ∀ x, x ∉ (l.foldl (number used) s).inGrid → (l.foldl (number used) s).inSparse x = -1 := by
  induction l with
  | nil => intro s _ _ _ h1 h2; simpa using ⟨h1, h2⟩
  | cons a l ih =>
    intro s hnd hus hlen h1 h2
    rw [List.foldl_cons]
    have hlen' : (s.inGrid.length : ℤ) + l.length + 1 < 2 ^ 31 := by simpa [add_assoc] using hlen
    by_cases ha : used a = true
    · have e : number used s a = ⟨s.inGrid ++ [a], Function.update s.inSparse a (s.inGrid.length : ℤ)⟩ := by
        rw [number, if_pos ha, toI32_id (by omega) (by omega)]
        simp
      have hmem : a ∉ s.inGrid := by
        intro h
        rw [List.nodup_append] at hnd
        exact hnd.2.2 a h a (by simp) rfl
      have key := ih (number used s a) (by rw [e]; simpa using hnd) ?_ (by rw [e]; simp; omega) ?_ ?_
      · refine ⟨?_, key.2.1, key.2.2⟩
        rw [key.1, e, List.filter_cons_of_pos ha]; simp
      · rw [e]
        intro x hx
        rcases List.mem_append.mp hx with h | h
        · exact hus x h
        · rw [List.mem_singleton.mp h]; exact ha
      · rw [e]
        intro k x hk
        change (s.inGrid ++ [a])[k]? = some x at hk
        change Function.update s.inSparse a _ x = _
        rcases lt_trichotomy k s.inGrid.length with h | h | h
        · rw [List.getElem?_append_left h] at hk
          have hx : x ∈ s.inGrid := List.mem_of_getElem? hk
          rw [Function.update_of_ne (fun hxa : x = a => hmem (hxa ▸ hx)), h1 k x hk]
        · subst h
          have hxa : a = x := by simpa using hk
          subst hxa
          rw [Function.update_self]
        · rw [List.getElem?_append_right h.le, List.getElem?_eq_none (by simp; omega)] at hk
          exact absurd hk (by simp)
      · rw [e]
        intro x hx
        change x ∉ s.inGrid ++ [a] at hx
        change Function.update s.inSparse a _ x = _
        rw [List.mem_append, List.mem_singleton, not_or] at hx
        rw [Function.update_of_ne hx.2, h2 x hx.1]
    · have e : number used s a = s := by rw [number, if_neg ha]
      rw [e, List.filter_cons_of_neg ha]
      refine ih s (hnd.sublist ?_) hus (by omega) h1 h2
      exact List.Sublist.append_left (List.sublist_cons_self a l) _

/-- What the two vectors contain. -/
theorem numberAll_spec (used : ℤ → Bool) (count : ℤ) (h0 : 0 ≤ count) (h1 : count < 2 ^ 31) :
    (numberAll used count).inGrid = (indices count).filter used ∧
    (∀ (k : ℕ) (x : ℤ), (numberAll used count).inGrid[k]? = some x → (numberAll used count).inSparse x = k) ∧
    ∀ x, x ∉ (numberAll used count).inGrid → (numberAll used count).inSparse x = -1 := by
  refine (number_fold used (indices count) ⟨[], fun _ => -1⟩ ?_ (by simp) ?_ (by simp) (by simp)).imp (fun h => by simpa [numberAll] using h) id
  · rw [List.nil_append]; exact (indices_sorted count).imp fun {a b} h => ne_of_lt h
  · simp only [List.length_nil, Nat.cast_zero, zero_add, indices_length count h0]; exact h1

variable [Field K] [LinearOrder K]

/-! ### Used cells and nodes -/

/-- **Spec.** The cell is part of the sparse grid: it is not a leaf of type `Outside`, and the weights of its leaves of type
`Inside` or `Boundary` add up to the threshold at least. -/
def Spec.Kept (t : CellTree D (CellData K)) (threshold : K) : Prop :=
  (∀ d, LeafAt t [] d → d.type ≠ .outside) ∧
    threshold ≤ ((t.leafCells.map Prod.snd).map fun d => if d.type = .inside ∨ d.type = .boundary then d.weight else 0).sum

omit [LinearOrder K] in
theorem cellWeight_dfs (t : CellTree D (CellData K)) (p : List (Fin (2 ^ D))) : cellWeight t =
    (((dfs t p).map Prod.snd).map fun d => if d.type = .inside ∨ d.type = .boundary then d.weight else 0).sum := by
  induction t generalizing p with
  | leaf d => simp [cellWeight, dfs]
  | node ch ih =>
    rw [cellWeight, dfs, ← List.sum_eq_foldl]
    simp only [List.map_flatMap]
    rw [List.flatMap_def, List.sum_flatten, List.map_map]
    refine congrArg List.sum (List.map_congr_left fun i _ => ih i _)

omit [LinearOrder K] in
/-- `get_cell_weight` adds the weights of the leaves inside or on the boundary. -/
theorem C64_weight (t : CellTree D (CellData K)) : cellWeight t =
    ((t.leafCells.map Prod.snd).map fun d => if d.type = .inside ∨ d.type = .boundary then d.weight else 0).sum := by
  rw [cellWeight_dfs t [], ((leafCells_perm t).map _ |>.map _).sum_eq]

theorem kept_iff (t : CellTree D (CellData K)) (threshold : K) :
    (!(match t with
      | .leaf data => decide (data.type = .outside)
      | .node _ => false) && decide (cellWeight t ≥ threshold)) = true ↔ Kept t threshold := by
  rw [Kept, ← C64_weight]
  cases t with
  | leaf d =>
    simp only [Bool.and_eq_true, Bool.not_eq_true', decide_eq_false_iff_not, decide_eq_true_eq, ge_iff_le]
    exact and_congr_left fun _ => ⟨fun h d' hd => by cases hd; exact h, fun h => h d (.here _)⟩
  | node ch =>
    simp only [Bool.not_false, Bool.true_and, decide_eq_true_eq, ge_iff_le]
    exact ⟨fun h => ⟨fun d hd => (nomatch hd), h⟩, fun h => h.2⟩

theorem update_fold (l : List ℤ) : ∀ (u : ℤ → Bool) (x : ℤ),
    l.foldl (fun u n => Function.update u n true) u x = true ↔ u x = true ∨ x ∈ l := by
  induction l with
  | nil => simp
  | cons a l ih =>
    intro u x
    rw [List.foldl_cons, ih]
    by_cases h : x = a
    · subst h; simp
    · rw [Function.update_of_ne h]; simp [h]

theorem markCells_fold (g : Grid D K) (cells : ℤ → CellTree D (CellData K)) (threshold : K) (l : List ℤ) : ∀ s : Used,
    (∀ x, (l.foldl (markCell g cells threshold) s).cell x = true ↔ s.cell x = true ∨ (x ∈ l ∧ Kept (cells x) threshold)) ∧
    ∀ x, (l.foldl (markCell g cells threshold) s).node x = true ↔
      s.node x = true ∨ ∃ c ∈ l, Kept (cells c) threshold ∧ x ∈ elementNodes g c := by
  induction l with
  | nil => simp
  | cons a l ih =>
    intro s
    rw [List.foldl_cons]
    obtain ⟨h1, h2⟩ := ih (markCell g cells threshold s a)
    by_cases ha : Kept (cells a) threshold
    · have e : markCell g cells threshold s a =
          ⟨Function.update s.cell a true, (elementNodes g a).foldl (fun u n => Function.update u n true) s.node⟩ :=
        if_pos ((kept_iff _ _).mpr ha)
      constructor
      · intro x
        rw [h1, e]
        by_cases h : x = a
        · subst h; simp [ha]
        · simp only [Function.update_of_ne h, List.mem_cons, h, false_or]
      · intro x
        rw [h2, e]
        simp only [update_fold, List.mem_cons, exists_eq_or_imp, ha, true_and, or_assoc]
    · have e : markCell g cells threshold s a = s := if_neg (mt (kept_iff _ _).mp ha)
      constructor
      · intro x
        rw [h1, e]
        by_cases h : x = a
        · subst h; simp [ha]
        · simp only [List.mem_cons, h, false_or]
      · intro x
        rw [h2, e]
        simp only [List.mem_cons, exists_eq_or_imp, ha, false_and, false_or]

theorem markCells_cell (g : Grid D K) (cells : ℤ → CellTree D (CellData K)) (threshold : K) (x : ℤ) :
    (markCells g cells threshold).cell x = true ↔ (0 ≤ x ∧ x < g.numberOfCells) ∧ Kept (cells x) threshold := by
  have := (markCells_fold g cells threshold (indices g.numberOfCells) ⟨fun _ => false, fun _ => false⟩).1 x
  rw [mem_indices] at this
  simpa [markCells] using this

theorem markCells_node (g : Grid D K) (cells : ℤ → CellTree D (CellData K)) (threshold : K) (x : ℤ) :
    (markCells g cells threshold).node x = true ↔
      ∃ c, (0 ≤ c ∧ c < g.numberOfCells) ∧ Kept (cells c) threshold ∧ x ∈ elementNodes g c := by
  have := (markCells_fold g cells threshold (indices g.numberOfCells) ⟨fun _ => false, fun _ => false⟩).2 x
  simp only [mem_indices] at this
  simpa [markCells] using this

/-! ### The property -/

/-- **Spec.** `inGrid` and `inSparse` are inverse bijections between the indices satisfying `P` and the first integers, both
increasing; `inSparse` is `-1` on the other indices. -/
structure Spec.Renumbers (inGrid : List ℤ) (inSparse : ℤ → ℤ) (P : ℤ → Prop) : Prop where
  mem : ∀ x, x ∈ inGrid ↔ P x
  increasing : inGrid.Pairwise (· < ·)
  left : ∀ (k : ℕ) (x : ℤ), inGrid[k]? = some x → inSparse x = k
  right : ∀ x, P x → 0 ≤ inSparse x ∧ inGrid[(inSparse x).toNat]? = some x
  other : ∀ x, ¬ P x → inSparse x = -1

theorem numberAll_renumbers (used : ℤ → Bool) (count : ℤ) (h0 : 0 ≤ count) (h1 : count < 2 ^ 31) :
    Renumbers (numberAll used count).inGrid (numberAll used count).inSparse
      (fun x => (0 ≤ x ∧ x < count) ∧ used x = true) := by
  obtain ⟨e, hl, ho⟩ := numberAll_spec used count h0 h1
  have hm : ∀ x, x ∈ (numberAll used count).inGrid ↔ (0 ≤ x ∧ x < count) ∧ used x = true := fun x => by
    rw [e, List.mem_filter, mem_indices]
  refine ⟨hm, ?_, hl, fun x hx => ?_, fun x hx => ho x (mt (hm x).mp hx)⟩
  · rw [e]; exact (indices_sorted count).filter _
  · obtain ⟨k, hk⟩ := List.getElem?_of_mem ((hm x).mpr hx)
    rw [hl k x hk]
    exact ⟨by omega, by simpa using hk⟩

theorem elementNodes_range [IsStrictOrderedRing K] (h : Is23 D) (g : Grid D K) (hf : Fits g.n) (c : ℤ) (h0 : 0 ≤ c)
    (h1 : c < g.numberOfCells) (x : ℤ) (hx : x ∈ elementNodes g c) : 0 ≤ x ∧ x < g.numberOfNodes := by
  rcases h with rfl | rfl
  · obtain ⟨i, rfl⟩ := (List.mem_ofFn' _ _).mp hx
    exact (C25_2d g hf c h0 h1).1 i
  · obtain ⟨i, rfl⟩ := (List.mem_ofFn' _ _).mp hx
    exact (C25_3d g hf c h0 h1).1 i

/-- **C64.** For every grid with fewer than `2^31` nodes, every tree of cells and every threshold:
* the numbering of the cells is a bijection between the kept cells and the first integers;
* the numbering of the nodes is a bijection between the nodes of the kept cells and the first integers;
* the position of each sparse node is the one of its node in the grid;
* there is one sparse element per kept cell, and the entry `j` of the element `k` is the number of a sparse node, which is
  the `j`-th node of the cell in the grid. -/
theorem C64 [IsStrictOrderedRing K] (h : Is23 D) (g : Grid D K) (hf : Fits g.n) (hN : g.numberOfNodes < 2 ^ 31)
    (cells : ℤ → CellTree D (CellData K)) (threshold : K) :
    let s := createSparseGrid g cells threshold
    Renumbers s.cells.inGrid s.cells.inSparse (fun c => (0 ≤ c ∧ c < g.numberOfCells) ∧ Kept (cells c) threshold) ∧
    Renumbers s.nodes.inGrid s.nodes.inSparse (fun x =>
      ∃ c, (0 ≤ c ∧ c < g.numberOfCells) ∧ Kept (cells c) threshold ∧ x ∈ elementNodes g c) ∧
    s.positions = s.nodes.inGrid.map g.node ∧
    s.elements.length = s.cells.inGrid.length ∧
    ∀ (k : ℕ) (c : ℤ) (e : List ℤ), s.cells.inGrid[k]? = some c → s.elements[k]? = some e →
      e.length = 2 ^ D ∧ ∀ (j : ℕ) (m x : ℤ), e[j]? = some m → (elementNodes g c)[j]? = some x →
        0 ≤ m ∧ m < s.nodes.inGrid.length ∧ s.nodes.inGrid[m.toNat]? = some x := by
  have hcells : g.numberOfCells = ∏ a, (g.n a : ℤ) := C24_count g hf
  have hle : g.numberOfCells ≤ g.numberOfNodes := by
    rw [hcells, C23_count g hf]
    exact Finset.prod_le_prod (fun a _ => by positivity) fun a _ => by omega
  have hc0 : 0 ≤ g.numberOfCells := by rw [hcells]; exact Finset.prod_nonneg fun a _ => by positivity
  have rc := numberAll_renumbers (markCells g cells threshold).cell g.numberOfCells hc0 (by omega)
  have rn := numberAll_renumbers (markCells g cells threshold).node g.numberOfNodes (by omega) hN
  have ec : (fun c => (0 ≤ c ∧ c < g.numberOfCells) ∧ (markCells g cells threshold).cell c = true) =
      fun c => (0 ≤ c ∧ c < g.numberOfCells) ∧ Kept (cells c) threshold := by
    funext c
    rw [eq_iff_iff, markCells_cell]
    tauto
  have en : (fun c => (0 ≤ c ∧ c < g.numberOfNodes) ∧ (markCells g cells threshold).node c = true) =
      fun x => ∃ c, (0 ≤ c ∧ c < g.numberOfCells) ∧ Kept (cells c) threshold ∧ x ∈ elementNodes g c := by
    funext x
    rw [eq_iff_iff, markCells_node]
    refine ⟨fun h => h.2, fun hx => ⟨?_, hx⟩⟩
    obtain ⟨c, hc, -, hxc⟩ := hx
    exact elementNodes_range h g hf c hc.1 hc.2 x hxc
  rw [ec] at rc
  rw [en] at rn
  refine ⟨rc, rn, rfl, by simp [createSparseGrid], fun k c e hk he => ?_⟩
  have hkept := (rc.mem c).mp (List.mem_of_getElem? hk)
  have hee : e = (elementNodes g c).map fun n => (createSparseGrid g cells threshold).nodes.inSparse n % 2 ^ 32 := by
    have : (createSparseGrid g cells threshold).elements[k]? = some ((elementNodes g c).map fun n =>
        (createSparseGrid g cells threshold).nodes.inSparse n % 2 ^ 32) := by
      simp only [createSparseGrid, List.getElem?_map] at hk ⊢
      rw [hk]; rfl
    rw [this] at he
    exact (Option.some.inj he).symm
  refine ⟨?_, fun j m x hj hx => ?_⟩
  · rw [hee, List.length_map]
    rcases h with rfl | rfl <;> simp [elementNodes]
  · have hxn : x ∈ elementNodes g c := List.mem_of_getElem? hx
    have hr := rn.right x ⟨c, hkept.1, hkept.2, hxn⟩
    change 0 ≤ (createSparseGrid g cells threshold).nodes.inSparse x ∧
      (createSparseGrid g cells threshold).nodes.inGrid[((createSparseGrid g cells threshold).nodes.inSparse x).toNat]? = some x at hr
    rw [hee, List.getElem?_map, hx] at hj
    have hjm : (createSparseGrid g cells threshold).nodes.inSparse x % 2 ^ 32 = m := Option.some.inj hj
    have hlen : ((createSparseGrid g cells threshold).nodes.inGrid.length : ℤ) ≤ g.numberOfNodes := by
      have e1 : (createSparseGrid g cells threshold).nodes.inGrid = (indices g.numberOfNodes).filter _ :=
        (numberAll_spec (markCells g cells threshold).node g.numberOfNodes (by omega) hN).1
      rw [e1]
      have := List.length_filter_le (markCells g cells threshold).node (indices g.numberOfNodes)
      have := indices_length g.numberOfNodes (by omega)
      omega
    obtain ⟨hlt, -⟩ := List.getElem?_eq_some_iff.mp hr.2
    have hm : m = (createSparseGrid g cells threshold).nodes.inSparse x := by
      rw [← hjm]; exact Int.emod_eq_of_lt hr.1 (by omega)
    rw [hm]
    exact ⟨hr.1, by omega, hr.2⟩

/-- A grid of `3 × 1` cells whose second cell is outside and whose third cell is divided in four. -/
def sparseExample : ℤ → CellTree 2 (CellData ℚ)
  | 0 => .leaf ⟨.inside, 1⟩
  | 1 => .leaf ⟨.outside, 1⟩
  | _ => .node ![.leaf ⟨.boundary, 1/4⟩, .leaf ⟨.outside, 1/4⟩, .leaf ⟨.inside, 1/4⟩, .leaf ⟨.outside, 1/4⟩]

/-- Non-vacuity of `C64`: hypotheses, and the resulting elements and tables. -/
example : let g : Grid 2 ℚ := ⟨![0, 0], ![3, 1], ![3, 1]⟩
    Fits g.n ∧ g.numberOfNodes < 2 ^ 31 ∧
    (createSparseGrid g sparseExample (1/2)).elements = [[0, 1, 5, 4], [2, 3, 7, 6]] ∧
    (createSparseGrid g sparseExample (1/2)).cells.inGrid = [0, 2] ∧
    (createSparseGrid g sparseExample (3/4)).elements = [[0, 1, 3, 2]] := by
  refine ⟨?_, ?_, ?_, ?_, ?_⟩ <;> first | decide +kernel | (simp only [Fits]; decide +kernel)

end Caribou
