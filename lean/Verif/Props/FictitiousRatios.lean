import Verif.Props.FictitiousLife

/-!
# Point queries and volume ratios of a fictitious grid (C102)
-/

set_option autoImplicit false

namespace Caribou

open Spec FictitiousGrid

/-! ### The distribution -/

section Distribution

variable {K : Type*} [Field K] [LinearOrder K]

theorem mem_insertRatio (ρ : K) (i : ℤ) (r : K) (l : List ℤ) : ∀ m : List (K × List ℤ), (m.map Prod.fst).Pairwise (· < ·) →
    ((r, l) ∈ insertRatio ρ i m ↔ (r ≠ ρ ∧ (r, l) ∈ m) ∨
      (r = ρ ∧ ((∃ l', (ρ, l') ∈ m ∧ l = l' ++ [i]) ∨ ((∀ l', (ρ, l') ∉ m) ∧ l = [i]))))
  | [], _ => by simp [insertRatio]
  | (s, c) :: m, h => by
    rw [List.map_cons, List.pairwise_cons] at h
    have hlt : ∀ x l', (x, l') ∈ m → s < x := fun x l' hx => h.1 x (List.mem_map.mpr ⟨_, hx, rfl⟩)
    rw [insertRatio]
    split_ifs with h1 h2
    · have hno : ∀ l', (ρ, l') ∉ (s, c) :: m := fun l' hl => by
        rcases List.mem_cons.mp hl with e | hl
        · cases e; exact lt_irrefl _ h1
        · exact lt_asymm h1 (hlt _ _ hl)
      rw [List.mem_cons, Prod.mk.injEq]
      constructor
      · rintro (⟨rfl, rfl⟩ | hm)
        · exact .inr ⟨rfl, .inr ⟨hno, rfl⟩⟩
        · exact .inl ⟨fun e => hno l (e ▸ hm), hm⟩
      · rintro (⟨-, hm⟩ | ⟨rfl, ⟨l', hl, -⟩ | ⟨-, rfl⟩⟩)
        · exact .inr hm
        · exact absurd hl (hno l')
        · exact .inl ⟨rfl, rfl⟩
    · subst h2
      have hno : ∀ l', (ρ, l') ∉ m := fun l' hl => lt_irrefl _ (hlt _ _ hl)
      simp only [List.mem_cons, Prod.mk.injEq]
      constructor
      · rintro (⟨rfl, rfl⟩ | hm)
        · exact .inr ⟨rfl, .inl ⟨c, .inl ⟨trivial, rfl⟩, rfl⟩⟩
        · exact .inl ⟨(hlt _ _ hm).ne', .inr hm⟩
      · rintro (⟨hne, ⟨rfl, -⟩ | hm⟩ | ⟨rfl, ⟨l', ⟨-, rfl⟩ | hl, rfl⟩ | ⟨hno', rfl⟩⟩)
        · exact absurd rfl hne
        · exact .inr hm
        · exact .inl ⟨rfl, rfl⟩
        · exact absurd hl (hno l')
        · exact absurd (.inl ⟨trivial, rfl⟩) (hno' c)
    · rw [List.mem_cons, mem_insertRatio ρ i r l m h.2]
      simp only [List.mem_cons, Prod.mk.injEq]
      constructor
      · rintro (⟨rfl, rfl⟩ | ⟨hne, hm⟩ | ⟨rfl, ⟨l', hl, rfl⟩ | ⟨hno, rfl⟩⟩)
        · exact .inl ⟨fun e => h2 e.symm, .inl ⟨rfl, rfl⟩⟩
        · exact .inl ⟨hne, .inr hm⟩
        · exact .inr ⟨rfl, .inl ⟨l', .inr hl, rfl⟩⟩
        · refine .inr ⟨rfl, .inr ⟨fun l' hl => ?_, rfl⟩⟩
          rcases hl with ⟨e, -⟩ | hl
          · exact h2 e
          · exact hno l' hl
      · rintro (⟨hne, e | hm⟩ | ⟨rfl, ⟨l', ⟨e, -⟩ | hl, rfl⟩ | ⟨hno', rfl⟩⟩)
        · exact .inl e
        · exact .inr (.inl ⟨hne, hm⟩)
        · exact absurd e h2
        · exact .inr (.inr ⟨rfl, .inl ⟨l', hl, rfl⟩⟩)
        · exact .inr (.inr ⟨rfl, .inr ⟨fun l' hl => hno' l' (.inr hl), rfl⟩⟩)

theorem insertRatio_sorted (ρ : K) (i : ℤ) : ∀ m : List (K × List ℤ), (m.map Prod.fst).Pairwise (· < ·) →
    ((insertRatio ρ i m).map Prod.fst).Pairwise (· < ·)
  | [], _ => by simp [insertRatio]
  | (s, c) :: m, h => by
    have h' := h
    rw [List.map_cons, List.pairwise_cons] at h
    rw [insertRatio]
    split_ifs with h1 h2
    · rw [List.map_cons, List.pairwise_cons]
      refine ⟨fun x hx => ?_, h'⟩
      rw [List.map_cons, List.mem_cons] at hx
      rcases hx with rfl | hx
      · exact h1
      · exact h1.trans (h.1 x hx)
    · exact h'
    · rw [List.map_cons, List.pairwise_cons]
      refine ⟨fun x hx => ?_, insertRatio_sorted ρ i m h.2⟩
      obtain ⟨⟨x', l⟩, hm, rfl⟩ := List.mem_map.mp hx
      rcases (mem_insertRatio ρ i x' l m h.2).mp hm with ⟨-, hm⟩ | ⟨rfl, -⟩
      · exact h.1 _ (List.mem_map.mpr ⟨_, hm, rfl⟩)
      · exact lt_of_le_of_ne (not_lt.mp h1) fun e => h2 e.symm

theorem isDistribution_step {pre : List ℤ} {value : ℤ → Option K} {m : List (K × List ℤ)} (h : IsDistribution pre value m) (i : ℤ) :
    IsDistribution (pre ++ [i]) value (match value i with
      | some r => insertRatio r i m
      | none => m) := by
  obtain ⟨h1, h2, h3⟩ := h
  rcases e : value i with _ | ρ
  · refine ⟨h1, fun r l hm => ?_, fun j hj r hr => ?_⟩
    · obtain ⟨a, b⟩ := h2 r l hm
      exact ⟨a, by rw [List.filter_append, ← b]; simp [e]⟩
    · rcases List.mem_append.mp hj with hj | hj
      · exact h3 j hj r hr
      · rw [List.mem_singleton.mp hj, e] at hr; cases hr
  · refine ⟨insertRatio_sorted _ _ _ h1, fun r l hm => ?_, fun j hj r hr => ?_⟩
    · rcases (mem_insertRatio ρ i r l m h1).mp hm with ⟨hne, hm⟩ | ⟨rfl, ⟨l', hl, rfl⟩ | ⟨hno, rfl⟩⟩
      · obtain ⟨a, b⟩ := h2 r l hm
        refine ⟨a, ?_⟩
        rw [List.filter_append, ← b]
        simp [e, hne.symm]
      · obtain ⟨a, b⟩ := h2 r l' hl
        refine ⟨by simp, ?_⟩
        rw [List.filter_append, ← b]
        simp [e]
      · refine ⟨by simp, ?_⟩
        have : pre.filter (fun j => decide (value j = some r)) = [] := by
          rw [List.filter_eq_nil_iff]
          intro j hj hv
          obtain ⟨l, hl⟩ := h3 j hj r (by simpa using hv)
          exact hno l hl
        rw [List.filter_append, this]
        simp [e]
    · by_cases hρ : r = ρ
      · subst hρ
        by_cases hex : ∃ l', (r, l') ∈ m
        · obtain ⟨l', hl⟩ := hex
          exact ⟨_, (mem_insertRatio r i r _ m h1).mpr (.inr ⟨rfl, .inl ⟨l', hl, rfl⟩⟩)⟩
        · push Not at hex
          exact ⟨_, (mem_insertRatio r i r _ m h1).mpr (.inr ⟨rfl, .inr ⟨hex, rfl⟩⟩)⟩
      · rcases List.mem_append.mp hj with hj | hj
        · obtain ⟨l, hl⟩ := h3 j hj r hr
          exact ⟨l, (mem_insertRatio ρ i r l m h1).mpr (.inl ⟨hρ, hl⟩)⟩
        · rw [List.mem_singleton.mp hj, e] at hr
          exact absurd (Option.some.inj hr).symm hρ

theorem isDistribution_fold (value : ℤ → Option K) (l : List ℤ) : ∀ (pre : List ℤ) (m : List (K × List ℤ)), IsDistribution pre value m →
    IsDistribution (pre ++ l) value (l.foldl (fun m i => match value i with
      | some r => insertRatio r i m
      | none => m) m) := by
  induction l with
  | nil => intro pre m h; simpa using h
  | cons i l ih =>
    intro pre m h
    have := ih (pre ++ [i]) _ (isDistribution_step h i)
    simpa using this

/-- **C102 (distribution).** Whatever the types and the trees, `cell_volume_ratio_distribution` lists the ratios in increasing order, each of
them with the cells which have it, in increasing order; a cell without type is in no list and every other cell in exactly one. -/
theorem C102_distribution [FloorRing K] {D : ℕ} (g : Grid D K) (types : ℤ → CellType) (cells : ℤ → CellTree D (CellData K)) (decimals : ℕ) :
    IsDistribution (indices g.numberOfCells) (cellRatio types cells decimals) (volumeRatios g types cells decimals) ∧
    ∀ i, cellRatio types cells decimals i = none ↔ types i = .undef := by
  refine ⟨?_, fun i => ?_⟩
  · have := isDistribution_fold (cellRatio types cells decimals) (indices g.numberOfCells) [] [] ⟨by simp, by simp, by simp⟩
    rw [List.nil_append] at this
    exact this
  · unfold cellRatio
    cases types i <;> simp

end Distribution

/-! ### Implicit surfaces -/

section Iso

variable {D : ℕ} {K : Type*} [Field K] [LinearOrder K] [IsStrictOrderedRing K]

/-- **Spec.** The part of a cell which is covered by its leaves inside the object or on its boundary. -/
def Spec.covered (t : CellTree D (CellData K)) : K :=
  ((t.leafCells.map Prod.snd).map fun d => if d.type = .inside ∨ d.type = .boundary then d.weight else 0).sum

theorem gridBox_nodes (h : Is23 D) (g : Grid D K) (hf : Fits g.n) (iso : (Fin D → K) → K) (i : ℤ) (h0 : 0 ≤ i) (h1 : i < g.numberOfCells) :
    (gridBox g i).nodes.map iso = (elementNodes g i).map fun n => iso (g.node n) := by
  rcases h with rfl | rfl
  · obtain ⟨-, -, -, hn⟩ := C25_2d g hf i h0 h1
    simp only [Box.nodes, elementNodes, List.map_ofFn]
    congr 1
    funext k
    simp only [Function.comp]
    congr 1
    funext a
    rw [hn]
    simp only [gridPoint, Box.world, gridBox, Grid.cellCenter]
    ring
  · obtain ⟨-, -, -, hn⟩ := C25_3d g hf i h0 h1
    simp only [Box.nodes, elementNodes, List.map_ofFn]
    congr 1
    funext k
    simp only [Function.comp]
    congr 1
    funext a
    rw [hn]
    simp only [gridPoint, Box.world, gridBox, Grid.cellCenter]
    ring

theorem leafType_find {cells : ℤ → CellTree D (CellData K)} {p : List (Fin (2 ^ D))} {i : ℤ} {d : CellData K}
    (h : LeafAt (cells i) p.reverse d) : leafType cells ⟨p, i⟩ = d.type := by
  rw [leafType, find_of_leaf h]

theorem isoCellType_ne (values : List K) : isoCellType values ≠ .undef := by
  unfold isoCellType
  split_ifs <;> simp

/-- **C102 (implicit surfaces).** With an implicit surface which is not zero at the corners of the cells, `create_grid` throws no exception.
The type of every leaf is found from the signs at its own corners, and the leaves `Boundary` are at the last level.  The stored type of a
cell agrees with the tree: a cell `Inside` or `Outside` is not subdivided.  The ratio of a cell is the part of it covered by its
leaves inside or on the boundary, exactly without rounding, and up to half a unit of the last decimal with rounding. -/
theorem C102_iso [FloorRing K] (h : Is23 D) (g : Grid D K) (hg : Proper g) (hf : Fits g.n) (hs : ∀ a, (g.n a : ℤ) < 2 ^ 31)
    (iso : (Fin D → K) → K) (hiso : ∀ c, 0 ≤ c → c < g.numberOfCells → ∀ n ∈ elementNodes g c, iso (g.node n) ≠ 0)
    (levels : ℕ) (threshold : K) (types : ℤ → CellType) :
    ∃ r, createGridIso g iso levels threshold types = .ok r ∧ r.sparse = createSparseGrid g r.cells threshold ∧
      (∀ c d, IsLeaf g r.cells c d → c.path.length ≤ levels ∧ d.weight = 1 / (2 ^ D) ^ c.path.length ∧
        d.type = isoCellType ((refBox g c.path c.top).nodes.map iso) ∧ (d.type = .boundary → c.path.length = levels)) ∧
      ∀ i, 0 ≤ i → i < g.numberOfCells →
        r.types i = isoCellType ((gridBox g i).nodes.map iso) ∧
        (r.types i ≠ .boundary → r.cells i = .leaf ⟨r.types i, 1⟩) ∧
        cellRatio r.types r.cells 0 i = some (covered (r.cells i)) ∧
        ∀ decimals, 0 < decimals → ∃ ρ, cellRatio r.types r.cells decimals i = some ρ ∧
          |ρ - covered (r.cells i)| ≤ 1 / 2 / 10 ^ decimals := by
  obtain ⟨types', et, ht⟩ := C67_partial g iso types hiso
  set cells := subdivideIso g iso levels with hcells
  have hcount : 0 ≤ g.numberOfCells := by
    rw [C24_count g hf]; exact Finset.prod_nonneg fun a _ => by positivity
  have hN : (g.numberOfCells.toNat : ℤ) = g.numberOfCells := Int.toNat_of_nonneg hcount
  obtain ⟨hcl, hsy⟩ := C62_grid h g hf hs hg.H_pos cells _ hN
  obtain ⟨s, hrun, -⟩ := C62 (leafType cells) (gridNeighbors g cells) (sides D) _ hcl hsy _ le_rfl
  have htags := tagRegions_spec h g hf hs hg.H_pos cells (leafType cells) _ hN s hrun
  have hval := C60_validate h g hf hs (fun a => (hg a).1) (fun a => (hg a).2)
    (fun i => fun e => classifyIso (e.nodes.map iso)) levels (leafType cells) _ hN s hrun
  have hval' := (validate_retype (fun i path => (tagRegions g ⟨s.regions, leafType cells⟩).type ⟨path, i⟩) cells g
    ⟨s.regions, leafType cells⟩).trans hval
  have hsub : ∀ i, cells i = subdivide (fun e => classifyIso (e.nodes.map iso)) levels (gridBox g i) 1 := fun i => rfl
  have hdata : ∀ i p d, LeafAt (cells i) p d → d.weight = 1 / (2 ^ D) ^ p.length ∧
      d.type = isoCellType ((boxBelow (gridBox g i) p).nodes.map iso) ∧ p.length ≤ levels ∧ (d.type = .boundary → p.length = levels) := by
    intro i p d hl
    rw [hsub] at hl
    obtain ⟨h1, h2, h3, h4⟩ := leaf_data _ _ _ _ _ _ hl
    rw [C67_subdivision] at h2 h4
    simp only [decide_eq_false_iff_not] at h2 h4
    refine ⟨h1, h2, h3, fun hb => ?_⟩
    by_contra hne
    have := h4 (lt_of_le_of_ne h3 hne)
    rw [h2] at hb
    exact this hb
  have hfinal : ∀ i, 0 ≤ i → i < g.numberOfCells →
      (cells i).retype (fun path => (tagRegions g ⟨s.regions, leafType cells⟩).type ⟨path, i⟩) [] = cells i := by
    intro i h0 h1
    refine retype_self _ _ _ fun p d hl => ?_
    rw [List.append_nil]
    have hl' : LeafAt (cells i) p.reverse.reverse d := by rw [List.reverse_reverse]; exact hl
    have hleaf : IsLeaf g cells ⟨p.reverse, i⟩ d := ⟨h0, by rw [← C24_count g hf]; exact h1, hl'⟩
    have hty : leafType cells ⟨p.reverse, i⟩ = d.type := leafType_find hl'
    rw [(htags _ d hleaf).1, hty]
    rw [hty, (hdata i p d hl).2.1]
    exact isoCellType_ne _
  have e : createGridIso g iso levels threshold types = .ok ⟨types',
      fun i => (cells i).retype (fun path => (tagRegions g ⟨s.regions, leafType cells⟩).type ⟨path, i⟩) [],
      (tagRegions g ⟨s.regions, leafType cells⟩).regions,
      createSparseGrid g (fun i => (cells i).retype (fun path => (tagRegions g ⟨s.regions, leafType cells⟩).type ⟨path, i⟩) []) threshold⟩ := by
    have hrun' : createRegions (leafType cells) (fun c s => getNeighbors g cells c s.1 s.2) (sides D)
        (allLeaves cells g.numberOfCells.toNat).length (allLeaves cells g.numberOfCells.toNat) = .ok s := hrun
    unfold createGridIso
    simp only [et, ← hcells, hrun', hval', if_true]
  refine ⟨_, e, rfl, fun c d hc => ?_, fun i h0 h1 => ?_⟩
  · obtain ⟨h0, h1, hl⟩ := hc
    simp only at hl
    rw [hfinal _ h0 (by rw [C24_count g hf]; exact h1)] at hl
    obtain ⟨a1, a2, a3, a4⟩ := hdata _ _ _ hl
    rw [List.length_reverse] at a1 a3 a4
    exact ⟨a3, a1, by rw [a2, refBox_eq], a4⟩
  · simp only [hfinal i h0 h1]
    have htype : types' i = isoCellType ((gridBox g i).nodes.map iso) := by rw [ht i h0 h1, gridBox_nodes h g hf iso i h0 h1]
    have hleaf : types' i ≠ .boundary → cells i = .leaf ⟨types' i, 1⟩ := by
      intro hb
      rw [hsub]
      have hc : classifyIso ((gridBox g i).nodes.map iso) = (types' i, false) := by
        rw [C67_subdivision, ← htype]
        simp [hb]
      cases levels with
      | zero => rw [subdivide, hc]
      | succ n => rw [subdivide, hc]; simp
    have hcov : covered (cells i) = cellWeight (cells i) := (C64_weight _).symm
    have hne : types' i ≠ .undef := by rw [htype]; exact isoCellType_ne _
    refine ⟨htype, hleaf, ?_, fun decimals hd => ?_⟩
    · rw [hcov]
      unfold cellRatio
      simp only [hfinal i h0 h1]
      rcases hty : types' i with _ | _ | _ | _
      · exact absurd hty hne
      all_goals first
        | rfl
        | (rw [hleaf (by rw [hty]; simp), hty]; simp [cellWeight])
    · rw [hcov]
      unfold cellRatio
      simp only [hfinal i h0 h1]
      have hp : (0 : K) < 10 ^ decimals := by positivity
      rcases hty : types' i with _ | _ | _ | _
      · exact absurd hty hne
      · refine ⟨_, rfl, ?_⟩
        rw [hleaf (by rw [hty]; simp), hty]
        simp only [cellWeight, true_or, if_true, sub_self, abs_zero]
        positivity
      · refine ⟨_, rfl, ?_⟩
        rw [hleaf (by rw [hty]; simp), hty]
        simp only [cellWeight, reduceCtorEq, or_self, if_false, sub_self, abs_zero]
        positivity
      · refine ⟨_, rfl, ?_⟩
        rw [if_neg hd.ne', div_sub' hp.ne', abs_div, abs_of_pos hp]
        refine div_le_div_of_nonneg_right ?_ hp.le
        rw [abs_sub_comm, mul_comm]
        simpa [mul_comm] using abs_sub_round (cellWeight (cells i) * 10 ^ decimals)

theorem isoCellType_inside (values : List K) : isoCellType values = .inside ↔ ∀ v ∈ values, v < 0 := by
  unfold isoCellType
  split_ifs with h1 h2 <;> simp_all

theorem isoCellType_outside {values : List K} (h : values ≠ []) : isoCellType values = .outside ↔ ∀ v ∈ values, 0 < v := by
  unfold isoCellType
  split_ifs with h1 h2
  · simp only [reduceCtorEq, false_iff, not_forall]
    obtain ⟨v, hv⟩ := List.exists_mem_of_ne_nil _ h
    exact ⟨v, hv, not_lt.mpr (h1 v hv).le⟩
  · simpa using h2
  · simpa using h2

theorem nodes_ne_nil (h : Is23 D) (e : Box D K) : e.nodes ≠ [] := by
  rcases h with rfl | rfl <;> simp [Box.nodes]

/-- **C102 (points, implicit surfaces).** The type given by `get_type_at` for a point of one cell only, when it is not `Boundary`, is the
type of this cell, which is not subdivided; and it is `Boundary` exactly when the corners of the cell are neither all inside nor all
outside. -/
theorem C102_point_iso [FloorRing K] (h : Is23 D) (g : Grid D K) (hg : Proper g) (hf : Fits g.n) (hs : ∀ a, (g.n a : ℤ) < 2 ^ 31)
    (iso : (Fin D → K) → K) (hiso : ∀ c, 0 ≤ c → c < g.numberOfCells → ∀ n ∈ elementNodes g c, iso (g.node n) ≠ 0)
    (levels : ℕ) (threshold : K) (types : ℤ → CellType) (r : IsoGrid D K) (hr : createGridIso g iso levels threshold types = .ok r)
    (p : Fin D → K) (hp : InGrid g.anchor g.size p) (c : Fin D → ℤ) (hc : Around g p c) (hall : ∀ c', Around g p c' → c' = c) :
    ∃ t, getTypeAt g r.types p = .ok t ∧ (t ≠ .boundary → r.cells (g.cellIndexAt c) = .leaf ⟨t, 1⟩) ∧
      (t = .inside ↔ ∀ x ∈ (gridBox g (g.cellIndexAt c)).nodes, iso x < 0) ∧
      (t = .outside ↔ ∀ x ∈ (gridBox g (g.cellIndexAt c)).nodes, 0 < iso x) ∧ t ≠ .undef := by
  have hd : IsDim D := h.elim (fun e => .inr (.inl e)) fun e => .inr (.inr e)
  obtain ⟨r', e, -, -, hi⟩ := C102_iso h g hg hf hs iso hiso levels threshold types
  rw [hr] at e
  cases e
  obtain ⟨h0, h1, -⟩ := C24_coordinates hd g hf c hc.1
  obtain ⟨h2, h3, -⟩ := hi _ h0 h1
  refine ⟨_, ((C66_partial hd g hg hf r.types p).1 hp).1 c hc hall, h3, ?_, ?_, by rw [h2]; exact isoCellType_ne _⟩
  · rw [h2, isoCellType_inside, List.forall_mem_map]
  · rw [h2, isoCellType_outside (by simpa using nodes_ne_nil h _), List.forall_mem_map]

/-- **C102 is violated** in three dimensions by a component which has not yet tagged a triangle mesh: a reference to an entry of
`p_triangles_of_cell`, which is empty, is taken for every cell.  (The reference is not used; it is only harmful with a checked standard
library.) -/
theorem C102_iso3_violated (g : Grid 3 K) (h : 0 < g.numberOfCells) (iso : (Fin 3 → K) → K) (levels : ℕ) (threshold : K)
    (types : ℤ → CellType) : createGridIso3 0 g iso levels threshold types = .undefined := by
  unfold createGridIso3
  split
  · rw [if_pos h]
  · rfl

/-- Otherwise it is what `C102_iso` describes. -/
theorem C102_iso3 (g : Grid 3 K) (iso : (Fin 3 → K) → K) (levels : ℕ) (threshold : K) (types : ℤ → CellType) (size : ℤ)
    (h : g.numberOfCells ≤ size) : createGridIso3 size g iso levels threshold types = createGridIso g iso levels threshold types := by
  unfold createGridIso3 createGridIso
  split
  · rename_i t e
    rw [if_neg (not_lt.mpr h)]
  · rfl

end Iso

/-! ### Triangle meshes -/

theorem tagCell_types (g : Grid 3 ℝ) (t : Fin 3 → Fin 3 → ℝ) (k : ℕ) (l : List ℤ) : ∀ (s : SurfaceTags) (i : ℤ),
    (l.foldl (tagCell g t k) s).types i = s.types i ∨ (l.foldl (tagCell g t k) s).types i = .boundary := by
  induction l with
  | nil => intro s i; exact .inl rfl
  | cons a l ih =>
    intro s i
    rcases ih (tagCell g t k s a) i with h | h
    · rw [List.foldl_cons, h]
      unfold tagCell
      split_ifs
      · rw [add_types]
        split_ifs
        · exact .inr rfl
        · exact .inl rfl
      · exact .inl rfl
    · exact .inr h

theorem tagTriangles_types (g : Grid 3 ℝ) (S : SurfaceMesh) (L : List (Fin 3 → ℕ)) : ∀ (k : ℕ) (s : SurfaceTags) (i : ℤ),
    (tagTriangles g S L k s).1.types i = s.types i ∨ (tagTriangles g S L k s).1.types i = .boundary := by
  induction L with
  | nil => intro k s i; exact .inl rfl
  | cons t L ih =>
    intro k s i
    rw [tagTriangles]
    split_ifs with c1 c2
    · exact .inl rfl
    · exact ih _ _ i
    · split
      · exact .inl rfl
      · rcases ih (k + 1) (s.add _ k) i with h | h
        · rw [h, add_types]
          split_ifs
          · exact .inr rfl
          · exact .inl rfl
        · exact .inr h
      · rcases ih (k + 1) (List.foldl _ s _) i with h | h
        · rw [h]; exact tagCell_types _ _ _ _ _ _
        · exact .inr h

/-- What is stored in a component: cell types `Undefined` and `Boundary` only. -/
def OnlyBoundary (c : GridComponent) : Prop :=
  (∀ i, 0 ≤ i → i < c.typesSize → c.types i = .undef ∨ c.types i = .boundary) ∧
  (c.grid.isSome → ∀ i, c.types i = .undef ∨ c.types i = .boundary)

theorem firstPass_types (c : GridComponent) (h : OnlyBoundary c) (g : Grid 3 ℝ) (i : ℤ) :
    (c.firstPass g).types i = .undef ∨ (c.firstPass g).types i = .boundary := by
  simp only [GridComponent.firstPass, clipped]
  split_ifs with hi
  · rcases tagTriangles_types g c.mesh c.mesh.triangles 0
      ⟨resized c.typesSize c.types g.numberOfCells .undef, resized c.trianglesSize c.triangles g.numberOfCells [], []⟩ i with e | e
    · rw [e]
      simp only [resized]
      split_ifs with hc
      · exact h.1 i hc.1 hc.2.1
      · exact .inl rfl
    · exact .inr e
  · exact .inl rfl

theorem createGrid_only (c r : GridComponent) (h : OnlyBoundary c) (e : c.createGrid = .ok r) : OnlyBoundary r := by
  obtain ⟨-, -, -, -, ht, -⟩ := createGrid_data e
  have : ∀ i, r.types i = .undef ∨ r.types i = .boundary := fun i => by rw [ht]; exact firstPass_types c h _ i
  exact ⟨fun i _ _ => this i, fun _ => this⟩

theorem bounded_only {c : GridComponent} (h : OnlyBoundary c) (lowest highest : ℝ) : OnlyBoundary (c.bounded lowest highest) := by
  obtain ⟨-, -, -, h4, h5, h6, -⟩ := bounded_members c lowest highest
  unfold OnlyBoundary
  rw [h4, h5, h6]
  exact h

theorem run_only (lowest highest : ℝ) (l : List GridOp) : ∀ c r : GridComponent, OnlyBoundary c → c.run lowest highest l = .ok r →
    OnlyBoundary r := by
  induction l with
  | nil => intro c r h e; cases e; exact h
  | cons o l ih =>
    intro c r h e
    rw [GridComponent.run] at e
    split at e
    · rename_i c' hs
      refine ih c' r ?_ e
      cases o with
      | init => exact createGrid_only _ _ (bounded_only h _ _) hs
      | createGrid => exact createGrid_only _ _ h hs
      | _ => cases hs; exact h
    all_goals cases e

theorem ratio_boundary {D : ℕ} {K : Type*} [Field K] [LinearOrder K] [FloorRing K] (g : Grid D K) (types : ℤ → CellType)
    (cells : ℤ → CellTree D (CellData K)) (decimals : ℕ) (h : ∀ i, types i = .undef ∨ types i = .boundary) (r : K) (l : List ℤ)
    (hm : (r, l) ∈ volumeRatios g types cells decimals) (i : ℤ) (hi : i ∈ l) : types i = .boundary := by
  obtain ⟨⟨-, h2, -⟩, h4⟩ := C102_distribution g types cells decimals
  rw [(h2 r l hm).2, List.mem_filter] at hi
  rcases h i with e | e
  · have := (h4 i).mpr e
    rw [this] at hi
    simp at hi
  · exact e

/-- **C102 is violated** for triangle meshes: however a component is used, `get_type_at` answers `Inside` for no point at all, and
`cell_volume_ratio_distribution` lists no cell inside the object, nor any cell outside: it only lists cells marked as intersected.
The types which are found for the other cells are written in the trees and not in the vector which both functions read. -/
theorem C102_mesh (lowest highest : ℝ) (start c : GridComponent) (history : List GridOp) (hs : Unused start)
    (hrun : start.run lowest highest history = .ok c) (hg : c.grid.isSome) :
    (∀ (g : Grid 3 ℝ) p, getTypeAt g c.types p ≠ .ok .inside) ∧
    ∀ (g : Grid 3 ℝ) (cells : ℤ → CellTree 3 (CellData ℝ)) decimals r l, (r, l) ∈ volumeRatios g c.types cells decimals → ∀ i ∈ l,
      c.types i = .boundary := by
  have h0 : OnlyBoundary start := ⟨fun i a b => by rw [hs.2.2.1] at b; omega, fun hc => by rw [hs.1] at hc; simp at hc⟩
  have h := (run_only lowest highest history start c h0 hrun).2 hg
  refine ⟨fun g p => ?_, fun g cells decimals r l hm i hi => ratio_boundary g c.types cells decimals h r l hm i hi⟩
  unfold getTypeAt
  intro hc
  split_ifs at hc
  · simp only at hc
    split_ifs at hc
    · rcases h ((g.cellsAround p).headD 0) with e | e <;> rw [e] at hc <;> cases hc
    all_goals cases hc
  · cases hc

/-- A finer grid around the tetrahedron of the example. -/
def fineGrid : Grid 3 ℝ := ⟨![0, 0, 0], ![24, 24, 24], ![3, 3, 3]⟩

/-- A component with this grid and the tetrahedron. -/
def fineComponent (levels : ℕ) : GridComponent :=
  ⟨![25, 25, 25], some 0, some ![3, 3, 3], exampleSurface, levels, 0, none, 0, fun _ => .undef, 0, fun _ => [], none⟩

theorem fineComponent_grid (levels : ℕ) : (fineComponent levels).gridOfData = fineGrid := by
  unfold GridComponent.gridOfData gridOfCorners fineGrid fineComponent
  congr 1 <;> funext a <;> fin_cases a <;> norm_num

theorem fine_immersible : Immersible fineGrid exampleSurface := by
  refine ⟨?_, by unfold Fits; decide, by decide, by decide, ?_⟩
  · intro a; fin_cases a <;> norm_num [fineGrid]
  · intro p hp a
    simp only [exampleSurface, List.mem_cons, List.not_mem_nil, or_false] at hp
    rcases hp with rfl | rfl | rfl | rfl <;> fin_cases a <;> norm_num [fineGrid]

theorem fine_box (x : Fin 3 → ℝ) : InCellBox (gridBox fineGrid 5409) x ↔ ∀ a, 9 / 8 ≤ x a ∧ x a ≤ 10 / 8 := by
  have hc : fineGrid.cellCoordinatesAt 5409 = ![9, 9, 9] := by decide
  rw [inCellBox_gridBox, hc]
  unfold InCell InClosedBox
  refine forall_congr' fun a => ?_
  fin_cases a <;> norm_num [gridPoint, fineGrid, Grid.H]

theorem fine_inside (x : Fin 3 → ℝ) (h : InCellBox (gridBox fineGrid 5409) x) : ∀ i, 0 < exampleBary x i := by
  rw [fine_box] at h
  have h0 := h 0
  have h1 := h 1
  have h2 := h 2
  intro i
  fin_cases i <;> simp only [exampleBary, Fin.zero_eta, Fin.mk_one, Fin.reduceFinMk, Matrix.cons_val] <;> linarith [h0.1, h0.2, h1.1, h1.2, h2.1, h2.2]

theorem surface_bary (x : Fin 3 → ℝ) (h : x ∈ meshSurface exampleSurface) : ∃ i, exampleBary x i = 0 := by
  obtain ⟨t, ht, u, v, w, hu, hv, hw, hs, hx⟩ := h
  have h0 := hx 0
  have h1 := hx 1
  have h2 := hx 2
  simp only [exampleSurface, List.map_cons, List.map_nil, List.mem_cons, List.not_mem_nil, or_false] at ht
  rcases ht with rfl | rfl | rfl | rfl <;> simp [SurfaceMesh.corners] at h0 h1 h2
  · exact ⟨0, by simp only [exampleBary, Matrix.cons_val]; linarith⟩
  · exact ⟨1, by simp only [exampleBary, Matrix.cons_val]; linarith⟩
  · exact ⟨2, by simp only [exampleBary, Matrix.cons_val]; linarith⟩
  · exact ⟨3, by simp only [exampleBary, Matrix.cons_val]; linarith⟩

theorem fine_off : ¬ Meets (meshSurface exampleSurface) (gridBox fineGrid 5409) := by
  rintro ⟨x, hx, hb⟩
  obtain ⟨i, hi⟩ := surface_bary x hx
  exact (fine_inside x hb i).ne' hi

theorem fine_mid (types : ℤ → CellType) : getTypeAt fineGrid types ![19/16, 19/16, 19/16] = .ok (types 5409) := by
  have hi : fineGrid.cellIndexAt ![9, 9, 9] = 5409 := by decide
  rw [← hi]
  refine ((C66_partial (.inr (.inr rfl)) fineGrid fine_immersible.proper fine_immersible.fits types
    ![19/16, 19/16, 19/16]).1 (by intro a; fin_cases a <;> norm_num [fineGrid])).1 ![9, 9, 9] ⟨by decide, ?_⟩ ?_
  · intro a; fin_cases a <;> norm_num [fineGrid, Grid.H, gridEps]
  · rintro c' ⟨-, hc⟩
    funext a
    have h := hc a
    have h1 : (c' a : ℝ) < 39 / 4 := by
      fin_cases a <;> norm_num [fineGrid, Grid.H, gridEps] at h ⊢ <;> linarith [h.1, h.2]
    have h2 : (33 / 4 : ℝ) < c' a := by
      fin_cases a <;> norm_num [fineGrid, Grid.H, gridEps] at h ⊢ <;> linarith [h.1, h.2]
    have h1' : c' a < 10 := by exact_mod_cast h1.trans (by norm_num : (39 / 4 : ℝ) < 10)
    have h2' : 8 < c' a := by exact_mod_cast (by norm_num : (8 : ℝ) < 33 / 4).trans h2
    have h3 : c' a = 9 := by omega
    rw [h3]
    fin_cases a <;> rfl

theorem exists_leaf {D : ℕ} {α : Type*} (t : CellTree D α) : ∃ p d, LeafAt t p d := by
  induction t with
  | leaf d => exact ⟨[], d, .here d⟩
  | node ch ih =>
    obtain ⟨p, d, h⟩ := ih ⟨0, by positivity⟩
    exact ⟨_, d, .child ch _ p d h⟩

/-- **C102 is violated** for instance for a tetrahedron: all the leaves of a cell in the middle of it are `Inside`, and yet
`get_type_at` answers `Undefined` in this cell and its ratio, which is 1, is not listed. -/
theorem C102_mesh_violated (lowest highest : ℝ) (levels : ℕ) : ∃ r R,
    (fineComponent levels).run lowest highest [.init] = .ok r ∧ r.grid = some fineGrid ∧ r.result = some R ∧
    (∃ p d, LeafAt (R.cells 5409) p d) ∧ (∀ p d, LeafAt (R.cells 5409) p d → d.type = .inside) ∧
    getTypeAt fineGrid r.types ![19/16, 19/16, 19/16] = .ok .undef ∧
    ∀ decimals ρ l, (ρ, l) ∈ volumeRatios fineGrid r.types R.cells decimals → 5409 ∉ l := by
  classical
  have hg := fineComponent_grid levels
  have him : Immersible (fineComponent levels).gridOfData (fineComponent levels).mesh := by rw [hg]; exact fine_immersible
  have hun : Unused (fineComponent levels) := ⟨rfl, rfl, rfl, rfl⟩
  have hb : (fineComponent levels).bounded lowest highest = fineComponent levels := bounded_set _ _ _ ⟨rfl, rfl⟩
  have hcount : fineGrid.numberOfCells = 13824 := by decide
  obtain ⟨R, e, hR⟩ := createGrid_life _ him (unused_fits hun)
  obtain ⟨R', hR', -, hl⟩ := createGridFrom_spec him levels 0 ((fineComponent levels).firstPass (fineComponent levels).gridOfData)
    fun i h0 h1 p => firstPass_classify _ him (unused_fits hun) i h0 h1 p
  have : R = R' := by
    have := hR.symm.trans hR'
    cases this
    rfl
  subst this
  have htypes : ((fineComponent levels).firstPass fineGrid).types 5409 = .undef := by
    have h := (firstPass_spec (fineComponent levels) him 5409).2
    rw [hg, if_pos ⟨by norm_num, by rw [hcount]; norm_num⟩] at h
    rw [h, if_neg (show ¬ Meets (meshSurface (fineComponent levels).mesh) _ from fine_off), if_neg (by simp [fineComponent])]
  rw [hg] at hl e
  obtain ⟨r, er, h1, h2, h3⟩ : ∃ r, (fineComponent levels).createGrid = .ok r ∧ r.grid = some fineGrid ∧ r.result = some R ∧
      r.types = ((fineComponent levels).firstPass fineGrid).types := ⟨_, e, rfl, rfl, rfl⟩
  refine ⟨r, R, ?_, h1, h2, exists_leaf _, fun p d hp => ?_, ?_, fun decimals ρ l hm hmem => ?_⟩
  · simp only [GridComponent.run, GridComponent.step, GridComponent.init, hb, er]
  · have hleaf : IsLeaf fineGrid R.cells ⟨p.reverse, 5409⟩ d :=
      ⟨by norm_num, by rw [← C24_count fineGrid fine_immersible.fits, hcount]; norm_num, by simpa using hp⟩
    obtain ⟨-, -, hbd, hu, -, hout⟩ := hl _ d hleaf
    have hin : ∀ x, InCellBox (refBox fineGrid p.reverse 5409) x → InCellBox (gridBox fineGrid 5409) x := fun x hx => by
      rw [refBox_eq] at hx
      exact boxBelow_in _ (gridBox_size fine_immersible.proper 5409) _ x hx
    have hpos : ∀ a, 0 < (refBox fineGrid p.reverse 5409).size a := by
      rw [refBox_eq]
      exact boxBelow_size _ (gridBox_size fine_immersible.proper 5409) _
    set x := (refBox fineGrid p.reverse 5409).center with hxdef
    have hx : InCellBox (refBox fineGrid p.reverse 5409) x := fun a => by
      have := hpos a
      constructor <;> simp only [lower, upper, hxdef] <;> linarith
    rcases hty : d.type with _ | _ | _ | _
    · exact absurd hty hu
    · rfl
    · exfalso
      obtain ⟨q, hq, hre⟩ := hout hty x hx
      have hobj := fine_inside x (hin x hx)
      have hqo := reaches_object exampleObject_bounded hre (fun i => (hobj i).le)
      have h0 := hqo 0
      have h1 := hqo 1
      have h2 := hqo 2
      have h3 := hqo 3
      simp only [exampleBary, Matrix.cons_val] at h0 h1 h2 h3
      obtain ⟨-, a, ha⟩ := hq
      fin_cases a <;> simp [fineGrid] at ha <;> rcases ha with ha | ha <;> linarith
    · exfalso
      obtain ⟨y, hy, hyb⟩ := hbd.mp hty
      exact fine_off ⟨y, hy, hin y hyb⟩
  · rw [fine_mid, h3, htypes]
  · have := ratio_boundary fineGrid r.types R.cells decimals (fun i => by
      rw [h3]
      exact firstPass_types _ ⟨fun i a b => absurd b (by simp [fineComponent]; omega), fun hc => absurd hc (by simp [fineComponent])⟩ _ i)
      ρ l hm 5409 hmem
    rw [h3, htypes] at this
    cases this

/-! ### Examples -/

/-- Hypotheses of `C102_iso` and `C102_point_iso`: a circle in a grid without nodes on it. -/
example : let g : Grid 2 ℚ := ⟨![-1/4, -1/4], ![2, 2], ![3, 3]⟩
    Proper g ∧ Fits g.n ∧ (∀ a, (g.n a : ℤ) < 2 ^ 31) ∧
    (∀ c, 0 ≤ c → c < g.numberOfCells → ∀ n ∈ elementNodes g c, circleIso (g.node n) ≠ 0) ∧
    InGrid g.anchor g.size ![1, 1] ∧ Around g ![1, 1] ![0, 0] ∧ ∀ c', Around g ![1, 1] c' → c' = ![0, 0] := by
  intro g
  refine ⟨?_, by unfold Fits; decide, by decide, fun c h0 h1 => ?_, ?_, ⟨by decide, ?_⟩, ?_⟩
  · intro a; fin_cases a <;> norm_num [g]
  · have : ∀ c ∈ indices g.numberOfCells, ∀ n ∈ elementNodes g c, circleIso (g.node n) ≠ 0 := by decide +kernel
    exact this c ((mem_indices _ _).mpr ⟨h0, h1⟩)
  · intro a; fin_cases a <;> norm_num [g]
  · intro a; fin_cases a <;> norm_num [g, Grid.H, gridEps]
  · rintro c' ⟨hc, hin⟩
    funext a
    have h := hin a
    have h1 : (c' a : ℚ) < 7 / 8 := by
      fin_cases a <;> norm_num [g, Grid.H, gridEps] at h ⊢ <;> linarith [h.1, h.2]
    have h1' : c' a < 1 := by exact_mod_cast h1.trans (by norm_num : (7 / 8 : ℚ) < 1)
    have h3 : c' a = 0 := by have := (hc a).1; omega
    rw [h3]
    fin_cases a <;> rfl

/-- A grid with the four kinds of ratios. -/
example : volumeRatios (⟨![0, 0], ![2, 2], ![2, 2]⟩ : Grid 2 ℚ) (fun i => if i = 0 then .inside else if i = 1 then .outside else .boundary)
    (fun i => if i = 2 then .leaf ⟨.boundary, 1⟩ else
      .node fun k => if k = 0 then .leaf ⟨.inside, 1/4⟩ else if k = 1 then .leaf ⟨.boundary, 1/4⟩ else .leaf ⟨.outside, 1/4⟩) 1 =
    [(0, [1]), (1 / 2, [3]), (1, [0, 2])] := by
  decide +kernel

end Caribou
