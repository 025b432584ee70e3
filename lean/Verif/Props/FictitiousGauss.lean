import Verif.Model.FictitiousGauss
import Verif.Props.FictitiousSparse
import Verif.Props.GridLocate

/-!
# Properties C65, C66 and C67: integration points, type of a point and implicit surfaces in a fictitious grid
-/

set_option autoImplicit false

namespace Caribou

open Spec FictitiousGrid

variable {D : ℕ}

/-! ### C65 -/

theorem gaussTable_length (h : Is23 D) : (gaussTable D).length = 2 ^ D := by
  rcases h with rfl | rfl <;> simp [gaussTable, gaussQuad, gaussHexa]

theorem gaussTable_weight (h : Is23 D) : ∀ gn ∈ gaussTable D, gn.weight = 1 := by
  rcases h with rfl | rfl <;> simp [gaussTable, gaussQuad, gaussHexa]

theorem g3_bound : 0 < g3 ∧ g3 < 1 := by
  have h3 : (1 : ℝ) < Real.sqrt 3 := by
    rw [show (1 : ℝ) = Real.sqrt 1 by simp]
    exact Real.sqrt_lt_sqrt (by norm_num) (by norm_num)
  rw [g3]
  exact ⟨by positivity, by rw [div_lt_one (by linarith)]; exact h3⟩

theorem gaussTable_position (h : Is23 D) : ∀ gn ∈ gaussTable D, ∀ a, -1 < gn.position a ∧ gn.position a < 1 := by
  obtain ⟨h0, h1⟩ := g3_bound
  rcases h with rfl | rfl
  · simp only [gaussTable, gaussQuad, List.forall_mem_cons, List.not_mem_nil, false_implies, implies_true, and_true]
    refine ⟨?_, ?_, ?_, ?_⟩ <;> intro a <;> fin_cases a <;> simp <;> constructor <;> linarith
  · simp only [gaussTable, gaussHexa, List.forall_mem_cons, List.not_mem_nil, false_implies, implies_true, and_true]
    refine ⟨?_, ?_, ?_, ?_, ?_, ?_, ?_, ?_⟩ <;> intro a <;> fin_cases a <;> simp <;> constructor <;> linarith

theorem leafFactor_eq (d : CellData ℝ) : cellWeight (.leaf d : CellTree D (CellData ℝ)) = leafFactor d := by
  simp [cellWeight, leafFactor]

theorem gaussCells_sum (h : Is23 D) (m : ℕ) (t : CellTree D (CellData ℝ)) : ∀ (e : Box D ℝ) (l : ℕ),
    ((gaussCells m t e l).map Prod.snd).sum = 2 ^ D * cellWeight t := by
  induction t with
  | leaf d =>
    intro e l
    rw [leafFactor_eq, gaussCells, List.map_map]
    have : (gaussTable D).map (Prod.snd ∘ fun gn => (gn.position, gn.weight * leafFactor d)) =
        (gaussTable D).map fun _ => leafFactor d :=
      List.map_congr_left fun gn hg => by simp [gaussTable_weight h gn hg]
    rw [this, List.map_const', List.sum_replicate, gaussTable_length h]
    simp
  | node ch ih =>
    intro e l
    rw [gaussCells, cellWeight, ← List.sum_eq_foldl]
    split_ifs with hl
    · rw [List.map_map, ← List.sum_map_mul_left]
      have e1 : ((List.finRange (2 ^ D)).zip (gaussTable D)).map (Prod.snd ∘ fun x => coarsePoint ch x.1 x.2) =
          ((List.finRange (2 ^ D)).zip (gaussTable D)).map ((fun i => 2 ^ D * cellWeight (ch i)) ∘ Prod.fst) := by
        refine List.map_congr_left fun x hx => ?_
        have := gaussTable_weight h x.2 (List.of_mem_zip hx).2
        simp [coarsePoint, this]
      rw [e1, ← List.map_map, List.map_fst_zip (by rw [gaussTable_length h]; simp)]
    · rw [List.map_flatMap, List.flatMap_def, List.sum_flatten, List.map_map, ← List.sum_map_mul_left]
      refine congrArg List.sum (List.map_congr_left fun i _ => ?_)
      rw [← ih i (e.child i) (l + 1)]
      simp [List.map_map, Function.comp_def]

/-- **C65 (weights).** For every tree of cells and every maximum level, the weights of the integration points of a cell add
up to the volume of its leaves inside or on the boundary. -/
theorem C65_weights (h : Is23 D) (g : Grid D ℝ) (cells : ℤ → CellTree D (CellData ℝ)) (m : ℕ) (top : ℤ) :
    ((gaussNodesOfCell g cells m top).map Prod.snd).sum = boxVolume (gridBox g top) *
      (((cells top).leafCells.map Prod.snd).map fun d => if d.type = .inside ∨ d.type = .boundary then d.weight else 0).sum := by
  rw [← C64_weight, gaussNodesOfCell, List.map_map]
  have : (gaussCells m (cells top) (unitBox D ℝ) 0).map (Prod.snd ∘ fun x => (x.1, x.2 * ∏ a, (g.H a / 2))) =
      ((gaussCells m (cells top) (unitBox D ℝ) 0).map Prod.snd).map fun w => w * ∏ a, (g.H a / 2) := by
    rw [List.map_map]; rfl
  rw [this, List.sum_map_mul_right, List.map_id', gaussCells_sum h, boxVolume, gridBox, Finset.prod_div_distrib]
  simp only [Finset.prod_const, Finset.card_univ, Fintype.card_fin]
  field_simp

theorem gaussCells_count (h : Is23 D) (m : ℕ) : ∀ (t : CellTree D (CellData ℝ)) (e : Box D ℝ) (l : ℕ),
    (gaussCells m t e l).length ≤ (2 ^ D) ^ (m - l + 1)
  | .leaf data, e, l => by
    rw [gaussCells, List.length_map, gaussTable_length h]
    exact Nat.le_self_pow (by omega) _
  | .node ch, e, l => by
    rw [gaussCells]
    split_ifs with hl
    · rw [List.length_map, List.length_zip, gaussTable_length h, List.length_finRange, min_self]
      exact Nat.le_self_pow (by omega) _
    · rw [List.length_flatMap]
      have hle : ∀ i ∈ (List.finRange (2 ^ D)), ((gaussCells m (ch i) (e.child i) (l + 1)).map
          fun x => ((e.child i).world x.1, x.2)).length ≤ (2 ^ D) ^ (m - (l + 1) + 1) := by
        intro i _
        rw [List.length_map]
        exact gaussCells_count h m (ch i) (e.child i) (l + 1)
      refine le_trans (List.sum_le_card_nsmul _ ((2 ^ D) ^ (m - (l + 1) + 1)) ?_) ?_
      · intro x hx
        obtain ⟨i, hi, rfl⟩ := List.mem_map.mp hx
        exact hle i hi
      · rw [List.length_map, List.length_finRange, smul_eq_mul, ← pow_succ']
        exact le_of_eq (by congr 1; omega)

/-- C65: the maximum level bounds the number of integration points: with `m` levels a cell has at most `2^D` times `(2^D)^m`
points, whatever its subdivision.  At level 0 they are at the integration points of the cell itself. -/
theorem C65_levels (h : Is23 D) (g : Grid D ℝ) (cells : ℤ → CellTree D (CellData ℝ)) (top : ℤ) :
    (∀ m, (gaussNodesOfCell g cells m top).length ≤ 2 ^ D * (2 ^ D) ^ m) ∧
    (gaussNodesOfCell g cells 0 top).map Prod.fst = (gaussTable D).map fun gn => gn.position := by
  constructor
  · intro m
    rw [gaussNodesOfCell, List.length_map]
    refine le_trans (gaussCells_count h m _ _ _) (le_of_eq ?_)
    rw [Nat.sub_zero, pow_succ']
  · rw [gaussNodesOfCell, List.map_map]
    rcases ht : cells top with d | ch
    · simp only [gaussCells, List.map_map, Function.comp_def]
    · rw [gaussCells, if_pos (le_refl 0), List.map_map]
      have hz : ((List.finRange (2 ^ D)).zip (gaussTable D)).map Prod.snd = gaussTable D :=
        List.map_snd_zip (by rw [List.length_finRange, gaussTable_length h])
      conv_rhs => rw [← hz]
      rw [List.map_map]
      rfl

/-- **C65 (positions, partial: at most one level of subdivision).** When the cell is a leaf or all its children are leaves,
and at least one level is allowed, the integration points are, leaf after leaf, those of the leaf: they are strictly inside
the leaf (in the local coordinates of the cell) and have the weight of the leaf.  Missing: deeper trees, where the statement
is false (`C65_violated`). -/
theorem C65_partial (h : Is23 D) (g : Grid D ℝ) (cells : ℤ → CellTree D (CellData ℝ)) (m : ℕ) (hm : 1 ≤ m) (top : ℤ)
    (hd : ∀ p d, LeafAt (cells top) p d → p.length ≤ 1) :
    gaussNodesOfCell g cells m top = (dfs (cells top) []).flatMap (fun x => (gaussTable D).map fun gn =>
      ((boxBelow (unitBox D ℝ) x.1.reverse).world gn.position, gn.weight * leafFactor x.2 * ∏ a, (g.H a / 2))) ∧
    ∀ p d, ∀ gn ∈ gaussTable D, LeafAt (cells top) p d →
      InsideBox (boxBelow (unitBox D ℝ) p) ((boxBelow (unitBox D ℝ) p).world gn.position) := by
  constructor
  · rw [gaussNodesOfCell]
    have hw : ∀ ξ : Fin D → ℝ, (unitBox D ℝ).world ξ = ξ := fun ξ => by funext a; simp [Box.world, unitBox]
    rcases ht : cells top with d | ch
    · simp [gaussCells, dfs, boxBelow, hw, List.map_map, Function.comp_def]
    · have hch : ∀ i, ∃ d, ch i = .leaf d := fun i => by
        rcases hi : ch i with d | ch'
        · exact ⟨d, rfl⟩
        · exfalso
          obtain ⟨p, d, hp⟩ : ∃ p d, LeafAt (ch' ⟨0, by positivity⟩) p d := by
            generalize ch' ⟨0, by positivity⟩ = t
            induction t with
            | leaf d => exact ⟨[], d, .here _⟩
            | node c ih => obtain ⟨p, d, hp⟩ := ih ⟨0, by positivity⟩; exact ⟨_, d, .child _ _ _ _ hp⟩
          have := hd (i :: _ :: p) d (by rw [ht]; exact .child _ _ _ _ (by rw [hi]; exact .child _ _ _ _ hp))
          simp at this
      choose d hdi using hch
      have e : ch = fun i => .leaf (d i) := funext hdi
      subst e
      rw [gaussCells, if_neg (by omega), List.map_flatMap, dfs, List.flatMap_assoc]
      refine List.flatMap_congr fun i _ => ?_
      simp [gaussCells, dfs, boxBelow, List.map_map, Function.comp_def]
  · intro p d gn hgn _ a
    have hs : ∀ (p : List (Fin (2 ^ D))) (e : Box D ℝ), (∀ a, 0 < e.size a) → ∀ a, 0 < (boxBelow e p).size a := by
      intro p
      induction p with
      | nil => exact fun e h => h
      | cons i p ih => exact fun e h => ih _ fun a => half_pos (h a)
    have := hs p (unitBox D ℝ) (by simp [unitBox]) a
    obtain ⟨h1, h2⟩ := gaussTable_position h gn hgn a
    simp only [lower, upper, Box.world]
    constructor <;> nlinarith

/-- With a maximum level of zero in three dimensions, the point `i` is inside the child `i`, whose weight it has. -/
theorem C65_coarse (i : Fin 8) (gn : GaussNode 3) (hi : (gaussTable 3)[i.val]? = some gn) :
    InsideBox ((unitBox 3 ℝ).child i) gn.position := by
  obtain ⟨h0, h1⟩ := g3_bound
  intro a
  fin_cases i <;> simp only [gaussTable, gaussHexa, List.getElem?_cons_zero, List.getElem?_cons_succ, Option.some.injEq,
    Fin.zero_eta, Fin.mk_one, Fin.reduceFinMk] at hi <;> subst hi <;> fin_cases a <;>
    simp [lower, upper, Box.child, Box.world, unitBox, subcellCenter] <;> (try constructor) <;> linarith

/-- In two dimensions the last two points are exchanged: the point `2` has the weight of the child `2` but is in the child
`3`. -/
theorem C65_coarse_violated : ∃ gn, (gaussTable 2)[2]? = some gn ∧ ¬ InsideBox ((unitBox 2 ℝ).child (2 : Fin 4)) gn.position ∧
    InsideBox ((unitBox 2 ℝ).child (3 : Fin 4)) gn.position := by
  obtain ⟨h0, h1⟩ := g3_bound
  refine ⟨_, rfl, ?_, ?_⟩
  · intro h
    have := (h 0).2
    simp [upper, Box.child, Box.world, unitBox, subcellCenter] at this
    linarith
  · intro a
    fin_cases a <;> simp [lower, upper, Box.child, Box.world, unitBox, subcellCenter] <;> constructor <;> linarith

/-- A square divided twice: the first quarter is divided again and only the last quarter of the first quarter is inside. -/
noncomputable def twiceDivided : CellTree 2 (CellData ℝ) :=
  .node fun i => if i = 0 then .node fun j => .leaf ⟨if j = 3 then .inside else .outside, 1/16⟩ else .leaf ⟨.outside, 1/4⟩

/-- **C65 is violated** with two levels of subdivision: an integration point with a positive weight is in none of the leaves
which are inside or on the boundary.  (The outer element is applied twice.) -/
theorem C65_violated : let g : Grid 2 ℝ := ⟨![0, 0], ![1, 1], ![1, 1]⟩
    ∃ x ∈ gaussNodesOfCell g (fun _ => twiceDivided) 2 0, 0 < x.2 ∧
      ∀ p d, LeafAt twiceDivided p d → (d.type = .inside ∨ d.type = .boundary) →
        ¬ InCellBox (boxBelow (unitBox 2 ℝ) p) x.1 := by
  intro g
  obtain ⟨h0, h1⟩ := g3_bound
  have hmem : ((fun _ => (-5/8 - g3/8) : Fin 2 → ℝ), (1/64 : ℝ)) ∈ gaussNodesOfCell g (fun _ => twiceDivided) 2 0 := by
    rw [gaussNodesOfCell, twiceDivided, gaussCells, if_neg (by norm_num)]
    refine List.mem_map.mpr ⟨((fun _ => (-5/8 - g3/8) : Fin 2 → ℝ), (1/16 : ℝ)), ?_, ?_⟩
    · refine List.mem_flatMap.mpr ⟨(0 : Fin 4), List.mem_finRange _, List.mem_map.mpr ⟨((fun _ => -1/4 - g3/4), 1/16), ?_, ?_⟩⟩
      · rw [if_pos rfl, gaussCells, if_neg (by norm_num)]
        refine List.mem_flatMap.mpr ⟨(3 : Fin 4), List.mem_finRange _, List.mem_map.mpr ⟨(![-g3, -g3], 1/16), ?_, ?_⟩⟩
        · simp [gaussCells, gaussTable, gaussQuad, leafFactor]
        · refine Prod.ext ?_ rfl
          funext a
          fin_cases a <;> simp [Box.world, Box.child, unitBox, subcellCenter] <;> ring
      · refine Prod.ext ?_ rfl
        funext a
        fin_cases a <;> simp [Box.world, Box.child, unitBox, subcellCenter] <;> ring
    · refine Prod.ext rfl ?_
      norm_num [g, Grid.H, Fin.prod_univ_two]
  refine ⟨_, hmem, by norm_num, fun p d hp hd => ?_⟩
  rw [twiceDivided] at hp
  cases hp with
  | child _ i p _ hp =>
    by_cases hi : i = 0
    · simp only [if_pos hi] at hp
      subst hi
      cases hp with
      | child _ j p _ hp =>
        cases hp
        by_cases hj : j = 3
        · subst hj
          intro hin
          have := (hin 0).1
          simp [boxBelow, lower, Box.child, Box.world, unitBox, subcellCenter] at this
          linarith
        · simp [hj] at hd
    · simp only [if_neg hi] at hp
      cases hp
      simp at hd

/-- Hypotheses of `C65_partial`: a square divided once. -/
example : let t : CellTree 2 (CellData ℝ) := .node fun i => .leaf ⟨if i = 0 then .boundary else .outside, 1/4⟩
    (∀ p d, LeafAt t p d → p.length ≤ 1) ∧ ∃ d, LeafAt t [3] d := by
  refine ⟨fun p d hp => ?_, _, .child _ _ _ _ (.here _)⟩
  cases hp with
  | child _ i p _ hp => cases hp; simp

/-! ### C66 -/

section TypeAt

variable {K : Type*} [Field K] [LinearOrder K] [FloorRing K] [IsStrictOrderedRing K]

theorem bits_fold (types : ℤ → CellType) (l : List ℤ) (k : ℕ) : ∀ t : ℕ,
    (l.foldl (fun t c => t ||| (types c).bits) t).testBit k = (t.testBit k || l.any fun c => (types c).bits.testBit k) := by
  induction l with
  | nil => simp
  | cons a l ih => intro t; rw [List.foldl_cons, ih]; simp [Bool.or_assoc]

theorem and_two_pow_ne (n k : ℕ) : n &&& 2 ^ k ≠ 0 ↔ n.testBit k = true := by
  constructor
  · intro h
    by_contra hk
    refine h (Nat.eq_of_testBit_eq fun i => ?_)
    rw [Nat.testBit_and, Nat.testBit_two_pow, Nat.zero_testBit]
    by_cases hi : k = i
    · subst hi; simp [Bool.not_eq_true _ |>.mp hk]
    · simp [hi]
  · intro h h0
    have := congrArg (fun m => m.testBit k) h0
    simp [Nat.testBit_and, h] at this

theorem bits_test (t : CellType) : (t.bits.testBit 0 = decide (t = .inside)) ∧ (t.bits.testBit 1 = decide (t = .outside)) ∧
    (t.bits.testBit 2 = decide (t = .boundary)) := by
  cases t <;> decide +kernel

/-- What `get_type_at` returns, in terms of the cells around the point. -/
theorem getTypeAt_eq (g : Grid D K) (types : ℤ → CellType) (p : Fin D → K) (hc : g.contains p (gridEps K) = true)
    (hl : (g.cellsAround p).length ≠ 1) :
    getTypeAt g types p =
      if ∃ c ∈ g.cellsAround p, types c = .boundary then .ok .boundary
      else if (∃ c ∈ g.cellsAround p, types c = .inside) ∧ ∃ c ∈ g.cellsAround p, types c = .outside then .ok .boundary
      else .throws .undef := by
  have h : ∀ k, ((g.cellsAround p).foldl (fun t c => t ||| (types c).bits) 0 &&& 2 ^ k ≠ 0) ↔
      ∃ c ∈ g.cellsAround p, (types c).bits.testBit k = true := fun k => by
    rw [and_two_pow_ne, bits_fold]
    simp
  rw [getTypeAt, if_pos hc]
  simp only [hl, if_false]
  have hb : CellType.boundary.bits = 2 ^ 2 := by decide +kernel
  have hi : CellType.inside.bits = 2 ^ 0 := by decide +kernel
  have ho : CellType.outside.bits = 2 ^ 1 := by decide +kernel
  rw [hb, hi, ho]
  have e2 := h 2
  have e0 := h 0
  have e1 := h 1
  simp only [(bits_test _).1, (bits_test _).2.1, (bits_test _).2.2, decide_eq_true_eq] at e0 e1 e2
  simp only [e0, e1, e2]

/-- The cells around a point of the grid: those whose box, enlarged by the tolerance, contains it. -/
def Spec.Around (g : Grid D K) (p : Fin D → K) (c : Fin D → ℤ) : Prop :=
  IsCell g.n c ∧ InCellOpen g.anchor g.H (gridEps K) c p

theorem around_nonempty (hd : IsDim D) (g : Grid D K) (hg : Proper g) (hf : Fits g.n) (p : Fin D → K)
    (hp : InGrid g.anchor g.size p) : 0 < (g.cellsAround p).length := by
  obtain ⟨c, hc, -, -, hcp, -⟩ := C28_partial hd g hg hf p hp
  exact List.length_pos_of_mem ((C29_partial hd g hg hf p hp).2.1 c hc hcp)

theorem length_one_iff (hd : IsDim D) (g : Grid D K) (hg : Proper g) (hf : Fits g.n) (p : Fin D → K)
    (hp : InGrid g.anchor g.size p) : (g.cellsAround p).length = 1 ↔ ∀ c c', Around g p c → Around g p c' → c = c' := by
  obtain ⟨hm, -, hnd⟩ := C29_partial hd g hg hf p hp
  have hpos := around_nonempty hd g hg hf p hp
  constructor
  · intro h1 c c' hc hc'
    obtain ⟨m, e⟩ := List.length_eq_one_iff.mp h1
    have a1 := (hm _).mpr ⟨c, hc.1, hc.2, rfl⟩
    have a2 := (hm _).mpr ⟨c', hc'.1, hc'.2, rfl⟩
    rw [e, List.mem_singleton] at a1 a2
    rw [← (C24_coordinates hd g hf c hc.1).2.2, ← (C24_coordinates hd g hf c' hc'.1).2.2, a1, a2]
  · intro h
    match e : g.cellsAround p, hpos with
    | [m], _ => rfl
    | m :: m' :: l, _ =>
      exfalso
      obtain ⟨c, hc, hcp, rfl⟩ := (hm m).mp (by rw [e]; simp)
      obtain ⟨c', hc', hcp', rfl⟩ := (hm m').mp (by rw [e]; simp)
      have := h c c' ⟨hc, hcp⟩ ⟨hc', hcp'⟩
      subst this
      rw [e] at hnd
      simp at hnd

/-- **C66 (partial).** `get_type_at` for a point of the grid, in terms of the cells around it:
* the type of the cell when there is only one;
* `Boundary` when there are several and one of them is a boundary cell, or one of them is inside and another outside;
* otherwise an exception, in particular when the cells around the point all have the same type `Inside` or `Outside`.
A point which fails the test `contains` is `Outside`.  Missing: the type of the points on the faces shared by cells of equal
type, for which the claim is false (`C66_violated`). -/
theorem C66_partial (hd : IsDim D) (g : Grid D K) (hg : Proper g) (hf : Fits g.n) (types : ℤ → CellType) (p : Fin D → K) :
    (InGrid g.anchor g.size p →
      (∀ c, Around g p c → (∀ c', Around g p c' → c' = c) → getTypeAt g types p = .ok (types (g.cellIndexAt c))) ∧
      (∀ c c', Around g p c → Around g p c' → c ≠ c' → types (g.cellIndexAt c) = .boundary →
        getTypeAt g types p = .ok .boundary) ∧
      (∀ c c', Around g p c → Around g p c' → types (g.cellIndexAt c) = .inside → types (g.cellIndexAt c') = .outside →
        getTypeAt g types p = .ok .boundary) ∧
      (∀ c c' t, Around g p c → Around g p c' → c ≠ c' → t ≠ .boundary → (∀ c, Around g p c → types (g.cellIndexAt c) = t) →
        ∃ x, getTypeAt g types p = .throws x)) ∧
    (g.contains p (gridEps K) = false → getTypeAt g types p = .ok .outside) := by
  refine ⟨fun hp => ?_, fun h => by simp [getTypeAt, h]⟩
  have hc := contains_of_inGrid hg hp
  obtain ⟨hm, -, hnd⟩ := C29_partial hd g hg hf p hp
  have h1 := length_one_iff hd g hg hf p hp
  refine ⟨fun c hcp hall => ?_, fun c c' hcp hcp' hne ht => ?_, fun c c' hcp hcp' ht ht' => ?_, fun c c' t hcp hcp' hne ht hall => ?_⟩
  · have hlen := h1.mpr fun a b ha hb => (hall a ha).trans (hall b hb).symm
    obtain ⟨m, e⟩ := List.length_eq_one_iff.mp hlen
    have hmem := (hm _).mpr ⟨c, hcp.1, hcp.2, rfl⟩
    rw [e, List.mem_singleton] at hmem
    simp [getTypeAt, hc, e, hmem]
  · rw [getTypeAt_eq g types p hc fun h => hne (h1.mp h c c' hcp hcp'), if_pos ⟨_, (hm _).mpr ⟨c, hcp.1, hcp.2, rfl⟩, ht⟩]
  · have hne : c ≠ c' := by rintro rfl; rw [ht] at ht'; exact absurd ht' (by decide)
    rw [getTypeAt_eq g types p hc fun h => hne (h1.mp h c c' hcp hcp'),
      if_pos (c := _ ∧ _) ⟨⟨_, (hm _).mpr ⟨c, hcp.1, hcp.2, rfl⟩, ht⟩, ⟨_, (hm _).mpr ⟨c', hcp'.1, hcp'.2, rfl⟩, ht'⟩⟩]
    simp
  · have hall' : ∀ m ∈ g.cellsAround p, types m = t := fun m h => by
      obtain ⟨c, h1, h2, rfl⟩ := (hm m).mp h
      exact hall c ⟨h1, h2⟩
    rw [getTypeAt_eq g types p hc fun h => hne (h1.mp h c c' hcp hcp'), if_neg, if_neg]
    · exact ⟨_, rfl⟩
    · rintro ⟨⟨m, h, e⟩, ⟨m', h', e'⟩⟩
      rw [hall' m h] at e
      rw [hall' m' h', e] at e'
      exact absurd e' (by decide)
    · rintro ⟨m, h, e⟩
      rw [hall' m h] at e
      exact ht e

end TypeAt

/-- **C66 is violated.** In a grid of four cells all of type `Inside`, the type of the point `(1, 1/2)` on a face between two
cells is not returned: an exception is thrown. -/
theorem C66_violated : InGrid unitGrid2.anchor unitGrid2.size ![1, 1 / 2] ∧
    ∃ x, getTypeAt unitGrid2 (fun _ => .inside) ![1, 1 / 2] = .throws x := by
  have hg : Proper unitGrid2 := by intro a; fin_cases a <;> norm_num [unitGrid2]
  have hf : Fits unitGrid2.n := by simp only [Fits, unitGrid2]; decide +kernel
  have hp : InGrid unitGrid2.anchor unitGrid2.size ![1, 1 / 2] := by intro a; fin_cases a <;> norm_num [unitGrid2]
  refine ⟨hp, ((C66_partial (.inr (.inl rfl)) unitGrid2 hg hf (fun _ => .inside) ![1, 1 / 2]).1 hp).2.2.2 ![0, 0] ![1, 0] .inside
    ⟨by decide, ?_⟩ ⟨by decide, ?_⟩ (by decide) (by decide) fun _ _ => rfl⟩ <;>
  · intro a; fin_cases a <;> norm_num [unitGrid2, Grid.H, gridEps]

/-- Hypotheses of `C66_partial`: a point inside a cell, and a point between a cell inside and a cell outside. -/
example : getTypeAt unitGrid2 (fun c => if c = 0 then .inside else .outside) ![1 / 2, 1 / 2] = .ok .inside ∧
    getTypeAt unitGrid2 (fun c => if c = 0 then .inside else .outside) ![1, 1 / 2] = .ok .boundary ∧
    getTypeAt unitGrid2 (fun c => if c = 0 then .inside else .outside) ![3, 1 / 2] = .ok .outside := by
  have hg : Proper unitGrid2 := by intro a; fin_cases a <;> norm_num [unitGrid2]
  have hf : Fits unitGrid2.n := by simp only [Fits, unitGrid2]; decide +kernel
  have h1 : unitGrid2.contains ![1 / 2, 1 / 2] (gridEps ℚ) = true := by decide +kernel
  have h2 : unitGrid2.cellsAround ![1 / 2, 1 / 2] = [0] := by decide +kernel
  refine ⟨by rw [getTypeAt, if_pos h1]; simp only [h2]; rfl, ?_, (C66_partial (.inr (.inl rfl)) unitGrid2 hg hf _ _).2 (by decide +kernel)⟩
  refine ((C66_partial (.inr (.inl rfl)) unitGrid2 hg hf _ _).1 ?_).2.2.1 ![0, 0] ![1, 0] ⟨by decide, ?_⟩ ⟨by decide, ?_⟩ (by decide +kernel) (by decide +kernel) <;>
  · intro a; fin_cases a <;> norm_num [unitGrid2, Grid.H, gridEps]

/-! ### C67 -/

section Iso

variable {K : Type*} [Field K] [LinearOrder K]

theorem isoType_boundary (t : K) : isoType t = .boundary ↔ t = 0 := by
  unfold isoType
  rcases lt_trichotomy t 0 with h | h | h
  · simp [h, h.ne]
  · simp [h]
  · simp [h, h.le, h.ne', not_lt.mpr h.le]

theorem isoType_inside (t : K) : isoType t = .inside ↔ t < 0 := by
  unfold isoType
  rcases lt_trichotomy t 0 with h | h | h
  · simp [h]
  · simp [h]
  · simp [h, h.le, not_lt.mpr h.le]

theorem isoType_outside (t : K) : isoType t = .outside ↔ 0 < t := by
  unfold isoType
  rcases lt_trichotomy t 0 with h | h | h
  · simp [h, not_lt.mpr h.le]
  · simp [h]
  · simp [h, not_lt.mpr h.le]

theorem countType_undefined (l : List CellType) : l.foldl countType .undefined = .undefined := by
  induction l with
  | nil => rfl
  | cons a l ih => rw [List.foldl_cons]; exact ih

theorem countType_fold (l : List CellType) (h : ∀ t ∈ l, t = .inside ∨ t = .outside) : ∀ c : ℕ → ℕ,
    ∃ c', l.foldl countType (.ok c) = .ok c' ∧ c' 1 = c 1 + l.countP (· = .inside) ∧ c' 2 = c 2 + l.countP (· = .outside) := by
  induction l with
  | nil => intro c; exact ⟨c, rfl, by simp, by simp⟩
  | cons a l ih =>
    intro c
    rcases h a (by simp) with rfl | rfl
    · obtain ⟨c', e, e1, e2⟩ := ih (fun t ht => h t (by simp [ht])) (Function.update c 1 (c 1 + 1))
      refine ⟨c', e, ?_, ?_⟩
      · rw [e1]; simp; omega
      · rw [e2]; simp
    · obtain ⟨c', e, e1, e2⟩ := ih (fun t ht => h t (by simp [ht])) (Function.update c 2 (c 2 + 1))
      refine ⟨c', e, ?_, ?_⟩
      · rw [e1]; simp
      · rw [e2]; simp; omega

theorem countType_boundary (l : List CellType) (h : CellType.boundary ∈ l) (hl : ∀ t ∈ l, t ≠ .undef) :
    ∀ c, l.foldl countType (.ok c) = .undefined := by
  induction l with
  | nil => exact absurd h (by simp)
  | cons a l ih =>
    intro c
    rw [List.foldl_cons]
    rcases List.mem_cons.mp h with rfl | h'
    · exact countType_undefined l
    · cases a with
      | undef => exact absurd rfl (hl _ (by simp))
      | inside => exact ih h' (fun t ht => hl t (by simp [ht])) _
      | outside => exact ih h' (fun t ht => hl t (by simp [ht])) _
      | boundary => exact countType_undefined l

/-- **Spec.** The type of a cell given the iso values at its nodes. -/
def Spec.isoCellType (values : List K) : CellType :=
  if ∀ v ∈ values, v < 0 then .inside else if ∀ v ∈ values, 0 < v then .outside else .boundary

theorem tagFromNodes_eq (values : List K) (h : ∀ v ∈ values, v ≠ 0) :
    tagFromNodes (values.map isoType) = .ok (isoCellType values) := by
  have hio : ∀ t ∈ values.map isoType, t = .inside ∨ t = .outside := by
    intro t ht
    obtain ⟨v, hv, rfl⟩ := List.mem_map.mp ht
    rcases lt_or_gt_of_ne (h v hv) with h | h
    · exact .inl ((isoType_inside v).mpr h)
    · exact .inr ((isoType_outside v).mpr h)
  obtain ⟨c, e, e1, e2⟩ := countType_fold (values.map isoType) hio (fun _ => 0)
  have b1 : CellType.inside.bits = 1 := by decide +kernel
  have b2 : CellType.outside.bits = 2 := by decide +kernel
  have c1 : c 1 = (values.map isoType).length ↔ ∀ v ∈ values, v < 0 := by
    rw [e1, Nat.zero_add, List.countP_eq_length]
    simp [isoType_inside]
  have c2 : c 2 = (values.map isoType).length ↔ ∀ v ∈ values, 0 < v := by
    rw [e2, Nat.zero_add, List.countP_eq_length]
    simp [isoType_outside]
  rw [tagFromNodes, e]
  simp only [b1, b2, c1, c2, isoCellType]
  split_ifs <;> rfl

theorem tagFromNodes_undefined (values : List K) (h : ∃ v ∈ values, v = 0) :
    tagFromNodes (values.map isoType) = .undefined := by
  obtain ⟨v, hv, h0⟩ := h
  rw [tagFromNodes, countType_boundary]
  · exact List.mem_map.mpr ⟨v, hv, (isoType_boundary v).mpr h0⟩
  · intro t ht
    obtain ⟨w, -, rfl⟩ := List.mem_map.mp ht
    unfold isoType
    split_ifs <;> decide

/-- The iso values at the nodes of a cell of the grid. -/
def isoValues (g : Grid D K) (iso : (Fin D → K) → K) (cell : ℤ) : List K := (elementNodes g cell).map fun n => iso (g.node n)

theorem tagFromIso_fold (g : Grid D K) (iso : (Fin D → K) → K) (l : List ℤ) (hl : l.Nodup)
    (h : ∀ c ∈ l, ∀ v ∈ isoValues g iso c, v ≠ 0) : ∀ types, ∃ types', l.foldl (tagCellFromIso g iso) (.ok types) = .ok types' ∧
      (∀ c ∈ l, types' c = isoCellType (isoValues g iso c)) ∧ ∀ c ∉ l, types' c = types c := by
  induction l with
  | nil => intro types; exact ⟨types, rfl, by simp, by simp⟩
  | cons a l ih =>
    intro types
    rw [List.nodup_cons] at hl
    have e : tagCellFromIso g iso (.ok types) a = .ok (Function.update types a (isoCellType (isoValues g iso a))) := by
      have := tagFromNodes_eq (isoValues g iso a) (h a (by simp))
      rw [isoValues, List.map_map] at this
      rw [tagCellFromIso]
      simp only [Function.comp_def] at this
      rw [this]
      rfl
    obtain ⟨types', e', h1, h2⟩ := ih hl.2 (fun c hc => h c (by simp [hc])) (Function.update types a (isoCellType (isoValues g iso a)))
    refine ⟨types', by rw [List.foldl_cons, e, e'], fun c hc => ?_, fun c hc => ?_⟩
    · rcases List.mem_cons.mp hc with rfl | hc
      · rw [h2 c hl.1, Function.update_self]
      · exact h1 c hc
    · rw [List.mem_cons, not_or] at hc
      rw [h2 c hc.2, Function.update_of_ne hc.1]

theorem tagFromIso_stuck (g : Grid D K) (iso : (Fin D → K) → K) (l : List ℤ) :
    l.foldl (tagCellFromIso g iso) .undefined = .undefined := by
  induction l with
  | nil => rfl
  | cons a l ih => rw [List.foldl_cons]; exact ih

theorem tagFromIso_undef (g : Grid D K) (iso : (Fin D → K) → K) (l : List ℤ)
    (h : ∃ c ∈ l, ∃ v ∈ isoValues g iso c, v = 0) : ∀ o, l.foldl (tagCellFromIso g iso) o = .undefined := by
  induction l with
  | nil => exact absurd h (by simp)
  | cons a l ih =>
    intro o
    rw [List.foldl_cons]
    by_cases ha : ∃ v ∈ isoValues g iso a, v = 0
    · have e : tagCellFromIso g iso o a = .undefined := by
        have := tagFromNodes_undefined _ ha
        rw [isoValues, List.map_map] at this
        simp only [Function.comp_def] at this
        rw [tagCellFromIso]
        intro types t _ h2
        rw [this] at h2
        cases h2
      rw [e]; exact tagFromIso_stuck g iso l
    · obtain ⟨c, hc, hv⟩ := h
      rcases List.mem_cons.mp hc with rfl | hc
      · exact absurd hv ha
      · exact ih ⟨c, hc, hv⟩ _

/-- **C67 (partial: no iso value is exactly zero).** Then tagging from an implicit surface is memory safe and every cell of
the grid is `Inside` when all its nodes are strictly inside, `Outside` when all its nodes are strictly outside and `Boundary`
otherwise.  Missing: values exactly zero, for which the claim is false (`C67_violated`). -/
theorem C67_partial (g : Grid D K) (iso : (Fin D → K) → K) (types : ℤ → CellType)
    (h : ∀ c, 0 ≤ c → c < g.numberOfCells → ∀ n ∈ elementNodes g c, iso (g.node n) ≠ 0) :
    ∃ types', tagFromIso g iso types = .ok types' ∧
      ∀ c, 0 ≤ c → c < g.numberOfCells → types' c = isoCellType ((elementNodes g c).map fun n => iso (g.node n)) := by
  obtain ⟨types', e, h1, -⟩ := tagFromIso_fold g iso (indices g.numberOfCells)
    ((indices_sorted _).imp fun {a b} h => ne_of_lt h) (fun c hc v hv => by
      obtain ⟨n, hn, rfl⟩ := List.mem_map.mp hv
      exact h c ((mem_indices _ _).mp hc).1 ((mem_indices _ _).mp hc).2 n hn) types
  exact ⟨types', e, fun c h0 hc => h1 c ((mem_indices _ _).mpr ⟨h0, hc⟩)⟩

/-- **C67 is violated** by every implicit surface with a node of a cell exactly on it: the behaviour is undefined (the array
of three counters is indexed with 4). -/
theorem C67_zero (g : Grid D K) (iso : (Fin D → K) → K) (types : ℤ → CellType)
    (h : ∃ c, 0 ≤ c ∧ c < g.numberOfCells ∧ ∃ n ∈ elementNodes g c, iso (g.node n) = 0) :
    tagFromIso g iso types = .undefined := by
  obtain ⟨c, h0, h1, n, hn, hv⟩ := h
  exact tagFromIso_undef g iso _ ⟨c, (mem_indices _ _).mpr ⟨h0, h1⟩, _, List.mem_map.mpr ⟨n, hn, rfl⟩, hv⟩ _

theorem classify_fold (values : List K) : ∀ c : ℕ × ℕ × ℕ, (values.foldl (fun (c : ℕ × ℕ × ℕ) t =>
    if t < 0 then (c.1 + 1, c.2.1, c.2.2) else if t > 0 then (c.1, c.2.1 + 1, c.2.2) else (c.1, c.2.1, c.2.2 + 1)) c) =
    (c.1 + values.countP (· < 0), c.2.1 + values.countP (0 < ·), c.2.2 + values.countP (· = 0)) := by
  induction values with
  | nil => intro c; simp
  | cons a l ih =>
    intro c
    rw [List.foldl_cons, ih]
    rcases lt_trichotomy a 0 with h | h | h
    · simp [h, h.ne, not_lt.mpr h.le, add_assoc, add_comm 1]
    · simp [h, add_assoc, add_comm 1]
    · simp [h, h.ne', not_lt.mpr h.le, add_assoc, add_comm 1]

/-- The classification of cells and subcells during the subdivision has no such defect: for all values at the nodes it is the
one of the claim, and exactly the boundary cells are subdivided. -/
theorem C67_subdivision (values : List K) :
    classifyIso values = (isoCellType values, decide (isoCellType values = .boundary)) := by
  have c1 : values.countP (· < 0) = values.length ↔ ∀ v ∈ values, v < 0 := by rw [List.countP_eq_length]; simp
  have c2 : values.countP (0 < ·) = values.length ↔ ∀ v ∈ values, 0 < v := by rw [List.countP_eq_length]; simp
  rw [classifyIso]
  simp only [classify_fold, Nat.zero_add, c1, c2, isoCellType]
  split_ifs <;> simp

end Iso

/-- A circle of radius `1` around the origin, `SofaCaribou/Topology/CircleIsoSurface`. -/
def circleIso (p : Fin 2 → ℚ) : ℚ := p 0 ^ 2 + p 1 ^ 2 - 1

/-- **C67 is violated** for instance for the unit circle and a unit grid. -/
theorem C67_violated : tagFromIso unitGrid2 circleIso (fun _ => .undef) = .undefined :=
  C67_zero _ _ _ ⟨0, by norm_num, by decide +kernel, 1, by decide +kernel, by decide +kernel⟩

/-- Hypotheses of `C67_partial`: the unit circle in a grid whose nodes are not on it. -/
example : let g : Grid 2 ℚ := ⟨![-1/4, -1/4], ![2, 2], ![3, 3]⟩
    (∀ c ∈ indices g.numberOfCells, ∀ n ∈ elementNodes g c, circleIso (g.node n) ≠ 0) ∧
    (isoCellType ((elementNodes g 0).map fun n => circleIso (g.node n)) = .boundary) ∧
    isoCellType ((elementNodes g 3).map fun n => circleIso (g.node n)) = .outside := by
  decide +kernel

end Caribou
