import Verif.Lemmas.GridDrawing
import Verif.Props.FictitiousTags

/-!
# Property C114: drawing of the fictitious grid
-/

set_option autoImplicit false

namespace Caribou

open Spec FictitiousGrid

variable {D : ℕ} {K : Type*} [Field K] [LinearOrder K] [IsStrictOrderedRing K]

omit [LinearOrder K] [IsStrictOrderedRing K] in
theorem drawRegions_eq (v : GridView D K) (wireframe : Bool) (regions : List (Region (CellRef D))) (edges : List (List (Fin 3 → K)))
    (cellsOf edgesOf : ℕ → List (Fin 3 → K)) (he : ∀ i < regions.length, edges[i]? = some (edgesOf i)) :
    ∀ (rest : List (List (Fin 3 → K))) (i : ℕ), rest = ((regions.drop i).zipIdx i).map (fun x => cellsOf x.2) →
    v.drawRegions wireframe regions edges i rest = .ok (((regions.drop i).zipIdx i).flatMap fun x =>
      v.drawRegion wireframe x.2 x.1.type (cellsOf x.2) (edgesOf x.2)) := by
  intro rest
  induction rest with
  | nil =>
    intro i h
    rw [GridView.drawRegions, List.map_eq_nil_iff.mp h.symm]
    rfl
  | cons c rest ih =>
    intro i h
    by_cases hi : i < regions.length
    · have hd : regions.drop i = regions[i] :: regions.drop (i + 1) := List.drop_eq_getElem_cons hi
      rw [hd, List.zipIdx_cons, List.map_cons, List.cons.injEq] at h
      obtain ⟨rfl, h⟩ := h
      rw [GridView.drawRegions, List.getElem?_eq_getElem hi, he i hi]
      simp only
      rw [ih (i + 1) h, hd, List.zipIdx_cons, List.flatMap_cons]
    · rw [List.drop_eq_nil_of_le (by omega)] at h
      simp at h

/-- **C114.** After `create_grid` on a grid with positive spacings, `draw` makes for every region of a requested kind one call with the
cells (unless the wire frame is displayed) and one with their edges.  The regions are the connected components of the leaf cells of equal
type; an undefined one is outside or inside depending on whether it reaches the border of the grid.  The cells shown are those on the
boundary of their region, each one once, as rectangles or boxes shrunk about their centre by the factor `draw_scale` had when the grid was
created, with their 4 or 12 edges.  The kinds which are requested are read by `draw`. -/
theorem C114_draw (h : Is23 D) (g : Grid D K) (hf : Fits g.n) (hn : ∀ a, (g.n a : ℤ) < 2 ^ 31) (hH : ∀ a, 0 < g.H a)
    (cells : ℤ → CellTree D (CellData K)) (v : GridView D K) :
    ∃ (v' : GridView D K) (regions : List (Region (CellRef D))) (shown : ℕ → List (CellRef D)) (E : List ((Fin D → ℤ) × (Fin D → ℤ))),
      v.create g cells = .ok v' ∧ (∃ content, v' = { v with content := content }) ∧ IsEdgeList E ∧
      (∀ c, (∃ d, IsLeaf g cells c d) ↔ ∃ R ∈ regions, c ∈ R.cells) ∧
      (∀ (i : ℕ) (R : Region (CellRef D)), regions[i]? = some R →
        (∀ x ∈ R.cells, ∀ y, (∃ d, IsLeaf g cells y d) →
          (y ∈ R.cells ↔ Connected (leafType cells) (gridNeighbors g cells) (sides D) x y)) ∧
        (∀ x ∈ R.cells, R.type = if leafType cells x ≠ .undef then leafType cells x
          else if R.cells.any (touchesBorder g) then .outside else .inside) ∧
        (shown i).Nodup ∧
        ∀ c, c ∈ shown i ↔ c ∈ R.cells ∧ OnRegionBoundary (leafType cells) (gridNeighbors g cells) (sides D) c) ∧
      ∀ (scale : K) (boundary outside inside wireframe : Bool),
        ({ v' with scale := scale, drawBoundary := boundary, drawOutside := outside, drawInside := inside }).draw wireframe =
          .ok (regions.zipIdx.flatMap fun x =>
            if (x.1.type = .boundary ∧ boundary = true) ∨ (x.1.type = .outside ∧ outside = true) ∨ (x.1.type = .inside ∧ inside = true) then
              (if wireframe then []
                else [filled D ((shown x.2).flatMap fun c => cornersOf (shrunkBox (refBox g c.path c.top) v.scale)) (cellColour x.2)]) ++
              [.lines ((shown x.2).flatMap fun c => edgePoints (shrunkBox (refBox g c.path c.top) v.scale) E)]
            else []) := by
  set N := g.numberOfCells.toNat with hN0
  have hpos : (0 : ℤ) ≤ g.numberOfCells := by
    rw [C24_count g hf]; exact Finset.prod_nonneg fun a _ => by positivity
  have hN : (N : ℤ) = g.numberOfCells := by rw [hN0, Int.toNat_of_nonneg hpos]
  have hN' : (N : ℤ) = ∏ a, (g.n a : ℤ) := by rw [hN, C24_count g hf]
  obtain ⟨hcl, hsy⟩ := C62_grid h g hf hn hH cells N hN
  obtain ⟨s, hs, hconn, hid, hreg, hbd⟩ := C62 (leafType cells) (gridNeighbors g cells) (sides D) (allLeaves cells N) hcl hsy _ le_rfl
  have hmem := mem_allLeaves g cells N hN'
  obtain ⟨regions, hregions⟩ : ∃ r, r = (tagRegions g ⟨s.regions, leafType cells⟩).regions := ⟨_, rfl⟩
  have htagged : regions = s.regions.map fun r => (⟨if r.type = .undef then if r.cells.any (touchesBorder g) = true then .outside else .inside
      else r.type, r.cells⟩ : Region (CellRef D)) := by
    rw [hregions, tagRegions, tagInside, (tagInside_spec _ _).1, tagOutside, (tagOutside_spec _ _ _).1]
    simp only [List.nil_append, List.map_map]
    refine List.map_congr_left fun r _ => ?_
    simp only [Function.comp]
    by_cases hu : r.type = .undef
    · by_cases ht : r.cells.any (touchesBorder g) = true
      · simp only [hu, ht, and_self, if_true, reduceCtorEq, if_false]
      · simp only [hu, ht, and_false, if_true, if_false, Bool.false_eq_true]
    · simp only [hu, false_and, if_false]
  have hlen : regions.length = s.regions.length := by rw [htagged, List.length_map]
  have hget : ∀ (i : ℕ) (R : Region (CellRef D)), regions[i]? = some R → ∃ R0, s.regions[i]? = some R0 ∧ R0.cells = R.cells ∧
      R.type = if R0.type = .undef then if R0.cells.any (touchesBorder g) = true then .outside else .inside else R0.type := by
    intro i R hR
    rw [htagged, List.getElem?_map] at hR
    obtain ⟨R0, h0, rfl⟩ := Option.map_eq_some_iff.mp hR
    exact ⟨R0, h0, rfl, rfl⟩
  have hpop := drawTrees_spec g cells v.scale s.regionId s.boundary regions.length (List.range N)
    ⟨List.replicate regions.length [], List.replicate regions.length []⟩ (by simp) (by simp) (fun c hc => by rw [hlen]; exact hid c hc)
  set shown : ℕ → List (CellRef D) := fun i => (allLeaves cells N).filter fun x => s.boundary x && decide (s.regionId x = (i : ℤ)) with hshown
  have hvec : ∀ (f : Box D K → List (Fin 3 → K)),
      addTo s.boundary s.regionId (fun c : CellRef D => f (refBox g c.path c.top)) (allLeaves cells N) (List.replicate regions.length []) =
      (regions.zipIdx).map fun x => (shown x.2).flatMap fun c => f (refBox g c.path c.top) := by
    intro f
    apply List.ext_getElem?
    intro i
    simp only [addTo, List.getElem?_mapIdx, List.getElem?_replicate, List.getElem?_map, List.getElem?_zipIdx, hshown]
    by_cases hi : i < regions.length
    · simp [hi]
    · simp [hi]
  refine ⟨{ v with content := some (regions, ⟨(regions.zipIdx).map fun x => (shown x.2).flatMap fun c =>
      cellPoints v.scale (refBox g c.path c.top), (regions.zipIdx).map fun x => (shown x.2).flatMap fun c =>
      edgeEnds v.scale (refBox g c.path c.top)⟩) }, regions, shown, edgeSigns D, ?_, ⟨_, rfl⟩, edgeSigns_spec h, ?_, ?_, ?_⟩
  · unfold GridView.create
    rw [← hN0]
    simp only
    have hs' : createRegions (leafType cells) (fun c s => getNeighbors g cells c s.1 s.2) (sides D) (allLeaves cells N).length
        (allLeaves cells N) = .ok s := hs
    rw [hs']
    simp only
    rw [← hregions, populateDrawing, ← hN0, hpop]
    simp only
    have e1 := hvec (cellPoints v.scale)
    have e2 := hvec (edgeEnds v.scale)
    unfold allLeaves at e1 e2
    rw [e1, e2]
  · intro c
    rw [← hmem]
    constructor
    · intro hc
      obtain ⟨h0, h1⟩ := hid c hc
      have hi : (s.regionId c).toNat < regions.length := by omega
      refine ⟨regions[(s.regionId c).toNat], List.getElem_mem _, ?_⟩
      obtain ⟨R0, hR0, e, -⟩ := hget _ _ (List.getElem?_eq_getElem hi)
      rw [← e]
      exact ((hreg _ R0 hR0).2.2.1 c).mpr ⟨hc, by omega⟩
    · rintro ⟨R, hR, hc⟩
      obtain ⟨i, hi⟩ := List.getElem?_of_mem hR
      obtain ⟨R0, hR0, e, -⟩ := hget _ _ hi
      rw [← e] at hc
      exact (((hreg _ R0 hR0).2.2.1 c).mp hc).1
  · intro i R hR
    obtain ⟨R0, hR0, e, ht⟩ := hget _ _ hR
    obtain ⟨-, -, hcell, htype⟩ := hreg _ R0 hR0
    rw [← e]
    refine ⟨fun x hx y hy => ?_, fun x hx => ?_, ?_, fun c => ?_⟩
    · have hx' := (hcell x).mp hx
      have hy' := (hmem y).mpr hy
      rw [hcell, ← hconn x hx'.1 y hy', hx'.2]
      exact ⟨fun h => h.2.symm, fun h => ⟨hy', h.symm⟩⟩
    · rw [ht, htype x hx]
      by_cases hu : R0.type = .undef
      · simp [hu]
      · simp [hu]
    · exact (allLeaves_nodup cells N).filter _
    · rw [hcell, hshown]
      simp only [List.mem_filter, Bool.and_eq_true, decide_eq_true_eq]
      constructor
      · rintro ⟨hc, hb, hr⟩
        exact ⟨⟨hc, hr⟩, (hbd c hc).mp hb⟩
      · rintro ⟨⟨hc, hr⟩, hb⟩
        exact ⟨hc, (hbd c hc).mpr hb, hr⟩
  · intro scale boundary outside inside wireframe
    unfold GridView.draw
    simp only
    rw [drawRegions_eq _ wireframe regions _ (fun i => (shown i).flatMap fun c => cellPoints v.scale (refBox g c.path c.top))
      (fun i => (shown i).flatMap fun c => edgeEnds v.scale (refBox g c.path c.top)) ?_ _ 0 (by simp)]
    · rw [List.drop_zero]
      congr 1
      refine List.flatMap_congr fun x _ => ?_
      simp only [GridView.drawRegion, filled, cellPoints_eq h, edgeEnds_eq h]
      rcases x with ⟨⟨t, cs⟩, i⟩
      cases t <;> cases boundary <;> cases outside <;> cases inside <;> cases wireframe <;> simp [GridView.wants]
      all_goals split_ifs <;> rfl
    · intro i hi
      simp [hi]

/-! ### The shrunk cells -/

/-- **C114 (shrinking).** With a factor between 0 and 1 the drawn cell stays in the cell, its volume (area in 2D) is the one of the cell
times the factor to the power of the dimension, and with the factor 1 it is the cell itself. -/
theorem C114_shrunk (b : Box D K) (hb : ∀ a, 0 ≤ b.size a) (s : K) (h1 : s ≤ 1) :
    (∀ x, InCellBox (shrunkBox b s) x → InCellBox b x) ∧ boxVolume (shrunkBox b s) = s ^ D * boxVolume b ∧ shrunkBox b 1 = b := by
  refine ⟨fun x hx a => ?_, ?_, ?_⟩
  · have h := hx a
    have := mul_le_mul_of_nonneg_right h1 (hb a)
    simp only [lower, upper, shrunkBox] at h ⊢
    constructor <;> linarith [h.1, h.2]
  · simp [boxVolume, shrunkBox, Finset.prod_mul_distrib]
  · simp [shrunkBox]

/-- Distinct leaves have disjoint interiors, also below distinct cells of the grid. -/
theorem leaves_disjoint (h : Is23 D) {α : Type*} (g : Grid D K) (hf : Fits g.n) (hH : ∀ a, 0 < g.H a) (cells : ℤ → CellTree D α)
    (c c' : CellRef D) (d d' : α) (hc : IsLeaf g cells c d) (hc' : IsLeaf g cells c' d') (hne : c ≠ c') (x : Fin D → K)
    (hx : InsideBox (refBox g c.path c.top) x) : ¬ InsideBox (refBox g c'.path c'.top) x := by
  intro hx'
  have hsz : ∀ t a, 0 ≤ (gridBox g t).size a := fun t a => (hH a).le
  by_cases ht : c.top = c'.top
  · refine leaf_disjoint h (cells c.top) (gridBox g c.top) (hsz _) c.path.reverse c'.path.reverse d d' hc.2.2 ?_ ?_ x ?_ ?_
    · rw [ht]; exact hc'.2.2
    · intro e
      have e' := List.reverse_injective e
      exact hne (by cases c; cases c'; simp only at ht e'; rw [ht, e'])
    · rw [← refBox_eq]; exact hx
    · rw [← refBox_eq, ht]; exact hx'
  · have hg : ∀ t p, InsideBox (refBox g p t) x → InsideBox (gridBox g t) x := by
      intro t p hp a
      rw [refBox_eq] at hp
      have := boxBelow_subset h (gridBox g t) (hsz t) p.reverse a
      exact ⟨this.1.trans_lt (hp a).1, (hp a).2.trans_le this.2⟩
    have k1 := hg _ _ hx
    have k2 := hg _ _ hx'
    have hco : ∃ a, g.cellCoordinatesAt c.top a ≠ g.cellCoordinatesAt c'.top a := by
      by_contra hall
      push Not at hall
      exact ht (coordinates_inj h g hf hc.1 hc.2.1 hc'.1 hc'.2.1 (funext hall))
    obtain ⟨a, ha⟩ := hco
    have l1 := k1 a
    have l2 := k2 a
    simp only [lower, upper, gridBox, Grid.cellCenter] at l1 l2
    have hHa := hH a
    rcases lt_or_gt_of_ne ha with hlt | hlt
    · have h3 : ((g.cellCoordinatesAt c.top a : ℤ) : K) + 1 ≤ (g.cellCoordinatesAt c'.top a : ℤ) := by exact_mod_cast hlt
      nlinarith [l1.2, l2.1, mul_le_mul_of_nonneg_right h3 hHa.le]
    · have h3 : ((g.cellCoordinatesAt c'.top a : ℤ) : K) + 1 ≤ (g.cellCoordinatesAt c.top a : ℤ) := by exact_mod_cast hlt
      nlinarith [l2.2, l1.1, mul_le_mul_of_nonneg_right h3 hHa.le]

/-- **C114 (disjoint).** With a factor below 1, the rectangles or boxes drawn for two distinct leaves have no point in common. -/
theorem C114_disjoint (h : Is23 D) {α : Type*} (g : Grid D K) (hf : Fits g.n) (hH : ∀ a, 0 < g.H a) (cells : ℤ → CellTree D α)
    (c c' : CellRef D) (d d' : α) (hc : IsLeaf g cells c d) (hc' : IsLeaf g cells c' d') (hne : c ≠ c') (s : K) (hs : s < 1) (x : Fin D → K)
    (hx : InCellBox (shrunkBox (refBox g c.path c.top) s) x) : ¬ InCellBox (shrunkBox (refBox g c'.path c'.top) s) x := by
  have hin : ∀ (p : List (Fin (2 ^ D))) (t : ℤ), InCellBox (shrunkBox (refBox g p t) s) x → InsideBox (refBox g p t) x := by
    intro p t hp a
    have hpos : 0 < (refBox g p t).size a := by rw [refBox_size]; exact div_pos (hH a) (by positivity)
    have := mul_lt_mul_of_pos_right hs hpos
    have h := hp a
    simp only [lower, upper, shrunkBox] at h ⊢
    constructor <;> linarith [h.1, h.2]
  exact fun hx' => leaves_disjoint h g hf hH cells c c' d d' hc hc' hne x (hin _ _ hx) (hin _ _ hx')

/-- **C114 (colours).** Two regions have the same colour exactly when their numbers have the same remainder modulo 20. -/
theorem C114_colour (i j : ℕ) : cellColour i = cellColour j ↔ i % 20 = j % 20 := by
  have e : ∀ k, cellColour k = cellColour (k % 20) := fun k => by simp [cellColour]
  have key : ∀ a < 20, ∀ b < 20, cellColour a = cellColour b → a = b := by decide +kernel
  constructor
  · intro h
    rw [e i, e j] at h
    exact key _ (Nat.mod_lt _ (by norm_num)) _ (Nat.mod_lt _ (by norm_num)) h
  · intro h
    rw [e i, e j, h]

/-! ### Cells which are not drawn -/

/-- All cells of the grid are undefined and are not subdivided. -/
def emptyCells (D : ℕ) : ℤ → CellTree D (CellData ℚ) := fun _ => .leaf ⟨.undef, 1⟩

/-- A test on the calls made by a drawing function on a created grid. -/
def observe (test : List (DrawCall ℚ) → Bool) (o : Outcome (GridView D ℚ)) (draw : GridView D ℚ → Outcome (List (DrawCall ℚ))) : Bool :=
  match o with
  | .ok v => match draw v with
    | .ok calls => test calls
    | _ => false
  | _ => false

theorem observe_true {test : List (DrawCall ℚ) → Bool} {o : Outcome (GridView D ℚ)} {draw : GridView D ℚ → Outcome (List (DrawCall ℚ))}
    (h : observe test o draw = true) : ∃ v calls, o = .ok v ∧ draw v = .ok calls ∧ test calls = true := by
  unfold observe at h
  split at h
  · rename_i v
    split at h
    · rename_i calls hc
      exact ⟨v, calls, rfl, hc, h⟩
    · cases h
  · cases h

/-- **C114 is violated.** In the grid of `3 × 3` cells which are all outside, with the option to "draw the cells that are outside", no
corner of the cell in the middle is drawn: cells which are not on the boundary of their region are left out. -/
theorem C114_violated : ∃ v' calls, (⟨17 / 20, false, true, false, none⟩ : GridView 2 ℚ).create exampleGrid33 (emptyCells 2) = .ok v' ∧
    v'.draw false = .ok calls ∧ (∃ pts col, DrawCall.quads pts col ∈ calls ∧ pts ≠ []) ∧
    ∀ pts col, DrawCall.quads pts col ∈ calls → ∀ σ ∈ cornerSigns 2, cornerOf (shrunkBox (refBox exampleGrid33 [] 4) (17 / 20)) σ ∉ pts := by
  have hf : Fits exampleGrid33.n := by simp only [Fits, exampleGrid33]; decide +kernel
  have hp : ∏ a, (exampleGrid33.n a : ℤ) = 9 := by decide +kernel
  obtain ⟨v', regions, shown, E, hc, ⟨content, rfl⟩, -, hleaf, hreg, hdraw⟩ := C114_draw (.inl rfl) exampleGrid33 hf (by decide +kernel) (by decide +kernel)
    (emptyCells 2) (⟨17 / 20, false, true, false, none⟩ : GridView 2 ℚ)
  have hborder : OnRegionBoundary (leafType (emptyCells 2)) (gridNeighbors exampleGrid33 (emptyCells 2)) (sides 2) ⟨[], 0⟩ := by
    unfold OnRegionBoundary; decide +kernel
  have hmiddle : ¬ OnRegionBoundary (leafType (emptyCells 2)) (gridNeighbors exampleGrid33 (emptyCells 2)) (sides 2) ⟨[], 4⟩ := by
    unfold OnRegionBoundary; decide +kernel
  have hcorner : ∀ k < 9, k ≠ 4 → ∀ σ ∈ cornerSigns 2, ∀ τ ∈ cornerSigns 2,
      cornerOf (shrunkBox (refBox exampleGrid33 [] ((k : ℕ) : ℤ)) (17 / 20)) τ ≠ cornerOf (shrunkBox (refBox exampleGrid33 [] 4) (17 / 20)) σ := by
    decide +kernel
  refine ⟨_, _, hc, hdraw (17 / 20) false true false false, ?_, ?_⟩
  · obtain ⟨R, hR, hm⟩ := (hleaf ⟨[], 0⟩).mp ⟨_, by norm_num, by rw [hp]; norm_num, .here _⟩
    obtain ⟨i, hi⟩ := List.getElem?_of_mem hR
    obtain ⟨-, htype, -, hs⟩ := hreg i R hi
    have ht := htype _ hm
    rw [if_neg (by decide +kernel), if_pos (List.any_eq_true.mpr ⟨_, hm, touchesBorder_2d _ _⟩)] at ht
    refine ⟨(shown i).flatMap fun c => cornersOf (shrunkBox (refBox exampleGrid33 c.path c.top) (17 / 20)), cellColour i,
      List.mem_flatMap.mpr ⟨(R, i), ?_, ?_⟩, ?_⟩
    · rw [List.mem_zipIdx_iff_getElem?]; exact hi
    · rw [if_pos (.inr (.inl ⟨ht, rfl⟩))]
      exact List.mem_cons_self
    · intro he
      rw [List.flatMap_eq_nil_iff] at he
      exact absurd (he ⟨[], 0⟩ ((hs _).mpr ⟨hm, hborder⟩)) (by simp [cornersOf, cornerSigns])
  · intro pts col hm σ hσ hin
    obtain ⟨⟨R, i⟩, hRi, hcall⟩ := List.mem_flatMap.mp hm
    rw [List.mem_zipIdx_iff_getElem?] at hRi
    simp only [filled, if_true, Bool.false_eq_true, and_false, or_false, false_or, and_true, if_false] at hcall
    split at hcall
    · have hpts : pts = (shown i).flatMap fun c => cornersOf (shrunkBox (refBox exampleGrid33 c.path c.top) (17 / 20)) := by
        simp only [List.cons_append, List.nil_append, List.mem_cons, DrawCall.quads.injEq,
          reduceCtorEq, List.not_mem_nil, or_false] at hcall
        exact hcall.1
      rw [hpts] at hin
      obtain ⟨c, hcs, hcor⟩ := List.mem_flatMap.mp hin
      obtain ⟨hcR, hcb⟩ := ((hreg i R hRi).2.2.2 c).mp hcs
      obtain ⟨d, h0, h1, hl⟩ := (hleaf c).mpr ⟨R, List.mem_of_getElem? hRi, hcR⟩
      obtain ⟨path, top⟩ := c
      have hpath : path = [] := by simpa using (leafAt_leaf.mp hl).1
      subst hpath
      rw [hp] at h1
      obtain ⟨k, rfl⟩ := Int.eq_ofNat_of_zero_le h0
      have hk4 : k ≠ 4 := by
        rintro rfl
        exact hmiddle hcb
      obtain ⟨τ, hτ, he⟩ := List.mem_map.mp hcor
      exact hcorner k (by simpa using h1) hk4 σ hσ τ hτ he
    · simp at hcall

omit [LinearOrder K] [IsStrictOrderedRing K] in
theorem draw_scale (v : GridView D K) (scale : K) (wireframe : Bool) : ({ v with scale := scale }).draw wireframe = v.draw wireframe := by
  have key : ∀ (w : GridView D K) (regions : List (Region (CellRef D))) (edges rest : List (List (Fin 3 → K))) (i : ℕ), w.wants = v.wants →
      w.drawRegions wireframe regions edges i rest = v.drawRegions wireframe regions edges i rest := by
    intro w regions edges rest
    induction rest with
    | nil => intro i _; rfl
    | cons c rest ih =>
      intro i hw
      simp only [GridView.drawRegions, GridView.drawRegion, ih (i + 1) hw, hw]
  unfold GridView.draw
  rcases v.content with _ | ⟨regions, vectors⟩
  · rfl
  · exact key _ _ _ _ _ rfl

/-- **C114 is violated (scale).** Writing `draw_scale` after the initialisation has no effect: on one cell, created with the factor 17/20
which is then set to 1/2, `draw` does not make the calls it makes when the grid is created with the factor 1/2. -/
theorem C114_scale_violated : ∃ (g : Grid 2 ℚ) (v v₁ v₂ : GridView 2 ℚ), v.create g (emptyCells 2) = .ok v₁ ∧
    ({ v with scale := 1 / 2 }).create g (emptyCells 2) = .ok v₂ ∧ ({ v₁ with scale := 1 / 2 }).draw false = v₁.draw false ∧
    ({ v₁ with scale := 1 / 2 }).draw false ≠ v₂.draw false := by
  set g : Grid 2 ℚ := ⟨![0, 0], ![1, 1], ![1, 1]⟩ with hg
  have k1 : observe (fun calls => calls.any fun | .quads pts _ => decide ((![3 / 40, 3 / 40, 0] : Fin 3 → ℚ) ∈ pts) | _ => false)
      ((⟨17 / 20, false, true, false, none⟩ : GridView 2 ℚ).create ⟨![0, 0], ![1, 1], ![1, 1]⟩ (emptyCells 2)) (fun v => ({ v with scale := 1 / 2 }).draw false)
      = true := by decide +kernel
  have k2 : observe (fun calls => !calls.any fun | .quads pts _ => decide ((![3 / 40, 3 / 40, 0] : Fin 3 → ℚ) ∈ pts) | _ => false)
      ((⟨1 / 2, false, true, false, none⟩ : GridView 2 ℚ).create ⟨![0, 0], ![1, 1], ![1, 1]⟩ (emptyCells 2)) (fun v => v.draw false) = true := by
    decide +kernel
  obtain ⟨v₁, c₁, e1, d1, r1⟩ := observe_true k1
  obtain ⟨v₂, c₂, e2, d2, r2⟩ := observe_true k2
  refine ⟨g, ⟨17 / 20, false, true, false, none⟩, v₁, v₂, e1, e2, draw_scale v₁ (1 / 2) false, ?_⟩
  intro h
  rw [h, d2] at d1
  cases d1
  rw [r1] at r2
  cases r2

/-! ### Bounding box -/

/-- **C114 (bounding box).** With corners given in increasing order, the visible bounding box holds the whole grid, and no smaller box does (in 2D the
box goes from -1 to 1 along the third axis); when the box is not asked for the visible objects only, it is not computed. -/
theorem C114_bbox (h : Is23 D) (first second : Fin D → K) (hle : ∀ a, first a ≤ second a) :
    gridBBox false first second = none ∧ ∃ lo hi, gridBBox true first second = some (lo, hi) ∧
      (∀ x : Fin D → K, (∀ a, min (first a) (second a) ≤ x a ∧ x a ≤ min (first a) (second a) + |first a - second a|) →
        ∀ k, lo k ≤ inSpace x k ∧ inSpace x k ≤ hi k) ∧ (D = 2 → lo 2 = -1 ∧ hi 2 = 1) ∧
      ∃ x y : Fin D → K, (∀ a, min (first a) (second a) ≤ x a ∧ x a ≤ min (first a) (second a) + |first a - second a|) ∧
        (∀ a, min (first a) (second a) ≤ y a ∧ y a ≤ min (first a) (second a) + |first a - second a|) ∧
        ∀ k : Fin 3, k.val < D → lo k = inSpace x k ∧ hi k = inSpace y k := by
  refine ⟨rfl, ?_⟩
  have hx : ∀ a, min (first a) (second a) ≤ first a ∧ first a ≤ min (first a) (second a) + |first a - second a| := fun a => by
    rw [min_eq_left (hle _)]
    exact ⟨le_rfl, by linarith [abs_nonneg (first a - second a)]⟩
  have hy : ∀ a, min (first a) (second a) ≤ second a ∧ second a ≤ min (first a) (second a) + |first a - second a| := fun a => by
    rw [min_eq_left (hle _), abs_sub_comm, abs_of_nonneg (sub_nonneg.mpr (hle _))]
    exact ⟨hle _, by linarith⟩
  rcases h with rfl | rfl
  · refine ⟨_, _, rfl, fun x hx k => ?_, fun _ => by constructor <;> simp [point3], first, second, hx, hy, fun k hk => ?_⟩
    swap
    · fin_cases k <;> simp [point3, inSpace] at hk ⊢
    have h0 := hx 0
    have h1 := hx 1
    rw [min_eq_left (hle _), abs_sub_comm, abs_of_nonneg (sub_nonneg.mpr (hle _))] at h0 h1
    fin_cases k <;> simp [point3, inSpace] <;> constructor <;> linarith [h0.1, h0.2, h1.1, h1.2]
  · refine ⟨_, _, rfl, fun x hx k => ?_, fun h => absurd h (by norm_num), first, second, hx, hy, fun k hk => ?_⟩
    swap
    · fin_cases k <;> simp [point3, inSpace]
    have h0 := hx 0
    have h1 := hx 1
    have h2 := hx 2
    rw [min_eq_left (hle _), abs_sub_comm, abs_of_nonneg (sub_nonneg.mpr (hle _))] at h0 h1 h2
    fin_cases k <;> simp [point3, inSpace] <;> constructor <;> linarith [h0.1, h0.2, h1.1, h1.2, h2.1, h2.2]

/-- **C114 is violated (bounding box).** `create_grid` accepts two corners in any order, but as soon as they are not in increasing order
along one axis the bounding box does not contain any point. -/
theorem C114_bbox_violated (h : Is23 D) (first second : Fin D → K) (a : Fin D) (hlt : second a < first a) :
    ∃ lo hi, gridBBox true first second = some (lo, hi) ∧ ¬ ∃ p : Fin 3 → K, ∀ k, lo k ≤ p k ∧ p k ≤ hi k := by
  rcases h with rfl | rfl
  · refine ⟨_, _, rfl, ?_⟩
    rintro ⟨p, hp⟩
    have h0 := hp 0
    have h1 := hp 1
    simp only [point3, Pi.add_apply, Matrix.cons_val, add_zero, Fin.isValue] at h0 h1
    fin_cases a
    · exact absurd (h0.1.trans h0.2) (not_le.mpr hlt)
    · exact absurd (h1.1.trans h1.2) (not_le.mpr hlt)
  · refine ⟨_, _, rfl, ?_⟩
    rintro ⟨p, hp⟩
    have h0 := hp 0
    have h1 := hp 1
    have h2 := hp 2
    simp only [point3, Matrix.cons_val, Fin.isValue] at h0 h1 h2
    fin_cases a
    · exact absurd (h0.1.trans h0.2) (not_le.mpr hlt)
    · exact absurd (h1.1.trans h1.2) (not_le.mpr hlt)
    · exact absurd (h2.1.trans h2.2) (not_le.mpr hlt)

/-! ### Examples -/

/-- `C114_draw` and `C114_disjoint` apply to the grid of `3 × 3 × 3` cells, the middle one of which is subdivided once. -/
example : ∃ v', (⟨17 / 20, true, false, false, none⟩ : GridView 3 ℚ).create exampleGrid333
    (fun i => if i = 13 then .node fun _ => .leaf ⟨.boundary, 1 / 8⟩ else .leaf ⟨.undef, 1⟩) = .ok v' := by
  obtain ⟨v', _, _, _, h, _⟩ := C114_draw (.inr rfl) exampleGrid333 (by simp only [Fits, exampleGrid333]; decide +kernel) (by decide +kernel)
    (by decide +kernel) (fun i => if i = 13 then .node fun _ => .leaf ⟨.boundary, 1 / 8⟩ else .leaf ⟨.undef, 1⟩)
    (⟨17 / 20, true, false, false, none⟩ : GridView 3 ℚ)
  exact ⟨v', h⟩

/-- Two neighbouring cells of the grid of `3 × 3` cells: their shrunk rectangles are disjoint. -/
example (x : Fin 2 → ℚ) (hx : InCellBox (shrunkBox (refBox exampleGrid33 [] 3) (17 / 20)) x) :
    ¬ InCellBox (shrunkBox (refBox exampleGrid33 [] 4) (17 / 20)) x :=
  C114_disjoint (.inl rfl) exampleGrid33 (by simp only [Fits, exampleGrid33]; decide +kernel) (by decide +kernel) (emptyCells 2) ⟨[], 3⟩
    ⟨[], 4⟩ _ _ ⟨by norm_num, by decide +kernel, .here _⟩ ⟨by norm_num, by decide +kernel, .here _⟩ (by decide) (17 / 20) (by norm_num) x hx

/-- The regions 3 and 23 have the same colour, 3 and 4 do not. -/
example : cellColour 3 = cellColour 23 ∧ cellColour 3 ≠ cellColour 4 :=
  ⟨(C114_colour 3 23).mpr rfl, fun h => absurd ((C114_colour 3 4).mp h) (by decide)⟩

/-- A square shrunk to its half. -/
example (x : Fin 2 → ℚ) (hx : InCellBox (shrunkBox ⟨![1, 1], ![2, 2]⟩ (1 / 2)) x) : InCellBox ⟨![1, 1], ![2, 2]⟩ x :=
  (C114_shrunk ⟨![1, 1], ![2, 2]⟩ (by decide +kernel) (1 / 2) (by norm_num)).1 x hx

/-- The box of a grid given by its corners (0, 0) and (2, 1), and by (0, 1) and (2, 0). -/
example : (∃ lo hi, gridBBox true ![(0 : ℚ), 0] ![2, 1] = some (lo, hi)) ∧
    ∃ lo hi, gridBBox true ![(0 : ℚ), 1] ![2, 0] = some (lo, hi) ∧ ¬ ∃ p : Fin 3 → ℚ, ∀ k, lo k ≤ p k ∧ p k ≤ hi k := by
  obtain ⟨_, lo, hi, h, _⟩ := C114_bbox (.inl rfl) ![(0 : ℚ), 0] ![2, 1] (by decide +kernel)
  exact ⟨⟨lo, hi, h⟩, C114_bbox_violated (.inl rfl) ![(0 : ℚ), 1] ![2, 0] 1 (by decide +kernel)⟩

end Caribou
