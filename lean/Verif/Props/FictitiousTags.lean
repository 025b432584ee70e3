import Verif.Props.FictitiousGrid

/-!
# Property C63: types of the regions of a fictitious grid
-/

set_option autoImplicit false

namespace Caribou

open Spec FictitiousGrid

variable {D : ℕ} {K : Type*} [Field K] [LinearOrder K] [IsStrictOrderedRing K]

/-! ### The six bits -/

theorem climbBits_iff (p : List (Fin (2 ^ D))) (b : Fin 3 × Bool → Bool) (f : Fin 3 × Bool) (hf : f.1.val < D) :
    climbBits p b f = true ↔ b f = true ∧ ∀ i ∈ p, subcellCoordinates D i ⟨f.1.val, hf⟩ = if f.2 then 1 else 0 := by
  induction p generalizing b with
  | nil => simp [climbBits]
  | cons i p ih =>
    rw [climbBits, ih, List.forall_mem_cons]
    simp only [hf, dif_pos, Bool.and_eq_true, decide_eq_true_eq, and_assoc]

theorem val_eq (T : Fin D → ℤ) (a : Fin D) (p : List (Fin (2 ^ D))) : val T a p = 2 ^ p.length * T a + bits a p := by
  have := val_append T a p []
  simpa [val] using this

theorem lower_border (h : Is23 D) (g : Grid D K) (hH : ∀ a, 0 < g.H a) (c : CellRef D) (a : Fin D) :
    lower (refBox g c.path c.top) a = g.anchor a ↔
      g.cellCoordinatesAt c.top a = 0 ∧ ∀ i ∈ c.path, subcellCoordinates D i a = 0 := by
  have e : lower (refBox g c.path c.top) a = g.anchor a ↔ val (g.cellCoordinatesAt c.top) a c.path = 0 := by
    rw [refBox_lower h]
    have := dy_eq (o := g.anchor a) (hH a) (val (g.cellCoordinatesAt c.top) a c.path) 0 0 c.path.length
    simpa using this
  have hb := bits_range h a c.path
  have hp : (0 : ℤ) < 2 ^ c.path.length := by positivity
  rw [e, ← bits_zero h, val_eq]
  constructor
  · intro h0
    have h1 : 2 ^ c.path.length * (g.cellCoordinatesAt c.top a) < 2 ^ c.path.length * 1 := by linarith [hb.1]
    have h2 : 2 ^ c.path.length * (-1) < 2 ^ c.path.length * (g.cellCoordinatesAt c.top a) := by linarith [hb.2]
    have a1 := lt_of_mul_lt_mul_left h1 hp.le
    have a2 := lt_of_mul_lt_mul_left h2 hp.le
    have hz : g.cellCoordinatesAt c.top a = 0 := by omega
    rw [hz] at h0
    exact ⟨hz, by linarith⟩
  · rintro ⟨h1, h2⟩
    rw [h1, h2]; ring

theorem upper_border (h : Is23 D) (g : Grid D K) (hn0 : ∀ a, 0 < g.n a) (hH : ∀ a, 0 < g.H a) (c : CellRef D) (a : Fin D) :
    upper (refBox g c.path c.top) a = g.anchor a + g.size a ↔
      g.cellCoordinatesAt c.top a = g.n a - 1 ∧ ∀ i ∈ c.path, subcellCoordinates D i a = 1 := by
  have hs : g.size a = g.H a * ((g.n a : ℤ) : K) / 2 ^ 0 := by
    rw [Grid.H]
    have : (g.n a : K) ≠ 0 := by exact_mod_cast (hn0 a).ne'
    push_cast
    field_simp
  have e : upper (refBox g c.path c.top) a = g.anchor a + g.size a ↔
      val (g.cellCoordinatesAt c.top) a c.path + 1 = g.n a * 2 ^ c.path.length := by
    rw [refBox_upper h, hs]
    have := dy_eq (o := g.anchor a) (hH a) (val (g.cellCoordinatesAt c.top) a c.path + 1) (g.n a) 0 c.path.length
    push_cast at this ⊢
    rw [this]
    simp
  have hb := bits_range h a c.path
  have hp : (0 : ℤ) < 2 ^ c.path.length := by positivity
  rw [e, ← bits_ones h, val_eq]
  constructor
  · intro h0
    have h1 : 2 ^ c.path.length * (g.cellCoordinatesAt c.top a - (g.n a - 1)) < 2 ^ c.path.length * 1 := by linarith [hb.1]
    have h2 : 2 ^ c.path.length * (-1) < 2 ^ c.path.length * (g.cellCoordinatesAt c.top a - (g.n a - 1)) := by linarith [hb.2]
    have a1 := lt_of_mul_lt_mul_left h1 hp.le
    have a2 := lt_of_mul_lt_mul_left h2 hp.le
    have hz : g.cellCoordinatesAt c.top a = g.n a - 1 := by omega
    rw [hz] at h0
    exact ⟨hz, by linarith⟩
  · rintro ⟨h1, h2⟩
    rw [h1, h2]; ring

/-- In three dimensions the test of `tag_outside_cells` is exact for the cells of the grid. -/
theorem touchesBorder_iff (g : Grid 3 K) (hf : Fits g.n) (hn : ∀ a, (g.n a : ℤ) < 2 ^ 31) (hn0 : ∀ a, 0 < g.n a)
    (hH : ∀ a, 0 < g.H a) (c : CellRef 3) (h0 : 0 ≤ c.top) (h1 : c.top < ∏ a, (g.n a : ℤ)) :
    touchesBorder g c = true ↔ TouchesBorder g.anchor g.size (refBox g c.path c.top) := by
  have hT := (C24_index (Is23.dim (.inr rfl)) g hf c.top h0 (by rw [C24_count g hf]; exact h1)).1
  have key : ∀ a : Fin 3, (boundaryBits g c (a, false) = true ↔ lower (refBox g c.path c.top) a = g.anchor a) ∧
      (boundaryBits g c (a, true) = true ↔ upper (refBox g c.path c.top) a = g.anchor a + g.size a) := fun a => by
    have hTa := hT a
    have hna := hn a
    constructor
    · rw [lower_border (.inr rfl) g hH, boundaryBits]
      simp only [a.isLt, dif_pos, Bool.and_eq_true, climbBits_iff c.path _ (a, false) a.isLt, Bool.false_eq_true, if_false,
        decide_eq_true_eq, true_and]
      exact and_comm
    · rw [upper_border (.inr rfl) g hn0 hH, boundaryBits]
      simp only [a.isLt, dif_pos, Bool.and_eq_true, climbBits_iff c.path _ (a, true) a.isLt, if_true, decide_eq_true_eq, true_and]
      have hn1 : (0 : ℤ) < g.n a := by exact_mod_cast hn0 a
      have hu : toU64 ((g.n ⟨a.val, a.isLt⟩ : ℤ) - 1) = g.n a - 1 := toU64_id (by simpa using by omega) (by simpa using by omega)
      rw [hu, Int.emod_eq_of_lt hTa.1 (by omega)]
      exact and_comm
  simp only [touchesBorder, anyBit, List.any_eq_true, List.mem_finRange, true_and, Bool.or_eq_true, TouchesBorder]
  exact exists_congr fun a => or_congr (key a).1 (key a).2

/-! ### Tagging of the regions -/

section Regions

variable {C : Type*} [DecidableEq C]

theorem tagOutside_spec (touches : C → Bool) (rs : List (Region C)) : ∀ s : Tagging C,
    (rs.foldl (tagOutsideRegion touches) s).regions = s.regions ++ rs.map (fun r =>
      if r.type = .undef ∧ r.cells.any touches = true then ⟨.outside, r.cells⟩ else r) ∧
    ∀ x, (rs.foldl (tagOutsideRegion touches) s).type x =
      open Classical in if ∃ r ∈ rs, r.type = .undef ∧ r.cells.any touches = true ∧ x ∈ r.cells then .outside else s.type x := by
  induction rs with
  | nil => intro s; simp
  | cons r rs ih =>
    intro s
    obtain ⟨h1, h2⟩ := ih (tagOutsideRegion touches s r)
    rw [List.foldl_cons]
    by_cases hu : r.type = .undef
    · by_cases ht : r.cells.any touches = true
      · have e : tagOutsideRegion touches s r = ⟨s.regions ++ [⟨.outside, r.cells⟩], setTypes r.cells .outside s.type⟩ := by
          rw [tagOutsideRegion, if_neg (by simpa using hu), if_pos ht]
        refine ⟨by rw [h1, e, List.map_cons, if_pos ⟨hu, ht⟩]; simp, fun x => ?_⟩
        rw [h2, e]
        by_cases hx : x ∈ r.cells
        · by_cases hr : ∃ r ∈ rs, r.type = .undef ∧ r.cells.any touches = true ∧ x ∈ r.cells
          · rw [if_pos hr, if_pos ⟨r, by simp, hu, ht, hx⟩]
          · rw [if_neg hr, if_pos ⟨r, by simp, hu, ht, hx⟩]; simp [setTypes, hx]
        · have hiff : (∃ r' ∈ r :: rs, r'.type = .undef ∧ r'.cells.any touches = true ∧ x ∈ r'.cells) ↔
              ∃ r ∈ rs, r.type = .undef ∧ r.cells.any touches = true ∧ x ∈ r.cells := by
            simp only [List.mem_cons, exists_eq_or_imp]
            exact ⟨fun h => h.elim (fun h => absurd h.2.2 hx) id, .inr⟩
          rw [if_congr hiff rfl rfl]
          simp [setTypes, hx]
      · have e : tagOutsideRegion touches s r = { s with regions := s.regions ++ [r] } := by
          rw [tagOutsideRegion, if_neg (by simpa using hu), if_neg ht]
        refine ⟨by rw [h1, e, List.map_cons, if_neg fun h => ht h.2]; simp, fun x => ?_⟩
        rw [h2, e]
        refine if_congr ?_ rfl rfl
        simp only [List.mem_cons, exists_eq_or_imp]
        exact ⟨.inr, fun h => h.elim (fun h => absurd h.2.1 ht) id⟩
    · have e : tagOutsideRegion touches s r = { s with regions := s.regions ++ [r] } := by
        rw [tagOutsideRegion, if_pos hu]
      refine ⟨by rw [h1, e, List.map_cons, if_neg fun h => hu h.1]; simp, fun x => ?_⟩
      rw [h2, e]
      refine if_congr ?_ rfl rfl
      simp only [List.mem_cons, exists_eq_or_imp]
      exact ⟨.inr, fun h => h.elim (fun h => absurd h.1 hu) id⟩

theorem tagInside_spec (rs : List (Region C)) : ∀ s : Tagging C,
    (rs.foldl tagInsideRegion s).regions = s.regions ++ rs.map (fun r =>
      if r.type = .undef then ⟨.inside, r.cells⟩ else r) ∧
    ∀ x, (rs.foldl tagInsideRegion s).type x =
      open Classical in if ∃ r ∈ rs, r.type = .undef ∧ x ∈ r.cells then .inside else s.type x := by
  induction rs with
  | nil => intro s; simp
  | cons r rs ih =>
    intro s
    obtain ⟨h1, h2⟩ := ih (tagInsideRegion s r)
    rw [List.foldl_cons]
    by_cases hu : r.type = .undef
    · have e : tagInsideRegion s r = ⟨s.regions ++ [⟨.inside, r.cells⟩], setTypes r.cells .inside s.type⟩ := by
        rw [tagInsideRegion, if_neg (by simpa using hu)]
      refine ⟨by rw [h1, e]; simp [hu], fun x => ?_⟩
      rw [h2, e]
      by_cases hx : x ∈ r.cells
      · by_cases hr : ∃ r ∈ rs, r.type = .undef ∧ x ∈ r.cells
        · rw [if_pos hr, if_pos ⟨r, by simp, hu, hx⟩]
        · rw [if_neg hr, if_pos ⟨r, by simp, hu, hx⟩]; simp [setTypes, hx]
      · have hiff : (∃ r' ∈ r :: rs, r'.type = .undef ∧ x ∈ r'.cells) ↔ ∃ r ∈ rs, r.type = .undef ∧ x ∈ r.cells := by
          simp only [List.mem_cons, exists_eq_or_imp]
          exact ⟨fun h => h.elim (fun h => absurd h.2 hx) id, .inr⟩
        rw [if_congr hiff rfl rfl]
        simp [setTypes, hx]
    · have e : tagInsideRegion s r = { s with regions := s.regions ++ [r] } := by rw [tagInsideRegion, if_pos hu]
      refine ⟨by rw [h1, e]; simp [hu], fun x => ?_⟩
      rw [h2, e]
      refine if_congr ?_ rfl rfl
      simp only [List.mem_cons, exists_eq_or_imp]
      exact ⟨.inr, fun h => h.elim (fun h => absurd h.1 hu) id⟩

end Regions

/-- The result of the two passes, for any test. -/
theorem tagRegions_spec {α : Type*} (h23 : Is23 D) (g : Grid D K) (hf : Fits g.n) (hn : ∀ a, (g.n a : ℤ) < 2 ^ 31)
    (hH : ∀ a, 0 < g.H a) (cells : ℤ → CellTree D α) (type : CellRef D → CellType) (N : ℕ) (hN : (N : ℤ) = g.numberOfCells)
    (s : Clustering (CellRef D))
    (hs : createRegions type (gridNeighbors g cells) (sides D) (allLeaves cells N).length (allLeaves cells N) = .ok s)
    (x : CellRef D) (d : α) (hx : IsLeaf g cells x d) :
    (type x ≠ .undef → (tagRegions g ⟨s.regions, type⟩).type x = type x) ∧
    (type x = .undef → ((∃ y, Connected type (gridNeighbors g cells) (sides D) x y ∧ (∃ d, IsLeaf g cells y d) ∧
        touchesBorder g y = true) → (tagRegions g ⟨s.regions, type⟩).type x = .outside) ∧
      ((¬ ∃ y, Connected type (gridNeighbors g cells) (sides D) x y ∧ (∃ d, IsLeaf g cells y d) ∧
        touchesBorder g y = true) → (tagRegions g ⟨s.regions, type⟩).type x = .inside)) := by
  classical
  have hN' : (N : ℤ) = ∏ a, (g.n a : ℤ) := by rw [hN, C24_count g hf]
  obtain ⟨hcl, hsy⟩ := C62_grid h23 g hf hn hH cells N hN
  obtain ⟨s', e, hconn, hrange, hregs, -⟩ := C62 type (gridNeighbors g cells) (sides D) _ hcl hsy _ le_rfl
  rw [hs] at e
  cases e
  have hxl : x ∈ allLeaves cells N := (mem_allLeaves g cells N hN' x).mpr ⟨d, hx⟩
  obtain ⟨hr0, hr1⟩ := hrange x hxl
  have hlt : (s.regionId x).toNat < s.regions.length := by omega
  set R := s.regions[(s.regionId x).toNat] with hR
  have hRs : R ∈ s.regions := List.getElem_mem hlt
  obtain ⟨-, -, hcells, htype⟩ := hregs _ R (List.getElem?_eq_getElem hlt)
  have hxR : x ∈ R.cells := (hcells x).mpr ⟨hxl, by omega⟩
  -- the region of a cell is unique
  have huniq : ∀ R' ∈ s.regions, x ∈ R'.cells → R' = R := fun R' h' hx' => by
    obtain ⟨i, hi⟩ := List.getElem?_of_mem h'
    have hid := ((hregs i R' hi).2.2.1 x).mp hx'
    have hii : (s.regionId x).toNat = i := by omega
    subst hii
    rw [List.getElem?_eq_getElem hlt] at hi
    exact (Option.some.inj hi).symm
  -- one of the cells of the region passes the test
  have htouch : R.cells.any (touchesBorder g) = true ↔ ∃ y, Connected type (gridNeighbors g cells) (sides D) x y ∧
      (∃ d, IsLeaf g cells y d) ∧ touchesBorder g y = true := by
    rw [List.any_eq_true]
    constructor
    · rintro ⟨y, hy, ht⟩
      obtain ⟨hyl, hid⟩ := (hcells y).mp hy
      exact ⟨y, (hconn x hxl y hyl).mp (by omega), (mem_allLeaves g cells N hN' y).mp hyl, ht⟩
    · rintro ⟨y, hy, hyd, ht⟩
      have hyl : y ∈ allLeaves cells N := (mem_allLeaves g cells N hN' y).mpr hyd
      have hid := (hconn x hxl y hyl).mpr hy
      exact ⟨y, (hcells y).mpr ⟨hyl, by omega⟩, ht⟩
  -- the result of the two passes
  have ho := tagOutside_spec (touchesBorder g) s.regions ⟨[], type⟩
  have hi := tagInside_spec (tagOutside (touchesBorder g) ⟨s.regions, type⟩).regions
    ⟨[], (tagOutside (touchesBorder g) ⟨s.regions, type⟩).type⟩
  have e1 : (tagOutside (touchesBorder g) ⟨s.regions, type⟩).regions = s.regions.map (fun r =>
      if r.type = .undef ∧ r.cells.any (touchesBorder g) = true then ⟨.outside, r.cells⟩ else r) := by
    have := ho.1
    simpa [tagOutside] using this
  have e2 : ∀ x, (tagOutside (touchesBorder g) ⟨s.regions, type⟩).type x =
      if ∃ r ∈ s.regions, r.type = .undef ∧ r.cells.any (touchesBorder g) = true ∧ x ∈ r.cells then .outside else type x := ho.2
  have e3 : (tagRegions g ⟨s.regions, type⟩).type x =
      if ∃ r ∈ (tagOutside (touchesBorder g) ⟨s.regions, type⟩).regions, r.type = .undef ∧ x ∈ r.cells then .inside
      else (tagOutside (touchesBorder g) ⟨s.regions, type⟩).type x := hi.2 x
  have hA : (∃ r ∈ s.regions, r.type = .undef ∧ r.cells.any (touchesBorder g) = true ∧ x ∈ r.cells) ↔
      R.type = .undef ∧ R.cells.any (touchesBorder g) = true := by
    constructor
    · rintro ⟨r, hr, h1, h2, h3⟩; rw [huniq r hr h3] at h1 h2; exact ⟨h1, h2⟩
    · rintro ⟨h1, h2⟩; exact ⟨R, hRs, h1, h2, hxR⟩
  have hB : (∃ r ∈ (tagOutside (touchesBorder g) ⟨s.regions, type⟩).regions, r.type = .undef ∧ x ∈ r.cells) ↔
      R.type = .undef ∧ ¬ R.cells.any (touchesBorder g) = true := by
    rw [e1]
    constructor
    · rintro ⟨r, hr, h1, h2⟩
      obtain ⟨r', hr', rfl⟩ := List.mem_map.mp hr
      by_cases hc : r'.type = .undef ∧ r'.cells.any (touchesBorder g) = true
      · rw [if_pos hc] at h1; exact absurd h1 (by simp)
      · rw [if_neg hc] at h1 h2
        have := huniq r' hr' h2
        subst this
        exact ⟨h1, fun h => hc ⟨h1, h⟩⟩
    · rintro ⟨h1, h2⟩
      exact ⟨R, List.mem_map.mpr ⟨R, hRs, by rw [if_neg fun h => h2 h.2]⟩, h1, hxR⟩
  have hRx : type x = R.type := htype x hxR
  rw [e3, e2]
  refine ⟨fun hne => ?_, fun hu => ⟨fun hex => ?_, fun hex => ?_⟩⟩
  · rw [if_neg fun h => hne (hRx.trans (hB.mp h).1), if_neg fun h => hne (hRx.trans (hA.mp h).1)]
  · rw [if_neg fun h => (hB.mp h).2 (htouch.mpr hex), if_pos (hA.mpr ⟨hRx ▸ hu, htouch.mpr hex⟩)]
  · rw [if_pos (hB.mpr ⟨hRx ▸ hu, fun h => hex (htouch.mp h)⟩)]

/-- **C63 (partial: 3D).** The regions of a grid are always computed, and after the two tagging passes a leaf cell which was
not of type `Undefined` keeps its type, and a cell of type `Undefined` is `Outside` exactly when the connected region of
`Undefined` cells it belongs to has a cell with a face on the border of the grid; otherwise it is `Inside`.  Missing: two
dimensions, where this is false (`C63_violated`). -/
theorem C63_partial {α : Type*} (g : Grid 3 K) (hf : Fits g.n) (hn : ∀ a, (g.n a : ℤ) < 2 ^ 31) (hn0 : ∀ a, 0 < g.n a)
    (hH : ∀ a, 0 < g.H a) (cells : ℤ → CellTree 3 α) (type : CellRef 3 → CellType) (N : ℕ) (hN : (N : ℤ) = g.numberOfCells) :
    ∃ s, createRegions type (gridNeighbors g cells) (sides 3) (allLeaves cells N).length (allLeaves cells N) = .ok s ∧
      ∀ (x : CellRef 3) (d : α), IsLeaf g cells x d →
        (type x ≠ .undef → (tagRegions g ⟨s.regions, type⟩).type x = type x) ∧
        (type x = .undef → ((∃ y d', IsLeaf g cells y d' ∧ Connected type (gridNeighbors g cells) (sides 3) x y ∧
            TouchesBorder g.anchor g.size (refBox g y.path y.top)) →
          (tagRegions g ⟨s.regions, type⟩).type x = .outside) ∧
          ((¬ ∃ y d', IsLeaf g cells y d' ∧ Connected type (gridNeighbors g cells) (sides 3) x y ∧
            TouchesBorder g.anchor g.size (refBox g y.path y.top)) →
          (tagRegions g ⟨s.regions, type⟩).type x = .inside)) := by
  obtain ⟨hcl, hsy⟩ := C62_grid (.inr rfl) g hf hn hH cells N hN
  obtain ⟨s, hs, -⟩ := C62 type (gridNeighbors g cells) (sides 3) _ hcl hsy _ le_rfl
  refine ⟨s, hs, fun x d hx => ?_⟩
  obtain ⟨h1, h2⟩ := tagRegions_spec (.inr rfl) g hf hn hH cells type N hN s hs x d hx
  have e : (∃ y d', IsLeaf g cells y d' ∧ Connected type (gridNeighbors g cells) (sides 3) x y ∧
      TouchesBorder g.anchor g.size (refBox g y.path y.top)) ↔
      ∃ y, Connected type (gridNeighbors g cells) (sides 3) x y ∧ (∃ d, IsLeaf g cells y d) ∧ touchesBorder g y = true := by
    constructor
    · rintro ⟨y, d', hy, hc, ht⟩
      exact ⟨y, hc, ⟨d', hy⟩, (touchesBorder_iff g hf hn hn0 hH y hy.1 hy.2.1).mpr ht⟩
    · rintro ⟨y, hc, ⟨d', hy⟩, ht⟩
      exact ⟨y, d', hy, hc, (touchesBorder_iff g hf hn hn0 hH y hy.1 hy.2.1).mp ht⟩
  refine ⟨h1, fun hu => ?_⟩
  rw [e]
  exact h2 hu

omit [LinearOrder K] [IsStrictOrderedRing K] in
/-- In two dimensions the test of `tag_outside_cells` succeeds on every cell: two of the six bits are never updated. -/
theorem touchesBorder_2d (g : Grid 2 K) (c : CellRef 2) : touchesBorder g c = true := by
  have h : ∀ (p : List (Fin (2 ^ 2))) (b : Fin 3 × Bool → Bool), climbBits p b (2, false) = b (2, false) := by
    intro p
    induction p with
    | nil => intro b; rfl
    | cons i p ih => intro b; rw [climbBits, ih]; simp
  have : boundaryBits g c (2, false) = true := by
    rw [boundaryBits]
    simp [h]
  simp only [touchesBorder, anyBit, List.any_eq_true, List.mem_finRange, true_and, Bool.or_eq_true]
  exact ⟨2, .inl this⟩

/-- In two dimensions every cell of type `Undefined` becomes `Outside`: no cell is ever tagged `Inside`. -/
theorem C63_2d {α : Type*} (g : Grid 2 K) (hf : Fits g.n) (hn : ∀ a, (g.n a : ℤ) < 2 ^ 31)
    (hH : ∀ a, 0 < g.H a) (cells : ℤ → CellTree 2 α) (type : CellRef 2 → CellType) (N : ℕ) (hN : (N : ℤ) = g.numberOfCells) :
    ∃ s, createRegions type (gridNeighbors g cells) (sides 2) (allLeaves cells N).length (allLeaves cells N) = .ok s ∧
      ∀ (x : CellRef 2) (d : α), IsLeaf g cells x d →
        (tagRegions g ⟨s.regions, type⟩).type x = if type x = .undef then .outside else type x := by
  obtain ⟨hcl, hsy⟩ := C62_grid (.inl rfl) g hf hn hH cells N hN
  obtain ⟨s, hs, -⟩ := C62 type (gridNeighbors g cells) (sides 2) _ hcl hsy _ le_rfl
  refine ⟨s, hs, fun x d hx => ?_⟩
  obtain ⟨h1, h2⟩ := tagRegions_spec (.inl rfl) g hf hn hH cells type N hN s hs x d hx
  by_cases hu : type x = .undef
  · rw [if_pos hu]
    exact (h2 hu).1 ⟨x, Relation.ReflTransGen.refl, ⟨d, hx⟩, touchesBorder_2d g x⟩
  · rw [if_neg hu]; exact h1 hu

/-- A square grid of `3 × 3` cells. -/
def exampleGrid33 : Grid 2 ℚ := ⟨![0, 0], ![3, 3], ![3, 3]⟩

/-- All cells are boundary cells, except the one in the middle. -/
def middleCell : CellRef 2 → CellType := fun c => if c = ⟨[], 4⟩ then .undef else .boundary

/-- **C63 is violated in 2D.** In a `3 × 3` grid where the eight outer cells are boundary cells, the cell in the middle is
alone in its region, does not touch the border of the grid, and is tagged `Outside`. -/
theorem C63_violated : ∃ s, createRegions middleCell (gridNeighbors exampleGrid33 fun _ => .leaf ()) (sides 2)
      (allLeaves (D := 2) (fun _ => .leaf ()) 9).length (allLeaves (D := 2) (fun _ => .leaf ()) 9) = .ok s ∧
    (tagRegions exampleGrid33 ⟨s.regions, middleCell⟩).type ⟨[], 4⟩ = .outside ∧
    (∀ y, Connected middleCell (gridNeighbors exampleGrid33 fun _ => .leaf ()) (sides 2) ⟨[], 4⟩ y → y = ⟨[], 4⟩) ∧
    ¬ TouchesBorder exampleGrid33.anchor exampleGrid33.size (refBox exampleGrid33 [] 4) := by
  have hf : Fits exampleGrid33.n := by simp only [Fits, exampleGrid33]; decide +kernel
  have hp : ∏ a, (exampleGrid33.n a : ℤ) = 9 := by decide +kernel
  obtain ⟨s, hs, h⟩ := C63_2d exampleGrid33 hf (by decide +kernel) (by decide +kernel) (fun _ => .leaf ()) middleCell 9
    (by rw [C24_count _ hf, hp]; rfl)
  refine ⟨s, hs, ?_, ?_, ?_⟩
  · rw [h ⟨[], 4⟩ () ⟨by norm_num, by rw [hp]; norm_num, .here _⟩]; rfl
  · intro y hy
    have := connected_type hy
    by_contra hne
    simp [middleCell, hne] at this
  · rintro ⟨a, h | h⟩ <;> revert h <;> revert a <;> decide +kernel

/-- A grid of `3 × 3 × 3` cells. -/
def exampleGrid333 : Grid 3 ℚ := ⟨![0, 0, 0], ![3, 3, 3], ![3, 3, 3]⟩

/-- All cells are boundary cells, except the one in the middle. -/
def middleCell3 : CellRef 3 → CellType := fun c => if c = ⟨[], 13⟩ then .undef else .boundary

/-- `C63_partial` applied to the three-dimensional analogue: the cell in the middle is tagged `Inside`. -/
example : ∃ s, createRegions middleCell3 (gridNeighbors exampleGrid333 fun _ => .leaf ()) (sides 3)
      (allLeaves (D := 3) (fun _ => .leaf ()) 27).length (allLeaves (D := 3) (fun _ => .leaf ()) 27) = .ok s ∧
    (tagRegions exampleGrid333 ⟨s.regions, middleCell3⟩).type ⟨[], 13⟩ = .inside := by
  have hf : Fits exampleGrid333.n := by simp only [Fits, exampleGrid333]; decide +kernel
  have hp : ∏ a, (exampleGrid333.n a : ℤ) = 27 := by decide +kernel
  obtain ⟨s, hs, h⟩ := C63_partial exampleGrid333 hf (by decide +kernel) (by decide +kernel) (by decide +kernel)
    (fun _ => .leaf ()) middleCell3 27 (by rw [C24_count _ hf, hp]; rfl)
  refine ⟨s, hs, ((h ⟨[], 13⟩ () ⟨by norm_num, by rw [hp]; norm_num, .here _⟩).2 rfl).2 ?_⟩
  rintro ⟨y, -, -, hc, ht⟩
  have hy : y = ⟨[], 13⟩ := by
    have := connected_type hc
    by_contra hne
    simp [middleCell3, hne] at this
  subst hy
  obtain ⟨a, h | h⟩ := ht <;> revert h <;> revert a <;> decide +kernel

end Caribou
