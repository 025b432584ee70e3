import Verif.Lemmas.FictitiousSurface

/-!
# Property C91: immersion of a surface mesh in a fictitious grid
-/

set_option autoImplicit false

namespace Caribou

open Spec FictitiousGrid

/-- **Spec.** The data of the component are usable: the triangles have their nodes in the list of positions, and the positions are
in the box of the grid, which has cells of positive size which can be counted with 32-bit integers along each axis. -/
structure Spec.Immersible (g : Grid 3 ℝ) (S : SurfaceMesh) : Prop where
  proper : Proper g
  fits : Fits g.n
  small : ∀ a, (g.n a : ℤ) < 2 ^ 31
  nodes : ∀ t ∈ S.triangles, ∀ i, t i < S.positions.length
  inGrid : ∀ p ∈ S.positions, InGrid g.anchor g.size p

/-- **Spec.** The surface of the mesh. -/
def Spec.meshSurface (S : SurfaceMesh) : Set (Fin 3 → ℝ) := surfaceOf (S.triangles.map S.corners)

theorem Spec.Immersible.corners {g : Grid 3 ℝ} {S : SurfaceMesh} (h : Immersible g S) :
    ∀ t ∈ S.triangles, ∀ i, InGrid g.anchor g.size (S.corners t i) := fun t ht i => by
  have hl := h.nodes t ht i
  refine h.inGrid _ ?_
  rw [SurfaceMesh.corners, List.getD_eq_getElem?_getD, List.getElem?_eq_getElem hl]
  exact List.getElem_mem hl

/-! ### Chains of cells -/

theorem leafBox_inGrid {g : Grid 3 ℝ} (hg : Proper g) (hf : Fits g.n) {c : CellRef 3} (h0 : 0 ≤ c.top)
    (h1 : c.top < ∏ a, (g.n a : ℤ)) {x : Fin 3 → ℝ} (hx : InCellBox (refBox g c.path c.top) x) : InGrid g.anchor g.size x := by
  rw [refBox_eq] at hx
  have hb := boxBelow_in _ (gridBox_size hg c.top) _ x hx
  rw [← C24_count g hf] at h1
  obtain ⟨hc, -⟩ := isCell_of_index hf h0 h1
  rw [inCellBox_gridBox] at hb
  intro a
  have hba := hb a
  simp only [gridPoint] at hba
  have hH := hg.H_pos a
  have c0 : (0 : ℝ) ≤ g.cellCoordinatesAt c.top a := by exact_mod_cast (hc a).1
  have c1 : (g.cellCoordinatesAt c.top a : ℝ) + 1 ≤ g.n a := by exact_mod_cast (hc a).2
  rw [Pi.add_apply, hg.size_eq a]
  constructor
  · nlinarith [hba.1]
  · nlinarith [hba.2]

theorem leafBox_size {g : Grid 3 ℝ} (hg : Proper g) (c : CellRef 3) (a : Fin 3) : 0 < (refBox g c.path c.top).size a := by
  rw [refBox_eq]; exact boxBelow_size _ (gridBox_size hg c.top) _ a

theorem sees_in_box {surface : Set (Fin 3 → ℝ)} {b : Box 3 ℝ} (hb : ¬ Meets surface b) {p q : Fin 3 → ℝ} (hp : InCellBox b p)
    (hq : InCellBox b q) : Sees surface p q := by
  rintro x ⟨t, h0, h1, hx⟩ hs
  refine hb ⟨x, hs, ?_⟩
  rw [show x = fun a => (1 - t) * p a + t * q a from funext hx]
  exact inCellBox_segment hp hq t h0 h1

theorem shared_point {b b' : Box 3 ℝ} (hb : ∀ a, 0 < b.size a) (hb' : ∀ a, 0 < b'.size a) {axis : Fin 3} {direction : ℤ}
    (h : SharesFace b b' axis direction) : ∃ m, InCellBox b m ∧ InCellBox b' m := by
  have lu : ∀ a, lower b a < upper b a := fun a => by have := hb a; simp only [lower, upper]; linarith
  have lu' : ∀ a, lower b' a < upper b' a := fun a => by have := hb' a; simp only [lower, upper]; linarith
  have key : ∀ a, max (lower b a) (lower b' a) ≤ upper b a ∧ max (lower b a) (lower b' a) ≤ upper b' a := by
    intro a
    by_cases ha : a = axis
    · subst ha
      have h1 := h.1
      have := lu a
      have := lu' a
      split_ifs at h1
      · constructor <;> refine max_le ?_ ?_ <;> linarith
      · constructor <;> refine max_le ?_ ?_ <;> linarith
    · have := h.2 a ha
      exact ⟨max_le (lu a).le this.2.le, max_le this.1.le (lu' a).le⟩
  exact ⟨fun a => max (lower b a) (lower b' a), fun a => ⟨le_max_left _ _, (key a).1⟩, fun a => ⟨le_max_right _ _, (key a).2⟩⟩

theorem chain_reaches {g : Grid 3 ℝ} (hg : Proper g) (hf : Fits g.n) (hn : ∀ a, (g.n a : ℤ) < 2 ^ 31) {α : Type*}
    (cells : ℤ → CellTree 3 α) (type : CellRef 3 → CellType) (surface : Set (Fin 3 → ℝ))
    (htype : ∀ c d, IsLeaf g cells c d → type c = .undef → ¬ Meets surface (refBox g c.path c.top)) {x y : CellRef 3}
    (h : Connected type (gridNeighbors g cells) (sides 3) x y) (hy : TouchesBorder g.anchor g.size (refBox g y.path y.top)) :
    (∃ d, IsLeaf g cells x d) → type x = .undef → ∀ p, InCellBox (refBox g x.path x.top) p →
      ∃ q, OnBorder g.anchor g.size q ∧ Reaches {x | InGrid g.anchor g.size x} surface p q := by
  refine Relation.ReflTransGen.head_induction_on (motive := fun x _ => (∃ d, IsLeaf g cells x d) → type x = .undef →
    ∀ p, InCellBox (refBox g x.path x.top) p →
      ∃ q, OnBorder g.anchor g.size q ∧ Reaches {x | InGrid g.anchor g.size x} surface p q) h ?_ ?_
  · rintro ⟨d, hl⟩ ht p hp
    obtain ⟨a, ha⟩ := hy
    have hs := leafBox_size hg y
    have lu : ∀ a, lower (refBox g y.path y.top) a < upper (refBox g y.path y.top) a := fun a => by
      have := hs a; simp only [lower, upper]; linarith
    have hq : ∃ q, InCellBox (refBox g y.path y.top) q ∧ (q a = g.anchor a ∨ q a = g.anchor a + g.size a) := by
      rcases ha with ha | ha
      · refine ⟨Function.update p a (lower (refBox g y.path y.top) a), fun b => ?_, .inl (by simpa using ha)⟩
        by_cases hb : b = a
        · subst hb; simpa using (lu b).le
        · simpa [Function.update_of_ne hb] using hp b
      · refine ⟨Function.update p a (upper (refBox g y.path y.top) a), fun b => ?_, .inr (by simpa using ha)⟩
        by_cases hb : b = a
        · subst hb; simpa using (lu b).le
        · simpa [Function.update_of_ne hb] using hp b
    obtain ⟨q, hq, hqa⟩ := hq
    have hqg := leafBox_inGrid hg hf hl.1 hl.2.1 hq
    exact ⟨q, ⟨hqg, a, hqa⟩, .single ⟨hqg, sees_in_box (htype y d hl ht) hp hq⟩⟩
  · rintro x x' ⟨⟨⟨axis, dir⟩, hside, hx'⟩, hty⟩ _ ih ⟨d, hl⟩ ht p hp
    obtain ⟨⟨d', hl'⟩, hf'⟩ := (C61 (Or.inr rfl) g hf hn hg.H_pos cells x d hl axis dir (mem_sides.mp hside) x').mp hx'
    obtain ⟨m, hm, hm'⟩ := shared_point (leafBox_size hg x) (leafBox_size hg x') hf'
    obtain ⟨q, hq, hr⟩ := ih ⟨d', hl'⟩ (hty ▸ ht) m hm'
    exact ⟨q, hq, .head ⟨leafBox_inGrid hg hf hl.1 hl.2.1 hm, sees_in_box (htype x d hl ht) hp hm⟩ hr⟩

/-! ### The grid built from a mesh -/

theorem leafType_eq {g : Grid 3 ℝ} {cells : ℤ → CellTree 3 (CellData ℝ)} {c : CellRef 3} {d : CellData ℝ} (h : IsLeaf g cells c d) :
    leafType cells c = d.type := by
  rw [leafType, find_of_leaf h.2.2]

theorem createGridFrom_spec {g : Grid 3 ℝ} {S : SurfaceMesh} (h : Immersible g S) (levels : ℕ) (threshold : ℝ) (tags : SurfaceTags)
    (hclass : ∀ i, 0 ≤ i → i < g.numberOfCells → ∀ p, classifySurface S (tags.triangles i) (boxBelow (gridBox g i) p) =
      open Classical in if Meets (surfaceOf (S.triangles.map S.corners)) (boxBelow (gridBox g i) p) then (.boundary, true) else (.undef, false)) :
    ∃ r, createGridFrom g S levels threshold tags = .ok r ∧ r.sparse = createSparseGrid g r.cells threshold ∧
      ∀ c d, IsLeaf g r.cells c d →
        c.path.length ≤ levels ∧ d.weight = 1 / (2 ^ 3) ^ c.path.length ∧
        (d.type = .boundary ↔ Meets (meshSurface S) (refBox g c.path c.top)) ∧ d.type ≠ .undef ∧
        (c.path.length < levels → d.type ≠ .boundary) ∧
        (d.type = .outside → ∀ p, InCellBox (refBox g c.path c.top) p →
          ∃ q, OnBorder g.anchor g.size q ∧ Reaches {x | InGrid g.anchor g.size x} (meshSurface S) p q) := by
  classical
  set cells := subdivideSurface g S levels tags with hcells
  have hcount : 0 ≤ g.numberOfCells := by
    rw [C24_count g h.fits]; exact Finset.prod_nonneg fun a _ => by positivity
  have hN : (g.numberOfCells.toNat : ℤ) = g.numberOfCells := Int.toNat_of_nonneg hcount
  obtain ⟨s, hs, htags⟩ := C63_partial g h.fits h.small (fun a => (h.proper a).1) h.proper.H_pos cells (leafType cells) _ hN
  have hval := C60_validate (Or.inr rfl) g h.fits h.small (fun a => (h.proper a).1) (fun a => (h.proper a).2)
    (fun i => classifySurface S (tags.triangles i)) levels (leafType cells) _ hN s hs
  have hval' := (validate_retype (fun i path => (tagRegions g ⟨s.regions, leafType cells⟩).type ⟨path, i⟩) cells g
    ⟨s.regions, leafType cells⟩).trans hval
  set final : ℤ → CellTree 3 (CellData ℝ) := fun i =>
    (cells i).retype (fun path => (tagRegions g ⟨s.regions, leafType cells⟩).type ⟨path, i⟩) [] with hfinal
  refine ⟨⟨final, (tagRegions g ⟨s.regions, leafType cells⟩).regions, createSparseGrid g final threshold⟩, ?_, rfl, ?_⟩
  · have e : createGridFrom g S levels threshold tags = (match createRegions (leafType cells) (gridNeighbors g cells) (sides 3)
        (allLeaves cells g.numberOfCells.toNat).length (allLeaves cells g.numberOfCells.toNat) with
      | .ok s =>
        let tagged := tagRegions g ⟨s.regions, leafType cells⟩
        let final : ℤ → CellTree 3 (CellData ℝ) := fun i => (cells i).retype (fun path => tagged.type ⟨path, i⟩) []
        let result : ImmersedGrid := ⟨final, tagged.regions, createSparseGrid g final threshold⟩
        if validateGrid g final tagged.regions then .ok result else .throws result
      | .throws _ => .throws ⟨cells, [], createSparseGrid g cells threshold⟩
      | .hangs => .hangs
      | .undefined => .undefined) := rfl
    rw [e, hs]
    exact if_pos hval'
  · rintro c d' ⟨h0, h1, hl⟩
    have h1' : c.top < g.numberOfCells := by rw [C24_count g h.fits]; exact h1
    obtain ⟨d, hd, rfl⟩ := (retype_leaf _ _ _ _ _).mp hl
    have hleaf : ∀ c d, IsLeaf g cells c d → d.type = (if Meets (meshSurface S) (refBox g c.path c.top) then .boundary else .undef) ∧
        d.weight = 1 / (2 ^ 3) ^ c.path.length ∧ c.path.length ≤ levels ∧
        (c.path.length < levels → ¬ Meets (meshSurface S) (refBox g c.path c.top)) := by
      rintro c d ⟨h0, h1, hd⟩
      have h1' : c.top < g.numberOfCells := by rw [C24_count g h.fits]; exact h1
      obtain ⟨w, t, n, m⟩ := leaf_data _ levels (gridBox g c.top) 1 _ d hd
      rw [hclass c.top h0 h1', ← refBox_eq] at t m
      rw [List.length_reverse] at w n m
      refine ⟨?_, w, n, fun hlt hm => ?_⟩
      · rw [t, meshSurface]
        split_ifs <;> rfl
      · have := m hlt
        rw [meshSurface] at hm
        rw [if_pos hm] at this
        exact absurd this (by simp)
    have hc : IsLeaf g cells c d := ⟨h0, h1, hd⟩
    obtain ⟨ht, hw, hlen, hlt⟩ := hleaf c d hc
    obtain ⟨k1, k2⟩ := htags c d hc
    rw [leafType_eq hc] at k1 k2
    have htype : ∀ c d, IsLeaf g cells c d → leafType cells c = .undef → ¬ Meets (meshSurface S) (refBox g c.path c.top) := by
      intro c d hc hu hm
      rw [leafType_eq hc, (hleaf c d hc).1, if_pos hm] at hu
      exact absurd hu (by simp)
    simp only [List.reverse_reverse, List.append_nil]
    refine ⟨hlen, hw, ?_⟩
    by_cases hm : Meets (meshSurface S) (refBox g c.path c.top)
    · rw [if_pos hm] at ht
      rw [ht] at k1
      rw [k1 (by simp)]
      exact ⟨by simp [hm], by simp, fun hl => absurd hm (hlt hl), by simp⟩
    · rw [if_neg hm] at ht
      by_cases hex : ∃ y d', IsLeaf g cells y d' ∧ Connected (leafType cells) (gridNeighbors g cells) (sides 3) c y ∧
          TouchesBorder g.anchor g.size (refBox g y.path y.top)
      · rw [(k2 ht).1 hex]
        refine ⟨by simp [hm], by simp, by simp, fun _ p hp => ?_⟩
        obtain ⟨y, d', hy, hcon, hb⟩ := hex
        exact chain_reaches h.proper h.fits h.small cells (leafType cells) (meshSurface S) htype hcon hb ⟨d, hc⟩
          ((leafType_eq hc).trans ht) p hp
      · rw [(k2 ht).2 hex]
        exact ⟨by simp [hm], by simp, by simp, by simp⟩

theorem createGrid_spec {g : Grid 3 ℝ} {S : SurfaceMesh} (h : Immersible g S) (levels : ℕ) (threshold : ℝ) :
    ∃ r, createGrid g S levels threshold = .ok r ∧ r.sparse = createSparseGrid g r.cells threshold ∧
      ∀ c d, IsLeaf g r.cells c d →
        c.path.length ≤ levels ∧ d.weight = 1 / (2 ^ 3) ^ c.path.length ∧
        (d.type = .boundary ↔ Meets (meshSurface S) (refBox g c.path c.top)) ∧ d.type ≠ .undef ∧
        (c.path.length < levels → d.type ≠ .boundary) ∧
        (d.type = .outside → ∀ p, InCellBox (refBox g c.path c.top) p →
          ∃ q, OnBorder g.anchor g.size q ∧ Reaches {x | InGrid g.anchor g.size x} (meshSurface S) p q) :=
  createGridFrom_spec h levels threshold _ fun i h0 h1 p => classifySurface_spec h.proper h.fits S h.nodes h.corners i h0 h1 p

/-- **C91 (cells met by the surface).** The first pass goes through all triangles, none is reported outside of the grid, and the
cells of the grid tagged `Boundary` are exactly those whose closed box meets the surface. -/
theorem C91_first {g : Grid 3 ℝ} {S : SurfaceMesh} (h : Immersible g S) :
    (tagIntersectedCells g S).2 = true ∧ (tagIntersectedCells g S).1.outside = [] ∧
    ∀ i, 0 ≤ i → i < g.numberOfCells →
      ((tagIntersectedCells g S).1.types i = .boundary ↔ Meets (meshSurface S) (gridBox g i)) ∧
      ((tagIntersectedCells g S).1.types i = .undef ↔ ¬ Meets (meshSurface S) (gridBox g i)) := by
  classical
  obtain ⟨h1, h2, h3⟩ := tagTriangles_spec h.proper h.fits S S.triangles h.nodes h.corners 0 ⟨fun _ => .undef, fun _ => [], []⟩
  refine ⟨h1, h2, fun i a b => ?_⟩
  rw [tagIntersectedCells, (h3 i a b).2, meshSurface, meets_iff]
  split_ifs with hc <;> simp [hc]

/-- **C91.** `create_grid` throws no exception.  Among the leaves of the result, the ones tagged `Boundary` are exactly those whose
closed box meets the surface, all of them at the last level of subdivision; the others are `Inside` or `Outside`; and from every
point of a leaf tagged `Outside` one can walk to the border of the grid without meeting the surface. -/
theorem C91 {g : Grid 3 ℝ} {S : SurfaceMesh} (h : Immersible g S) (levels : ℕ) (threshold : ℝ) :
    ∃ r, createGrid g S levels threshold = .ok r ∧ ∀ c d, IsLeaf g r.cells c d →
      (d.type = .boundary ↔ Meets (meshSurface S) (refBox g c.path c.top)) ∧ d.type ≠ .undef ∧
      (d.type = .boundary → c.path.length = levels) ∧
      (d.type = .outside → ∀ p, InCellBox (refBox g c.path c.top) p →
        ∃ q, OnBorder g.anchor g.size q ∧ Reaches {x | InGrid g.anchor g.size x} (meshSurface S) p q) := by
  obtain ⟨r, hr, -, hl⟩ := createGrid_spec h levels threshold
  refine ⟨r, hr, fun c d hc => ?_⟩
  obtain ⟨h1, h2, h3, h4, h5, h6⟩ := hl c d hc
  exact ⟨h3, h4, fun hb => by by_contra hne; exact h5 (by omega) hb, h6⟩

/-! ### The object bounded by the surface -/

theorem reaches_object {object surface domain : Set (Fin 3 → ℝ)} (hb : BoundedBy object surface) {p q : Fin 3 → ℝ}
    (h : Reaches domain surface p q) (hp : p ∈ object) : q ∈ object := by
  induction h with
  | refl => exact hp
  | tail _ hs ih =>
    by_contra hq
    obtain ⟨x, hx, hxs⟩ := hb _ _ ih hq
    exact hs.2 x hx hxs

theorem reaches_off {surface domain : Set (Fin 3 → ℝ)} {p q : Fin 3 → ℝ} (h : Reaches domain surface p q) (hp : p ∉ surface) :
    q ∉ surface := by
  induction h with
  | refl => exact hp
  | tail _ hs _ => exact hs.2 _ ⟨1, by norm_num, by norm_num, fun j => by ring⟩

/-- **C91 (object).** For an object bounded by the surface which does not touch the border of the grid elsewhere than on the surface:
a leaf which is not tagged `Boundary` is either in the object or out of it as a whole, a leaf tagged `Outside` is out of the object,
and when the volume threshold is not positive every point of the object is in a cell of the sparse grid. -/
theorem C91_object {g : Grid 3 ℝ} {S : SurfaceMesh} (h : Immersible g S) (levels : ℕ) (threshold : ℝ) (object : Set (Fin 3 → ℝ))
    (hobj : BoundedBy object (meshSurface S)) (hin : ∀ p ∈ object, InGrid g.anchor g.size p)
    (hborder : ∀ p ∈ object, OnBorder g.anchor g.size p → p ∈ meshSurface S) :
    ∃ r, createGrid g S levels threshold = .ok r ∧
      (∀ c d, IsLeaf g r.cells c d → d.type ≠ .boundary →
        (∀ p, InCellBox (refBox g c.path c.top) p → p ∈ object) ∨ ∀ p, InCellBox (refBox g c.path c.top) p → p ∉ object) ∧
      (∀ c d, IsLeaf g r.cells c d → d.type = .outside → ∀ p, InCellBox (refBox g c.path c.top) p → p ∉ object) ∧
      (threshold ≤ 0 → g.numberOfNodes < 2 ^ 31 →
        ∀ p ∈ object, ∃ i ∈ r.sparse.cells.inGrid, InCellBox (gridBox g i) p) := by
  obtain ⟨r, hr, hsp, hl⟩ := createGrid_spec h levels threshold
  have hout : ∀ c d, IsLeaf g r.cells c d → d.type = .outside → ∀ p, InCellBox (refBox g c.path c.top) p → p ∉ object := by
    intro c d hc ht p hp hpo
    obtain ⟨_, _, h3, _, _, h6⟩ := hl c d hc
    obtain ⟨q, hq, hre⟩ := h6 ht p hp
    have hqo := reaches_object hobj hre hpo
    have hps : p ∉ meshSurface S := fun hs => by
      have := h3.mpr ⟨p, hs, hp⟩
      rw [ht] at this
      exact absurd this (by simp)
    exact reaches_off hre hps (hborder q hqo hq)
  refine ⟨r, hr, fun c d hc ht => ?_, hout, fun hth hN p hp => ?_⟩
  · by_contra hcon
    push Not at hcon
    obtain ⟨⟨p, hp, hpo⟩, q, hq, hqo⟩ := hcon
    obtain ⟨x, hx, hxs⟩ := hobj q p hqo hpo
    exact sees_in_box (fun hm => ht ((hl c d hc).2.2.1.mpr hm)) hq hp x hx hxs
  · have hd : IsDim 3 := by simp [IsDim]
    obtain ⟨cc, hcc, _, _, hcp, _⟩ := C28_partial hd g h.proper h.fits p (hin p hp)
    obtain ⟨h0, h1, e⟩ := C24_coordinates hd g h.fits cc hcc
    have hbox : InCellBox (gridBox g (g.cellIndexAt cc)) p := by rw [inCellBox_gridBox, e]; exact hcp
    refine ⟨g.cellIndexAt cc, ?_, hbox⟩
    rw [hsp]
    refine ((C64 (Or.inr rfl) g h.fits hN r.cells threshold).1.mem _).mpr ⟨⟨h0, h1⟩, fun d hd' ht => ?_, ?_⟩
    · refine hout ⟨[], g.cellIndexAt cc⟩ d ⟨h0, by rw [← C24_count g h.fits]; exact h1, hd'⟩ ht p ?_ hp
      exact hbox
    · refine hth.trans (List.sum_nonneg ?_)
      intro w hw
      obtain ⟨d, hd', rfl⟩ := List.mem_map.mp hw
      obtain ⟨⟨path, d''⟩, hmem, rfl⟩ := List.mem_map.mp hd'
      have hleaf := (mem_leafCells _ path d'').mp hmem
      have hw := (hl ⟨path, g.cellIndexAt cc⟩ d'' ⟨h0, by rw [← C24_count g h.fits]; exact h1, hleaf⟩).2.1
      split_ifs
      · rw [show d''.weight = _ from hw]; positivity
      · exact le_refl _

/-! ### Default bounds -/

theorem surfaceBounds_fold (a : Fin 3) (ps : List (Fin 3 → ℝ)) : ∀ s : ℝ × ℝ,
    (∀ p ∈ ps, (ps.foldl (fun s p => (if p a < s.1 then p a else s.1, if p a > s.2 then p a else s.2)) s).1 ≤ p a ∧
      p a ≤ (ps.foldl (fun s p => (if p a < s.1 then p a else s.1, if p a > s.2 then p a else s.2)) s).2) ∧
    (ps.foldl (fun s p => (if p a < s.1 then p a else s.1, if p a > s.2 then p a else s.2)) s).1 ≤ s.1 ∧
    s.2 ≤ (ps.foldl (fun s p => (if p a < s.1 then p a else s.1, if p a > s.2 then p a else s.2)) s).2 ∧
    ((ps.foldl (fun s p => (if p a < s.1 then p a else s.1, if p a > s.2 then p a else s.2)) s).1 = s.1 ∨
      ∃ p ∈ ps, (ps.foldl (fun s p => (if p a < s.1 then p a else s.1, if p a > s.2 then p a else s.2)) s).1 = p a) ∧
    ((ps.foldl (fun s p => (if p a < s.1 then p a else s.1, if p a > s.2 then p a else s.2)) s).2 = s.2 ∨
      ∃ p ∈ ps, (ps.foldl (fun s p => (if p a < s.1 then p a else s.1, if p a > s.2 then p a else s.2)) s).2 = p a) := by
  induction ps with
  | nil => intro s; simp
  | cons q ps ih =>
    intro s
    rw [List.foldl_cons]
    obtain ⟨h1, h2, h3, h4, h5⟩ := ih (if q a < s.1 then q a else s.1, if q a > s.2 then q a else s.2)
    generalize List.foldl _ (if q a < s.1 then q a else s.1, if q a > s.2 then q a else s.2) ps = r at h1 h2 h3 h4 h5 ⊢
    simp only at h2 h3 h4 h5
    refine ⟨?_, ?_, ?_, ?_, ?_⟩
    · intro p hp
      rcases List.mem_cons.mp hp with rfl | hp
      · constructor
        · split_ifs at h2 <;> linarith
        · split_ifs at h3 <;> linarith
      · exact h1 p hp
    · split_ifs at h2 <;> linarith
    · split_ifs at h3 <;> linarith
    · rcases h4 with h4 | ⟨p, hp, h4⟩
      · split_ifs at h4
        · exact .inr ⟨q, by simp, h4⟩
        · exact .inl h4
      · exact .inr ⟨p, by simp [hp], h4⟩
    · rcases h5 with h5 | ⟨p, hp, h5⟩
      · split_ifs at h5
        · exact .inr ⟨q, by simp, h5⟩
        · exact .inl h5
      · exact .inr ⟨p, by simp [hp], h5⟩

/-- **C91 (default bounds).** When no bounds are given, the box of the grid is the bounding box of the positions of the surface: all
positions are in the box, and each of its faces goes through one of them. -/
theorem C91_bounds (n : Fin 3 → ℕ) (positions : List (Fin 3 → ℝ)) (lowest highest : ℝ) (hne : positions ≠ [])
    (hr : ∀ p ∈ positions, ∀ a, lowest ≤ p a ∧ p a ≤ highest) :
    let g := gridOfCorners n (fun a => (surfaceBounds lowest highest positions a).1) (fun a => (surfaceBounds lowest highest positions a).2)
    (∀ p ∈ positions, InGrid g.anchor g.size p) ∧
    ∀ a, (∃ p ∈ positions, p a = g.anchor a) ∧ ∃ p ∈ positions, p a = g.anchor a + g.size a := by
  intro g
  have key : ∀ a, (∀ p ∈ positions, (surfaceBounds lowest highest positions a).1 ≤ p a ∧ p a ≤ (surfaceBounds lowest highest positions a).2) ∧
      (∃ p ∈ positions, (surfaceBounds lowest highest positions a).1 = p a) ∧ ∃ p ∈ positions, (surfaceBounds lowest highest positions a).2 = p a := by
    intro a
    obtain ⟨h1, h2, h3, h4, h5⟩ := surfaceBounds_fold a positions (highest, lowest)
    obtain ⟨q, hq⟩ := List.exists_mem_of_ne_nil _ hne
    refine ⟨h1, ?_, ?_⟩
    · rcases h4 with h4 | ⟨p, hp, h4⟩
      · refine ⟨q, hq, le_antisymm (h1 q hq).1 ?_⟩
        rw [surfaceBounds, h4]; exact (hr q hq a).2
      · exact ⟨p, hp, h4⟩
    · rcases h5 with h5 | ⟨p, hp, h5⟩
      · refine ⟨q, hq, le_antisymm ?_ (h1 q hq).2⟩
        rw [surfaceBounds, h5]; exact (hr q hq a).1
      · exact ⟨p, hp, h5⟩
  have hle : ∀ a, (surfaceBounds lowest highest positions a).1 ≤ (surfaceBounds lowest highest positions a).2 := fun a => by
    obtain ⟨q, hq⟩ := List.exists_mem_of_ne_nil _ hne
    exact ((key a).1 q hq).1.trans ((key a).1 q hq).2
  have ea : ∀ a, g.anchor a = (surfaceBounds lowest highest positions a).1 := fun a => min_eq_left (hle a)
  have eb : ∀ a, g.anchor a + g.size a = (surfaceBounds lowest highest positions a).2 := fun a => by
    rw [ea]
    show _ + |_ - _| = _
    rw [abs_of_nonpos (by have := hle a; linarith)]; ring
  refine ⟨fun p hp a => ?_, fun a => ⟨?_, ?_⟩⟩
  · rw [Pi.add_apply, eb, ea]
    exact (key a).1 p hp
  · obtain ⟨p, hp, e⟩ := (key a).2.1
    exact ⟨p, hp, by rw [ea, e]⟩
  · obtain ⟨p, hp, e⟩ := (key a).2.2
    exact ⟨p, hp, by rw [eb, e]⟩

/-! ### Example: a tetrahedron in the middle of `3 × 3 × 3` cells -/

/-- The surface of a tetrahedron. -/
def exampleSurface : SurfaceMesh :=
  ⟨[![1, 1, 1], ![2, 1, 1], ![1, 2, 1], ![1, 1, 2]], [![1, 2, 3], ![0, 3, 2], ![0, 1, 3], ![0, 2, 1]]⟩

/-- The grid around it. -/
def exampleSurfaceGrid : Grid 3 ℝ := ⟨![0, 0, 0], ![3, 3, 3], ![3, 3, 3]⟩

theorem exampleSurface_immersible : Immersible exampleSurfaceGrid exampleSurface := by
  refine ⟨?_, by unfold Fits; decide, by decide, by decide, ?_⟩
  · intro a; fin_cases a <;> norm_num [exampleSurfaceGrid]
  · intro p hp a
    simp only [exampleSurface, List.mem_cons, List.not_mem_nil, or_false] at hp
    rcases hp with rfl | rfl | rfl | rfl <;> fin_cases a <;> norm_num [exampleSurfaceGrid]

/-- The four barycentric coordinates. -/
def exampleBary (x : Fin 3 → ℝ) : Fin 4 → ℝ := ![4 - x 0 - x 1 - x 2, x 0 - 1, x 1 - 1, x 2 - 1]

theorem exampleFace (k : Fin 4) (x : Fin 3 → ℝ) (h : ∀ i, 0 ≤ exampleBary x i) (hk : exampleBary x k = 0) :
    x ∈ meshSurface exampleSurface := by
  have h0 := h 0
  have h1 := h 1
  have h2 := h 2
  have h3 := h 3
  simp only [exampleBary, Matrix.cons_val] at h0 h1 h2 h3
  fin_cases k <;> simp [exampleBary] at hk
  · refine ⟨exampleSurface.corners ![1, 2, 3], by simp [exampleSurface], x 0 - 1, x 1 - 1, x 2 - 1, h1, h2, h3, by linarith, fun j => ?_⟩
    fin_cases j <;> simp [exampleSurface, SurfaceMesh.corners] <;> linarith
  · refine ⟨exampleSurface.corners ![0, 3, 2], by simp [exampleSurface], 4 - x 0 - x 1 - x 2, x 2 - 1, x 1 - 1, h0, h3, h2, by linarith, fun j => ?_⟩
    fin_cases j <;> simp [exampleSurface, SurfaceMesh.corners] <;> linarith
  · refine ⟨exampleSurface.corners ![0, 1, 3], by simp [exampleSurface], 4 - x 0 - x 1 - x 2, x 0 - 1, x 2 - 1, h0, h1, h3, by linarith, fun j => ?_⟩
    fin_cases j <;> simp [exampleSurface, SurfaceMesh.corners] <;> linarith
  · refine ⟨exampleSurface.corners ![0, 2, 1], by simp [exampleSurface], 4 - x 0 - x 1 - x 2, x 1 - 1, x 0 - 1, h0, h2, h1, by linarith, fun j => ?_⟩
    fin_cases j <;> simp [exampleSurface, SurfaceMesh.corners] <;> linarith

theorem exampleBary_segment (p q : Fin 3 → ℝ) (t : ℝ) (i : Fin 4) :
    exampleBary (fun j => (1 - t) * p j + t * q j) i = exampleBary p i + t * (exampleBary q i - exampleBary p i) := by
  fin_cases i <;> simp [exampleBary] <;> ring

/-- The solid tetrahedron is bounded by the surface. -/
theorem exampleObject_bounded : BoundedBy {x | ∀ i, 0 ≤ exampleBary x i} (meshSurface exampleSurface) := by
  intro p q hp hq
  simp only [Set.mem_setOf_eq, not_forall, not_le] at hp hq
  obtain ⟨i0, hi0⟩ := hq
  obtain ⟨k, hk, hmin⟩ := Finset.exists_min_image (Finset.univ.filter fun i => exampleBary q i < 0)
    (fun i => exampleBary p i / (exampleBary p i - exampleBary q i)) ⟨i0, by simpa using hi0⟩
  have hkq : exampleBary q k < 0 := by simpa using hk
  have hkp := hp k
  have hden : 0 < exampleBary p k - exampleBary q k := by linarith
  set t := exampleBary p k / (exampleBary p k - exampleBary q k) with ht
  have t0 : 0 ≤ t := div_nonneg hkp hden.le
  have t1 : t ≤ 1 := (div_le_one hden).mpr (by linarith)
  refine ⟨fun j => (1 - t) * p j + t * q j, ⟨t, t0, t1, fun j => rfl⟩, exampleFace k _ (fun i => ?_) ?_⟩
  · rw [exampleBary_segment]
    have hip := hp i
    by_cases hi : exampleBary q i < 0
    · have hle := hmin i (by simpa using hi)
      have hd : 0 < exampleBary p i - exampleBary q i := by linarith
      have := (le_div_iff₀ hd).mp hle
      linarith
    · push Not at hi
      nlinarith
  · rw [exampleBary_segment, ht]
    field_simp
    ring

example : ∃ r, createGrid exampleSurfaceGrid exampleSurface 2 0 = .ok r ∧
    ∀ p, (∀ i, 0 ≤ exampleBary p i) → ∃ i ∈ r.sparse.cells.inGrid, InCellBox (gridBox exampleSurfaceGrid i) p := by
  obtain ⟨r, hr, -, -, hc⟩ := C91_object exampleSurface_immersible 2 0 {x | ∀ i, 0 ≤ exampleBary x i} exampleObject_bounded
    (fun p hp a => by
      have h0 := hp 0
      have h1 := hp 1
      have h2 := hp 2
      have h3 := hp 3
      simp only [exampleBary, Matrix.cons_val] at h0 h1 h2 h3
      fin_cases a <;> simp [exampleSurfaceGrid] <;> constructor <;> linarith)
    (fun p hp hb => by
      exfalso
      have h0 := hp 0
      have h1 := hp 1
      have h2 := hp 2
      have h3 := hp 3
      simp only [exampleBary, Matrix.cons_val] at h0 h1 h2 h3
      obtain ⟨-, a, ha⟩ := hb
      fin_cases a <;> simp [exampleSurfaceGrid] at ha <;> rcases ha with ha | ha <;> linarith)
  exact ⟨r, hr, hc (le_refl _) (by decide)⟩

example : ∃ (positions : List (Fin 3 → ℝ)) (lowest highest : ℝ), positions ≠ [] ∧
    ∀ p ∈ positions, ∀ a, lowest ≤ p a ∧ p a ≤ highest :=
  ⟨exampleSurface.positions, -100, 100, by simp [exampleSurface], fun p hp a => by
    simp only [exampleSurface, List.mem_cons, List.not_mem_nil, or_false] at hp
    rcases hp with rfl | rfl | rfl | rfl <;> fin_cases a <;> norm_num⟩

end Caribou
