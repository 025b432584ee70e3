import Verif.Lemmas.GridEnclosing
import Verif.Props.Grid

/-! # C28–C30: locating points in a regular grid

The grid has at least one cell and a positive size along each axis (`Proper`) and its nodes can be numbered with
64-bit integers (`Fits`).  `InGrid` is the closed box of the grid.

The three claims are false as stated, because of points outside of the grid (`*_violated`): the returned cell numbers
alias those of other cells.  For points of the grid they are proved (`*_partial`). -/

set_option autoImplicit false

namespace Caribou

open Spec

variable {d : ℕ} {K : Type*} [Field K] [LinearOrder K] [IsStrictOrderedRing K] [FloorRing K]

/-- A `2 × 2` grid of unit cells. -/
def unitGrid2 : Grid 2 ℚ := ⟨![0, 0], ![2, 2], ![2, 2]⟩

/-- A grid of three unit cells on a line. -/
def unitGrid1 : Grid 1 ℚ := ⟨![0], ![3], ![3]⟩

/-- **C28 (points of the grid).** With `test_for_boundary`, a point of the closed box of the grid is located in a cell
whose closed box contains it.  Missing with respect to C28: points outside of the grid, see `C28_violated`. -/
theorem C28_partial (hd : IsDim d) (g : Grid d K) (hg : Proper g) (hf : Fits g.n) (p : Fin d → K)
    (hp : InGrid g.anchor g.size p) :
    ∃ c, IsCell g.n c ∧ g.cellIndexContaining p true = g.cellIndexAt c ∧ g.cellCoordinatesOfPoint p true = c ∧
      InCell g.anchor g.H c p ∧ 0 ≤ g.cellIndexContaining p true ∧ g.cellIndexContaining p true < g.numberOfCells := by
  rw [inGrid_iff hg] at hp
  have hc : IsCell g.n (g.cellCoordinatesOfPoint p true) := fun a => (located_axis hg p a (hp a).1 (hp a).2).1
  obtain ⟨h0, h1, _⟩ := C24_coordinates hd g hf _ hc
  refine ⟨_, hc, rfl, rfl, ?_, h0, h1⟩
  rw [inCell_iff hg]
  exact fun a => (located_axis hg p a (hp a).1 (hp a).2).2

/-- **C28 (default flag).** Without `test_for_boundary`, the same for the points strictly below the upper faces. -/
theorem C28_open_partial (hd : IsDim d) (g : Grid d K) (hg : Proper g) (hf : Fits g.n) (p : Fin d → K)
    (hp : InGrid g.anchor g.size p) (hu : ∀ a, p a < g.anchor a + g.size a) :
    ∃ c, IsCell g.n c ∧ g.cellIndexContaining p false = g.cellIndexAt c ∧ InCell g.anchor g.H c p ∧
      0 ≤ g.cellIndexContaining p false ∧ g.cellIndexContaining p false < g.numberOfCells := by
  rw [inGrid_iff hg] at hp
  have hlt : ∀ a, g.absolute p a < g.n a := fun a => by
    have h := hu a
    rw [hg.size_eq a, point_eq hg p a] at h
    exact lt_of_mul_lt_mul_right (by linarith) (hg.H_pos a).le
  have hc : IsCell g.n (g.cellCoordinatesOfPoint p false) := fun a => (located_axis_open hg p a (hp a).1 (hlt a)).1
  obtain ⟨h0, h1, _⟩ := C24_coordinates hd g hf _ hc
  refine ⟨_, hc, rfl, ?_, h0, h1⟩
  rw [inCell_iff hg]
  exact fun a => ⟨(located_axis_open hg p a (hp a).1 (hlt a)).2.1, (located_axis_open hg p a (hp a).1 (hlt a)).2.2.le⟩

/-- **C28 is false.** `(5/2, 1/2)` and `(-1/2, 1/2)` are not in the grid, yet they are located in the cells `2` and `0`.
With the default flag, the point `(2, 1/2)` of the upper face is located in the cell `2`, which does not contain it. -/
theorem C28_violated :
    (¬ InGrid unitGrid2.anchor unitGrid2.size ![5 / 2, 1 / 2] ∧
      ∃ c, IsCell unitGrid2.n c ∧ ∀ t, unitGrid2.cellIndexContaining ![5 / 2, 1 / 2] t = unitGrid2.cellIndexAt c) ∧
    (¬ InGrid unitGrid2.anchor unitGrid2.size ![-1 / 2, 1 / 2] ∧
      ∃ c, IsCell unitGrid2.n c ∧ ∀ t, unitGrid2.cellIndexContaining ![-1 / 2, 1 / 2] t = unitGrid2.cellIndexAt c) ∧
    InGrid unitGrid2.anchor unitGrid2.size ![2, 1 / 2] ∧
      ∃ c, IsCell unitGrid2.n c ∧ unitGrid2.cellIndexContaining ![2, 1 / 2] false = unitGrid2.cellIndexAt c ∧
        ¬ InCell unitGrid2.anchor unitGrid2.H c ![2, 1 / 2] := by
  refine ⟨⟨?_, ![0, 1], by decide, by decide +kernel⟩, ⟨?_, ![0, 0], by decide, by decide +kernel⟩, ?_,
    ![0, 1], by decide, by decide +kernel, ?_⟩
  · intro h
    have := (h 0).2
    norm_num [unitGrid2] at this
  · intro h
    have := (h 0).1
    norm_num [unitGrid2] at this
  · intro a
    fin_cases a <;> norm_num [unitGrid2]
  · intro h
    have := (h 0).2
    norm_num [unitGrid2, gridPoint, Grid.H] at this

/-- **C29 (points of the grid).** `cells_around` lists, each once, exactly the cells whose box enlarged by the tolerance
(`EPSILON` times its size) contains the point; in particular every cell whose closed box contains the point.
Missing with respect to C29: points outside of the grid, see `C29_violated`. -/
theorem C29_partial (hd : IsDim d) (g : Grid d K) (hg : Proper g) (hf : Fits g.n) (p : Fin d → K)
    (hp : InGrid g.anchor g.size p) :
    (∀ m, m ∈ g.cellsAround p ↔ ∃ c, IsCell g.n c ∧ InCellOpen g.anchor g.H (gridEps K) c p ∧ m = g.cellIndexAt c) ∧
    (∀ c, IsCell g.n c → InCell g.anchor g.H c p → g.cellIndexAt c ∈ g.cellsAround p) ∧
    (g.cellsAround p).Nodup := by
  have hi := inside_of_inGrid hg hp
  have key : ∀ m, m ∈ g.cellsAround p ↔
      ∃ c, IsCell g.n c ∧ InCellOpen g.anchor g.H (gridEps K) c p ∧ m = g.cellIndexAt c := fun m => by
    rw [mem_cellsAround hd g hf p hi]
    exact exists_congr fun c => by rw [near_iff hg]
  refine ⟨key, fun c hc h => ?_, cellsAround_nodup hd g hf p hi⟩
  rw [key]
  refine ⟨c, hc, ?_, rfl⟩
  rw [← near_iff hg]
  rw [inCell_iff hg] at h
  exact fun a => near_of_inCell (h a)

/-- **C29 is false.** `(5/2, 1/2)` is outside of the grid and `cells_around` returns the cell `2`, which is far from it;
on the line, the point `5` is outside of the three cells and `cells_around` returns `4`, which is not a cell. -/
theorem C29_violated :
    (¬ InGrid unitGrid2.anchor unitGrid2.size ![5 / 2, 1 / 2] ∧ unitGrid2.cellsAround ![5 / 2, 1 / 2] = [2] ∧
      unitGrid2.cellCoordinatesAt 2 = ![0, 1] ∧ ¬ InCell unitGrid2.anchor unitGrid2.H ![0, 1] ![5 / 2, 1 / 2]) ∧
    ¬ InGrid unitGrid1.anchor unitGrid1.size ![5] ∧ unitGrid1.cellsAround ![5] = [4] ∧ unitGrid1.numberOfCells = 3 := by
  refine ⟨⟨?_, by decide +kernel, by decide, ?_⟩, ?_, by decide +kernel, by decide +kernel⟩
  · intro h
    have := (h 0).2
    norm_num [unitGrid2] at this
  · intro h
    have := (h 0).2
    norm_num [unitGrid2, gridPoint, Grid.H] at this
  · intro h
    have := (h 0).2
    norm_num [unitGrid1] at this

theorem contains_of_inGrid {g : Grid d K} (hg : Proper g) {p : Fin d → K} (hp : InGrid g.anchor g.size p) :
    g.contains p (gridEps K) = true := by
  simp only [Grid.contains, List.all_eq_true, List.mem_finRange, forall_true_left, Bool.not_eq_true', Bool.or_eq_false_iff,
    decide_eq_false_iff_not, not_lt, gt_iff_lt]
  intro a
  have hs := (hg a).2
  have h := hp a
  rw [Pi.add_apply] at h
  have he := gridEps_pos (K := K)
  have h0 : 0 ≤ (p a - g.anchor a) / g.size a := div_nonneg (by linarith [h.1]) hs.le
  have h1 : (p a - g.anchor a) / g.size a ≤ 1 := (div_le_one hs).mpr (by linarith [h.2])
  constructor <;> linarith

/-- The box of cells `lower … upper` computed by `cells_enclosing` for points of the grid. -/
theorem enclosing_box (hd : IsDim d) (g : Grid d K) (hg : Proper g) (hf : Fits g.n) (first : Fin d → K) (rest : List (Fin d → K))
    (hp : ∀ p ∈ first :: rest, InGrid g.anchor g.size p) :
    ∃ lo hi : Fin d → ℤ, g.cellsEnclosing first rest = g.boxCells lo hi ∧ (∀ a, 0 ≤ lo a ∧ hi a ≤ (g.n a : ℤ) - 1) ∧
      (∀ p ∈ first :: rest, ∀ c, IsCell g.n c → InCell g.anchor g.H c p → ∀ a, lo a ≤ c a ∧ c a ≤ hi a) ∧
      (∀ a, ∃ p ∈ first :: rest, near (g.absolute p a) (lo a)) ∧ ∀ a, ∃ p ∈ first :: rest, near (g.absolute p a) (hi a) := by
  set ps := first :: rest with hps
  set lo := ps.foldl (fun l p => g.minBetween (g.cellsAround p) l) (fun a => (g.n a : ℤ) - 1) with hlo
  set hi := ps.foldl (fun l p => g.maxBetween (g.cellsAround p) l) (fun _ => 0) with hhi
  have hin : ∀ p ∈ ps, Inside g p := fun p h => inside_of_inGrid hg (hp p h)
  have hmem : ∀ p ∈ ps, ∀ m ∈ g.cellsAround p, IsCell g.n (g.cellCoordinatesAt m) ∧
      ∀ a, near (g.absolute p a) (g.cellCoordinatesAt m a) := fun p h m hm => by
    obtain ⟨c, hc, hn, rfl⟩ := (mem_cellsAround hd g hf p (hin p h) m).mp hm
    rw [(C24_coordinates hd g hf c hc).2.2]
    exact ⟨hc, hn⟩
  have hv : ∀ a, ∀ p ∈ ps, ∀ m ∈ g.cellsAround p, 0 ≤ g.cellCoordinatesAt m a ∧ g.cellCoordinatesAt m a ≤ (g.n a : ℤ) - 1 :=
    fun a p h m hm => by
      have := (hmem p h m hm).1 a
      omega
  have hn : ∀ a, 0 < g.n a := fun a => (hg a).1
  have smin := fun a => foldl_min_spec g a ps (hv a) (fun a => (g.n a : ℤ) - 1) (by have := hn a; constructor <;> omega)
  have smax := fun a => foldl_max_spec g a ps (hv a) (fun _ => 0) (by have := hn a; constructor <;> omega)
  simp only [← hlo] at smin
  simp only [← hhi] at smax
  have hcell : ∀ p ∈ ps, ∀ c, IsCell g.n c → InCell g.anchor g.H c p → ∃ m ∈ g.cellsAround p, g.cellCoordinatesAt m = c :=
    fun p h c hc hcp => ⟨g.cellIndexAt c, (C29_partial hd g hg hf p (hp p h)).2.1 c hc hcp, (C24_coordinates hd g hf c hc).2.2⟩
  have hfirst : first ∈ ps := by simp [hps]
  obtain ⟨c0, hc0, _, _, hcp0, _⟩ := C28_partial hd g hg hf first (hp first hfirst)
  obtain ⟨m0, hm0, _⟩ := hcell first hfirst c0 hc0 hcp0
  refine ⟨lo, hi, ?_, fun a => ⟨(smin a).1.1, (smax a).1.2⟩, ?_, ?_, ?_⟩
  · have hany : ps.any (fun p => g.contains p (gridEps K)) = true :=
      List.any_eq_true.mpr ⟨first, hfirst, contains_of_inGrid hg (hp first hfirst)⟩
    unfold Grid.cellsEnclosing
    rw [← hps, hany]
    rfl
  · intro p h c hc hcp a
    obtain ⟨m, hm, e⟩ := hcell p h c hc hcp
    rw [← e]
    exact ⟨(smin a).2.2.1 p h m hm, (smax a).2.2.1 p h m hm⟩
  · intro a
    rcases (smin a).2.2.2 with h | ⟨p, h, m, hm, e⟩
    · refine ⟨first, hfirst, ?_⟩
      have h1 := (smin a).2.2.1 first hfirst m0 hm0
      have h2 := (hv a first hfirst m0 hm0).2
      rw [show lo a = g.cellCoordinatesAt m0 a by omega]
      exact (hmem first hfirst m0 hm0).2 a
    · exact ⟨p, h, by rw [e]; exact (hmem p h m hm).2 a⟩
  · intro a
    rcases (smax a).2.2.2 with h | ⟨p, h, m, hm, e⟩
    · refine ⟨first, hfirst, ?_⟩
      have h1 := (smax a).2.2.1 first hfirst m0 hm0
      have h2 := (hv a first hfirst m0 hm0).1
      rw [show hi a = g.cellCoordinatesAt m0 a by omega]
      exact (hmem first hfirst m0 hm0).2 a
    · exact ⟨p, h, by rw [e]; exact (hmem p h m hm).2 a⟩

/-- **C30 (points of the grid).** For points of the grid, `cells_enclosing` returns indices of cells, each once; each
returned cell (enlarged by the tolerance) meets the bounding box of the points; and every cell whose closed box meets the
bounding box is returned.  Missing with respect to C30: points outside of the grid, see `C30_violated`. -/
theorem C30_partial (hd : IsDim d) (g : Grid d K) (hg : Proper g) (hf : Fits g.n) (first : Fin d → K) (rest : List (Fin d → K))
    (hp : ∀ p ∈ first :: rest, InGrid g.anchor g.size p) :
    (g.cellsEnclosing first rest).Nodup ∧
    (∀ m ∈ g.cellsEnclosing first rest, ∃ c, IsCell g.n c ∧ m = g.cellIndexAt c ∧
      ∃ x, InCellOpen g.anchor g.H (gridEps K) c x ∧ InBoundingBox (first :: rest) x) ∧
    (∀ c, IsCell g.n c → (∃ x, InCell g.anchor g.H c x ∧ InBoundingBox (first :: rest) x) →
      g.cellIndexAt c ∈ g.cellsEnclosing first rest) := by
  obtain ⟨lo, hi, e, hb, hcov, hnlo, hnhi⟩ := enclosing_box hd g hg hf first rest hp
  rw [e]
  have hcell : ∀ p ∈ first :: rest, ∃ c, IsCell g.n c ∧ InCell g.anchor g.H c p := fun p h => by
    obtain ⟨c, hc, _, _, hcp, _⟩ := C28_partial hd g hg hf p (hp p h)
    exact ⟨c, hc, hcp⟩
  refine ⟨boxCells_nodup hd g hf lo hi (fun a => (hb a).1) (fun a => (hb a).2), ?_, ?_⟩
  · intro m hm
    obtain ⟨c, hc, rfl⟩ := (mem_boxCells hd g lo hi m).mp hm
    refine ⟨c, fun a => ?_, rfl, ?_⟩
    · have := hc a
      have := hb a
      omega
    · have hex : ∀ a, ∃ y : K, near ((y - g.anchor a) / g.H a) (c a) ∧ (∃ p ∈ first :: rest, p a ≤ y) ∧
          ∃ p ∈ first :: rest, y ≤ p a := fun a => by
        obtain ⟨p, hpm, hpn⟩ := hnlo a
        obtain ⟨q, hqm, hqn⟩ := hnhi a
        by_cases h1 : c a = lo a
        · exact ⟨p a, by rw [h1]; exact hpn, ⟨p, hpm, le_refl _⟩, ⟨p, hpm, le_refl _⟩⟩
        by_cases h2 : c a = hi a
        · exact ⟨q a, by rw [h2]; exact hqn, ⟨q, hqm, le_refl _⟩, ⟨q, hqm, le_refl _⟩⟩
        have hH := hg.H_pos a
        have g1 := gridEps_pos (K := K)
        have g2 := gridEps_lt (K := K)
        have l1 : (lo a : K) + 1 ≤ c a := by exact_mod_cast (by have := hc a; omega : lo a + 1 ≤ c a)
        have l2 : (c a : K) + 1 ≤ hi a := by exact_mod_cast (by have := hc a; omega : c a + 1 ≤ hi a)
        refine ⟨g.anchor a + ((c a : K) + 1 / 2) * g.H a, ?_, ⟨p, hpm, ?_⟩, ⟨q, hqm, ?_⟩⟩
        · rw [show (g.anchor a + ((c a : K) + 1 / 2) * g.H a - g.anchor a) / g.H a = (c a : K) + 1 / 2 by
            rw [add_sub_cancel_left, mul_div_cancel_right₀ _ hH.ne']]
          exact ⟨by linarith, by linarith⟩
        · rw [point_eq hg p a]
          have := mul_le_mul_of_nonneg_right (show g.absolute p a ≤ (c a : K) + 1 / 2 by linarith [hpn.2]) hH.le
          linarith
        · rw [point_eq hg q a]
          have := mul_le_mul_of_nonneg_right (show (c a : K) + 1 / 2 ≤ g.absolute q a by linarith [hqn.1]) hH.le
          linarith
      choose x hx1 hx2 hx3 using hex
      exact ⟨x, (near_iff hg x c).mp hx1, fun a => ⟨hx2 a, hx3 a⟩⟩
  · rintro c hc ⟨x, hx, hbx⟩
    rw [mem_boxCells hd]
    refine ⟨c, fun a => ?_, rfl⟩
    obtain ⟨⟨p, hpm, hpx⟩, q, hqm, hqx⟩ := hbx a
    have hH := hg.H_pos a
    have hxa := hx a
    simp only [gridPoint] at hxa
    have hca := hc a
    have h1 : lo a ≤ c a := by
      obtain ⟨cp, hcp, hip⟩ := hcell p hpm
      have h := (hip a).1
      simp only [gridPoint] at h
      have k : cp a ≤ c a + 1 := by
        exact_mod_cast (le_of_mul_le_mul_right (by linarith) hH : (cp a : K) ≤ (c a : K) + 1)
      rcases k.lt_or_eq with k | k
      · exact (hcov p hpm cp hcp hip a).1.trans (by omega)
      · rw [k] at h
        push_cast at h
        have := (hcov p hpm (Function.update cp a (c a)) (fun b => by
          by_cases hb : b = a
          · subst hb; rw [Function.update_self]; exact hca
          · rw [Function.update_of_ne hb]; exact hcp b) (fun b => by
          by_cases hb : b = a
          · subst hb
            simp only [gridPoint, Function.update_self]
            constructor <;> linarith
          · have := hip b
            simp only [gridPoint, Function.update_of_ne hb] at this ⊢
            exact this) a).1
        rwa [Function.update_self] at this
    have h2 : c a ≤ hi a := by
      obtain ⟨cq, hcq, hiq⟩ := hcell q hqm
      have h := (hiq a).2
      simp only [gridPoint] at h
      have k : c a ≤ cq a + 1 := by
        exact_mod_cast (le_of_mul_le_mul_right (by linarith) hH : (c a : K) ≤ (cq a : K) + 1)
      rcases k.lt_or_eq with k | k
      · exact le_trans (by omega) (hcov q hqm cq hcq hiq a).2
      · have k' : (c a : K) = (cq a : K) + 1 := by exact_mod_cast k
        rw [← k'] at h
        have := (hcov q hqm (Function.update cq a (c a)) (fun b => by
          by_cases hb : b = a
          · subst hb; rw [Function.update_self]; exact hca
          · rw [Function.update_of_ne hb]; exact hcq b) (fun b => by
          by_cases hb : b = a
          · subst hb
            simp only [gridPoint, Function.update_self]
            constructor <;> linarith
          · have := hiq b
            simp only [gridPoint, Function.update_of_ne hb] at this ⊢
            exact this) a).2
        rwa [Function.update_self] at this
    exact ⟨h1, h2⟩

/-- **C30 is false.** For the points `(1/2, 1/2)` and `(5/2, 1/2)` the cells `0` and `2` are returned.  The cell `1`,
which is crossed by the bounding box, is missing, and the cell `2` does not meet it. -/
theorem C30_violated :
    unitGrid2.cellsEnclosing ![1 / 2, 1 / 2] [![5 / 2, 1 / 2]] = [0, 2] ∧
    (unitGrid2.cellIndexAt ![1, 0] = 1 ∧ ∃ x, InCellOpen unitGrid2.anchor unitGrid2.H 0 ![1, 0] x ∧
      InBoundingBox [![1 / 2, 1 / 2], ![5 / 2, 1 / 2]] x) ∧
    unitGrid2.cellCoordinatesAt 2 = ![0, 1] ∧
      ¬ ∃ x, InCell unitGrid2.anchor unitGrid2.H ![0, 1] x ∧ InBoundingBox [![1 / 2, 1 / 2], ![5 / 2, 1 / 2]] x := by
  refine ⟨by decide +kernel, ⟨by decide, ![3 / 2, 1 / 2], ?_, ?_⟩, by decide, ?_⟩
  · intro a
    fin_cases a <;> norm_num [unitGrid2, Grid.H]
  · intro a
    fin_cases a
    · exact ⟨⟨![1 / 2, 1 / 2], by simp, show (1 / 2 : ℚ) ≤ 3 / 2 by norm_num⟩, ![5 / 2, 1 / 2], by simp, show (3 / 2 : ℚ) ≤ 5 / 2 by norm_num⟩
    · exact ⟨⟨![1 / 2, 1 / 2], by simp, le_refl (1 / 2 : ℚ)⟩, ![1 / 2, 1 / 2], by simp, le_refl (1 / 2 : ℚ)⟩
  · rintro ⟨x, hx, hb⟩
    obtain ⟨_, p, hp, hle⟩ := hb 1
    have h1 := (hx 1).1
    have : x 1 ≤ 1 / 2 := by
      rcases List.mem_cons.mp hp with rfl | hp
      · exact hle
      · rcases List.mem_singleton.mp hp with rfl
        exact hle
    norm_num [unitGrid2, gridPoint, Grid.H] at h1
    linarith

example : Proper exampleGrid ∧ InGrid exampleGrid.anchor exampleGrid.size ![4, 5 / 2, 13] ∧
    exampleGrid.cellIndexContaining ![4, 5 / 2, 13] true = 29 ∧ exampleGrid.cellsAround ![2, 5 / 2, 4] = [0, 3, 1, 4] ∧
    exampleGrid.cellsEnclosing ![3 / 2, 9 / 4, 4] [![5 / 2, 9 / 4, 4]] = [0, 1] := by
  refine ⟨?_, ?_, by decide +kernel, by decide +kernel, by decide +kernel⟩
  · intro a
    fin_cases a <;> norm_num [exampleGrid]
  · intro a
    fin_cases a <;> norm_num [exampleGrid]

example : InGrid unitGrid2.anchor unitGrid2.size ![1, 1 / 2] ∧ ∀ a, (![1, 1 / 2] : Fin 2 → ℚ) a < unitGrid2.anchor a + unitGrid2.size a := by
  constructor
  · intro a
    fin_cases a <;> norm_num [unitGrid2]
  · intro a
    fin_cases a <;> norm_num [unitGrid2]

end Caribou
