import Mathlib.MeasureTheory.Measure.Lebesgue.VolumeOfBalls
import Mathlib.Topology.Order.IntermediateValue
import Verif.Model.IsoSurfaces
import Verif.Spec.IsoSurfaces
import Verif.Props.FictitiousRatios

/-!
# Lemmas on discs and balls in a fictitious grid (C105)
-/

set_option autoImplicit false
set_option linter.all false

namespace Caribou

open Spec FictitiousGrid MeasureTheory

variable {D : ℕ}

theorem distance_eq_dist (x y : Fin D → ℝ) : distance x y = dist (WithLp.toLp 2 x) (WithLp.toLp 2 y) := by
  rw [EuclideanSpace.dist_eq, distance]
  simp [Real.dist_eq, sq_abs]

theorem distance_nonneg (x y : Fin D → ℝ) : 0 ≤ distance x y := Real.sqrt_nonneg _

theorem distance_triangle (x y z : Fin D → ℝ) : distance x z ≤ distance x y + distance y z := by
  simp only [distance_eq_dist]
  exact dist_triangle _ _ _

theorem distance_comm (x y : Fin D → ℝ) : distance x y = distance y x := by
  simp only [distance_eq_dist]
  exact dist_comm _ _

theorem isoValue_eq (s : RoundSurface D ℝ) (x : Fin D → ℝ) : s.isoValue x = distance x s.center ^ 2 - |s.radius| ^ 2 := by
  rw [distance, Real.sq_sqrt (Finset.sum_nonneg fun a _ => sq_nonneg _), sq_abs, RoundSurface.isoValue]
  simp only [dotProduct, Pi.sub_apply]
  congr 1
  · exact Finset.sum_congr rfl fun a _ => (sq _).symm
  · ring

theorem isoValue_neg (s : RoundSurface D ℝ) (x : Fin D → ℝ) : s.isoValue x < 0 ↔ distance x s.center < |s.radius| := by
  rw [isoValue_eq, sub_neg, sq_lt_sq₀ (distance_nonneg _ _) (abs_nonneg _)]

theorem isoValue_pos (s : RoundSurface D ℝ) (x : Fin D → ℝ) : 0 < s.isoValue x ↔ |s.radius| < distance x s.center := by
  rw [isoValue_eq, sub_pos, sq_lt_sq₀ (abs_nonneg _) (distance_nonneg _ _)]

theorem isoValue_zero (s : RoundSurface D ℝ) (x : Fin D → ℝ) : s.isoValue x = 0 ↔ distance x s.center = |s.radius| := by
  rw [isoValue_eq, sub_eq_zero, sq_eq_sq₀ (distance_nonneg _ _) (abs_nonneg _)]

theorem isoValue_continuous (s : RoundSurface D ℝ) : Continuous s.isoValue := by
  unfold RoundSurface.isoValue
  simp only [dotProduct]
  fun_prop

/-- The nodes of a box are its corners. -/
theorem mem_nodes (h : Is23 D) (e : Box D ℝ) (y : Fin D → ℝ) : y ∈ e.nodes ↔ ∀ a, y a = lower e a ∨ y a = upper e a := by
  rcases h with rfl | rfl
  · simp only [Box.nodes, List.mem_ofFn]
    constructor
    · rintro ⟨i, rfl⟩ a
      fin_cases i <;> fin_cases a <;> simp [Box.world, quad1, lower, upper] <;> ring_nf <;> simp
    · intro hy
      rcases hy 0 with h0 | h0 <;> rcases hy 1 with h1 | h1
      · refine ⟨0, ?_⟩; funext a; fin_cases a <;> simp [Box.world, quad1, h0, h1, lower, upper] <;> ring
      · refine ⟨3, ?_⟩; funext a; fin_cases a <;> simp [Box.world, quad1, h0, h1, lower, upper] <;> ring
      · refine ⟨1, ?_⟩; funext a; fin_cases a <;> simp [Box.world, quad1, h0, h1, lower, upper] <;> ring
      · refine ⟨2, ?_⟩; funext a; fin_cases a <;> simp [Box.world, quad1, h0, h1, lower, upper] <;> ring
  · simp only [Box.nodes, List.mem_ofFn]
    constructor
    · rintro ⟨i, rfl⟩ a
      fin_cases i <;> fin_cases a <;> simp [Box.world, hexa1, lower, upper] <;> ring_nf <;> simp
    · intro hy
      rcases hy 0 with h0 | h0 <;> rcases hy 1 with h1 | h1 <;> rcases hy 2 with h2 | h2
      · refine ⟨0, ?_⟩; funext a; fin_cases a <;> simp [Box.world, hexa1, h0, h1, h2, lower, upper] <;> ring
      · refine ⟨4, ?_⟩; funext a; fin_cases a <;> simp [Box.world, hexa1, h0, h1, h2, lower, upper] <;> ring
      · refine ⟨3, ?_⟩; funext a; fin_cases a <;> simp [Box.world, hexa1, h0, h1, h2, lower, upper] <;> ring
      · refine ⟨7, ?_⟩; funext a; fin_cases a <;> simp [Box.world, hexa1, h0, h1, h2, lower, upper] <;> ring
      · refine ⟨1, ?_⟩; funext a; fin_cases a <;> simp [Box.world, hexa1, h0, h1, h2, lower, upper] <;> ring
      · refine ⟨5, ?_⟩; funext a; fin_cases a <;> simp [Box.world, hexa1, h0, h1, h2, lower, upper] <;> ring
      · refine ⟨2, ?_⟩; funext a; fin_cases a <;> simp [Box.world, hexa1, h0, h1, h2, lower, upper] <;> ring
      · refine ⟨6, ?_⟩; funext a; fin_cases a <;> simp [Box.world, hexa1, h0, h1, h2, lower, upper] <;> ring

theorem node_in (h : Is23 D) (e : Box D ℝ) (he : ∀ a, 0 ≤ e.size a) {y : Fin D → ℝ} (hy : y ∈ e.nodes) : InCellBox e y := by
  intro a
  have := he a
  rcases (mem_nodes h e y).1 hy a with h | h <;> rw [h] <;> constructor <;> simp only [lower, upper] <;> linarith

/-- A box with all its corners in the ball is in the ball. -/
theorem inside_box (h : Is23 D) (e : Box D ℝ) (c : Fin D → ℝ) (r : ℝ) (hc : ∀ y ∈ e.nodes, distance y c < r) (x : Fin D → ℝ)
    (hx : InCellBox e x) : distance x c < r := by
  classical
  have hn : (fun a => if |lower e a - c a| ≤ |upper e a - c a| then upper e a else lower e a) ∈ e.nodes := by
    rw [mem_nodes h]
    intro a
    by_cases hl : |lower e a - c a| ≤ |upper e a - c a| <;> simp [hl]
  refine lt_of_le_of_lt ?_ (hc _ hn)
  refine Real.sqrt_le_sqrt (Finset.sum_le_sum fun a _ => ?_)
  obtain ⟨h1, h2⟩ := hx a
  have hm : |x a - c a| ≤ max |lower e a - c a| |upper e a - c a| := by
    rw [le_max_iff]
    rcases le_total (x a) (c a) with h | h
    · left
      rw [abs_of_nonpos (by linarith), abs_of_nonpos (by linarith)]
      linarith
    · right
      rw [abs_of_nonneg (by linarith), abs_of_nonneg (by linarith)]
      linarith
  rw [← sq_abs (x a - c a), ← sq_abs (_ - c a)]
  refine pow_le_pow_left₀ (abs_nonneg _) ?_ 2
  refine hm.trans (max_le ?_ ?_) <;> dsimp only <;> split_ifs with hl
  · exact hl
  · exact le_rfl
  · exact le_rfl
  · exact (not_le.1 hl).le

/-- Half of the diagonal away from every point of a box there is a corner. -/
theorem near_corner (h : Is23 D) (e : Box D ℝ) (x : Fin D → ℝ) (hx : InCellBox e x) :
    ∃ y ∈ e.nodes, distance y x ≤ diagonal e.size / 2 := by
  classical
  refine ⟨fun a => if x a ≤ e.center a then lower e a else upper e a, ?_, ?_⟩
  · rw [mem_nodes h]
    intro a
    by_cases hl : x a ≤ e.center a <;> simp [hl]
  · rw [diagonal, distance, show (2 : ℝ) = √(2 ^ 2) by rw [Real.sqrt_sq (by norm_num)], ← Real.sqrt_div' _ (by positivity),
      Finset.sum_div]
    refine Real.sqrt_le_sqrt (Finset.sum_le_sum fun a _ => ?_)
    obtain ⟨h1, h2⟩ := hx a
    rw [← div_pow]
    refine sq_le_sq' ?_ ?_ <;> split_ifs with hl <;> simp only [lower, upper] at * <;> linarith

theorem diagonal_mono {h h' : Fin D → ℝ} (h0 : ∀ a, 0 ≤ h a) (hh : ∀ a, h a ≤ h' a) : diagonal h ≤ diagonal h' :=
  Real.sqrt_le_sqrt (Finset.sum_le_sum fun a _ => pow_le_pow_left₀ (h0 a) (hh a) 2)

/-- Two points of a box are at most a diagonal apart. -/
theorem in_box_distance (e : Box D ℝ) (x y : Fin D → ℝ) (hx : InCellBox e x) (hy : InCellBox e y) :
    distance x y ≤ diagonal e.size := by
  refine Real.sqrt_le_sqrt (Finset.sum_le_sum fun a _ => ?_)
  obtain ⟨h1, h2⟩ := hx a
  obtain ⟨h3, h4⟩ := hy a
  simp only [lower, upper] at *
  exact sq_le_sq' (by linarith) (by linarith)

/-- A box with corners on both sides of the surface, or on it, has a point on it. -/
theorem boundary_box (h : Is23 D) (e : Box D ℝ) (he : ∀ a, 0 ≤ e.size a) (s : RoundSurface D ℝ)
    (h1 : ¬ ∀ y ∈ e.nodes, s.isoValue y < 0) (h2 : ¬ ∀ y ∈ e.nodes, 0 < s.isoValue y) :
    ∃ x, InCellBox e x ∧ distance x s.center = |s.radius| := by
  push Not at h1 h2
  obtain ⟨p, hp, hp0⟩ := h1
  obtain ⟨q, hq, hq0⟩ := h2
  have hpre : IsPreconnected (Set.Icc (lower e) (upper e)) := (convex_Icc _ _).isPreconnected
  have hmem : ∀ y, y ∈ Set.Icc (lower e) (upper e) ↔ InCellBox e y := fun y => by
    rw [Set.mem_Icc, Pi.le_def, Pi.le_def]
    exact ⟨fun h a => ⟨h.1 a, h.2 a⟩, fun h => ⟨fun a => (h a).1, fun a => (h a).2⟩⟩
  obtain ⟨x, hx, hx0⟩ := hpre.intermediate_value ((hmem q).2 (node_in h e he hq)) ((hmem p).2 (node_in h e he hp))
    (isoValue_continuous s).continuousOn ⟨hq0, hp0⟩
  exact ⟨x, (hmem x).1 hx, (isoValue_zero s x).1 hx0⟩

/-! ### Volumes -/

/-- The part of a cell covered by the leaves whose type satisfies `P`. -/
def partWeight (P : CellType → Bool) (t : CellTree D (CellData ℝ)) : ℝ :=
  ((t.leafCells.map Prod.snd).map fun d => if P d.type then d.weight else 0).sum

/-- The weights of the leaves of a cell sum up to the one of the cell. -/
theorem tree_weight (t : CellTree D (CellData ℝ)) (w : ℝ) (h : ∀ p d, LeafAt t p d → d.weight = w / (2 ^ D) ^ p.length)
    (q : List (Fin (2 ^ D))) : ((dfs t q).map fun x => x.2.weight).sum = w := by
  induction t generalizing w q with
  | leaf d => simpa [dfs] using h [] d (.here d)
  | node ch ih =>
    rw [dfs, List.map_flatMap, List.flatMap_def, List.sum_flatten, List.map_map]
    have : ((List.finRange (2 ^ D)).map (List.sum ∘ fun i => (dfs (ch i) (i :: q)).map fun x => x.2.weight))
        = (List.finRange (2 ^ D)).map fun _ => w / 2 ^ D := List.map_congr_left fun i _ => by
      refine ih i _ (fun p d hp => ?_) _
      rw [h _ d (.child _ i p d hp), List.length_cons, pow_succ, div_div, mul_comm]
    rw [this]
    simp only [List.map_const', List.length_finRange, List.sum_replicate, nsmul_eq_mul, Nat.cast_pow, Nat.cast_ofNat]
    field_simp

theorem partWeight_not (P : CellType → Bool) (t : CellTree D (CellData ℝ))
    (h : ∀ p d, LeafAt t p d → d.weight = 1 / (2 ^ D) ^ p.length) : partWeight P t = 1 - partWeight (fun x => !P x) t := by
  have h1 := tree_weight t 1 h []
  rw [← ((leafCells_perm t).map _).sum_eq] at h1
  rw [eq_sub_iff_add_eq, ← h1, partWeight, partWeight, List.map_map, List.map_map, ← List.sum_map_add]
  congr 1
  refine List.map_congr_left fun x _ => ?_
  simp only [Function.comp]
  cases P x.2.type <;> simp

theorem volume_box (e : Box D ℝ) (he : ∀ a, 0 ≤ e.size a) : volume {x | InCellBox e x} = ENNReal.ofReal (boxVolume e) := by
  have hs : {x | InCellBox e x} = Set.Icc (lower e) (upper e) := by
    ext y
    rw [Set.mem_Icc, Pi.le_def, Pi.le_def]
    exact ⟨fun h => ⟨fun a => (h a).1, fun a => (h a).2⟩, fun h a => ⟨h.1 a, h.2 a⟩⟩
  rw [hs, Real.volume_Icc_pi, boxVolume, ENNReal.ofReal_prod_of_nonneg fun a _ => he a]
  refine Finset.prod_congr rfl fun a _ => ?_
  congr 1
  simp only [lower, upper]
  ring

theorem volume_list {ι : Type*} (L : List ι) (f : ι → Set (Fin D → ℝ)) (v : ι → ℝ) (h0 : ∀ l ∈ L, 0 ≤ v l)
    (h : ∀ l ∈ L, volume (f l) ≤ ENNReal.ofReal (v l)) : volume {x | ∃ l ∈ L, x ∈ f l} ≤ ENNReal.ofReal (L.map v).sum := by
  induction L with
  | nil => simp
  | cons a L ih =>
    have hs : {x | ∃ l ∈ a :: L, x ∈ f l} = f a ∪ {x | ∃ l ∈ L, x ∈ f l} := by ext x; simp
    rw [hs, List.map_cons, List.sum_cons, ENNReal.ofReal_add (h0 a (by simp))
      (List.sum_nonneg fun x hx => by obtain ⟨l, hl, rfl⟩ := List.mem_map.1 hx; exact h0 l (by simp [hl]))]
    exact (measure_union_le _ _).trans (add_le_add (h a (by simp))
      (ih (fun l hl => h0 l (by simp [hl])) fun l hl => h l (by simp [hl])))

theorem boxBelow_nonneg (e : Box D ℝ) (he : ∀ a, 0 ≤ e.size a) (p : List (Fin (2 ^ D))) (a : Fin D) : 0 ≤ (boxBelow e p).size a := by
  induction p generalizing e with
  | nil => exact he a
  | cons i p ih => exact ih _ fun a => div_nonneg (he a) (by norm_num)

/-- The points of a cell which are in leaves of a type have at most the volume of these leaves. -/
theorem volume_cell (h : Is23 D) (t : CellTree D (CellData ℝ)) (e : Box D ℝ) (he : ∀ a, 0 ≤ e.size a) (P : CellType → Bool)
    (hw : ∀ p d, LeafAt t p d → d.weight = 1 / (2 ^ D) ^ p.length) :
    volume {x | ∃ p d, LeafAt t p d ∧ P d.type ∧ InCellBox (boxBelow e p) x} ≤ ENNReal.ofReal (partWeight P t * boxVolume e) := by
  have hsub : {x | ∃ p d, LeafAt t p d ∧ P d.type ∧ InCellBox (boxBelow e p) x} ⊆
      {x | ∃ l ∈ t.leafCells, x ∈ (if P l.2.type then {y | InCellBox (boxBelow e l.1.reverse) y} else ∅ : Set (Fin D → ℝ))} := by
    rintro x ⟨p, d, hl, hP, hx⟩
    refine ⟨(p.reverse, d), (mem_leafCells _ _ _).2 (by simpa using hl), ?_⟩
    simpa [hP] using hx
  have hV : 0 ≤ boxVolume e := Finset.prod_nonneg fun a _ => he a
  refine (measure_mono hsub).trans ?_
  refine (volume_list t.leafCells _ (fun l => (if P l.2.type then l.2.weight else 0) * boxVolume e) ?_ ?_).trans (le_of_eq ?_)
  · intro l hl
    have := hw _ _ ((mem_leafCells _ _ _).1 hl)
    refine mul_nonneg ?_ hV
    split_ifs
    · rw [this]; positivity
    · exact le_rfl
  · rintro ⟨p, d⟩ hl
    have := hw _ _ ((mem_leafCells _ _ _).1 hl)
    by_cases hP : P d.type
    · simp only [hP, if_true]
      rw [volume_box _ (boxBelow_nonneg e he _), boxBelow_volume, this]
      exact ENNReal.ofReal_le_ofReal (le_of_eq (by ring))
    · simp [hP]
  · congr 1
    rw [partWeight, List.map_map, ← List.sum_map_mul_right]
    rfl

theorem inCellBox_gridBox' (g : Grid D ℝ) (i : ℤ) (x : Fin D → ℝ) :
    InCellBox (gridBox g i) x ↔ InCell g.anchor g.H (g.cellCoordinatesAt i) x := by
  unfold InCellBox InCell InClosedBox
  refine forall_congr' fun a => ?_
  have e1 : lower (gridBox g i) a = gridPoint g.anchor g.H (fun a => (g.cellCoordinatesAt i a : ℝ)) a := by
    simp only [lower, gridBox, Grid.cellCenter, gridPoint]; ring
  have e2 : upper (gridBox g i) a = gridPoint g.anchor g.H (fun a => (g.cellCoordinatesAt i a : ℝ) + 1) a := by
    simp only [upper, gridBox, Grid.cellCenter, gridPoint]; ring
  rw [e1, e2]

/-- Every point of the grid is in a leaf. -/
theorem grid_cover (h : Is23 D) {α : Type*} (g : Grid D ℝ) (hg : Proper g) (hf : Fits g.n) (cells : ℤ → CellTree D α) (x : Fin D → ℝ)
    (hx : InGrid g.anchor g.size x) :
    ∃ i, 0 ≤ i ∧ i < g.numberOfCells ∧ ∃ p d, LeafAt (cells i) p d ∧ InCellBox (boxBelow (gridBox g i) p) x := by
  obtain ⟨cc, hcc, _, _, hcp, _⟩ := C28_partial h.dim g hg hf x hx
  obtain ⟨h0, h1, e⟩ := C24_coordinates h.dim g hf cc hcc
  have hbox : InCellBox (gridBox g (g.cellIndexAt cc)) x := by rw [inCellBox_gridBox', e]; exact hcp
  obtain ⟨p, d, hl, hp⟩ := leaf_cover h (cells (g.cellIndexAt cc)) _ x hbox
  exact ⟨_, h0, h1, p, d, hl, hp⟩

/-- The volume of the leaves of a type. -/
noncomputable def partVolume (g : Grid D ℝ) (P : CellType → Bool) (cells : ℤ → CellTree D (CellData ℝ)) : ℝ :=
  ∑ i ∈ Finset.range g.numberOfCells.toNat, partWeight P (cells i) * ∏ a, g.H a

theorem partWeight_nonneg (P : CellType → Bool) (t : CellTree D (CellData ℝ))
    (hw : ∀ p d, LeafAt t p d → d.weight = 1 / (2 ^ D) ^ p.length) : 0 ≤ partWeight P t := by
  refine List.sum_nonneg fun x hx => ?_
  obtain ⟨d, hd, rfl⟩ := List.mem_map.1 hx
  obtain ⟨l, hl, rfl⟩ := List.mem_map.1 hd
  split_ifs
  · rw [hw _ _ ((mem_leafCells _ _ _).1 hl)]; positivity
  · exact le_rfl

theorem volume_le (h : Is23 D) (g : Grid D ℝ) (hg : Proper g) (hf : Fits g.n) (cells : ℤ → CellTree D (CellData ℝ))
    (hw : ∀ i, 0 ≤ i → i < g.numberOfCells → ∀ p d, LeafAt (cells i) p d → d.weight = 1 / (2 ^ D) ^ p.length) (P : CellType → Bool)
    (A : Set (Fin D → ℝ)) (hA : ∀ x ∈ A, InGrid g.anchor g.size x)
    (hP : ∀ x ∈ A, ∀ i, 0 ≤ i → i < g.numberOfCells → ∀ p d, LeafAt (cells i) p d → InCellBox (boxBelow (gridBox g i) p) x → P d.type) :
    volume A ≤ ENNReal.ofReal (partVolume g P cells) := by
  have hcount : 0 ≤ g.numberOfCells := by
    rw [C24_count g hf]; exact Finset.prod_nonneg fun a _ => by positivity
  have hsub : A ⊆ ⋃ i ∈ Finset.range g.numberOfCells.toNat,
      {x | ∃ p d, LeafAt (cells i) p d ∧ P d.type ∧ InCellBox (boxBelow (gridBox g i) p) x} := by
    intro x hx
    obtain ⟨i, h0, h1, p, d, hl, hp⟩ := grid_cover h g hg hf cells x (hA x hx)
    have e : ((i.toNat : ℕ) : ℤ) = i := Int.toNat_of_nonneg h0
    refine Set.mem_biUnion (x := i.toNat) (by simp; omega) ?_
    simp only [e]
    exact ⟨p, d, hl, hP x hx i h0 h1 p d hl hp, hp⟩
  have hH : ∀ a, 0 ≤ g.H a := fun a => (hg.H_pos a).le
  have hi : ∀ i ∈ Finset.range g.numberOfCells.toNat, (0 : ℤ) ≤ i ∧ (i : ℤ) < g.numberOfCells := fun i hi => by
    rw [Finset.mem_range] at hi
    omega
  refine (measure_mono hsub).trans ((measure_biUnion_finset_le _ _).trans ?_)
  rw [partVolume, ENNReal.ofReal_sum_of_nonneg fun (i : ℕ) h' => mul_nonneg (partWeight_nonneg P _ (hw i (hi i h').1 (hi i h').2))
    (Finset.prod_nonneg fun a _ => hH a)]
  exact Finset.sum_le_sum fun i h' => volume_cell h (cells i) (gridBox g i) hH P (hw i (hi i h').1 (hi i h').2)

theorem partVolume_not (g : Grid D ℝ) (hg : Proper g) (hf : Fits g.n) (cells : ℤ → CellTree D (CellData ℝ))
    (hw : ∀ i, 0 ≤ i → i < g.numberOfCells → ∀ p d, LeafAt (cells i) p d → d.weight = 1 / (2 ^ D) ^ p.length) (P : CellType → Bool) :
    partVolume g P cells = ∏ a, g.size a - partVolume g (fun x => !P x) cells := by
  have hi : ∀ i ∈ Finset.range g.numberOfCells.toNat, (0 : ℤ) ≤ i ∧ (i : ℤ) < g.numberOfCells := fun i hi => by
    rw [Finset.mem_range] at hi
    omega
  have hN : ((g.numberOfCells.toNat : ℕ) : ℝ) * ∏ a, g.H a = ∏ a, g.size a := by
    have hcount : 0 ≤ g.numberOfCells := by
      rw [C24_count g hf]; exact Finset.prod_nonneg fun a _ => by positivity
    have e : ((g.numberOfCells.toNat : ℕ) : ℝ) = ∏ a, (g.n a : ℝ) := by
      have := congrArg (Int.cast : ℤ → ℝ) (Int.toNat_of_nonneg hcount)
      rw [Int.cast_natCast] at this
      rw [this, C24_count g hf]
      push_cast
      rfl
    rw [e, ← Finset.prod_mul_distrib]
    exact Finset.prod_congr rfl fun a _ => (hg.size_eq a).symm
  rw [eq_sub_iff_add_eq, ← hN, partVolume, partVolume, ← Finset.sum_add_distrib]
  rw [Finset.sum_congr rfl fun i h' => by
    rw [partWeight_not P _ (hw i (hi i h').1 (hi i h').2), ← add_mul, sub_add_cancel, one_mul]]
  simp

theorem le_volume (h : Is23 D) (g : Grid D ℝ) (hg : Proper g) (hf : Fits g.n) (cells : ℤ → CellTree D (CellData ℝ))
    (hw : ∀ i, 0 ≤ i → i < g.numberOfCells → ∀ p d, LeafAt (cells i) p d → d.weight = 1 / (2 ^ D) ^ p.length) (P : CellType → Bool)
    (A : Set (Fin D → ℝ))
    (hP : ∀ x, InGrid g.anchor g.size x → ∀ i, 0 ≤ i → i < g.numberOfCells → ∀ p d, LeafAt (cells i) p d →
      InCellBox (boxBelow (gridBox g i) p) x → P d.type → x ∈ A) :
    ENNReal.ofReal (partVolume g P cells) ≤ volume A := by
  have h1 := volume_le h g hg hf cells hw (fun x => !P x) ({x | InGrid g.anchor g.size x} \ A) (fun x hx => hx.1)
    (fun x hx i h0 h1 p d hl hb => by
      simp only [Bool.not_eq_true', Bool.eq_false_iff]
      exact fun hp => hx.2 (hP x hx.1 i h0 h1 p d hl hb hp))
  have hG : volume {x | InGrid g.anchor g.size x} = ENNReal.ofReal (∏ a, g.size a) := by
    have hs : {x | InGrid g.anchor g.size x} = Set.Icc g.anchor (g.anchor + g.size) := by
      ext y
      rw [Set.mem_Icc, Pi.le_def, Pi.le_def]
      exact ⟨fun h => ⟨fun a => (h a).1, fun a => (h a).2⟩, fun h a => ⟨h.1 a, h.2 a⟩⟩
    rw [hs, Real.volume_Icc_pi, ENNReal.ofReal_prod_of_nonneg fun a _ => (hg a).2.le]
    exact Finset.prod_congr rfl fun a _ => by simp
  have hn : 0 ≤ partVolume g (fun x => !P x) cells := by
    refine Finset.sum_nonneg fun i h' => ?_
    have hi : (0 : ℤ) ≤ i ∧ (i : ℤ) < g.numberOfCells := by
      rw [Finset.mem_range] at h'
      omega
    exact mul_nonneg (partWeight_nonneg _ _ (hw i hi.1 hi.2)) (Finset.prod_nonneg fun a _ => (hg.H_pos a).le)
  rw [partVolume_not g hg hf cells hw, ENNReal.ofReal_sub _ hn, ← hG, tsub_le_iff_right]
  calc volume {x | InGrid g.anchor g.size x}
      ≤ volume (A ∪ ({x | InGrid g.anchor g.size x} \ A)) := measure_mono fun x hx => by
        by_cases hxA : x ∈ A
        · exact .inl hxA
        · exact .inr ⟨hx, hxA⟩
    _ ≤ volume A + volume ({x | InGrid g.anchor g.size x} \ A) := measure_union_le _ _
    _ ≤ _ := add_le_add le_rfl h1

theorem openBall_eq (c : Fin D → ℝ) (r : ℝ) : openBall c r = WithLp.toLp 2 ⁻¹' Metric.ball (WithLp.toLp 2 c) r := by
  ext x
  simp [openBall, distance_eq_dist, Metric.mem_ball]

theorem volume_openBall (c : Fin D → ℝ) (r : ℝ) : volume (openBall c r) = volume (Metric.ball (WithLp.toLp 2 c) r) := by
  rw [openBall_eq]
  exact (PiLp.volume_preserving_toLp (Fin D)).measure_preimage measurableSet_ball.nullMeasurableSet

theorem volume_closedBall_le (h : Is23 D) (c : Fin D → ℝ) (r : ℝ) : volume {x | distance x c ≤ r} ≤ volume (openBall c r) := by
  have e : {x | distance x c ≤ r} = WithLp.toLp 2 ⁻¹' Metric.closedBall (WithLp.toLp 2 c) r := by
    ext x
    simp [distance_eq_dist, Metric.mem_closedBall]
  rw [e, volume_openBall, (PiLp.volume_preserving_toLp (Fin D)).measure_preimage measurableSet_closedBall.nullMeasurableSet]
  rcases h with rfl | rfl <;> exact (Measure.addHaar_closedBall_eq_addHaar_ball _ _ _).le

end Caribou
