import Verif.Lemmas.IsoSurfaces

/-!
# Property C105: implicit surfaces and the grids around them
-/

set_option autoImplicit false

namespace Caribou

open Spec FictitiousGrid MeasureTheory

variable {D : ℕ}

/-- **C105 (sign).** The value of a circle or sphere is negative inside, zero on and positive outside of the circle or sphere with the given
centre whose radius is the absolute value of the given one. -/
theorem C105_sign (s : RoundSurface D ℝ) (x : Fin D → ℝ) :
    (s.isoValue x < 0 ↔ distance x s.center < |s.radius|) ∧ (s.isoValue x = 0 ↔ distance x s.center = |s.radius|) ∧
      (0 < s.isoValue x ↔ |s.radius| < distance x s.center) :=
  ⟨isoValue_neg s x, isoValue_zero s x, isoValue_pos s x⟩

theorem cylinder_eq (s : CylinderSurface ℝ) (x : Fin 3 → ℝ) :
    s.isoValue x = (⟨s.radius, ![s.center 0, s.center 1]⟩ : RoundSurface 2 ℝ).isoValue ![x 0, x 1] := by
  simp [CylinderSurface.isoValue, RoundSurface.isoValue]

/-- **C105 (cylinder, partial).** Between the two ends of the cylinder its value is negative exactly in the interior of the cylinder.
Missing: the ends, see `C105_cylinder_violated`. -/
theorem C105_cylinder_partial (s : CylinderSurface ℝ) (x : Fin 3 → ℝ) (hx : |x 2 - s.center 2| < s.length / 2) :
    s.isoValue x < 0 ↔ x ∈ cylinderInterior s.center |s.radius| s.length := by
  rw [cylinder_eq, isoValue_neg]
  exact ⟨fun h => ⟨h, hx⟩, fun h => h.1⟩

/-- **C105 violated (cylinder).** The length is ignored: whatever it is, the points of the axis are inside as far as one goes. -/
theorem C105_cylinder_violated (s : CylinderSurface ℝ) (hr : s.radius ≠ 0) :
    ∃ x, s.isoValue x < 0 ∧ x ∉ cylinderInterior s.center |s.radius| s.length ∧ |x 2 - s.center 2| = |s.length| + 1 := by
  refine ⟨![s.center 0, s.center 1, s.center 2 + |s.length| + 1], ?_, ?_, ?_⟩
  · rw [cylinder_eq, isoValue_neg]
    have : distance (![s.center 0, s.center 1] : Fin 2 → ℝ) ![s.center 0, s.center 1] = 0 := by simp [distance]
    simpa [this] using hr
  · rintro ⟨-, h⟩
    simp only [Matrix.cons_val] at h
    have h1 := le_abs_self (s.center 2 + |s.length| + 1 - s.center 2)
    have h2 := le_abs_self s.length
    have h3 := abs_nonneg s.length
    linarith
  · simp only [Matrix.cons_val]
    rw [abs_of_nonneg] <;> have h3 := abs_nonneg s.length <;> linarith

theorem inside_values {values : List ℝ} (h : isoCellType values = .inside) : ∀ v ∈ values, v < 0 := by
  unfold isoCellType at h
  split_ifs at h with h1
  exact h1

theorem outside_values {values : List ℝ} (h : isoCellType values = .outside) : ∀ v ∈ values, 0 < v := by
  unfold isoCellType at h
  split_ifs at h with h1 h2
  exact h2

theorem boundary_values {values : List ℝ} (h : isoCellType values = .boundary) :
    (¬ ∀ v ∈ values, v < 0) ∧ ¬ ∀ v ∈ values, 0 < v := by
  unfold isoCellType at h
  split_ifs at h with h1 h2
  exact ⟨h1, h2⟩

/-- **C105 (leaves, partial).** A grid around a circle or a sphere, in two or three dimensions, none of whose nodes is on it: a leaf `Inside` is
in the disc or ball as a whole; a leaf `Boundary` has a point of the circle or sphere and is at the last level; a leaf `Outside` has no point of
the disc or ball which is deeper than half of its diagonal.  Missing: a leaf `Outside` has no point at all of the disc, which is
false (`C105_missed_violated`), and in three dimensions `create_grid` does not reach this result when the component is new
(`C102_iso3_violated`). -/
theorem C105_leaves_partial (h : Is23 D) (g : Grid D ℝ) (hg : Proper g) (hf : Fits g.n) (hs : ∀ a, (g.n a : ℤ) < 2 ^ 31)
    (s : RoundSurface D ℝ) (hiso : ∀ c, 0 ≤ c → c < g.numberOfCells → ∀ n ∈ elementNodes g c, distance (g.node n) s.center ≠ |s.radius|)
    (levels : ℕ) (threshold : ℝ) (types : ℤ → CellType) :
    ∃ r, createGridIso g s.isoValue levels threshold types = .ok r ∧ ∀ c d, IsLeaf g r.cells c d →
      (d.type = .inside → ∀ x, InCellBox (refBox g c.path c.top) x → distance x s.center < |s.radius|) ∧
      (d.type = .boundary → c.path.length = levels ∧ ∃ x, InCellBox (refBox g c.path c.top) x ∧ distance x s.center = |s.radius|) ∧
      (d.type = .outside → ∀ x, InCellBox (refBox g c.path c.top) x →
        |s.radius| < distance x s.center + diagonal (refBox g c.path c.top).size / 2) ∧
      d.type ≠ .undef ∧ d.weight = 1 / (2 ^ D) ^ c.path.length ∧ c.path.length ≤ levels := by
  obtain ⟨r, hr, -, hl, -⟩ := C102_iso h g hg hf hs s.isoValue (fun c h0 h1 n hn h => hiso c h0 h1 n hn ((isoValue_zero s _).1 h))
    levels threshold types
  refine ⟨r, hr, fun c d hc => ?_⟩
  obtain ⟨h1, h2, h3, h4⟩ := hl c d hc
  have hsz : ∀ a, 0 ≤ (refBox g c.path c.top).size a := fun a => by
    rw [refBox_size]
    exact div_nonneg (hg.H_pos a).le (by positivity)
  refine ⟨fun ht x hx => ?_, fun ht => ⟨h4 ht, ?_⟩, fun ht x hx => ?_, ?_, h2, h1⟩
  · refine inside_box h _ _ _ (fun y hy => ?_) x hx
    exact (isoValue_neg s y).1 (inside_values (h3.symm.trans ht) _ (List.mem_map.2 ⟨y, hy, rfl⟩))
  · obtain ⟨n1, n2⟩ := boundary_values (h3.symm.trans ht)
    exact boundary_box h _ hsz s (fun hall => n1 fun v hv => by obtain ⟨y, hy, rfl⟩ := List.mem_map.1 hv; exact hall y hy)
      fun hall => n2 fun v hv => by obtain ⟨y, hy, rfl⟩ := List.mem_map.1 hv; exact hall y hy
  · obtain ⟨y, hy, hd⟩ := near_corner h _ x hx
    have hp := (isoValue_pos s y).1 (outside_values (h3.symm.trans ht) _ (List.mem_map.2 ⟨y, hy, rfl⟩))
    have := distance_triangle y x s.center
    linarith
  · rw [h3]
    exact isoCellType_ne _

/-- **Spec.** The volume of the leaves `Inside`. -/
noncomputable def Spec.insideVolume (g : Grid D ℝ) (cells : ℤ → CellTree D (CellData ℝ)) : ℝ :=
  ∑ i ∈ Finset.range g.numberOfCells.toNat,
    (((cells i).leafCells.map Prod.snd).map fun d => if d.type = .inside then d.weight else 0).sum * ∏ a, g.H a

/-- **Spec.** The volume of the object according to the ratios of the cells (`C102_iso`): the leaves `Inside` and `Boundary`. -/
noncomputable def Spec.coveredVolume (g : Grid D ℝ) (cells : ℤ → CellTree D (CellData ℝ)) : ℝ :=
  ∑ i ∈ Finset.range g.numberOfCells.toNat, covered (cells i) * ∏ a, g.H a

theorem insideVolume_eq (g : Grid D ℝ) (cells : ℤ → CellTree D (CellData ℝ)) :
    insideVolume g cells = partVolume g (fun t => decide (t = .inside)) cells := by
  simp [insideVolume, partVolume, partWeight]

theorem coveredVolume_eq (g : Grid D ℝ) (cells : ℤ → CellTree D (CellData ℝ)) :
    coveredVolume g cells = partVolume g (fun t => decide (t = .inside ∨ t = .boundary)) cells := by
  simp [coveredVolume, partVolume, partWeight, covered]

/-- **C105 (volume).** A disc or ball which is in the grid: the leaves `Inside` have at least the volume of the ball with the radius reduced by
half of the diagonal of the cells (or the diagonal of the smallest leaves, if this is larger) and at most the volume of the ball, and the
volume of the ratios is at most the one of the ball with the radius increased by the diagonal of the smallest leaves. -/
theorem C105_volume (h : Is23 D) (g : Grid D ℝ) (hg : Proper g) (hf : Fits g.n) (hs : ∀ a, (g.n a : ℤ) < 2 ^ 31)
    (s : RoundSurface D ℝ) (hiso : ∀ c, 0 ≤ c → c < g.numberOfCells → ∀ n ∈ elementNodes g c, distance (g.node n) s.center ≠ |s.radius|)
    (hin : ∀ x, distance x s.center < |s.radius| → InGrid g.anchor g.size x)
    (levels : ℕ) (threshold : ℝ) (types : ℤ → CellType) :
    ∃ r, createGridIso g s.isoValue levels threshold types = .ok r ∧
      0 ≤ insideVolume g r.cells ∧
      volume (openBall s.center (|s.radius| - max (diagonal g.H / 2) (diagonal g.H / 2 ^ levels))) ≤
        ENNReal.ofReal (insideVolume g r.cells) ∧
      ENNReal.ofReal (insideVolume g r.cells) ≤ volume (openBall s.center |s.radius|) ∧
      insideVolume g r.cells ≤ coveredVolume g r.cells ∧
      ENNReal.ofReal (coveredVolume g r.cells) ≤ volume (openBall s.center (|s.radius| + diagonal g.H / 2 ^ levels)) := by
  obtain ⟨r, hr, hl⟩ := C105_leaves_partial h g hg hf hs s hiso levels threshold types
  have hleaf : ∀ i, 0 ≤ i → i < g.numberOfCells → ∀ p d, LeafAt (r.cells i) p d → IsLeaf g r.cells ⟨p.reverse, i⟩ d :=
    fun i h0 h1 p d hp => ⟨h0, by rw [← C24_count g hf]; exact h1, by simpa using hp⟩
  have hbox : ∀ (p : List (Fin (2 ^ D))) (i : ℤ), boxBelow (gridBox g i) p = refBox g p.reverse i := fun p i => by
    rw [refBox_eq, List.reverse_reverse]
  have hw : ∀ i, 0 ≤ i → i < g.numberOfCells → ∀ p d, LeafAt (r.cells i) p d → d.weight = 1 / (2 ^ D) ^ p.length :=
    fun i h0 h1 p d hp => by simpa using (hl _ d (hleaf i h0 h1 p d hp)).2.2.2.2.1
  have hdiag : ∀ (p : List (Fin (2 ^ D))) (i : ℤ), diagonal (refBox g p i).size = diagonal g.H / 2 ^ p.length := fun p i => by
    rw [diagonal, diagonal, show ((2 : ℝ) ^ p.length) = √((2 ^ p.length) ^ 2) by rw [Real.sqrt_sq (by positivity)],
      ← Real.sqrt_div' _ (by positivity), Finset.sum_div]
    congr 1
    exact Finset.sum_congr rfl fun a _ => by rw [refBox_size, div_pow]
  have hd0 : 0 ≤ diagonal g.H := Real.sqrt_nonneg _
  refine ⟨r, hr, ?_, ?_, ?_, ?_, ?_⟩
  · rw [insideVolume_eq]
    refine Finset.sum_nonneg fun i hi => ?_
    rw [Finset.mem_range] at hi
    exact mul_nonneg (partWeight_nonneg _ _ (hw i (by omega) (by omega))) (Finset.prod_nonneg fun a _ => (hg.H_pos a).le)
  · rw [insideVolume_eq]
    refine volume_le h g hg hf r.cells hw _ _ (fun x hx => hin x ?_) fun x hx i h0 h1 p d hp hb => ?_
    · have hx' : distance x s.center < _ := hx
      have := le_max_left (diagonal g.H / 2) (diagonal g.H / 2 ^ levels)
      linarith
    · have hx' : distance x s.center < _ := hx
      obtain ⟨-, hB, hO, hu, -, -⟩ := hl _ d (hleaf i h0 h1 p d hp)
      rw [hbox] at hb
      have hm1 := le_max_left (diagonal g.H / 2) (diagonal g.H / 2 ^ levels)
      have hm2 := le_max_right (diagonal g.H / 2) (diagonal g.H / 2 ^ levels)
      rcases ht : d.type with _ | _ | _ | _
      · exact absurd ht hu
      · simp
      · exfalso
        have h3 := hO ht x hb
        rw [hdiag] at h3
        have h4 : diagonal g.H / 2 ^ p.reverse.length ≤ diagonal g.H := div_le_self hd0 (one_le_pow₀ (by norm_num))
        simp only at h3
        linarith
      · exfalso
        obtain ⟨h2, y, hy, hys⟩ := hB ht
        have h3 := in_box_distance _ _ _ hy hb
        rw [hdiag, h2] at h3
        have := distance_triangle y x s.center
        linarith
  · rw [insideVolume_eq]
    refine le_volume h g hg hf r.cells hw _ _ fun x _ i h0 h1 p d hp hb hP => ?_
    rw [hbox] at hb
    exact (hl _ d (hleaf i h0 h1 p d hp)).1 (by simpa using hP) x hb
  · rw [insideVolume_eq, coveredVolume_eq]
    refine Finset.sum_le_sum fun i hi => ?_
    refine mul_le_mul_of_nonneg_right ?_ (Finset.prod_nonneg fun a _ => (hg.H_pos a).le)
    refine List.sum_le_sum fun d hd => ?_
    obtain ⟨l, hl', rfl⟩ := List.mem_map.1 hd
    have hi' : (0 : ℤ) ≤ i ∧ (i : ℤ) < g.numberOfCells := by
      rw [Finset.mem_range] at hi
      omega
    have := hw i hi'.1 hi'.2 _ _ ((mem_leafCells _ _ _).1 hl')
    have hpos : 0 ≤ l.2.weight := by rw [this]; positivity
    rcases ht : l.2.type with _ | _ | _ | _ <;> simp [hpos]
  · rw [coveredVolume_eq]
    refine (le_volume h g hg hf r.cells hw _ {x | distance x s.center ≤ |s.radius| + diagonal g.H / 2 ^ levels}
      fun x _ i h0 h1 p d hp hb hP => ?_).trans (volume_closedBall_le h _ _)
    rw [hbox] at hb
    obtain ⟨hI, hB, -⟩ := hl _ d (hleaf i h0 h1 p d hp)
    have hd1 : 0 ≤ diagonal g.H / 2 ^ levels := by positivity
    show distance x s.center ≤ _
    rcases of_decide_eq_true hP with ht | ht
    · have := hI ht x hb
      linarith
    · obtain ⟨h2, y, hy, hys⟩ := hB ht
      have h3 := in_box_distance _ _ _ hb hy
      rw [hdiag, h2] at h3
      have := distance_triangle x y s.center
      linarith

/-- **C105 (area).** In two dimensions the areas of `C105_volume` are those of discs. -/
theorem C105_area (g : Grid 2 ℝ) (hg : Proper g) (hf : Fits g.n) (hs : ∀ a, (g.n a : ℤ) < 2 ^ 31)
    (s : RoundSurface 2 ℝ) (hiso : ∀ c, 0 ≤ c → c < g.numberOfCells → ∀ n ∈ elementNodes g c, distance (g.node n) s.center ≠ |s.radius|)
    (hin : ∀ x, distance x s.center < |s.radius| → InGrid g.anchor g.size x)
    (levels : ℕ) (threshold : ℝ) (types : ℤ → CellType) :
    ∃ r, createGridIso g s.isoValue levels threshold types = .ok r ∧
      Real.pi * max 0 (|s.radius| - max (diagonal g.H / 2) (diagonal g.H / 2 ^ levels)) ^ 2 ≤ insideVolume g r.cells ∧
      insideVolume g r.cells ≤ Real.pi * s.radius ^ 2 ∧ insideVolume g r.cells ≤ coveredVolume g r.cells ∧
      coveredVolume g r.cells ≤ Real.pi * (|s.radius| + diagonal g.H / 2 ^ levels) ^ 2 := by
  obtain ⟨r, hr, h0, h1, h2, h3, h4⟩ := C105_volume (.inl rfl) g hg hf hs s hiso hin levels threshold types
  have hd : 0 ≤ |s.radius| + diagonal g.H / 2 ^ levels := add_nonneg (abs_nonneg _) (div_nonneg (Real.sqrt_nonneg _) (by positivity))
  have hv : ∀ (ρ : ℝ), volume (openBall s.center ρ) = ENNReal.ofReal (Real.pi * max 0 ρ ^ 2) := fun ρ => by
    rw [volume_openBall, EuclideanSpace.volume_ball_fin_two, ENNReal.ofReal_mul Real.pi_pos.le, mul_comm,
      ENNReal.ofReal_pow (le_max_left _ _)]
    congr 2
    rcases le_total ρ 0 with h | h
    · rw [max_eq_left h, ENNReal.ofReal_of_nonpos h, ENNReal.ofReal_zero]
    · rw [max_eq_right h]
  rw [hv] at h1 h2 h4
  have hpos : ∀ ρ : ℝ, 0 ≤ Real.pi * max 0 ρ ^ 2 := fun ρ => mul_nonneg Real.pi_pos.le (sq_nonneg _)
  rw [ENNReal.ofReal_le_ofReal_iff (hpos _), max_eq_right (abs_nonneg _), sq_abs] at h2
  rw [ENNReal.ofReal_le_ofReal_iff (hpos _), max_eq_right hd] at h4
  refine ⟨r, hr, ?_, h2, h3, h4⟩
  by_contra hlt
  push Not at hlt
  exact absurd h1 (not_le.2 ((ENNReal.ofReal_lt_ofReal_iff_of_nonneg h0).2 hlt))

/-- **C105 (missed objects).** If no node of the grid is in the disc or ball, all the leaves are `Outside`, whatever the number of levels. -/
theorem C105_missed (h : Is23 D) (g : Grid D ℝ) (hg : Proper g) (hf : Fits g.n) (hs : ∀ a, (g.n a : ℤ) < 2 ^ 31)
    (s : RoundSurface D ℝ) (hout : ∀ c, 0 ≤ c → c < g.numberOfCells → ∀ n ∈ elementNodes g c, |s.radius| < distance (g.node n) s.center)
    (levels : ℕ) (threshold : ℝ) (types : ℤ → CellType) :
    ∃ r, createGridIso g s.isoValue levels threshold types = .ok r ∧ ∀ i, 0 ≤ i → i < g.numberOfCells →
      r.types i = .outside ∧ r.cells i = .leaf ⟨.outside, 1⟩ := by
  obtain ⟨r, hr, -, -, hc⟩ := C102_iso h g hg hf hs s.isoValue
    (fun c h0 h1 n hn h => (hout c h0 h1 n hn).ne' ((isoValue_zero s _).1 h)) levels threshold types
  refine ⟨r, hr, fun i h0 h1 => ?_⟩
  obtain ⟨ht, hl, -⟩ := hc i h0 h1
  have ho : isoCellType ((gridBox g i).nodes.map s.isoValue) = .outside := by
    rw [gridBox_nodes h g hf s.isoValue i h0 h1]
    have hall : ∀ v ∈ (elementNodes g i).map fun n => s.isoValue (g.node n), 0 < v := fun v hv => by
      obtain ⟨n, hn, rfl⟩ := List.mem_map.1 hv
      exact (isoValue_pos s _).2 (hout i h0 h1 n hn)
    have hne : (elementNodes g i).map (fun n => s.isoValue (g.node n)) ≠ [] := by
      rcases h with rfl | rfl <;> simp [elementNodes]
    exact (isoCellType_outside hne).2 hall
  rw [ho] at ht
  exact ⟨ht, by rw [hl (by rw [ht]; simp), ht]⟩

theorem node_distance (h : Is23 D) (g : Grid D ℝ) (hg : Proper g) (hf : Fits g.n) (c : ℤ) (h0 : 0 ≤ c) (h1 : c < g.numberOfCells) (n : ℤ)
    (hn : n ∈ elementNodes g c) (z : Fin D → ℝ) : ∃ k : Fin D → ℤ, distance (g.node n) z = distance (fun a => g.anchor a + k a * g.H a) z := by
  have hm : distance (g.node n) z ∈ (gridBox g c).nodes.map fun y => distance y z := by
    rw [gridBox_nodes h g hf (fun y => distance y z) c h0 h1]
    exact List.mem_map.2 ⟨n, hn, rfl⟩
  obtain ⟨y, hy, e⟩ := List.mem_map.1 hm
  have hk : ∀ a, ∃ k : ℤ, y a = g.anchor a + k * g.H a := fun a => by
    rcases (mem_nodes h _ y).1 hy a with hl | hl
    · refine ⟨g.cellCoordinatesAt c a, ?_⟩
      rw [hl]
      simp only [lower, gridBox, Grid.cellCenter]
      ring
    · refine ⟨g.cellCoordinatesAt c a + 1, ?_⟩
      rw [hl]
      simp only [upper, gridBox, Grid.cellCenter]
      push_cast
      ring
  choose k hk using hk
  refine ⟨k, ?_⟩
  rw [← e]
  exact congrArg (distance · z) (funext hk)

theorem coordinate_le (x y : Fin D → ℝ) (a : Fin D) : |x a - y a| ≤ distance x y := by
  rw [← Real.sqrt_sq_eq_abs]
  exact Real.sqrt_le_sqrt (Finset.single_le_sum (f := fun a => (x a - y a) ^ 2) (fun b _ => sq_nonneg _) (Finset.mem_univ a))

/-- **C105 violated (missed discs).** In every grid there is a disc or ball with a positive radius, in the grid as a whole, which is lost: at
every number of levels all the cells are `Outside` and the volume of the ratios is zero. -/
theorem C105_missed_violated (h : Is23 D) (g : Grid D ℝ) (hg : Proper g) (hf : Fits g.n) (hs : ∀ a, (g.n a : ℤ) < 2 ^ 31) :
    ∃ s : RoundSurface D ℝ, 0 < s.radius ∧ (∀ x, distance x s.center ≤ s.radius → InGrid g.anchor g.size x) ∧
      ∀ levels threshold types, ∃ r, createGridIso g s.isoValue levels threshold types = .ok r ∧
        (∀ c d, IsLeaf g r.cells c d → d.type = .outside) ∧ coveredVolume g r.cells = 0 := by
  have : Nonempty (Fin D) := by rcases h with rfl | rfl <;> exact ⟨0⟩
  obtain ⟨a0, ha0⟩ := Finite.exists_min g.H
  have hH := hg.H_pos
  refine ⟨⟨g.H a0 / 4, fun a => g.anchor a + g.H a / 2⟩, by have := hH a0; positivity, fun x hx a => ?_, fun levels threshold types => ?_⟩
  · have h1 := (coordinate_le x (fun a => g.anchor a + g.H a / 2) a).trans hx
    rw [abs_le] at h1
    have h2 := ha0 a
    have h3 := hH a
    have h4 : g.H a ≤ g.size a := by
      rw [hg.size_eq a]
      exact le_mul_of_one_le_left h3.le (by exact_mod_cast (hg a).1)
    simp only at h1
    constructor
    · linarith
    · show x a ≤ g.anchor a + g.size a
      linarith
  · obtain ⟨r, hr, hc⟩ := C105_missed h g hg hf hs ⟨g.H a0 / 4, fun a => g.anchor a + g.H a / 2⟩ (fun c h0 h1 n hn => by
      obtain ⟨k, hk⟩ := node_distance h g hg hf c h0 h1 n hn (fun a => g.anchor a + g.H a / 2)
      rw [hk]
      refine lt_of_lt_of_le ?_ (coordinate_le _ _ a0)
      have h2 := hH a0
      rw [abs_of_nonneg (by positivity),
        show g.anchor a0 + (k a0 : ℝ) * g.H a0 - (g.anchor a0 + g.H a0 / 2) = ((k a0 : ℝ) - 1 / 2) * g.H a0 by ring, abs_mul,
        abs_of_pos h2]
      have h3 : (1 / 2 : ℝ) ≤ |(k a0 : ℝ) - 1 / 2| := by
        rcases le_or_gt (k a0) 0 with hk | hk
        · have : ((k a0 : ℤ) : ℝ) ≤ 0 := by exact_mod_cast hk
          rw [abs_of_nonpos (by linarith)]
          linarith
        · have : (1 : ℝ) ≤ ((k a0 : ℤ) : ℝ) := by exact_mod_cast hk
          rw [abs_of_nonneg (by linarith)]
          linarith
      nlinarith) levels threshold types
    refine ⟨r, hr, fun c d hl => ?_, ?_⟩
    · obtain ⟨h0, h1, hl⟩ := hl
      rw [(hc c.top h0 (by rw [C24_count g hf]; exact h1)).2] at hl
      rw [(leafAt_leaf.1 hl).2]
    · refine Finset.sum_eq_zero fun i hi => ?_
      rw [Finset.mem_range] at hi
      rw [(hc i (by omega) (by omega)).2]
      simp [covered, CellTree.leafCells, CellTree.leafQueue, CellTree.count]

/-! Examples -/

/-- A circle of radius `1` in a grid of side `3` with four cells and no node on the circle. -/
noncomputable def exampleRoundGrid : Grid 2 ℝ := ⟨![-3/2, -3/2], ![2, 2], ![3, 3]⟩

theorem exampleRound_nodes (c : ℤ) (h0 : 0 ≤ c) (h1 : c < exampleRoundGrid.numberOfCells) (n : ℤ)
    (hn : n ∈ elementNodes exampleRoundGrid c) : distance (exampleRoundGrid.node n) (0 : Fin 2 → ℝ) ≠ |1| := by
  have hg : Proper exampleRoundGrid := by intro a; fin_cases a <;> norm_num [exampleRoundGrid]
  have hf : Fits exampleRoundGrid.n := by unfold Fits exampleRoundGrid; decide
  obtain ⟨k, hk⟩ := node_distance (.inl rfl) exampleRoundGrid hg hf c h0 h1 n hn 0
  rw [hk]
  intro e
  have e2 := congrArg (· ^ 2) e
  simp only [distance, sq_abs] at e2
  rw [Real.sq_sqrt (Finset.sum_nonneg fun a _ => sq_nonneg _), Fin.sum_univ_two] at e2
  norm_num [exampleRoundGrid, Grid.H] at e2
  have e3 : 9 * ((k 0 - 1) ^ 2 + (k 1 - 1) ^ 2) = 4 := by
    have : (9 * (((k 0 : ℝ) - 1) ^ 2 + ((k 1 : ℝ) - 1) ^ 2)) = 4 := by nlinarith
    exact_mod_cast this
  omega

/-- Hypotheses of `C105_leaves_partial`, `C105_volume` and `C105_area`. -/
example (levels : ℕ) : ∃ r, createGridIso exampleRoundGrid (⟨1, 0⟩ : RoundSurface 2 ℝ).isoValue levels 0 (fun _ => .undef) = .ok r ∧
    coveredVolume exampleRoundGrid r.cells ≤ Real.pi * (|1| + diagonal exampleRoundGrid.H / 2 ^ levels) ^ 2 := by
  have hg : Proper exampleRoundGrid := by intro a; fin_cases a <;> norm_num [exampleRoundGrid]
  have hf : Fits exampleRoundGrid.n := by unfold Fits exampleRoundGrid; decide
  obtain ⟨r, hr, -, -, -, h⟩ := C105_area exampleRoundGrid hg hf (by unfold exampleRoundGrid; decide) ⟨1, 0⟩ exampleRound_nodes (fun x hx a => by
    have h1 := (coordinate_le x 0 a).trans_lt hx
    rw [abs_one, abs_lt] at h1
    have h2 := h1.1
    have h3 := h1.2
    fin_cases a <;> norm_num [exampleRoundGrid] at * <;> constructor <;> linarith) levels 0 (fun _ => .undef)
  exact ⟨r, hr, h⟩

/-- The three signs of a circle of radius `-2` around `(1, 0)`. -/
example : (⟨-2, ![1, 0]⟩ : RoundSurface 2 ℝ).isoValue ![2, 0] < 0 ∧ (⟨-2, ![1, 0]⟩ : RoundSurface 2 ℝ).isoValue ![1, 2] = 0 ∧
    0 < (⟨-2, ![1, 0]⟩ : RoundSurface 2 ℝ).isoValue ![4, 0] := by
  norm_num [RoundSurface.isoValue, dotProduct, Fin.sum_univ_two]

/-- A point of the default cylinder between its ends, and one beyond them. -/
example : |(![0, 0, 2] : Fin 3 → ℝ) 2 - (⟨1, 5, 0⟩ : CylinderSurface ℝ).center 2| < (⟨1, 5, 0⟩ : CylinderSurface ℝ).length / 2 ∧
    (⟨1, 5, 0⟩ : CylinderSurface ℝ).radius ≠ 0 := by
  simp only [Matrix.cons_val, Pi.zero_apply]
  norm_num [abs_of_pos]

/-- The unit grid in three dimensions, for `C105_missed_violated`. -/
example : Proper (⟨0, ![2, 2, 2], ![1, 1, 1]⟩ : Grid 3 ℝ) ∧ Fits (⟨0, ![2, 2, 2], ![1, 1, 1]⟩ : Grid 3 ℝ).n := by
  refine ⟨fun a => ?_, by unfold Fits; decide⟩
  fin_cases a <;> norm_num

end Caribou
