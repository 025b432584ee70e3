import Verif.Lemmas.GridLocate

/-! Points in cells, and the cells enclosing several points. -/

set_option autoImplicit false
set_option linter.all false

namespace Caribou

open Spec

variable {d : ℕ} {K : Type*} [Field K] [LinearOrder K] [IsStrictOrderedRing K] [FloorRing K]

/-- A grid with at least one cell per axis and positive size. -/
def Proper (g : Grid d K) : Prop := ∀ a, 0 < g.n a ∧ 0 < g.size a

theorem Proper.H_pos {g : Grid d K} (hg : Proper g) (a : Fin d) : 0 < g.H a :=
  div_pos (hg a).2 (by exact_mod_cast (hg a).1)

theorem Proper.size_eq {g : Grid d K} (hg : Proper g) (a : Fin d) : g.size a = g.n a * g.H a := by
  have : (g.n a : K) ≠ 0 := by exact_mod_cast (hg a).1.ne'
  rw [Grid.H]; field_simp

theorem point_eq {g : Grid d K} (hg : Proper g) (p : Fin d → K) (a : Fin d) : p a = g.anchor a + g.absolute p a * g.H a := by
  rw [Grid.absolute, div_mul_cancel₀ _ (hg.H_pos a).ne']; ring

theorem near_iff {g : Grid d K} (hg : Proper g) (p : Fin d → K) (c : Fin d → ℤ) :
    (∀ a, near (g.absolute p a) (c a)) ↔ InCellOpen g.anchor g.H (gridEps K) c p := by
  unfold near InCellOpen
  refine forall_congr' fun a => ?_
  have hH := hg.H_pos a
  rw [point_eq hg p a]
  constructor
  · rintro ⟨h1, h2⟩
    exact ⟨by linarith [mul_lt_mul_of_pos_right h1 hH], by linarith [mul_lt_mul_of_pos_right h2 hH]⟩
  · rintro ⟨h1, h2⟩
    exact ⟨lt_of_mul_lt_mul_right (by linarith) hH.le, lt_of_mul_lt_mul_right (by linarith) hH.le⟩

theorem inCell_iff {g : Grid d K} (hg : Proper g) (p : Fin d → K) (c : Fin d → ℤ) :
    InCell g.anchor g.H c p ↔ ∀ a, (c a : K) ≤ g.absolute p a ∧ g.absolute p a ≤ (c a : K) + 1 := by
  unfold InCell InClosedBox gridPoint
  refine forall_congr' fun a => ?_
  have hH := hg.H_pos a
  rw [point_eq hg p a]
  constructor
  · rintro ⟨h1, h2⟩
    exact ⟨le_of_mul_le_mul_right (by linarith) hH, le_of_mul_le_mul_right (by linarith) hH⟩
  · rintro ⟨h1, h2⟩
    exact ⟨by linarith [mul_le_mul_of_nonneg_right h1 hH.le], by linarith [mul_le_mul_of_nonneg_right h2 hH.le]⟩

theorem inGrid_iff {g : Grid d K} (hg : Proper g) (p : Fin d → K) :
    InGrid g.anchor g.size p ↔ ∀ a, 0 ≤ g.absolute p a ∧ g.absolute p a ≤ g.n a := by
  unfold InGrid InClosedBox
  refine forall_congr' fun a => ?_
  have hH := hg.H_pos a
  rw [Pi.add_apply, hg.size_eq a, point_eq hg p a]
  constructor
  · rintro ⟨h1, h2⟩
    exact ⟨le_of_mul_le_mul_right (by linarith) hH, le_of_mul_le_mul_right (by linarith) hH⟩
  · rintro ⟨h1, h2⟩
    exact ⟨by linarith [mul_nonneg h1 hH.le], by linarith [mul_le_mul_of_nonneg_right h2 hH.le]⟩

theorem inside_of_inGrid {g : Grid d K} (hg : Proper g) {p : Fin d → K} (hp : InGrid g.anchor g.size p) : Inside g p := by
  rw [inGrid_iff hg] at hp
  have := gridEps_pos (K := K)
  exact fun a => ⟨by linarith [(hp a).1], by linarith [(hp a).2]⟩

theorem near_of_inCell {x : K} {i : ℤ} (h : (i : K) ≤ x ∧ x ≤ (i : K) + 1) : near x i := by
  have := gridEps_pos (K := K)
  exact ⟨by linarith [h.1], by linarith [h.2]⟩

/-- The coordinates returned with `test_for_boundary`, along one axis. -/
theorem located_axis {g : Grid d K} (hg : Proper g) (p : Fin d → K) (a : Fin d)
    (h0 : 0 ≤ g.absolute p a) (h1 : g.absolute p a ≤ g.n a) :
    let i := g.cellCoordinatesOfPoint p true a
    (0 ≤ i ∧ i < g.n a) ∧ (i : K) ≤ g.absolute p a ∧ g.absolute p a ≤ (i : K) + 1 := by
  intro i
  have hH := hg.H_pos a
  have hn : (1 : K) ≤ g.n a := by exact_mod_cast (hg a).1
  set x := g.absolute p a with hx
  have hp := point_eq hg p a
  rw [← hx] at hp
  by_cases hc : inClosedInterval (-(g.H a / 1000000)) (p a - (g.anchor a + (g.n a : K) * g.H a)) (g.H a / 1000000) = true
  · have hi : i = truncate ((p a - g.H a / 10 - g.anchor a) / g.H a) := by
      change g.cellCoordinatesOfPoint p true a = _
      simp only [Grid.cellCoordinatesOfPoint, hc, Bool.and_self, if_true]
    have e : (p a - g.H a / 10 - g.anchor a) / g.H a = x - 1 / 10 := by
      rw [hp]; field_simp; ring
    rw [inClosedInterval_iff (by linarith [div_pos hH (show (0 : K) < 1000000 by norm_num)])] at hc
    have hlow : (g.n a : K) - 1 / 1000000 ≤ x := by
      have : -(g.H a / 1000000) ≤ (x - g.n a) * g.H a := by
        have := hc.1; rw [hp] at this; linarith
      by_contra hcon
      rw [not_le] at hcon
      have := mul_lt_mul_of_pos_right (show x - g.n a < -(1 / 1000000) by linarith) hH
      linarith
    have hpos : 0 ≤ x - 1 / 10 := by linarith
    rw [e, truncate, if_pos hpos] at hi
    have hfl : i = (g.n a : ℤ) - 1 := by
      rw [hi, Int.floor_eq_iff]
      push_cast
      constructor <;> linarith
    have := (hg a).1
    refine ⟨by omega, ?_, ?_⟩ <;> rw [hfl] <;> push_cast <;> linarith
  · have hi : i = truncate ((p a - g.anchor a) / g.H a) := by
      change g.cellCoordinatesOfPoint p true a = _
      simp only [Grid.cellCoordinatesOfPoint, hc, Bool.and_false, if_false, Bool.false_eq_true]
    have e : (p a - g.anchor a) / g.H a = x := rfl
    rw [e, truncate, if_pos h0] at hi
    have hne : x ≠ g.n a := by
      intro h
      apply hc
      rw [inClosedInterval_iff (by linarith [div_pos hH (show (0 : K) < 1000000 by norm_num)]), hp, h]
      have := div_pos hH (show (0 : K) < 1000000 by norm_num)
      constructor <;> linarith
    have hlt : x < g.n a := lt_of_le_of_ne h1 hne
    have f1 := Int.floor_le x
    have f2 := Int.lt_floor_add_one x
    refine ⟨⟨by rw [hi]; exact Int.floor_nonneg.mpr h0, ?_⟩, by rw [hi]; exact f1, by rw [hi]; exact f2.le⟩
    rw [hi, Int.floor_lt]
    exact_mod_cast hlt

/-- Without the test, for points below the upper faces. -/
theorem located_axis_open {g : Grid d K} (hg : Proper g) (p : Fin d → K) (a : Fin d)
    (h0 : 0 ≤ g.absolute p a) (h1 : g.absolute p a < g.n a) :
    let i := g.cellCoordinatesOfPoint p false a
    (0 ≤ i ∧ i < g.n a) ∧ (i : K) ≤ g.absolute p a ∧ g.absolute p a < (i : K) + 1 := by
  intro i
  have hi : i = truncate (g.absolute p a) := by
    change g.cellCoordinatesOfPoint p false a = _
    simp only [Grid.cellCoordinatesOfPoint, Bool.false_and, if_false, Bool.false_eq_true]
    rfl
  rw [truncate, if_pos h0] at hi
  have f1 := Int.floor_le (g.absolute p a)
  have f2 := Int.lt_floor_add_one (g.absolute p a)
  refine ⟨⟨by rw [hi]; exact Int.floor_nonneg.mpr h0, ?_⟩, by rw [hi]; exact f1, by rw [hi]; exact f2⟩
  rw [hi, Int.floor_lt]
  exact_mod_cast h1

/-! ### Bounding box of cells -/

theorem minBetween_spec (g : Grid d K) (a : Fin d) (cells : List ℤ)
    (hv : ∀ m ∈ cells, 0 ≤ g.cellCoordinatesAt m a ∧ g.cellCoordinatesAt m a ≤ (g.n a : ℤ) - 1) :
    ∀ m0 : Fin d → ℤ, 0 ≤ m0 a ∧ m0 a ≤ (g.n a : ℤ) - 1 →
      (0 ≤ g.minBetween cells m0 a ∧ g.minBetween cells m0 a ≤ (g.n a : ℤ) - 1) ∧
      g.minBetween cells m0 a ≤ m0 a ∧ (∀ m ∈ cells, g.minBetween cells m0 a ≤ g.cellCoordinatesAt m a) ∧
      (g.minBetween cells m0 a = m0 a ∨ ∃ m ∈ cells, g.minBetween cells m0 a = g.cellCoordinatesAt m a) := by
  induction cells with
  | nil => intro m0 h; exact ⟨h, le_refl _, by simp, Or.inl rfl⟩
  | cons x xs ih =>
    intro m0 h
    have hx := hv x (by simp)
    set m1 : Fin d → ℤ := fun a => min (max (min (g.cellCoordinatesAt x a) (m0 a)) 0) ((g.n a : ℤ) - 1) with hm1
    have e : g.minBetween (x :: xs) m0 = g.minBetween xs m1 := rfl
    have h1 : m1 a = min (g.cellCoordinatesAt x a) (m0 a) := by
      simp only [hm1]; omega
    obtain ⟨i1, i2, i3, i4⟩ := ih (fun m hm => hv m (by simp [hm])) m1 (by rw [h1]; omega)
    rw [e]
    refine ⟨i1, by omega, ?_, ?_⟩
    · intro m hm
      rcases List.mem_cons.mp hm with rfl | hm
      · omega
      · exact i3 m hm
    · rcases i4 with h4 | ⟨m, hm, h4⟩
      · by_cases hle : g.cellCoordinatesAt x a ≤ m0 a
        · exact Or.inr ⟨x, by simp, by omega⟩
        · exact Or.inl (by omega)
      · exact Or.inr ⟨m, by simp [hm], h4⟩

theorem maxBetween_spec (g : Grid d K) (a : Fin d) (cells : List ℤ)
    (hv : ∀ m ∈ cells, 0 ≤ g.cellCoordinatesAt m a ∧ g.cellCoordinatesAt m a ≤ (g.n a : ℤ) - 1) :
    ∀ m0 : Fin d → ℤ, 0 ≤ m0 a ∧ m0 a ≤ (g.n a : ℤ) - 1 →
      (0 ≤ g.maxBetween cells m0 a ∧ g.maxBetween cells m0 a ≤ (g.n a : ℤ) - 1) ∧
      m0 a ≤ g.maxBetween cells m0 a ∧ (∀ m ∈ cells, g.cellCoordinatesAt m a ≤ g.maxBetween cells m0 a) ∧
      (g.maxBetween cells m0 a = m0 a ∨ ∃ m ∈ cells, g.maxBetween cells m0 a = g.cellCoordinatesAt m a) := by
  induction cells with
  | nil => intro m0 h; exact ⟨h, le_refl _, by simp, Or.inl rfl⟩
  | cons x xs ih =>
    intro m0 h
    have hx := hv x (by simp)
    set m1 : Fin d → ℤ := fun a => min (max (max (g.cellCoordinatesAt x a) (m0 a)) 0) ((g.n a : ℤ) - 1) with hm1
    have e : g.maxBetween (x :: xs) m0 = g.maxBetween xs m1 := rfl
    have h1 : m1 a = max (g.cellCoordinatesAt x a) (m0 a) := by
      simp only [hm1]; omega
    obtain ⟨i1, i2, i3, i4⟩ := ih (fun m hm => hv m (by simp [hm])) m1 (by rw [h1]; omega)
    rw [e]
    refine ⟨i1, by omega, ?_, ?_⟩
    · intro m hm
      rcases List.mem_cons.mp hm with rfl | hm
      · omega
      · exact i3 m hm
    · rcases i4 with h4 | ⟨m, hm, h4⟩
      · by_cases hle : m0 a ≤ g.cellCoordinatesAt x a
        · exact Or.inr ⟨x, by simp, by omega⟩
        · exact Or.inl (by omega)
      · exact Or.inr ⟨m, by simp [hm], h4⟩

theorem foldl_min_spec (g : Grid d K) (a : Fin d) (ps : List (Fin d → K))
    (hv : ∀ p ∈ ps, ∀ m ∈ g.cellsAround p, 0 ≤ g.cellCoordinatesAt m a ∧ g.cellCoordinatesAt m a ≤ (g.n a : ℤ) - 1) :
    ∀ m0 : Fin d → ℤ, 0 ≤ m0 a ∧ m0 a ≤ (g.n a : ℤ) - 1 →
      (0 ≤ ps.foldl (fun l p => g.minBetween (g.cellsAround p) l) m0 a ∧
        ps.foldl (fun l p => g.minBetween (g.cellsAround p) l) m0 a ≤ (g.n a : ℤ) - 1) ∧
      ps.foldl (fun l p => g.minBetween (g.cellsAround p) l) m0 a ≤ m0 a ∧
      (∀ p ∈ ps, ∀ m ∈ g.cellsAround p,
        ps.foldl (fun l p => g.minBetween (g.cellsAround p) l) m0 a ≤ g.cellCoordinatesAt m a) ∧
      (ps.foldl (fun l p => g.minBetween (g.cellsAround p) l) m0 a = m0 a ∨ ∃ p ∈ ps, ∃ m ∈ g.cellsAround p,
        ps.foldl (fun l p => g.minBetween (g.cellsAround p) l) m0 a = g.cellCoordinatesAt m a) := by
  induction ps with
  | nil => intro m0 h; exact ⟨h, le_refl _, by simp, Or.inl rfl⟩
  | cons x xs ih =>
    intro m0 h
    obtain ⟨j1, j2, j3, j4⟩ := minBetween_spec g a (g.cellsAround x) (hv x (by simp)) m0 h
    obtain ⟨i1, i2, i3, i4⟩ := ih (fun p hp => hv p (by simp [hp])) (g.minBetween (g.cellsAround x) m0) j1
    rw [List.foldl_cons]
    refine ⟨i1, by omega, ?_, ?_⟩
    · intro p hp m hm
      rcases List.mem_cons.mp hp with rfl | hp
      · have := j3 m hm; omega
      · exact i3 p hp m hm
    · rcases i4 with h4 | ⟨p, hp, m, hm, h4⟩
      · rcases j4 with h5 | ⟨m, hm, h5⟩
        · exact Or.inl (by omega)
        · exact Or.inr ⟨x, by simp, m, hm, by omega⟩
      · exact Or.inr ⟨p, by simp [hp], m, hm, h4⟩

theorem foldl_max_spec (g : Grid d K) (a : Fin d) (ps : List (Fin d → K))
    (hv : ∀ p ∈ ps, ∀ m ∈ g.cellsAround p, 0 ≤ g.cellCoordinatesAt m a ∧ g.cellCoordinatesAt m a ≤ (g.n a : ℤ) - 1) :
    ∀ m0 : Fin d → ℤ, 0 ≤ m0 a ∧ m0 a ≤ (g.n a : ℤ) - 1 →
      (0 ≤ ps.foldl (fun l p => g.maxBetween (g.cellsAround p) l) m0 a ∧
        ps.foldl (fun l p => g.maxBetween (g.cellsAround p) l) m0 a ≤ (g.n a : ℤ) - 1) ∧
      m0 a ≤ ps.foldl (fun l p => g.maxBetween (g.cellsAround p) l) m0 a ∧
      (∀ p ∈ ps, ∀ m ∈ g.cellsAround p,
        g.cellCoordinatesAt m a ≤ ps.foldl (fun l p => g.maxBetween (g.cellsAround p) l) m0 a) ∧
      (ps.foldl (fun l p => g.maxBetween (g.cellsAround p) l) m0 a = m0 a ∨ ∃ p ∈ ps, ∃ m ∈ g.cellsAround p,
        ps.foldl (fun l p => g.maxBetween (g.cellsAround p) l) m0 a = g.cellCoordinatesAt m a) := by
  induction ps with
  | nil => intro m0 h; exact ⟨h, le_refl _, by simp, Or.inl rfl⟩
  | cons x xs ih =>
    intro m0 h
    obtain ⟨j1, j2, j3, j4⟩ := maxBetween_spec g a (g.cellsAround x) (hv x (by simp)) m0 h
    obtain ⟨i1, i2, i3, i4⟩ := ih (fun p hp => hv p (by simp [hp])) (g.maxBetween (g.cellsAround x) m0) j1
    rw [List.foldl_cons]
    refine ⟨i1, by omega, ?_, ?_⟩
    · intro p hp m hm
      rcases List.mem_cons.mp hp with rfl | hp
      · have := j3 m hm; omega
      · exact i3 p hp m hm
    · rcases i4 with h4 | ⟨p, hp, m, hm, h4⟩
      · rcases j4 with h5 | ⟨m, hm, h5⟩
        · exact Or.inl (by omega)
        · exact Or.inr ⟨x, by simp, m, hm, by omega⟩
      · exact Or.inr ⟨p, by simp [hp], m, hm, h4⟩

theorem mem_interval (lo hi i : ℤ) : i ∈ Grid.interval lo hi ↔ lo ≤ i ∧ i ≤ hi := by
  simp only [Grid.interval, List.mem_map, List.mem_range]
  constructor
  · rintro ⟨k, hk, rfl⟩; omega
  · rintro ⟨h1, h2⟩
    exact ⟨(i - lo).toNat, by omega, by omega⟩

theorem interval_nodup (lo hi : ℤ) : (Grid.interval lo hi).Nodup :=
  List.Nodup.map (fun x y h => by simpa using h) List.nodup_range

theorem mem_boxCells (hd : IsDim d) (g : Grid d K) (lo hi : Fin d → ℤ) (m : ℤ) :
    m ∈ g.boxCells lo hi ↔ ∃ c : Fin d → ℤ, (∀ a, lo a ≤ c a ∧ c a ≤ hi a) ∧ m = g.cellIndexAt c := by
  rcases hd with rfl | rfl | rfl
  · simp only [Grid.boxCells, List.mem_map, mem_interval]
    constructor
    · rintro ⟨i, hi, rfl⟩
      exact ⟨![i], fun a => by fin_cases a; exact hi, rfl⟩
    · rintro ⟨c, hc, rfl⟩
      exact ⟨c 0, hc 0, rfl⟩
  · simp only [Grid.boxCells, List.mem_map, List.mem_flatMap, mem_interval]
    constructor
    · rintro ⟨j, hj, i, hi, rfl⟩
      refine ⟨![i, j], fun a => ?_, rfl⟩
      fin_cases a
      · exact hi
      · exact hj
    · rintro ⟨c, hc, rfl⟩
      exact ⟨c 1, hc 1, c 0, hc 0, rfl⟩
  · simp only [Grid.boxCells, List.mem_map, List.mem_flatMap, mem_interval]
    constructor
    · rintro ⟨k, hk, j, hj, i, hi, rfl⟩
      refine ⟨![i, j, k], fun a => ?_, rfl⟩
      fin_cases a
      · exact hi
      · exact hj
      · exact hk
    · rintro ⟨c, hc, rfl⟩
      exact ⟨c 2, hc 2, c 1, hc 1, c 0, hc 0, rfl⟩

theorem boxCells_nodup (hd : IsDim d) (g : Grid d K) (hf : Fits g.n) (lo hi : Fin d → ℤ) (hlo : ∀ a, 0 ≤ lo a)
    (hhi : ∀ a, hi a ≤ (g.n a : ℤ) - 1) : (g.boxCells lo hi).Nodup := by
  have hv : ∀ a, ∀ i ∈ Grid.interval (lo a) (hi a), 0 ≤ i ∧ i < g.n a := fun a i h => by
    rw [mem_interval] at h
    have := hlo a
    have := hhi a
    omega
  rcases hd with rfl | rfl | rfl
  · simp only [Grid.boxCells]
    refine List.Nodup.map_on ?_ (interval_nodup _ _)
    intro x _ y _ h
    exact h
  · simp only [Grid.boxCells]
    have hc : ∀ i ∈ Grid.interval (lo 0) (hi 0), ∀ j ∈ Grid.interval (lo 1) (hi 1), IsCell g.n ![i, j] := fun i hi j hj a => by
      fin_cases a
      · exact hv 0 i hi
      · exact hv 1 j hj
    have hinj : ∀ i ∈ Grid.interval (lo 0) (hi 0), ∀ j ∈ Grid.interval (lo 1) (hi 1), ∀ i' ∈ Grid.interval (lo 0) (hi 0),
        ∀ j' ∈ Grid.interval (lo 1) (hi 1), g.cellIndexAt ![i, j] = g.cellIndexAt ![i', j'] → i = i' ∧ j = j' :=
      fun i hi j hj i' hi' j' hj' h => by
        have := cellIndexAt_inj (Or.inr (Or.inl rfl)) g hf (hc i hi j hj) (hc i' hi' j' hj') h
        exact ⟨congrFun this 0, congrFun this 1⟩
    refine nodup_of_loops (interval_nodup _ _) ?_ ?_
    · intro j hj
      exact List.Nodup.map_on (fun x hx y hy h => (hinj x hx j hj y hy j hj h).1) (interval_nodup _ _)
    · intro j hj j' hj' hne x hx hx'
      rw [List.mem_map] at hx hx'
      obtain ⟨i, hi, rfl⟩ := hx
      obtain ⟨i', hi', e⟩ := hx'
      exact hne (hinj i' hi' j' hj' i hi j hj e).2.symm
  · simp only [Grid.boxCells]
    have hc : ∀ i ∈ Grid.interval (lo 0) (hi 0), ∀ j ∈ Grid.interval (lo 1) (hi 1), ∀ k ∈ Grid.interval (lo 2) (hi 2),
        IsCell g.n ![i, j, k] := fun i hi j hj k hk a => by
      fin_cases a
      · exact hv 0 i hi
      · exact hv 1 j hj
      · exact hv 2 k hk
    have hinj : ∀ i ∈ Grid.interval (lo 0) (hi 0), ∀ j ∈ Grid.interval (lo 1) (hi 1), ∀ k ∈ Grid.interval (lo 2) (hi 2),
        ∀ i' ∈ Grid.interval (lo 0) (hi 0), ∀ j' ∈ Grid.interval (lo 1) (hi 1), ∀ k' ∈ Grid.interval (lo 2) (hi 2),
        g.cellIndexAt ![i, j, k] = g.cellIndexAt ![i', j', k'] → i = i' ∧ j = j' ∧ k = k' :=
      fun i hi j hj k hk i' hi' j' hj' k' hk' h => by
        have := cellIndexAt_inj (Or.inr (Or.inr rfl)) g hf (hc i hi j hj k hk) (hc i' hi' j' hj' k' hk') h
        exact ⟨congrFun this 0, congrFun this 1, congrFun this 2⟩
    refine nodup_of_loops (interval_nodup _ _) ?_ ?_
    · intro k hk
      refine nodup_of_loops (interval_nodup _ _) ?_ ?_
      · intro j hj
        exact List.Nodup.map_on (fun x hx y hy h => (hinj x hx j hj k hk y hy j hj k hk h).1) (interval_nodup _ _)
      · intro j hj j' hj' hne x hx hx'
        rw [List.mem_map] at hx hx'
        obtain ⟨i, hi, rfl⟩ := hx
        obtain ⟨i', hi', e⟩ := hx'
        exact hne (hinj i' hi' j' hj' k hk i hi j hj k hk e).2.1.symm
    · intro k hk k' hk' hne x hx hx'
      rw [List.mem_flatMap] at hx hx'
      obtain ⟨j, hj, hx⟩ := hx
      obtain ⟨j', hj', hx'⟩ := hx'
      rw [List.mem_map] at hx hx'
      obtain ⟨i, hi, rfl⟩ := hx
      obtain ⟨i', hi', e⟩ := hx'
      exact hne (hinj i' hi' j' hj' k' hk' i hi j hj k hk e).2.2.symm

end Caribou
