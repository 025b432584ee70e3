import Verif.Lemmas.Grid
import Verif.Props.Canonical
import Verif.Props.Grid
import Mathlib.Algebra.Order.Floor.Ring

/-! Locating points in grids. -/

set_option autoImplicit false
set_option linter.all false

namespace Caribou

open Spec

section Round

variable {K : Type*} [Field K] [LinearOrder K] [IsStrictOrderedRing K] [FloorRing K]

theorem roundAway_near (x : K) : |x - (roundAway x : K)| ≤ 1 / 2 := by
  rw [abs_le]
  unfold roundAway
  split_ifs with h
  · have h1 := Int.floor_le (x + 1 / 2)
    have h2 := Int.lt_floor_add_one (x + 1 / 2)
    constructor <;> linarith
  · have h1 := Int.le_ceil (x - 1 / 2)
    have h2 := Int.ceil_lt_add_one (x - 1 / 2)
    constructor <;> linarith

theorem floor_int_sub_half (r : ℤ) : ⌊(r : K) - 1 / 2⌋ = r - 1 := by
  rw [Int.floor_eq_iff]
  push_cast
  constructor <;> linarith

theorem floor_int_add_half (r : ℤ) : ⌊(r : K) + 1 / 2⌋ = r := by
  rw [Int.floor_eq_iff]
  constructor <;> linarith

theorem gridEps_pos : 0 < gridEps K := by unfold gridEps; positivity
theorem gridEps_lt : gridEps K < 1 / 2 := by
  unfold gridEps
  rw [div_lt_div_iff₀ (by positivity) (by norm_num)]
  norm_num

theorem int_lt_of_cast {a b : ℤ} {x : K} (h1 : (a : K) < x) (h2 : x ≤ (b : K)) : a < b := by
  exact_mod_cast lt_of_lt_of_le h1 h2

/-- The indices tested along one axis are those of the slightly enlarged cells that contain the coordinate. -/
theorem close_indices {x : K} {r : ℤ} (h : |x - (r : K)| < gridEps K) (i : ℤ) :
    ((i : K) - gridEps K < x ∧ x < (i : K) + 1 + gridEps K) ↔ (i = r - 1 ∨ i = r) := by
  have e1 := gridEps_lt (K := K)
  have e0 := gridEps_pos (K := K)
  obtain ⟨h1, h2⟩ := abs_lt.mp h
  constructor
  · rintro ⟨h3, h4⟩
    have a1 : i < r + 1 := by
      have : (i : K) < ((r + 1 : ℤ) : K) := by push_cast; linarith
      exact_mod_cast this
    have a2 : r - 2 < i := by
      have : ((r - 2 : ℤ) : K) < (i : K) := by push_cast; linarith
      exact_mod_cast this
    omega
  · rintro (rfl | rfl)
    · push_cast; constructor <;> linarith
    · constructor <;> linarith

theorem far_indices {x : K} (h : gridEps K ≤ |x - (roundAway x : K)|) (i : ℤ) :
    ((i : K) - gridEps K < x ∧ x < (i : K) + 1 + gridEps K) ↔ i = ⌊x⌋ := by
  have e0 := gridEps_pos (K := K)
  have f1 := Int.floor_le x
  have f2 := Int.lt_floor_add_one x
  -- the distance to every integer is at least eps
  have hd : ∀ j : ℤ, gridEps K ≤ |x - (j : K)| := by
    intro j
    by_contra hc
    rw [not_le] at hc
    have hj : roundAway x = j := by
      have hr := roundAway_near x
      have h1 := abs_lt.mp hc
      have h2 := abs_le.mp hr
      have e1 := gridEps_lt (K := K)
      have b1 : roundAway x < j + 1 := by
        have : ((roundAway x : ℤ) : K) < ((j + 1 : ℤ) : K) := by push_cast; linarith
        exact_mod_cast this
      have b2 : j - 1 < roundAway x := by
        have : ((j - 1 : ℤ) : K) < ((roundAway x : ℤ) : K) := by push_cast; linarith
        exact_mod_cast this
      omega
    rw [hj] at h
    linarith
  have d1 := hd ⌊x⌋
  have d2 := hd (⌊x⌋ + 1)
  rw [abs_of_nonneg (by linarith)] at d1
  rw [abs_of_nonpos (by push_cast; linarith)] at d2
  push_cast at d2
  constructor
  · rintro ⟨h3, h4⟩
    have a1 : i < ⌊x⌋ + 1 := by
      have : (i : K) < ((⌊x⌋ + 1 : ℤ) : K) := by push_cast; linarith
      exact_mod_cast this
    have a2 : ⌊x⌋ - 1 < i := by
      have : ((⌊x⌋ - 1 : ℤ) : K) < (i : K) := by push_cast; linarith
      exact_mod_cast this
    omega
  · rintro rfl
    constructor <;> linarith

end Round

section Around

variable {d : ℕ} {K : Type*} [Field K] [LinearOrder K] [IsStrictOrderedRing K] [FloorRing K]

theorem closeToAxis_iff (g : Grid d K) (p : Fin d → K) (a : Fin d) :
    g.closeToAxis p a = true ↔ |g.absolute p a - (roundAway (g.absolute p a) : K)| < gridEps K := by
  simp only [Grid.closeToAxis, decide_eq_true_eq]
  rw [← abs_lt_iff_mul_self_lt, abs_of_pos (gridEps_pos (K := K))]

/-- Is the coordinate `x` (in cells) in the enlarged range of the index `i`. -/
def near (x : K) (i : ℤ) : Prop := (i : K) - gridEps K < x ∧ x < (i : K) + 1 + gridEps K

/-- For a coordinate in the grid the listed indices are those of the cells of that range. -/
theorem mem_axisIndices (g : Grid d K) (p : Fin d → K) (a : Fin d)
    (h0 : -gridEps K < g.absolute p a) (h1 : g.absolute p a < g.n a + gridEps K) (i : ℤ) :
    i ∈ g.axisIndices p a ↔ (0 ≤ i ∧ i < g.n a) ∧ near (g.absolute p a) i := by
  have e1 := gridEps_lt (K := K)
  unfold near
  by_cases hc : g.closeToAxis p a = true
  · simp only [Grid.axisIndices, hc, if_true, floor_int_sub_half, floor_int_add_half]
    rw [closeToAxis_iff] at hc
    rw [close_indices hc]
    set r := roundAway (g.absolute p a)
    obtain ⟨c1, c2⟩ := abs_lt.mp hc
    have b1 : 0 ≤ r := by
      have : ((-1 : ℤ) : K) < (r : K) := by push_cast; linarith
      have : (-1 : ℤ) < r := by exact_mod_cast this
      omega
    have b2 : r ≤ g.n a := by
      have : (r : K) < ((g.n a + 1 : ℤ) : K) := by push_cast; linarith
      have : r < (g.n a : ℤ) + 1 := by exact_mod_cast this
      omega
    rw [List.mem_append]
    by_cases k1 : r - 1 ≥ 0 <;> by_cases k2 : r ≤ (g.n a : ℤ) - 1
    · rw [if_pos k1, if_pos k2, List.mem_singleton, List.mem_singleton]; omega
    · rw [if_pos k1, if_neg k2, List.mem_singleton]; simp only [List.not_mem_nil, or_false, false_or]; omega
    · rw [if_neg k1, if_pos k2, List.mem_singleton]; simp only [List.not_mem_nil, or_false, false_or]; omega
    · rw [if_neg k1, if_neg k2]; simp only [List.not_mem_nil, or_false, false_iff]; omega
  · have hc' := hc
    rw [closeToAxis_iff, not_lt] at hc'
    simp only [Grid.axisIndices, hc, if_false]
    rw [far_indices hc']
    by_cases k : 0 ≤ ⌊g.absolute p a⌋ ∧ ⌊g.absolute p a⌋ ≤ (g.n a : ℤ) - 1
    · simp only [k, and_self, if_true, List.mem_singleton, Bool.false_eq_true, if_false]
      constructor
      · rintro rfl; omega
      · exact fun h => h.2
    · simp only [k, if_false, List.not_mem_nil, false_iff, Bool.false_eq_true]
      rintro ⟨h, rfl⟩
      omega

theorem axisIndices_nodup (g : Grid d K) (p : Fin d → K) (a : Fin d) : (g.axisIndices p a).Nodup := by
  unfold Grid.axisIndices
  simp only [floor_int_sub_half, floor_int_add_half]
  split_ifs <;> simp

theorem mem_axisProduct (hd : IsDim d) (g : Grid d K) (l : Fin d → List ℤ) (m : ℤ) :
    m ∈ Grid.axisProduct g l ↔ ∃ c : Fin d → ℤ, (∀ a, c a ∈ l a) ∧ m = g.cellIndexAt c := by
  rcases hd with rfl | rfl | rfl
  · simp only [Grid.axisProduct, List.mem_map]
    constructor
    · rintro ⟨i, hi, rfl⟩
      exact ⟨![i], fun a => by fin_cases a; exact hi, rfl⟩
    · rintro ⟨c, hc, rfl⟩
      exact ⟨c 0, hc 0, rfl⟩
  · simp only [Grid.axisProduct, List.mem_map, List.mem_flatMap]
    constructor
    · rintro ⟨i, hi, j, hj, rfl⟩
      refine ⟨![i, j], fun a => ?_, rfl⟩
      fin_cases a
      · exact hi
      · exact hj
    · rintro ⟨c, hc, rfl⟩
      exact ⟨c 0, hc 0, c 1, hc 1, rfl⟩
  · simp only [Grid.axisProduct, List.mem_map, List.mem_flatMap]
    constructor
    · rintro ⟨i, hi, j, hj, k, hk, rfl⟩
      refine ⟨![i, j, k], fun a => ?_, rfl⟩
      fin_cases a
      · exact hi
      · exact hj
      · exact hk
    · rintro ⟨c, hc, rfl⟩
      exact ⟨c 0, hc 0, c 1, hc 1, c 2, hc 2, rfl⟩

theorem cellIndexAt_inj (hd : IsDim d) (g : Grid d K) (hf : Fits g.n) {c c' : Fin d → ℤ} (h : IsCell g.n c) (h' : IsCell g.n c')
    (e : g.cellIndexAt c = g.cellIndexAt c') : c = c' := by
  rw [← (C24_coordinates hd g hf c h).2.2, e, (C24_coordinates hd g hf c' h').2.2]

/-- Lists built by nested loops from distinct values give distinct cells. -/
theorem nodup_of_loops {α β : Type*} {l : List α} {f : α → List β} (hl : l.Nodup) (hf : ∀ a ∈ l, (f a).Nodup)
    (hd : ∀ a ∈ l, ∀ b ∈ l, a ≠ b → ∀ x ∈ f a, x ∉ f b) : (l.flatMap f).Nodup := by
  rw [List.nodup_flatMap]
  refine ⟨hf, ?_⟩
  refine List.Pairwise.imp_of_mem ?_ (List.nodup_iff_pairwise_ne.mp hl)
  intro a b ha hb hab
  exact fun x hx hx' => hd a ha b hb hab x hx hx'

theorem axisProduct_nodup (hd : IsDim d) (g : Grid d K) (hf : Fits g.n) (l : Fin d → List ℤ) (hn : ∀ a, (l a).Nodup)
    (hv : ∀ a, ∀ i ∈ l a, 0 ≤ i ∧ i < g.n a) : (Grid.axisProduct g l).Nodup := by
  rcases hd with rfl | rfl | rfl
  · simp only [Grid.axisProduct]
    refine List.Nodup.map_on ?_ (hn 0)
    intro x _ y _ h
    exact h
  · simp only [Grid.axisProduct]
    have hc : ∀ i ∈ l 0, ∀ j ∈ l 1, IsCell g.n ![i, j] := fun i hi j hj a => by
      fin_cases a
      · exact hv 0 i hi
      · exact hv 1 j hj
    have hinj : ∀ i ∈ l 0, ∀ j ∈ l 1, ∀ i' ∈ l 0, ∀ j' ∈ l 1, g.cellIndexAt ![i, j] = g.cellIndexAt ![i', j'] → i = i' ∧ j = j' :=
      fun i hi j hj i' hi' j' hj' h => by
        have := cellIndexAt_inj (Or.inr (Or.inl rfl)) g hf (hc i hi j hj) (hc i' hi' j' hj') h
        exact ⟨congrFun this 0, congrFun this 1⟩
    refine nodup_of_loops (hn 0) ?_ ?_
    · intro i hi
      exact List.Nodup.map_on (fun x hx y hy h => (hinj i hi x hx i hi y hy h).2) (hn 1)
    · intro i hi i' hi' hne x hx hx'
      rw [List.mem_map] at hx hx'
      obtain ⟨j, hj, rfl⟩ := hx
      obtain ⟨j', hj', e⟩ := hx'
      exact hne (hinj i' hi' j' hj' i hi j hj e).1.symm
  · simp only [Grid.axisProduct]
    have hc : ∀ i ∈ l 0, ∀ j ∈ l 1, ∀ k ∈ l 2, IsCell g.n ![i, j, k] := fun i hi j hj k hk a => by
      fin_cases a
      · exact hv 0 i hi
      · exact hv 1 j hj
      · exact hv 2 k hk
    have hinj : ∀ i ∈ l 0, ∀ j ∈ l 1, ∀ k ∈ l 2, ∀ i' ∈ l 0, ∀ j' ∈ l 1, ∀ k' ∈ l 2,
        g.cellIndexAt ![i, j, k] = g.cellIndexAt ![i', j', k'] → i = i' ∧ j = j' ∧ k = k' :=
      fun i hi j hj k hk i' hi' j' hj' k' hk' h => by
        have := cellIndexAt_inj (Or.inr (Or.inr rfl)) g hf (hc i hi j hj k hk) (hc i' hi' j' hj' k' hk') h
        exact ⟨congrFun this 0, congrFun this 1, congrFun this 2⟩
    refine nodup_of_loops (hn 0) ?_ ?_
    · intro i hi
      refine nodup_of_loops (hn 1) ?_ ?_
      · intro j hj
        exact List.Nodup.map_on (fun x hx y hy h => (hinj i hi j hj x hx i hi j hj y hy h).2.2) (hn 2)
      · intro j hj j' hj' hne x hx hx'
        rw [List.mem_map] at hx hx'
        obtain ⟨k, hk, rfl⟩ := hx
        obtain ⟨k', hk', e⟩ := hx'
        exact hne (hinj i hi j' hj' k' hk' i hi j hj k hk e).2.1.symm
    · intro i hi i' hi' hne x hx hx'
      rw [List.mem_flatMap] at hx hx'
      obtain ⟨j, hj, hx⟩ := hx
      obtain ⟨j', hj', hx'⟩ := hx'
      rw [List.mem_map] at hx hx'
      obtain ⟨k, hk, rfl⟩ := hx
      obtain ⟨k', hk', e⟩ := hx'
      exact hne (hinj i' hi' j' hj' k' hk' i hi j hj k hk e).1.symm

/-- The point is in the grid, up to the tolerance. -/
def Inside (g : Grid d K) (p : Fin d → K) : Prop :=
  ∀ a, -gridEps K < g.absolute p a ∧ g.absolute p a < g.n a + gridEps K

/-- For points in the grid, the cells listed are exactly those whose enlarged box has the point. -/
theorem mem_cellsAround (hd : IsDim d) (g : Grid d K) (hf : Fits g.n) (p : Fin d → K) (hp : Inside g p) (m : ℤ) :
    m ∈ g.cellsAround p ↔ ∃ c, IsCell g.n c ∧ (∀ a, near (g.absolute p a) (c a)) ∧ m = g.cellIndexAt c := by
  unfold Grid.cellsAround
  by_cases hc : (List.finRange d).all (fun a => !g.closeToAxis p a) = true
  · rw [if_pos hc]
    have hfar : ∀ a, gridEps K ≤ |g.absolute p a - (roundAway (g.absolute p a) : K)| := fun a => by
      rw [List.all_eq_true] at hc
      have := hc a (List.mem_finRange a)
      by_contra h
      rw [not_le, ← closeToAxis_iff] at h
      rw [h] at this
      simp at this
    have hnear : ∀ a i, near (g.absolute p a) i ↔ i = ⌊g.absolute p a⌋ := fun a i => far_indices (hfar a) i
    have hcell : IsCell g.n fun a => ⌊g.absolute p a⌋ := fun a => by
      have e0 := gridEps_pos (K := K)
      have := (hnear a ⌊g.absolute p a⌋).mpr rfl
      obtain ⟨b0, b1⟩ := hp a
      have f1 := Int.floor_le (g.absolute p a)
      have f2 := Int.lt_floor_add_one (g.absolute p a)
      change 0 ≤ ⌊g.absolute p a⌋ ∧ ⌊g.absolute p a⌋ < (g.n a : ℤ)
      constructor
      · by_contra h
        have hm1 : near (g.absolute p a) (-1) ↔ _ := hnear a (-1)
        have : ⌊g.absolute p a⌋ = -1 := by
          have : ((-2 : ℤ) : K) < ((⌊g.absolute p a⌋ : ℤ) : K) := by
            push_cast; linarith [gridEps_lt (K := K)]
          have : (-2 : ℤ) < ⌊g.absolute p a⌋ := by exact_mod_cast this
          omega
        -- then zero would also be near
        have h0 : near (g.absolute p a) 0 := by
          refine ⟨by push_cast; linarith, ?_⟩
          rw [this] at f2
          push_cast at f2 ⊢
          linarith
        rw [hnear a 0, this] at h0
        omega
      · by_contra h
        rw [not_lt] at h
        have hge : ((g.n a : ℤ) : K) ≤ ((⌊g.absolute p a⌋ : ℤ) : K) := by exact_mod_cast h
        push_cast at hge
        have h0 : near (g.absolute p a) ((g.n a : ℤ) - 1) := by
          constructor
          · push_cast; linarith
          · push_cast; linarith
        rw [hnear a _] at h0
        omega
    have hb := C24_coordinates hd g hf _ hcell
    rw [if_pos ⟨hb.1, by linarith [hb.2.1]⟩, List.mem_singleton]
    constructor
    · rintro rfl
      exact ⟨_, hcell, fun a => (hnear a _).mpr rfl, rfl⟩
    · rintro ⟨c, _, hn, rfl⟩
      congr 1
      funext a
      exact (hnear a _).mp (hn a)
  · rw [if_neg hc, mem_axisProduct hd]
    constructor
    · rintro ⟨c, hm, rfl⟩
      refine ⟨c, fun a => ?_, fun a => ?_, rfl⟩
      · exact ((mem_axisIndices g p a (hp a).1 (hp a).2 _).mp (hm a)).1
      · exact ((mem_axisIndices g p a (hp a).1 (hp a).2 _).mp (hm a)).2
    · rintro ⟨c, h1, h2, rfl⟩
      exact ⟨c, fun a => (mem_axisIndices g p a (hp a).1 (hp a).2 _).mpr ⟨h1 a, h2 a⟩, rfl⟩

theorem cellsAround_nodup (hd : IsDim d) (g : Grid d K) (hf : Fits g.n) (p : Fin d → K) (hp : Inside g p) :
    (g.cellsAround p).Nodup := by
  unfold Grid.cellsAround
  by_cases hc : (List.finRange d).all (fun a => !g.closeToAxis p a) = true
  · rw [if_pos hc]
    simp only []
    split_ifs <;> simp
  · rw [if_neg hc]
    refine axisProduct_nodup hd g hf _ (fun a => axisIndices_nodup g p a) fun a i hi => ?_
    exact ((mem_axisIndices g p a (hp a).1 (hp a).2 _).mp hi).1

end Around

end Caribou
