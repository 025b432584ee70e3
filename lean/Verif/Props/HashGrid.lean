import Verif.Lemmas.HashGrid
import Verif.Spec.HashGrid

/-! # C31, C32: hash grid -/

set_option autoImplicit false

namespace Caribou

open Spec

variable {d : ℕ} {K : Type*} [Field K] [LinearOrder K] [IsStrictOrderedRing K] [FloorRing K]

/-- The grid after a history of calls `add(nodes, id)`. -/
def HashGrid.ofHistory {n : ℕ} (cellSize : K) (hist : List ((Fin n → Fin d → K) × ℕ)) : HashGrid d K :=
  hist.foldl (fun g h => g.add h.1 h.2) (HashGrid.empty cellSize)

/-- **C31.** Whatever was added before and after, `get(p)` returns every element whose nodes have `p` in their bounding box. -/
theorem C31_complete (hd : IsDim d) {n : ℕ} (hn : 0 < n) (s : K) (hs : 0 < s) (hist : List ((Fin n → Fin d → K) × ℕ))
    (nodes : Fin n → Fin d → K) (id : ℕ) (hadd : (nodes, id) ∈ hist) (p : Fin d → K) (hp : InBoxOf nodes p) :
    id ∈ (HashGrid.ofHistory s hist).get p := by
  rw [HashGrid.mem_get]
  have hcs : (HashGrid.ofHistory s hist).cellSize = s := HashGrid.foldl_add_cellSize hist _
  refine ⟨fun a => ⌊p a / s⌋, ?_, ?_⟩
  · rw [HashGrid.mem_cellsNear hd, hcs]
    exact fun a => near_of_inCell ⟨Int.floor_le _, (Int.lt_floor_add_one _).le⟩
  · rw [HashGrid.ofHistory, HashGrid.mem_table_foldl]
    refine Or.inr ⟨(nodes, id), hadd, rfl, ?_⟩
    rw [HashGrid.mem_cellsOf hd]
    intro a
    obtain ⟨⟨i, hi⟩, j, hj⟩ := hp a
    constructor
    · exact Int.floor_le_floor (div_le_div_of_nonneg_right (((minCoeff_spec hn nodes a).1 i).trans hi) hs.le)
    · exact Int.floor_le_floor (div_le_div_of_nonneg_right (hj.trans ((maxCoeff_spec hn nodes a).1 j)) hs.le)

/-- **C32.** Every identifier returned by `get(p)` was added, with nodes whose bounding box is closer to `p` than one cell
(plus the tolerance `EPSILON`) along every axis.  The identifiers are returned in increasing order, each once. -/
theorem C32_sound (hd : IsDim d) {n : ℕ} (hn : 0 < n) (s : K) (hs : 0 < s) (hist : List ((Fin n → Fin d → K) × ℕ))
    (p : Fin d → K) :
    (∀ id ∈ (HashGrid.ofHistory s hist).get p, ∃ nodes, (nodes, id) ∈ hist ∧ BoxWithin nodes ((1 + gridEps K) * s) p) ∧
    ((HashGrid.ofHistory s hist).get p).Pairwise (· < ·) := by
  refine ⟨?_, HashGrid.sorted_get _ _⟩
  intro id hid
  rw [HashGrid.mem_get] at hid
  obtain ⟨c, hc, hid⟩ := hid
  have hcs : (HashGrid.ofHistory s hist).cellSize = s := HashGrid.foldl_add_cellSize hist _
  rw [HashGrid.mem_cellsNear hd, hcs] at hc
  rw [HashGrid.ofHistory, HashGrid.mem_table_foldl] at hid
  rcases hid with hid | ⟨⟨nodes, id'⟩, hh, rfl, hcell⟩
  · exact absurd hid (by simp [HashGrid.empty])
  refine ⟨nodes, hh, fun a => ?_⟩
  rw [HashGrid.mem_cellsOf hd] at hcell
  have h1 := (hcell a).1
  have h2 := (hcell a).2
  have e : (HashGrid.empty (d := d) s).cellSize = s := rfl
  rw [e] at h1 h2
  obtain ⟨n1, n2⟩ := hc a
  obtain ⟨i, hi⟩ := (minCoeff_spec hn nodes a).2
  obtain ⟨j, hj⟩ := (maxCoeff_spec hn nodes a).2
  have hmin : minCoeff nodes a / s < (c a : K) + 1 := by
    have := Int.lt_floor_add_one (minCoeff nodes a / s)
    have : ((⌊minCoeff nodes a / s⌋ : ℤ) : K) ≤ c a := by exact_mod_cast h1
    linarith
  have hmax : (c a : K) ≤ maxCoeff nodes a / s := Int.le_floor.mp h2
  refine ⟨⟨i, ?_⟩, j, ?_⟩
  · rw [← hi]
    have : minCoeff nodes a / s < p a / s + (1 + gridEps K) := by linarith
    rw [div_lt_iff₀ hs, add_mul, div_mul_cancel₀ _ hs.ne'] at this
    exact this
  · rw [← hj]
    have : p a / s < maxCoeff nodes a / s + (1 + gridEps K) := by linarith
    rw [div_lt_iff₀ hs, add_mul, div_mul_cancel₀ _ hs.ne'] at this
    exact this

/-- Two segments of the plane. -/
def exampleHistory : List ((Fin 2 → Fin 2 → ℚ) × ℕ) :=
  [(![![0, 0], ![3 / 2, 1]], 7), (![![-1, 0], ![-1 / 2, 2]], 3), (![![5, 5], ![6, 6]], 4)]

example : InBoxOf (![![0, 0], ![3 / 2, 1]] : Fin 2 → Fin 2 → ℚ) ![1, 1 / 2] ∧
    (HashGrid.ofHistory 1 exampleHistory).get ![1, 1 / 2] = [7] ∧
    (HashGrid.ofHistory 1 exampleHistory).get ![0, 1] = [3, 7] ∧ (HashGrid.ofHistory 1 exampleHistory).get ![4, 4] = [] := by
  refine ⟨?_, by decide +kernel, by decide +kernel, by decide +kernel⟩
  intro a
  fin_cases a
  · exact ⟨⟨0, by norm_num⟩, 1, by norm_num⟩
  · exact ⟨⟨0, by norm_num⟩, 1, by norm_num⟩

end Caribou
