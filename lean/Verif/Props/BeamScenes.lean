import Verif.Model.BeamScenes
import Verif.Spec.BeamScenes
import Mathlib.Algebra.Order.Floor.Ring
import Mathlib.Data.Rat.Floor
import Mathlib.Data.Fintype.Basic
import Mathlib.Tactic.FieldSimp
import Mathlib.Tactic.Linarith
import Mathlib.Tactic.LinearCombination
import Mathlib.Tactic.FinCases
import Mathlib.Tactic.NormNum

/-!
# C155: the beam of the benchmark scenes
-/

set_option autoImplicit false
set_option linter.all false

namespace Caribou

open Spec

variable {K : Type*} [Field K] [LinearOrder K] [IsStrictOrderedRing K] [FloorSemiring K]

theorem lines_pos {e c : K} (hc : 0 < c) (he : c ≤ e) : 1 ≤ ⌊e / c⌋₊ := by
  rw [Nat.one_le_floor_iff, le_div_iff₀ hc]; linarith

/-- The side length of the cells along one axis. -/
theorem side_bounds {e c : K} (hc : 0 < c) (he : c ≤ e) :
    0 < (⌊e / c⌋₊ : K) ∧ c ≤ e / (⌊e / c⌋₊ : K) ∧ e / (⌊e / c⌋₊ : K) < 2 * c ∧ (e / (⌊e / c⌋₊ : K) = c ↔ ∃ n : ℕ, e = n * c) := by
  have h1 := lines_pos hc he
  have hpos : (0 : K) < ⌊e / c⌋₊ := by exact_mod_cast h1
  have h1' : (1 : K) ≤ ⌊e / c⌋₊ := by exact_mod_cast h1
  have hle := Nat.floor_le (div_pos (lt_of_lt_of_le hc he) hc).le
  have hlt := Nat.lt_floor_add_one (e / c)
  rw [le_div_iff₀ hc] at hle
  rw [div_lt_iff₀ hc] at hlt
  refine ⟨hpos, ?_, ?_, fun h => ⟨⌊e / c⌋₊, ?_⟩, ?_⟩
  · rw [le_div_iff₀ hpos]; linarith
  · rw [div_lt_iff₀ hpos]; nlinarith
  · rw [div_eq_iff hpos.ne'] at h; linarith
  · rintro ⟨n, hn⟩
    have : e / c = n := by rw [hn]; field_simp
    have hf : ⌊e / c⌋₊ = n := by rw [this, Nat.floor_natCast]
    rw [hf] at hpos ⊢
    rw [div_eq_iff hpos.ne', hn]; ring

theorem coordinate_zero (a b : K) (n : ℕ) : gridCoordinate a b n 0 = a := by simp [gridCoordinate]

theorem coordinate_succ (a b : K) (n i : ℕ) : gridCoordinate a b n (i + 1) = gridCoordinate a b n i + (b - a) / (n - 1 : ℕ) := by
  unfold gridCoordinate; push_cast; ring

theorem coordinate_last (a b : K) (m : ℕ) (hm : (0 : K) < m) : gridCoordinate a b (m + 1) m = b := by
  unfold gridCoordinate
  rw [Nat.add_sub_cancel]
  field_simp
  ring

theorem coordinate_range {a b : K} (hab : a ≤ b) {m i : ℕ} (hm : (0 : K) < m) (hi : i ≤ m) : a ≤ gridCoordinate a b (m + 1) i ∧ gridCoordinate a b (m + 1) i ≤ b := by
  unfold gridCoordinate
  rw [Nat.add_sub_cancel]
  have hi' : (i : K) ≤ m := by exact_mod_cast hi
  have h0 : (0 : K) ≤ i := Nat.cast_nonneg i
  constructor
  · have : 0 ≤ (i : K) * ((b - a) / m) := mul_nonneg h0 (div_nonneg (by linarith) hm.le)
    linarith
  · have : (i : K) * ((b - a) / m) ≤ b - a := by
      rw [mul_div_assoc', div_le_iff₀ hm]; nlinarith
    linarith

/-- **C155**, the ends: in a beam with at least one cell along each axis, whatever its size and the size of the cells, the box of the base takes exactly the first layer of nodes, and the box of the top
exactly the last one; no node is in both. -/
theorem C155_ends (radius length cell : K) (hc : 0 < cell) (hr : cell ≤ 2 * radius) (hl : cell ≤ length) (i j k : ℕ) (hi : i < beamLines (2 * radius) cell) (hj : j < beamLines (2 * radius) cell)
    (hk : k < beamLines length cell) :
    (baseRoi radius length cell (beamNode radius length cell i j k) ↔ k = 0) ∧
    (topRoi radius length cell (beamNode radius length cell i j k) ↔ k + 1 = beamLines length cell) ∧
    ¬(baseRoi radius length cell (beamNode radius length cell i j k) ∧ topRoi radius length cell (beamNode radius length cell i j k)) := by
  obtain ⟨hp, hs, -, -⟩ := side_bounds hc hl
  obtain ⟨hp2, -, -, -⟩ := side_bounds hc hr
  have hm : (0 : K) < beamMargin cell := by unfold beamMargin; positivity
  have hm10 : 10 * beamMargin cell = cell := by unfold beamMargin; field_simp
  unfold beamLines at hi hj hk
  have hx := coordinate_range (a := -radius) (b := radius) (by linarith) hp2 (Nat.lt_succ_iff.1 hi)
  have hy := coordinate_range (a := -radius) (b := radius) (by linarith) hp2 (Nat.lt_succ_iff.1 hj)
  have hz : gridCoordinate (-length / 2) (length / 2) (⌊length / cell⌋₊ + 1) k = -length / 2 + k * (length / ⌊length / cell⌋₊) := by
    unfold gridCoordinate; rw [Nat.add_sub_cancel]; congr 2; ring
  have hfull : (⌊length / cell⌋₊ : K) * (length / ⌊length / cell⌋₊) = length := by field_simp
  have hbase : baseRoi radius length cell (beamNode radius length cell i j k) ↔ k = 0 := by
    unfold baseRoi boxTakes beamNode beamLines
    constructor
    · intro h
      have h2 := (h 2).2
      simp only [Matrix.cons_val] at h2
      rw [hz] at h2
      by_contra hk0
      have hk1 : (1 : K) ≤ k := by exact_mod_cast Nat.one_le_iff_ne_zero.2 hk0
      nlinarith
    · rintro rfl d
      fin_cases d
      · simp only [Fin.zero_eta, Matrix.cons_val]; constructor <;> linarith [hx.1, hx.2]
      · simp only [Fin.mk_one, Matrix.cons_val]; constructor <;> linarith [hy.1, hy.2]
      · simp only [Fin.reduceFinMk, Matrix.cons_val]
        rw [hz]
        constructor <;> push_cast <;> linarith
  have htop : topRoi radius length cell (beamNode radius length cell i j k) ↔ k + 1 = beamLines length cell := by
    unfold topRoi boxTakes beamNode beamLines
    constructor
    · intro h
      have h2 := (h 2).1
      simp only [Matrix.cons_val] at h2
      rw [hz] at h2
      by_contra hk0
      have hk1 : (k : K) + 1 ≤ ⌊length / cell⌋₊ := by exact_mod_cast (by omega : k + 1 ≤ ⌊length / cell⌋₊)
      nlinarith
    · intro hk' d
      have hke : k = ⌊length / cell⌋₊ := by omega
      fin_cases d
      · simp only [Fin.zero_eta, Matrix.cons_val]; constructor <;> linarith [hx.1, hx.2]
      · simp only [Fin.mk_one, Matrix.cons_val]; constructor <;> linarith [hy.1, hy.2]
      · simp only [Fin.reduceFinMk, Matrix.cons_val]
        rw [hz, hke, hfull]
        constructor <;> linarith
  refine ⟨hbase, htop, fun ⟨h1, h2⟩ => ?_⟩
  have e1 := hbase.1 h1
  have e2 := htop.1 h2
  have := lines_pos hc hl
  unfold beamLines at e2
  omega

/-- **C155 (partial).** The grid fills the beam with equal cells the sides of which are at least the size which was asked for and less than twice of it.  Missing: that they are of this size; this is
exactly so for extents which are multiples of it, see `C155_violated`. -/
theorem C155_partial (radius length cell : K) (hc : 0 < cell) (hr : cell ≤ 2 * radius) (hl : cell ≤ length) :
    ∃ (s : Fin 3 → K) (m : Fin 3 → ℕ), FillsBox (beamNode radius length cell) ![-radius, -radius, -length / 2] ![radius, radius, length / 2] s m ∧
      (m 0 + 1 = beamLines (2 * radius) cell ∧ m 1 + 1 = beamLines (2 * radius) cell ∧ m 2 + 1 = beamLines length cell) ∧
      (∀ d, cell ≤ s d ∧ s d < 2 * cell) ∧
      ((∀ d, s d = cell) ↔ (∃ n : ℕ, 2 * radius = n * cell) ∧ ∃ n : ℕ, length = n * cell) := by
  obtain ⟨p1, a1, b1, c1⟩ := side_bounds hc hr
  obtain ⟨p2, a2, b2, c2⟩ := side_bounds hc hl
  refine ⟨![2 * radius / ⌊2 * radius / cell⌋₊, 2 * radius / ⌊2 * radius / cell⌋₊, length / ⌊length / cell⌋₊],
    ![⌊2 * radius / cell⌋₊, ⌊2 * radius / cell⌋₊, ⌊length / cell⌋₊], ⟨?_, ?_, fun i j k => ⟨?_, ?_, ?_⟩⟩, ⟨rfl, rfl, rfl⟩, fun d => ?_, ?_⟩
  · simp [beamNode, coordinate_zero]
  · simp only [beamNode, beamLines, Matrix.cons_val]
    rw [coordinate_last _ _ _ p1, coordinate_last _ _ _ p2]
  · funext d
    fin_cases d <;> simp [beamNode, coordinate_succ, beamLines]
    ring
  · funext d
    fin_cases d <;> simp [beamNode, coordinate_succ, beamLines]
    ring
  · funext d
    fin_cases d <;> simp [beamNode, coordinate_succ, beamLines]
    ring
  · fin_cases d
    exacts [⟨a1, b1⟩, ⟨a1, b1⟩, ⟨a2, b2⟩]
  · constructor
    · intro h
      exact ⟨c1.1 (h 0), c2.1 (h 2)⟩
    · rintro ⟨h1, h2⟩ d
      fin_cases d
      exacts [c1.2 h1, c1.2 h1, c2.2 h2]

/-- Violation of C155: with the numbers of the script, cells of size 1.5 in a beam of 10 by 10 by 60, the cells are 5/3 by 5/3 by 1.5. -/
theorem C155_violated :
    beamNode (5 : ℚ) 60 (3 / 2) 1 0 0 0 - beamNode (5 : ℚ) 60 (3 / 2) 0 0 0 0 = 5 / 3 ∧ beamNode (5 : ℚ) 60 (3 / 2) 0 0 1 2 - beamNode (5 : ℚ) 60 (3 / 2) 0 0 0 2 = 3 / 2 := by
  have h1 : ⌊(2 * 5 / (3 / 2) : ℚ)⌋₊ = 6 := by rw [Nat.floor_eq_iff (by norm_num)]; norm_num
  have h2 : ⌊(60 / (3 / 2) : ℚ)⌋₊ = 40 := by rw [Nat.floor_eq_iff (by norm_num)]; norm_num
  constructor
  · simp only [beamNode, gridCoordinate, beamLines, h1, Matrix.cons_val]; norm_num
  · simp only [beamNode, gridCoordinate, beamLines, h2, Matrix.cons_val]; norm_num

/-- The numbers of the script meet the hypotheses, and the last layer has the index 40. -/
example : (0 : ℚ) < 3 / 2 ∧ (3 / 2 : ℚ) ≤ 2 * 5 ∧ (3 / 2 : ℚ) ≤ 60 ∧ topRoi (5 : ℚ) 60 (3 / 2) (beamNode 5 60 (3 / 2) 3 4 40) ∧ ¬topRoi (5 : ℚ) 60 (3 / 2) (beamNode 5 60 (3 / 2) 3 4 39) := by
  have h1 : ⌊(2 * 5 / (3 / 2) : ℚ)⌋₊ = 6 := by rw [Nat.floor_eq_iff (by norm_num)]; norm_num
  have h2 : ⌊(60 / (3 / 2) : ℚ)⌋₊ = 40 := by rw [Nat.floor_eq_iff (by norm_num)]; norm_num
  refine ⟨by norm_num, by norm_num, by norm_num, ?_, ?_⟩
  · exact (C155_ends (5 : ℚ) 60 (3 / 2) (by norm_num) (by norm_num) (by norm_num) 3 4 40 (by rw [beamLines, h1]; norm_num) (by rw [beamLines, h1]; norm_num) (by rw [beamLines, h2]; norm_num)).2.1.2
      (by rw [beamLines, h2])
  · rw [(C155_ends (5 : ℚ) 60 (3 / 2) (by norm_num) (by norm_num) (by norm_num) 3 4 39 (by rw [beamLines, h1]; norm_num) (by rw [beamLines, h1]; norm_num) (by rw [beamLines, h2]; norm_num)).2.1, beamLines, h2]
    norm_num

end Caribou
