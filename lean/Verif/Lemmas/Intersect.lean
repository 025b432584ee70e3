import Verif.Model.Intersect
import Verif.Spec.Intersect
import Verif.Lemmas.Basic
import Verif.Lemmas.Elements
import Verif.Props.Canonical
import Mathlib.Tactic.Linarith
import Mathlib.Tactic.LinearCombination
import Mathlib.Tactic.FieldSimp

/-! The separating-axis argument for segments and the crossing count for triangles. -/

set_option autoImplicit false
set_option linter.all false

namespace Caribou

open Spec

variable {K : Type*} [Field K] [LinearOrder K] [IsStrictOrderedRing K]

theorem edgeSign_mul (x : K) : x * edgeSign x = |x| := by
  rw [edgeSign]
  split_ifs with h
  · rw [abs_of_neg h]; ring
  · rw [abs_of_nonneg (not_lt.mp h)]; ring

theorem edgeSign_sq (x : K) : edgeSign x * edgeSign x = 1 := by
  rw [edgeSign]; split_ifs <;> norm_num

theorem edgeSign_cases (x : K) : (edgeSign x = 1 ∧ 0 ≤ x) ∨ (edgeSign x = -1 ∧ x < 0) := by
  rw [edgeSign]
  split_ifs with h
  · exact .inr ⟨rfl, h⟩
  · exact .inl ⟨rfl, not_lt.mp h⟩

/-- The tests with a zero tolerance, unfolded. -/
theorem intersectsLocalSegment_iff (v0 v1 : Fin 3 → K) :
    intersectsLocalSegment v0 v1 0 = true ↔
      (∀ i, v0 i * edgeSign (v1 i - v0 i) ≤ 1 ∧ -1 ≤ v1 i * edgeSign (v1 i - v0 i)) ∧
      ∀ i : Fin 3, |(v1 (i + 2) - v0 (i + 2)) * v0 (i + 1) - (v1 (i + 1) - v0 (i + 1)) * v0 (i + 2)|
        ≤ |v1 (i + 1) - v0 (i + 1)| + |v1 (i + 2) - v0 (i + 2)| := by
  simp only [intersectsLocalSegment, Bool.and_eq_true, List.all_eq_true, List.mem_finRange, forall_true_left,
    Bool.not_eq_true', decide_eq_false_iff_not, not_lt, gt_iff_lt, add_zero, sub_zero, Pi.sub_apply, sub_nonpos]
  refine and_congr Iff.rfl (forall_congr' fun i => ?_)
  rw [← pow_two, ← pow_two, sq_le_sq]
  have : |(v1 (i + 2) - v0 (i + 2)) * edgeSign (v1 (i + 1) - v0 (i + 1))
        + (v1 (i + 1) - v0 (i + 1)) * edgeSign (v1 (i + 2) - v0 (i + 2))|
      = |v1 (i + 1) - v0 (i + 1)| + |v1 (i + 2) - v0 (i + 2)| := by
    set a := v1 (i + 1) - v0 (i + 1)
    set b := v1 (i + 2) - v0 (i + 2)
    rcases edgeSign_cases a with ⟨ha, ha'⟩ | ⟨ha, ha'⟩ <;> rcases edgeSign_cases b with ⟨hb, hb'⟩ | ⟨hb, hb'⟩ <;>
      rw [ha, hb]
    · rw [abs_of_nonneg ha', abs_of_nonneg hb', abs_of_nonneg (by linarith)]; ring
    · rw [abs_of_nonneg ha', abs_of_neg hb', abs_of_nonpos (by linarith)]; ring
    · rw [abs_of_neg ha', abs_of_nonneg hb', abs_of_nonpos (by linarith)]; ring
    · rw [abs_of_neg ha', abs_of_neg hb', abs_of_nonneg (by linarith)]; ring
  rw [this]

/-- A finite family of intervals `[l i, u i]` with pairwise `l i ≤ u j` has a common point. -/
theorem exists_between_fin4 (l u : Fin 4 → K) (h : ∀ i j, l i ≤ u j) : ∃ t, ∀ i, l i ≤ t ∧ t ≤ u i := by
  refine ⟨max (max (l 0) (l 1)) (max (l 2) (l 3)), fun i => ⟨?_, ?_⟩⟩
  · fin_cases i
    · exact le_max_of_le_left (le_max_left _ _)
    · exact le_max_of_le_left (le_max_right _ _)
    · exact le_max_of_le_right (le_max_left _ _)
    · exact le_max_of_le_right (le_max_right _ _)
  · exact max_le (max_le (h 0 i) (h 1 i)) (max_le (h 2 i) (h 3 i))

/-- Normalised form of the segment problem: non-negative directions. -/
theorem exists_param (x d : Fin 3 → K) (hd : ∀ i, 0 ≤ d i) (hx : ∀ i, x i ≤ 1) (hx' : ∀ i, -1 ≤ x i + d i)
    (h : ∀ j k, j ≠ k → d j * x k - d k * x j ≤ d j + d k) :
    ∃ t, 0 ≤ t ∧ t ≤ 1 ∧ ∀ i, -1 ≤ x i + t * d i ∧ x i + t * d i ≤ 1 := by
  -- intervals: index 0 is [0,1]
  let l : Fin 4 → K := Fin.cons 0 fun i => if d i = 0 then 0 else (-1 - x i) / d i
  let u : Fin 4 → K := Fin.cons 1 fun i => if d i = 0 then 1 else (1 - x i) / d i
  have hlu : ∀ i j, l i ≤ u j := by
    intro i j
    refine Fin.cases ?_ (fun i => ?_) i <;> refine Fin.cases ?_ (fun j => ?_) j
    · simp [l, u]
    · simp only [l, u, Fin.cons_zero, Fin.cons_succ]
      split_ifs with hj
      · norm_num
      · exact div_nonneg (by linarith [hx j]) (hd j)
    · simp only [l, u, Fin.cons_zero, Fin.cons_succ]
      split_ifs with hi
      · norm_num
      · rw [div_le_one (lt_of_le_of_ne (hd i) (Ne.symm hi))]; linarith [hx' i]
    · simp only [l, u, Fin.cons_succ]
      split_ifs with hi hj hj
      · norm_num
      · exact div_nonneg (by linarith [hx j]) (hd j)
      · rw [div_le_one (lt_of_le_of_ne (hd i) (Ne.symm hi))]; linarith [hx' i]
      · have hi' := lt_of_le_of_ne (hd i) (Ne.symm hi)
        have hj' := lt_of_le_of_ne (hd j) (Ne.symm hj)
        rw [div_le_div_iff₀ hi' hj']
        by_cases hij : i = j
        · subst hij; nlinarith
        · have := h i j hij; nlinarith
  obtain ⟨t, ht⟩ := exists_between_fin4 l u hlu
  have h0 := ht 0
  simp only [l, u, Fin.cons_zero] at h0
  refine ⟨t, h0.1, h0.2, fun i => ?_⟩
  have hi := ht i.succ
  simp only [l, u, Fin.cons_succ] at hi
  by_cases hdi : d i = 0
  · have h1 := hx i; have h2 := hx' i
    rw [hdi] at h2 ⊢
    constructor <;> linarith
  · have hi' := lt_of_le_of_ne (hd i) (Ne.symm hdi)
    rw [if_neg hdi, if_neg hdi, div_le_iff₀ hi', le_div_iff₀ hi'] at hi
    constructor <;> linarith [hi.1, hi.2]

theorem segment_iff (v0 v1 : Fin 3 → K) :
    intersectsLocalSegment v0 v1 0 = true ↔ ∃ x, OnSegment v0 v1 x ∧ InCube x := by
  rw [intersectsLocalSegment_iff]
  constructor
  · rintro ⟨h1, h2⟩
    have hs : ∀ i, edgeSign (v1 i - v0 i) * edgeSign (v1 i - v0 i) = 1 := fun i => edgeSign_sq _
    set s : Fin 3 → K := fun i => edgeSign (v1 i - v0 i) with hsdef
    have hd : ∀ i, (v1 i - v0 i) * s i = |v1 i - v0 i| := fun i => edgeSign_mul _
    obtain ⟨t, ht0, ht1, ht⟩ := exists_param (fun i => v0 i * s i) (fun i => |v1 i - v0 i|) (fun i => abs_nonneg _)
      (fun i => (h1 i).1) (fun i => by
        have := (h1 i).2
        rw [← hd i]
        change -1 ≤ v1 i * s i at this
        linarith) (by
        have pair : ∀ j k : Fin 3, |(v1 k - v0 k) * v0 j - (v1 j - v0 j) * v0 k| ≤ |v1 j - v0 j| + |v1 k - v0 k| →
            |v1 j - v0 j| * (v0 k * s k) - |v1 k - v0 k| * (v0 j * s j) ≤ |v1 j - v0 j| + |v1 k - v0 k| ∧
            |v1 k - v0 k| * (v0 j * s j) - |v1 j - v0 j| * (v0 k * s k) ≤ |v1 k - v0 k| + |v1 j - v0 j| := by
          intro j k h
          have e : |v1 k - v0 k| * (v0 j * s j) - |v1 j - v0 j| * (v0 k * s k)
              = s j * s k * ((v1 k - v0 k) * v0 j - (v1 j - v0 j) * v0 k) := by
            rw [← hd, ← hd]; ring
          have e2 : |s j * s k * ((v1 k - v0 k) * v0 j - (v1 j - v0 j) * v0 k)|
              = |(v1 k - v0 k) * v0 j - (v1 j - v0 j) * v0 k| := by
            have : |s j * s k| = 1 := by
              have : |s j * s k| ^ 2 = 1 := by
                rw [sq_abs]
                linear_combination (s k * s k) * hs j + hs k
              nlinarith [abs_nonneg (s j * s k)]
            rw [abs_mul, this, one_mul]
          have h3 := abs_le.mp (e2.le.trans h)
          rw [← e] at h3
          constructor <;> linarith [h3.1, h3.2]
        intro j k hjk
        have h20 := pair 1 2 (h2 0)
        have h21 := pair 2 0 (h2 1)
        have h22 := pair 0 1 (h2 2)
        fin_cases j <;> fin_cases k <;>
          first
            | exact absurd rfl hjk
            | exact h20.1
            | exact h20.2
            | exact h21.1
            | exact h21.2
            | exact h22.1
            | exact h22.2)
    refine ⟨fun j => (1 - t) * v0 j + t * v1 j, ⟨t, ht0, ht1, fun _ => rfl⟩, fun j => ?_⟩
    have h := ht j
    rw [← hd j] at h
    have hsj := hs j
    rcases edgeSign_cases (v1 j - v0 j) with ⟨e, -⟩ | ⟨e, -⟩
    · change s j = 1 at e
      rw [e] at h
      constructor <;> linarith [h.1, h.2]
    · change s j = -1 at e
      rw [e] at h
      constructor <;> linarith [h.1, h.2]
  · rintro ⟨x, ⟨t, ht0, ht1, hx⟩, hc⟩
    have hx' : ∀ i, x i = v0 i + t * (v1 i - v0 i) := fun i => by rw [hx]; ring
    constructor
    · intro i
      have h := hc i
      rw [hx'] at h
      rcases edgeSign_cases (v1 i - v0 i) with ⟨e, hp⟩ | ⟨e, hp⟩ <;> rw [e]
      · have := mul_nonneg ht0 hp
        have := mul_nonneg (sub_nonneg.mpr ht1) hp
        constructor <;> linarith [h.1, h.2]
      · have := mul_nonneg ht0 (neg_nonneg.mpr hp.le)
        have := mul_nonneg (sub_nonneg.mpr ht1) (neg_nonneg.mpr hp.le)
        constructor <;> linarith [h.1, h.2]
    · intro i
      have ha := abs_le.mpr (hc (i + 1))
      have hb := abs_le.mpr (hc (i + 2))
      have e : (v1 (i + 2) - v0 (i + 2)) * v0 (i + 1) - (v1 (i + 1) - v0 (i + 1)) * v0 (i + 2)
          = (v1 (i + 2) - v0 (i + 2)) * x (i + 1) - (v1 (i + 1) - v0 (i + 1)) * x (i + 2) := by
        rw [hx', hx']; ring
      rw [e]
      calc _ ≤ |(v1 (i + 2) - v0 (i + 2)) * x (i + 1)| + |(v1 (i + 1) - v0 (i + 1)) * x (i + 2)| := abs_sub _ _
        _ ≤ |v1 (i + 2) - v0 (i + 2)| * 1 + |v1 (i + 1) - v0 (i + 1)| * 1 := by
            rw [abs_mul, abs_mul]
            exact add_le_add (mul_le_mul_of_nonneg_left ha (abs_nonneg _))
              (mul_le_mul_of_nonneg_left hb (abs_nonneg _))
        _ = _ := by ring

/-! ### Crossing count -/

/-- Twice the signed area of `a b p` in the plane of the axes `x`, `y`. -/
def orient (a b p : Fin 3 → K) (x y : Fin 3) : K := (b x - a x) * (p y - a y) - (b y - a y) * (p x - a x)

/-- With a zero tolerance an edge contributes its direction exactly when it passes under the point. -/
theorem crossing_eq (a b p : Fin 3 → K) (x y : Fin 3) :
    crossing a b p x y 0 =
      if 0 ≤ ((segContainsPoint (a x) (b x) (p x) : ℤ) : K) * orient a b p x y then segContainsPoint (a x) (b x) (p x)
      else 0 := by
  simp only [crossing, sub_zero, add_zero, orient]
  by_cases h1 : b x > p x <;> by_cases h2 : a x > p x
  · simp [segContainsPoint, h1, h2]
  · have e : segContainsPoint (a x) (b x) (p x) = 1 := by simp [segContainsPoint, h1, h2]
    rw [e]
    simp only [ne_eq, one_ne_zero, not_false_eq_true, if_true, Int.cast_one, one_mul]
    rw [not_lt] at h2
    have hp : 0 < b x - a x := by linarith
    by_cases h3 : b y > p y <;> by_cases h4 : a y > p y
    · have e' : segContainsPoint (a y) (b y) (p y) = 0 := by simp [segContainsPoint, h3, h4]
      rw [e', if_neg (by simp), if_neg (not_le.mpr h3), if_neg]
      rw [not_le]
      nlinarith [mul_pos (sub_pos.mpr h1) (sub_pos.mpr h4), mul_nonneg (sub_nonneg.mpr h2) (sub_nonneg.mpr h3.le)]
    · have e' : segContainsPoint (a y) (b y) (p y) = 1 := by simp [segContainsPoint, h3, h4]
      rw [e', if_pos (by simp)]
      congr 1
      exact propext ⟨fun h => by linarith, fun h => by linarith⟩
    · have e' : segContainsPoint (a y) (b y) (p y) = -1 := by simp [segContainsPoint, h3, h4]
      rw [e', if_pos (by simp)]
      congr 1
      exact propext ⟨fun h => by linarith, fun h => by linarith⟩
    · have e' : segContainsPoint (a y) (b y) (p y) = 0 := by simp [segContainsPoint, h3, h4]
      rw [not_lt] at h3 h4
      rw [e', if_neg (by simp), if_pos h3, if_pos]
      nlinarith [mul_nonneg (sub_nonneg.mpr h1.le) (sub_nonneg.mpr h4), mul_nonneg (sub_nonneg.mpr h2) (sub_nonneg.mpr h3)]
  · have e : segContainsPoint (a x) (b x) (p x) = -1 := by simp [segContainsPoint, h1, h2]
    rw [e]
    simp only [ne_eq, neg_eq_zero, one_ne_zero, not_false_eq_true, if_true, Int.cast_neg, Int.cast_one, neg_mul, one_mul]
    rw [not_lt] at h1
    by_cases h3 : b y > p y <;> by_cases h4 : a y > p y
    · have e' : segContainsPoint (a y) (b y) (p y) = 0 := by simp [segContainsPoint, h3, h4]
      rw [e', if_neg (by simp), if_neg (not_le.mpr h3), if_neg]
      rw [not_le]
      nlinarith [mul_pos (sub_pos.mpr h2) (sub_pos.mpr h3), mul_nonneg (sub_nonneg.mpr h1) (sub_nonneg.mpr h4.le)]
    · have e' : segContainsPoint (a y) (b y) (p y) = 1 := by simp [segContainsPoint, h3, h4]
      rw [e', if_pos (by simp)]
      congr 1
      exact propext ⟨fun h => by linarith, fun h => by linarith⟩
    · have e' : segContainsPoint (a y) (b y) (p y) = -1 := by simp [segContainsPoint, h3, h4]
      rw [e', if_pos (by simp)]
      congr 1
      exact propext ⟨fun h => by linarith, fun h => by linarith⟩
    · have e' : segContainsPoint (a y) (b y) (p y) = 0 := by simp [segContainsPoint, h3, h4]
      rw [not_lt] at h3 h4
      rw [e', if_neg (by simp), if_pos h3, if_pos]
      nlinarith [mul_nonneg (sub_nonneg.mpr h2.le) (sub_nonneg.mpr h3), mul_nonneg (sub_nonneg.mpr h1) (sub_nonneg.mpr h4)]
  · simp [segContainsPoint, h1, h2]

/-- One vertex strictly right of the point. -/
theorem pattern_right {cE cU cD v w1 w2 : K} (hv : 0 < v) (hw1 : w1 ≤ 0) (hw2 : w2 ≤ 0)
    (h : cE * v + cU * w1 + cD * w2 = 0) (hA : 0 < cE + cU + cD)
    (hn : (if 0 ≤ cU then (1 : ℤ) else 0) + (if 0 ≤ -cD then -1 else 0) ≠ 0) : 0 ≤ cE ∧ 0 ≤ cU ∧ 0 ≤ cD := by
  by_cases hU : 0 ≤ cU <;> by_cases hD : 0 ≤ -cD
  · simp [hU, hD] at hn
  · rw [not_le] at hD
    have h1 : 0 ≤ cE * v := by nlinarith
    exact ⟨nonneg_of_mul_nonneg_left h1 hv, hU, by linarith⟩
  · rw [not_le] at hU
    have h1 : cE * v ≤ 0 := by nlinarith
    have : cE ≤ 0 := by
      by_contra hc
      rw [not_le] at hc
      linarith [mul_pos hc hv]
    linarith
  · simp [hU, hD] at hn

/-- Two vertices strictly right of the point. -/
theorem pattern_left {cE cU cD v w1 w2 : K} (hv : v ≤ 0) (hw1 : 0 < w1) (hw2 : 0 < w2)
    (h : cE * v + cU * w1 + cD * w2 = 0) (hA : 0 < cE + cU + cD)
    (hn : (if 0 ≤ cU then (1 : ℤ) else 0) + (if 0 ≤ -cD then -1 else 0) ≠ 0) : 0 ≤ cE ∧ 0 ≤ cU ∧ 0 ≤ cD := by
  by_cases hU : 0 ≤ cU <;> by_cases hD : 0 ≤ -cD
  · simp [hU, hD] at hn
  · rw [not_le] at hD
    have h1 : cE * v < 0 := by nlinarith [mul_nonneg hU hw1.le, mul_pos (show 0 < cD by linarith) hw2]
    refine ⟨?_, hU, by linarith⟩
    by_contra hc
    rw [not_le] at hc
    linarith [mul_nonneg_of_nonpos_of_nonpos hc.le hv]
  · rw [not_le] at hU
    have h1 : 0 < cE * v := by nlinarith [mul_pos (neg_pos.mpr hU) hw1, mul_nonneg hD hw2.le]
    have : cE ≤ 0 := by
      by_contra hc
      rw [not_le] at hc
      linarith [mul_nonneg hc.le (neg_nonneg.mpr hv)]
    linarith
  · simp [hU, hD] at hn

/-- The value of `count` for a triangle. -/
def crossCount (P : Fin 3 → Fin 3 → K) (p : Fin 3 → K) (x y : Fin 3) : ℤ :=
  crossing (P 0) (P 1) p x y 0 + crossing (P 1) (P 2) p x y 0 + crossing (P 2) (P 0) p x y 0

theorem orient_identity (P : Fin 3 → Fin 3 → K) (p : Fin 3 → K) (x y : Fin 3) :
    orient (P 1) (P 2) p x y * (P 0 x - p x) + orient (P 2) (P 0) p x y * (P 1 x - p x)
      + orient (P 0) (P 1) p x y * (P 2 x - p x) = 0 := by
  simp only [orient]; ring

theorem count_sound (P : Fin 3 → Fin 3 → K) (p : Fin 3 → K) (x y : Fin 3)
    (hA : 0 < orient (P 0) (P 1) p x y + orient (P 1) (P 2) p x y + orient (P 2) (P 0) p x y)
    (hn : crossCount P p x y ≠ 0) :
    0 ≤ orient (P 0) (P 1) p x y ∧ 0 ≤ orient (P 1) (P 2) p x y ∧ 0 ≤ orient (P 2) (P 0) p x y := by
  have hid := orient_identity P p x y
  rw [crossCount, crossing_eq, crossing_eq, crossing_eq] at hn
  set c0 := orient (P 0) (P 1) p x y
  set c1 := orient (P 1) (P 2) p x y
  set c2 := orient (P 2) (P 0) p x y
  by_cases h0 : P 0 x > p x <;> by_cases h1 : P 1 x > p x <;> by_cases h2 : P 2 x > p x <;>
    simp only [segContainsPoint, h0, h1, h2, if_true, if_false, sub_self, sub_zero, zero_sub, Int.cast_zero, Int.cast_one,
      Int.cast_neg, zero_mul, one_mul, neg_mul, le_refl, add_zero, zero_add, ite_self] at hn
  · simp at hn
  · -- 1 1 0: vertex 2 left; up 2→0 (c2), down 1→2 (c1), E = 0→1 (c0)
    rw [not_lt] at h2
    have := pattern_left (cE := c0) (cU := c2) (cD := c1) (v := P 2 x - p x) (w1 := P 1 x - p x) (w2 := P 0 x - p x)
      (by linarith) (by linarith) (by linarith) (by linear_combination hid) (by linarith) (by rw [add_comm]; exact hn)
    exact ⟨this.1, this.2.2, this.2.1⟩
  · -- 1 0 1: vertex 1 left; up 1→2 (c1), down 0→1 (c0), E = 2→0 (c2)
    rw [not_lt] at h1
    have := pattern_left (cE := c2) (cU := c1) (cD := c0) (v := P 1 x - p x) (w1 := P 0 x - p x) (w2 := P 2 x - p x)
      (by linarith) (by linarith) (by linarith) (by linear_combination hid) (by linarith) (by rw [add_comm]; exact hn)
    exact ⟨this.2.2, this.2.1, this.1⟩
  · -- 1 0 0: vertex 0 right; up 2→0 (c2), down 0→1 (c0), E = c1
    rw [not_lt] at h1 h2
    have := pattern_right (cE := c1) (cU := c2) (cD := c0) (v := P 0 x - p x) (w1 := P 1 x - p x) (w2 := P 2 x - p x)
      (by linarith) (by linarith) (by linarith) (by linear_combination hid) (by linarith) (by rw [add_comm]; exact hn)
    exact ⟨this.2.2, this.1, this.2.1⟩
  · -- 0 1 1: vertex 0 left; up 0→1 (c0), down 2→0 (c2), E = c1
    rw [not_lt] at h0
    have := pattern_left (cE := c1) (cU := c0) (cD := c2) (v := P 0 x - p x) (w1 := P 2 x - p x) (w2 := P 1 x - p x)
      (by linarith) (by linarith) (by linarith) (by linear_combination hid) (by linarith) hn
    exact ⟨this.2.1, this.1, this.2.2⟩
  · -- 0 1 0: vertex 1 right; up 0→1 (c0), down 1→2 (c1), E = c2
    rw [not_lt] at h0 h2
    have := pattern_right (cE := c2) (cU := c0) (cD := c1) (v := P 1 x - p x) (w1 := P 2 x - p x) (w2 := P 0 x - p x)
      (by linarith) (by linarith) (by linarith) (by linear_combination hid) (by linarith) hn
    exact ⟨this.2.1, this.2.2, this.1⟩
  · -- 0 0 1: vertex 2 right; up 1→2 (c1), down 2→0 (c2), E = c0
    rw [not_lt] at h0 h1
    have := pattern_right (cE := c0) (cU := c1) (cD := c2) (v := P 2 x - p x) (w1 := P 0 x - p x) (w2 := P 1 x - p x)
      (by linarith) (by linarith) (by linarith) (by linear_combination hid) (by linarith) hn
    exact ⟨this.1, this.2.1, this.2.2⟩
  · simp at hn

theorem count_complete (P : Fin 3 → Fin 3 → K) (p : Fin 3 → K) (x y : Fin 3)
    (h0 : 0 < orient (P 0) (P 1) p x y) (h1 : 0 < orient (P 1) (P 2) p x y) (h2 : 0 < orient (P 2) (P 0) p x y) :
    crossCount P p x y ≠ 0 := by
  have hid := orient_identity P p x y
  have hc0 : orient (P 0) (P 1) p x y = (P 1 x - P 0 x) * (p y - P 0 y) - (P 1 y - P 0 y) * (p x - P 0 x) := rfl
  rw [crossCount, crossing_eq, crossing_eq, crossing_eq]
  set c0 := orient (P 0) (P 1) p x y
  set c1 := orient (P 1) (P 2) p x y
  set c2 := orient (P 2) (P 0) p x y
  by_cases g0 : P 0 x > p x <;> by_cases g1 : P 1 x > p x <;> by_cases g2 : P 2 x > p x <;>
    simp only [segContainsPoint, g0, g1, g2, if_true, if_false, sub_self, sub_zero, zero_sub, Int.cast_zero, Int.cast_one,
      Int.cast_neg, zero_mul, one_mul, neg_mul, le_refl, add_zero, zero_add, ite_self, h0.le, h1.le, h2.le,
      Left.nonneg_neg_iff, not_le.mpr h0, not_le.mpr h1, not_le.mpr h2]
  · exfalso
    linarith [mul_pos h1 (sub_pos.mpr g0), mul_pos h2 (sub_pos.mpr g1), mul_pos h0 (sub_pos.mpr g2)]
  all_goals try (simp; done)
  · exfalso
    rw [not_lt] at g0 g1 g2
    have a0 := mul_nonneg h1.le (sub_nonneg.mpr g0)
    have a1 := mul_nonneg h2.le (sub_nonneg.mpr g1)
    have a2 := mul_nonneg h0.le (sub_nonneg.mpr g2)
    have e0 : c1 * (p x - P 0 x) = 0 := by linarith
    have e1 : c2 * (p x - P 1 x) = 0 := by linarith
    have f0 := (mul_eq_zero.mp e0).resolve_left h1.ne'
    have f1 := (mul_eq_zero.mp e1).resolve_left h2.ne'
    have : c0 = 0 := by
      rw [hc0]
      have : P 1 x - P 0 x = 0 := by linarith
      rw [this, f0]; ring
    linarith

/-! ### The triangle -/

/-- Walking from a point with non-negative weights to one with a non-positive weight, some weight vanishes while all are
still non-negative. -/
theorem exists_exit (a b : Fin 3 → K) (ha : ∀ i, 0 ≤ a i) (hb : ∃ j, b j ≤ 0) :
    ∃ s, 0 ≤ s ∧ s ≤ 1 ∧ (∀ i, 0 ≤ (1 - s) * a i + s * b i) ∧ ∃ i, (1 - s) * a i + s * b i = 0 := by
  by_cases hz : ∃ i, a i = 0
  · obtain ⟨i, hi⟩ := hz
    exact ⟨0, le_refl _, zero_le_one, fun i => by simpa using ha i, i, by simp [hi]⟩
  · rw [not_exists] at hz
    have ha' : ∀ i, 0 < a i := fun i => lt_of_le_of_ne (ha i) (Ne.symm (hz i))
    obtain ⟨j, hj, hmin⟩ := Finset.exists_min_image (Finset.univ.filter fun i => b i ≤ 0)
      (fun i => a i / (a i - b i)) (by obtain ⟨j, hj⟩ := hb; exact ⟨j, by simp [hj]⟩)
    simp only [Finset.mem_filter, Finset.mem_univ, true_and] at hj hmin
    have hpos : ∀ i, b i ≤ 0 → 0 < a i - b i := fun i hi => by linarith [ha' i]
    have s0 : 0 ≤ a j / (a j - b j) := div_nonneg (ha j) (hpos j hj).le
    have s1 : a j / (a j - b j) ≤ 1 := by rw [div_le_one (hpos j hj)]; linarith
    refine ⟨a j / (a j - b j), s0, s1, fun i => ?_, j, ?_⟩
    · by_cases hi : b i ≤ 0
      · have := (le_div_iff₀ (hpos i hi)).mp (hmin i hi)
        linarith
      · rw [not_le] at hi
        have := mul_nonneg (sub_nonneg.mpr s1) (ha i)
        have := mul_nonneg s0 hi.le
        linarith
    · have := (hpos j hj).ne'
      field_simp
      ring

theorem projectionAxis_ne_zero (n : Fin 3 → K) (h : n ≠ 0) : n (projectionAxis n) ≠ 0 := by
  intro h0
  apply h
  rw [projectionAxis] at h0
  have a0 := abs_nonneg (n 0); have a1 := abs_nonneg (n 1); have a2 := abs_nonneg (n 2)
  have key : ∀ z : Fin 3, n z = 0 → |n z| = 0 := fun z hz => by rw [hz, abs_zero]
  have fin : |n 0| = 0 → |n 1| = 0 → |n 2| = 0 → n = 0 := fun e0 e1 e2 => by
    funext i; fin_cases i
    · exact abs_eq_zero.mp e0
    · exact abs_eq_zero.mp e1
    · exact abs_eq_zero.mp e2
  split_ifs at h0 with c1 c2 c3
  · have := key _ h0; exact absurd this (by linarith)
  · have := key _ h0; rw [not_lt] at c2; exact fin (by linarith) (by linarith) this
  · have := key _ h0; exact absurd this (by linarith)
  · have := key _ h0; rw [not_lt] at c1 c3; exact fin (by linarith) (by linarith) this

theorem orient_sum (P : Fin 3 → Fin 3 → K) (p : Fin 3 → K) (x y : Fin 3) :
    orient (P 0) (P 1) p x y + orient (P 1) (P 2) p x y + orient (P 2) (P 0) p x y
      = (P 1 x - P 0 x) * (P 2 y - P 0 y) - (P 1 y - P 0 y) * (P 2 x - P 0 x) := by
  simp only [orient]; ring

/-- The projected area is the component of the cross product. -/
theorem area_eq_normal (P : Fin 3 → Fin 3 → K) (z : Fin 3) :
    triangleNormal P z
      = (P 1 (z + 1) - P 0 (z + 1)) * (P 2 (z + 2) - P 0 (z + 2))
        - (P 1 (z + 2) - P 0 (z + 2)) * (P 2 (z + 1) - P 0 (z + 1)) := by
  fin_cases z <;>
    simp only [triangleNormal, cross_apply, Pi.sub_apply, Matrix.cons_val, Fin.isValue, Fin.reduceFinMk, Fin.zero_eta,
      Fin.mk_one, Fin.reduceAdd, zero_add] <;> ring

/-- Barycentric coordinates of a point of the plane of the triangle, computed in the projection. -/
theorem bary3 (P : Fin 3 → Fin 3 → K) (p : Fin 3 → K) (x y z : Fin 3)
    (hxyz : (x = z + 1 ∧ y = z + 2) ∨ (x = z + 2 ∧ y = z + 1)) (hz : triangleNormal P z ≠ 0)
    (hplane : ∑ j, triangleNormal P j * (p j - P 0 j) = 0) (j : Fin 3) :
    p j * (orient (P 0) (P 1) p x y + orient (P 1) (P 2) p x y + orient (P 2) (P 0) p x y)
      = orient (P 1) (P 2) p x y * P 0 j + orient (P 2) (P 0) p x y * P 1 j + orient (P 0) (P 1) p x y * P 2 j := by
  have hx : ∀ p : Fin 3 → K, p x * (orient (P 0) (P 1) p x y + orient (P 1) (P 2) p x y + orient (P 2) (P 0) p x y)
      = orient (P 1) (P 2) p x y * P 0 x + orient (P 2) (P 0) p x y * P 1 x + orient (P 0) (P 1) p x y * P 2 x := by
    intro p; simp only [orient]; ring
  have hy : ∀ p : Fin 3 → K, p y * (orient (P 0) (P 1) p x y + orient (P 1) (P 2) p x y + orient (P 2) (P 0) p x y)
      = orient (P 1) (P 2) p x y * P 0 y + orient (P 2) (P 0) p x y * P 1 y + orient (P 0) (P 1) p x y * P 2 y := by
    intro p; simp only [orient]; ring
  have hzz : triangleNormal P z * (p z * (orient (P 0) (P 1) p x y + orient (P 1) (P 2) p x y + orient (P 2) (P 0) p x y))
      = triangleNormal P z * (orient (P 1) (P 2) p x y * P 0 z + orient (P 2) (P 0) p x y * P 1 z
        + orient (P 0) (P 1) p x y * P 2 z) := by
    have hp := hplane
    rw [sum_fin3] at hp
    simp only [area_eq_normal] at hp ⊢
    rcases hxyz with ⟨rfl, rfl⟩ | ⟨rfl, rfl⟩ <;> fin_cases z <;>
      simp only [orient, Fin.isValue, Fin.reduceFinMk, Fin.zero_eta, Fin.mk_one, Fin.reduceAdd, zero_add] at hp ⊢
    · linear_combination ((P 1 1 - P 0 1) * (P 2 2 - P 0 2) - (P 1 2 - P 0 2) * (P 2 1 - P 0 1)) * hp
    · linear_combination ((P 1 2 - P 0 2) * (P 2 0 - P 0 0) - (P 1 0 - P 0 0) * (P 2 2 - P 0 2)) * hp
    · linear_combination ((P 1 0 - P 0 0) * (P 2 1 - P 0 1) - (P 1 1 - P 0 1) * (P 2 0 - P 0 0)) * hp
    · linear_combination -((P 1 1 - P 0 1) * (P 2 2 - P 0 2) - (P 1 2 - P 0 2) * (P 2 1 - P 0 1)) * hp
    · linear_combination -((P 1 2 - P 0 2) * (P 2 0 - P 0 0) - (P 1 0 - P 0 0) * (P 2 2 - P 0 2)) * hp
    · linear_combination -((P 1 0 - P 0 0) * (P 2 1 - P 0 1) - (P 1 1 - P 0 1) * (P 2 0 - P 0 0)) * hp
  have hj : j = x ∨ j = y ∨ j = z := by
    have e1 : ∀ z j : Fin 3, j = z + 1 ∨ j = z + 2 ∨ j = z := by decide
    have e2 : ∀ z j : Fin 3, j = z + 2 ∨ j = z + 1 ∨ j = z := by decide
    rcases hxyz with ⟨rfl, rfl⟩ | ⟨rfl, rfl⟩
    · exact e1 z j
    · exact e2 z j
  rcases hj with rfl | rfl | rfl
  · exact hx p
  · exact hy p
  · exact mul_left_cancel₀ hz hzz

/-- The part of the polygon test after the edges, for a normal that is a positive multiple of the cross product. -/
theorem triangle_inner (P : Fin 3 → Fin 3 → K) (k : K) (hk : 0 < k) (hn : triangleNormal P ≠ 0)
    (hedge : ∀ i : Fin 3, ¬ ∃ x, Spec.OnSegment (P i) (P (i + 1)) x ∧ Spec.InCube x)
    (n d : Fin 3 → K) (hnk : n = fun j => k * triangleNormal P j) (hd : d = fun j => if n j < 0 then -1 else 1)
    (x y z : Fin 3) (hz : n z ≠ 0) (hx : x = if n z < 0 then z + 2 else z + 1) (hy : y = if n z < 0 then z + 1 else z + 2)
    (t : K) (ht : t * (∑ j, n j * d j) = ∑ j, n j * P 0 j) :
    (-1 ≤ t ∧ t ≤ 1 ∧ crossCount P (fun j => d j * t) x y ≠ 0) ↔ ∃ q, Spec.InTriangle (P 0) (P 1) (P 2) q ∧ Spec.InCube q := by
  have hnd : ∀ j, n j * d j = |n j| := fun j => by
    rw [hd]
    by_cases h : n j < 0
    · simp only [h, if_true]; rw [abs_of_neg h]; ring
    · simp only [h, if_false]; rw [abs_of_nonneg (not_lt.mp h)]; ring
  have hden : ∑ j, n j * d j = ∑ j, |n j| := Finset.sum_congr rfl fun j _ => hnd j
  have hden0 : 0 < ∑ j, |n j| := by
    have h1 : 0 < |n z| := abs_pos.mpr hz
    exact lt_of_lt_of_le h1 (Finset.single_le_sum (f := fun j => |n j|) (fun i _ => abs_nonneg _) (Finset.mem_univ z))
  have hNz : triangleNormal P z ≠ 0 := by
    intro h; apply hz; rw [hnk]; simp [h]
  set p : Fin 3 → K := fun j => d j * t with hp
  have hplane : ∑ j, triangleNormal P j * (p j - P 0 j) = 0 := by
    have h1 : k * ∑ j, triangleNormal P j * (p j - P 0 j) = 0 := by
      have h2 : k * ∑ j, triangleNormal P j * (p j - P 0 j) = t * (∑ j, n j * d j) - ∑ j, n j * P 0 j := by
        rw [Finset.mul_sum, Finset.mul_sum, ← Finset.sum_sub_distrib]
        refine Finset.sum_congr rfl fun j _ => ?_
        rw [hnk, hp]; ring
      rw [h2, ht, sub_self]
    exact (mul_eq_zero.mp h1).resolve_left hk.ne'
  have hxyz : (x = z + 1 ∧ y = z + 2) ∨ (x = z + 2 ∧ y = z + 1) := by
    by_cases h : n z < 0
    · right; simp [hx, hy, h]
    · left; simp [hx, hy, h]
  have hA : 0 < (P 1 x - P 0 x) * (P 2 y - P 0 y) - (P 1 y - P 0 y) * (P 2 x - P 0 x) := by
    have hN := area_eq_normal P z
    have hnz : n z = k * triangleNormal P z := by rw [hnk]
    by_cases h : n z < 0
    · simp only [h, if_true] at hx hy
      rw [hx, hy]
      have : triangleNormal P z < 0 := by
        by_contra hc
        rw [not_lt] at hc
        have := mul_nonneg hk.le hc
        linarith
      linarith
    · simp only [h, if_false] at hx hy
      rw [hx, hy, ← hN]
      have : 0 < k * triangleNormal P z := by
        rw [← hnz]; exact lt_of_le_of_ne (not_lt.mp h) (Ne.symm hz)
      exact (mul_pos_iff_of_pos_left hk).mp this
  set A := (P 1 x - P 0 x) * (P 2 y - P 0 y) - (P 1 y - P 0 y) * (P 2 x - P 0 x) with hAdef
  have hsum : orient (P 0) (P 1) p x y + orient (P 1) (P 2) p x y + orient (P 2) (P 0) p x y = A := orient_sum P p x y
  have hb := bary3 P p x y z hxyz hNz hplane
  rw [hsum] at hb
  have hpj : ∀ j, p j = orient (P 1) (P 2) p x y / A * P 0 j + orient (P 2) (P 0) p x y / A * P 1 j
      + orient (P 0) (P 1) p x y / A * P 2 j := fun j => by
    have := hA.ne'
    field_simp
    linarith [hb j]
  have hpcube : -1 ≤ t → t ≤ 1 → Spec.InCube p := fun t0 t1 j => by
    rw [hp, hd]
    by_cases h : n j < 0
    · simp only [h, if_true]; constructor <;> linarith
    · simp only [h, if_false]; constructor <;> linarith
  constructor
  · rintro ⟨t0, t1, hc⟩
    obtain ⟨s0, s1, s2⟩ := count_sound P p x y (by rw [hsum]; exact hA) hc
    refine ⟨p, ⟨_, _, _, div_nonneg s1 hA.le, div_nonneg s2 hA.le, div_nonneg s0 hA.le, ?_, hpj⟩, hpcube t0 t1⟩
    rw [← add_div, ← add_div, div_eq_one_iff_eq hA.ne', ← hsum]; ring
  · rintro ⟨q, ⟨α, β, γ, hα, hβ, hγ, hs, hq⟩, hqc⟩
    -- the plane of the triangle goes through the cube
    have hNP : ∀ i : Fin 3, ∑ j, triangleNormal P j * (P i j - P 0 j) = 0 := fun i => by
      rw [sum_fin3]
      simp only [area_eq_normal]
      fin_cases i <;>
        simp only [Fin.isValue, Fin.reduceFinMk, Fin.zero_eta, Fin.mk_one, Fin.reduceAdd, zero_add] <;> ring
    have hqplane : ∑ j, n j * q j = ∑ j, n j * P 0 j := by
      have h1 := hNP 1
      have h2 := hNP 2
      rw [sum_fin3] at h1 h2 ⊢
      rw [sum_fin3, hq, hq, hq, hnk]
      have : α = 1 - β - γ := by linarith
      rw [this]
      linear_combination k * β * h1 + k * γ * h2
    have hbound : |∑ j, n j * q j| ≤ ∑ j, |n j| := by
      refine (Finset.abs_sum_le_sum_abs _ _).trans (Finset.sum_le_sum fun j _ => ?_)
      rw [abs_mul]
      calc |n j| * |q j| ≤ |n j| * 1 := mul_le_mul_of_nonneg_left (abs_le.mpr (hqc j)) (abs_nonneg _)
        _ = |n j| := mul_one _
    rw [hqplane, ← ht, hden, abs_mul, abs_of_pos hden0] at hbound
    have ht1 : |t| ≤ 1 := by
      by_contra hc
      rw [not_le] at hc
      have := mul_lt_mul_of_pos_right hc hden0
      linarith
    obtain ⟨t0, t1⟩ := abs_le.mp ht1
    refine ⟨t0, t1, ?_⟩
    -- the point `p` is strictly inside, else the way from `q` to `p` leaves the triangle inside the cube
    by_cases hin : 0 < orient (P 0) (P 1) p x y ∧ 0 < orient (P 1) (P 2) p x y ∧ 0 < orient (P 2) (P 0) p x y
    · exact count_complete P p x y hin.1 hin.2.1 hin.2.2
    · exfalso
      obtain ⟨s, s0, s1, hnn, i, hi⟩ := exists_exit ![α, β, γ]
        ![orient (P 1) (P 2) p x y / A, orient (P 2) (P 0) p x y / A, orient (P 0) (P 1) p x y / A]
        (by
          intro i
          fin_cases i
          · exact hα
          · exact hβ
          · exact hγ)
        (by
          by_contra hc
          rw [not_exists] at hc
          have h0 := hc 0
          have h1 := hc 1
          have h2 := hc 2
          simp only [Matrix.cons_val] at h0 h1 h2
          rw [not_le] at h0 h1 h2
          exact hin ⟨(div_pos_iff_of_pos_right hA).mp h2, (div_pos_iff_of_pos_right hA).mp h0,
            (div_pos_iff_of_pos_right hA).mp h1⟩)
      set a' := orient (P 1) (P 2) p x y / A
      set b' := orient (P 2) (P 0) p x y / A
      set c' := orient (P 0) (P 1) p x y / A
      have hs' : a' + b' + c' = 1 := by
        rw [← add_div, ← add_div, div_eq_one_iff_eq hA.ne', ← hsum]; ring
      have g0 := hnn 0
      have g1 := hnn 1
      have g2 := hnn 2
      simp only [Matrix.cons_val] at g0 g1 g2
      have hcube : Spec.InCube (fun j => (1 - s) * q j + s * p j) := fun j => by
        have hq' := hqc j
        have hp' := hpcube t0 t1 j
        have := sub_nonneg.mpr s1
        constructor <;> nlinarith
      have hrj : ∀ j, (1 - s) * q j + s * p j
          = ((1 - s) * α + s * a') * P 0 j + ((1 - s) * β + s * b') * P 1 j + ((1 - s) * γ + s * c') * P 2 j := fun j => by
        rw [hq j, hpj j]; ring
      have htot : ((1 - s) * α + s * a') + ((1 - s) * β + s * b') + ((1 - s) * γ + s * c') = 1 := by
        linear_combination (1 - s) * hs + s * hs'
      fin_cases i
      · simp only [Fin.zero_eta, Matrix.cons_val] at hi
        refine hedge 1 ⟨_, ⟨(1 - s) * γ + s * c', g2, by linarith, fun j => ?_⟩, hcube⟩
        rw [hrj j]
        change _ = _ * P 1 j + _ * P 2 j
        have : (1 - s) * β + s * b' = 1 - ((1 - s) * γ + s * c') := by linarith
        rw [hi, this]; ring
      · simp only [Fin.mk_one, Matrix.cons_val] at hi
        refine hedge 2 ⟨_, ⟨(1 - s) * α + s * a', g0, by linarith, fun j => ?_⟩, hcube⟩
        rw [hrj j]
        change _ = _ * P 2 j + _ * P 0 j
        have : (1 - s) * γ + s * c' = 1 - ((1 - s) * α + s * a') := by linarith
        rw [hi, this]; ring
      · simp only [Fin.reduceFinMk, Matrix.cons_val] at hi
        refine hedge 0 ⟨_, ⟨(1 - s) * β + s * b', g1, by linarith, fun j => ?_⟩, hcube⟩
        rw [hrj j]
        change _ = _ * P 0 j + _ * P 1 j
        have : (1 - s) * α + s * a' = 1 - ((1 - s) * β + s * b') := by linarith
        rw [hi, this]; ring

/-- A point of an edge is a point of the triangle. -/
theorem edge_in_triangle (P : Fin 3 → Fin 3 → K) (i : Fin 3) (x : Fin 3 → K) (h : Spec.OnSegment (P i) (P (i + 1)) x) :
    Spec.InTriangle (P 0) (P 1) (P 2) x := by
  obtain ⟨t, t0, t1, hx⟩ := h
  have := sub_nonneg.mpr t1
  fin_cases i
  · exact ⟨1 - t, t, 0, this, t0, le_refl _, by ring, fun j => by rw [hx j]; change _ * P 0 j + _ * P 1 j = _; ring⟩
  · exact ⟨0, 1 - t, t, le_refl _, this, t0, by ring, fun j => by rw [hx j]; change _ * P 1 j + _ * P 2 j = _; ring⟩
  · exact ⟨t, 0, 1 - t, t0, le_refl _, this, by ring, fun j => by rw [hx j]; change _ * P 2 j + _ * P 0 j = _; ring⟩

theorem triangle_iff (P : Fin 3 → Fin 3 → K) (k : K) (hk : 0 < k) (hn : triangleNormal P ≠ 0) :
    intersectsLocalPolygon P (fun j => k * triangleNormal P j) 0 = true ↔
      ∃ q, Spec.InTriangle (P 0) (P 1) (P 2) q ∧ Spec.InCube q := by
  set n : Fin 3 → K := fun j => k * triangleNormal P j with hnk
  have hn0 : n ≠ 0 := by
    intro h
    apply hn
    funext j
    exact (mul_eq_zero.mp (congrFun h j)).resolve_left hk.ne'
  have hz := projectionAxis_ne_zero n hn0
  unfold intersectsLocalPolygon
  by_cases he : (List.finRange 3).any (fun i => intersectsLocalSegment (P i) (P (i + 1)) 0) = true
  · rw [if_pos he]
    rw [List.any_eq_true] at he
    obtain ⟨i, _, hi⟩ := he
    obtain ⟨x, hx, hc⟩ := (segment_iff _ _).mp hi
    exact ⟨fun _ => ⟨x, edge_in_triangle P i x hx, hc⟩, fun _ => rfl⟩
  · rw [if_neg he]
    rw [List.any_eq_true, not_exists] at he
    have hedge : ∀ i : Fin 3, ¬ ∃ x, Spec.OnSegment (P i) (P (i + 1)) x ∧ Spec.InCube x := fun i h =>
      he i ⟨List.mem_finRange i, (segment_iff _ _).mpr h⟩
    have hden : ∑ j, n j * (if n j < 0 then (-1 : K) else 1) = ∑ j, |n j| := Finset.sum_congr rfl fun j _ => by
      by_cases h : n j < 0
      · simp only [h, if_true]; rw [abs_of_neg h]; ring
      · simp only [h, if_false]; rw [abs_of_nonneg (not_lt.mp h)]; ring
    have hden0 : (0 : K) < ∑ j, |n j| :=
      lt_of_lt_of_le (abs_pos.mpr hz)
        (Finset.single_le_sum (f := fun j => |n j|) (fun i _ => abs_nonneg _) (Finset.mem_univ (projectionAxis n)))
    have key := triangle_inner P k hk hn hedge n (fun j => if n j < 0 then -1 else 1) hnk rfl _ _ (projectionAxis n) hz rfl rfl
      ((∑ j, n j * P 0 j) / ∑ j, n j * (if n j < 0 then (-1 : K) else 1))
      (div_mul_cancel₀ _ (by rw [hden]; exact hden0.ne'))
    rw [← key]
    simp only []
    rw [if_neg (by rw [hden]; exact hden0.ne')]
    by_cases ht : inClosedInterval (-1 - 0) ((∑ j, n j * P 0 j) / ∑ j, n j * (if n j < 0 then (-1 : K) else 1)) (1 + 0) = true
    · rw [ht]
      rw [inClosedInterval_iff (by norm_num)] at ht
      simp only [sub_zero, add_zero] at ht
      simp only [Bool.not_true, Bool.false_eq_true, if_false, decide_eq_true_eq]
      have hl : ((List.finRange 3).map fun i => crossing (P i) (P (i + 1))
          (fun j => (if n j < 0 then (-1 : K) else 1) * ((∑ j, n j * P 0 j) / ∑ j, n j * (if n j < 0 then (-1 : K) else 1)))
          (if n (projectionAxis n) < 0 then projectionAxis n + 2 else projectionAxis n + 1)
          (if n (projectionAxis n) < 0 then projectionAxis n + 1 else projectionAxis n + 2) 0).sum
          = crossCount P (fun j => (if n j < 0 then (-1 : K) else 1) * ((∑ j, n j * P 0 j) / ∑ j, n j * (if n j < 0 then (-1 : K) else 1)))
          (if n (projectionAxis n) < 0 then projectionAxis n + 2 else projectionAxis n + 1)
          (if n (projectionAxis n) < 0 then projectionAxis n + 1 else projectionAxis n + 2) := by
        rw [List.finRange_succ, List.finRange_succ, List.finRange_succ]
        simp only [List.finRange_zero, List.map_cons, List.map_nil, List.sum_cons, List.sum_nil, add_zero, crossCount, ← add_assoc]
        rfl
      rw [hl]
      exact ⟨fun h => ⟨ht.1, ht.2, h⟩, fun h => h.2.2⟩
    · rw [Bool.not_eq_true] at ht
      rw [ht]
      simp only [Bool.not_false, if_true, Bool.false_eq_true, false_iff]
      rintro ⟨t0, t1, _⟩
      have : inClosedInterval (-1 - 0) ((∑ j, n j * P 0 j) / ∑ j, n j * (if n j < 0 then (-1 : K) else 1)) (1 + 0) = true := by
        rw [inClosedInterval_iff (by norm_num)]
        simp only [sub_zero, add_zero]
        exact ⟨t0, t1⟩
      rw [ht] at this
      exact absurd this (by simp)

/-- Every point of a flat triangle is on an edge. -/
theorem flat_on_edge (P : Fin 3 → Fin 3 → K) (hn : triangleNormal P = 0) (q : Fin 3 → K)
    (hq : Spec.InTriangle (P 0) (P 1) (P 2) q) : ∃ i : Fin 3, Spec.OnSegment (P i) (P (i + 1)) q := by
  obtain ⟨α, β, γ, hα, hβ, hγ, hs, hq⟩ := hq
  by_cases hu : ∀ j, P 1 j - P 0 j = 0
  · refine ⟨2, 1 - γ, by linarith, by linarith, fun j => ?_⟩
    change _ = _ * P 2 j + _ * P 0 j
    rw [hq j]
    have : α = 1 - β - γ := by linarith
    rw [this]
    linear_combination β * hu j
  · rw [not_forall] at hu
    obtain ⟨k, hk⟩ := hu
    have hpar : ∀ j, P 2 j - P 0 j = (P 2 k - P 0 k) / (P 1 k - P 0 k) * (P 1 j - P 0 j) := fun j => by
      rw [div_mul_eq_mul_div, eq_div_iff hk]
      have n0 := congrFun hn 0
      have n1 := congrFun hn 1
      have n2 := congrFun hn 2
      rw [area_eq_normal] at n0 n1 n2
      simp only [Fin.isValue, Fin.reduceFinMk, Fin.zero_eta, Fin.mk_one, Fin.reduceAdd, zero_add, Pi.zero_apply] at n0 n1 n2
      fin_cases j <;> fin_cases k <;> simp only [Fin.isValue, Fin.reduceFinMk, Fin.zero_eta, Fin.mk_one] <;>
        first
        | ring1
        | (linear_combination (norm := ring1) n0)
        | (linear_combination (norm := ring1) n1)
        | (linear_combination (norm := ring1) n2)
        | (linear_combination (norm := ring1) -n0)
        | (linear_combination (norm := ring1) -n1)
        | (linear_combination (norm := ring1) -n2)
    set s := (P 2 k - P 0 k) / (P 1 k - P 0 k)
    have hqj : ∀ j, q j = P 0 j + (β + γ * s) * (P 1 j - P 0 j) := fun j => by
      rw [hq j]
      have : α = 1 - β - γ := by linarith
      rw [this]
      linear_combination γ * hpar j
    by_cases h0 : β + γ * s < 0
    · have hs0 : s < 0 := by
        by_contra hc
        rw [not_lt] at hc
        linarith [mul_nonneg hγ hc]
      refine ⟨2, 1 - (β + γ * s) / s, ?_, ?_, fun j => ?_⟩
      · rw [sub_nonneg, div_le_one_of_neg hs0]
        nlinarith
      · linarith [div_pos_of_neg_of_neg h0 hs0]
      · change _ = _ * P 2 j + _ * P 0 j
        rw [hqj j]
        have e : P 2 j = P 0 j + s * (P 1 j - P 0 j) := by linarith [hpar j]
        rw [e]
        have := hs0.ne
        field_simp
        ring
    · rw [not_lt] at h0
      by_cases h1 : β + γ * s ≤ 1
      · refine ⟨0, β + γ * s, h0, h1, fun j => ?_⟩
        change _ = _ * P 0 j + _ * P 1 j
        rw [hqj j]; ring
      · rw [not_le] at h1
        have hs1 : 1 < s := by
          by_contra hc
          rw [not_lt] at hc
          nlinarith
        have hs0 : 0 < s := by linarith
        refine ⟨2, 1 - (β + γ * s) / s, ?_, ?_, fun j => ?_⟩
        · rw [sub_nonneg, div_le_one hs0]
          nlinarith
        · linarith [div_nonneg h0 hs0.le]
        · change _ = _ * P 2 j + _ * P 0 j
          rw [hqj j]
          have e : P 2 j = P 0 j + s * (P 1 j - P 0 j) := by linarith [hpar j]
          rw [e]
          have := hs0.ne'
          field_simp
          ring

theorem triangle_degenerate (P : Fin 3 → Fin 3 → K) (hn : triangleNormal P = 0) :
    intersectsLocalPolygon P 0 0 = true ↔ ∃ x, Spec.InTriangle (P 0) (P 1) (P 2) x ∧ Spec.InCube x := by
  unfold intersectsLocalPolygon
  by_cases he : (List.finRange 3).any (fun i => intersectsLocalSegment (P i) (P (i + 1)) 0) = true
  · rw [if_pos he]
    rw [List.any_eq_true] at he
    obtain ⟨i, _, hi⟩ := he
    obtain ⟨x, hx, hc⟩ := (segment_iff _ _).mp hi
    exact ⟨fun _ => ⟨x, edge_in_triangle P i x hx, hc⟩, fun _ => rfl⟩
  · rw [if_neg he]
    simp only [Pi.zero_apply, zero_mul, Finset.sum_const_zero, if_true, Bool.false_eq_true, false_iff]
    rintro ⟨x, hx, hc⟩
    obtain ⟨i, hi⟩ := flat_on_edge P hn x hx
    apply he
    rw [List.any_eq_true]
    exact ⟨i, List.mem_finRange i, (segment_iff _ _).mpr ⟨x, hi, hc⟩⟩

end Caribou
