import Verif.Model.Grid
import Verif.Spec.Grid
import Verif.Lemmas.Basic
import Verif.Lemmas.Elements
import Mathlib.Tactic.Linarith
import Mathlib.Tactic.LinearCombination
import Mathlib.Tactic.FieldSimp
import Mathlib.Tactic.FinCases
import Mathlib.Tactic.NormNum
import Mathlib.Tactic.Ring

/-! Flat indices of grids. -/

set_option autoImplicit false
set_option linter.all false

namespace Caribou

open Spec

theorem toU64_id {x : ℤ} (h0 : 0 ≤ x) (h1 : x < 2 ^ 64) : toU64 x = x := Int.emod_eq_of_lt h0 h1

theorem toI64_id {x : ℤ} (h0 : 0 ≤ x) (h1 : x < 2 ^ 63) : toI64 x = x := by
  have e : x % ((2 ^ 64 : ℕ) : ℤ) = x := Int.emod_eq_of_lt h0 (by push_cast; linarith)
  unfold toI64
  rw [Int.bmod_def, e, if_pos]
  norm_num at h1 ⊢
  omega

/-! ### Two axes -/

theorem enc2_bound {X Y i j : ℤ} (hi0 : 0 ≤ i) (hi : i < X) (hj0 : 0 ≤ j) (hj : j < Y) :
    0 ≤ j * X + i ∧ j * X + i < X * Y := by
  have : (j + 1) * X ≤ Y * X := mul_le_mul_of_nonneg_right (by omega) (by omega)
  constructor
  · have := mul_nonneg hj0 (by omega : 0 ≤ X); omega
  · nlinarith

theorem dec_div {X i j : ℤ} (hi0 : 0 ≤ i) (hi : i < X) : (j * X + i) / X = j := by
  rw [add_comm, Int.add_mul_ediv_right _ _ (by omega : X ≠ 0), Int.ediv_eq_zero_of_lt hi0 hi, zero_add]

theorem dec2 {X Y m : ℤ} (hX : 0 < X) (h0 : 0 ≤ m) (h1 : m < X * Y) :
    0 ≤ m / X ∧ m / X < Y ∧ 0 ≤ m - m / X * X ∧ m - m / X * X < X := by
  have e := Int.mul_ediv_add_emod m X
  have r0 := Int.emod_nonneg m hX.ne'
  have r1 := Int.emod_lt_of_pos m hX
  refine ⟨Int.ediv_nonneg h0 hX.le, Int.ediv_lt_of_lt_mul hX (by linarith), ?_, ?_⟩
  · linarith [mul_comm X (m / X)]
  · linarith [mul_comm X (m / X)]

theorem enc3_bound {X Y Z i j k : ℤ} (hi0 : 0 ≤ i) (hi : i < X) (hj0 : 0 ≤ j) (hj : j < Y) (hk0 : 0 ≤ k) (hk : k < Z) :
    0 ≤ k * Y * X + j * X + i ∧ k * Y * X + j * X + i < X * Y * Z := by
  have h := enc2_bound hi0 hi hj0 hj
  have h' := enc2_bound h.1 h.2 hk0 hk
  constructor <;> linarith [h'.1, h'.2, mul_comm X Y, mul_assoc k X Y, mul_assoc k Y X]

theorem dec3_div {X Y i j k : ℤ} (hi0 : 0 ≤ i) (hi : i < X) (hj0 : 0 ≤ j) (hj : j < Y) :
    (k * Y * X + j * X + i) / (X * Y) = k := by
  have h := enc2_bound hi0 hi hj0 hj
  have e : k * Y * X + j * X + i = k * (X * Y) + (j * X + i) := by ring
  rw [e]
  exact dec_div (j := k) h.1 h.2

/-- Common form of `node_index_at` and `cell_index_at`, before reduction modulo `2^64`. -/
def flat : {d : ℕ} → (Fin d → ℤ) → (Fin d → ℤ) → ℤ
  | 1, _, c => c 0
  | 2, X, c => c 1 * X 0 + c 0
  | 3, X, c => c 2 * X 1 * X 0 + c 1 * X 0 + c 0
  | _, _, _ => 0

/-- Common form of `node_coordinates_at` and `cell_coordinates_at`. -/
def unflat : {d : ℕ} → (Fin d → ℤ) → ℤ → (Fin d → ℤ)
  | 1, _, m => fun _ => m
  | 2, X, m => ![m - m / X 0 * X 0, m / X 0]
  | 3, X, m =>
    ![m - (m / (X 0 * X 1) * X 0 * X 1 + (m - m / (X 0 * X 1) * X 0 * X 1) / X 0 * X 0),
      (m - m / (X 0 * X 1) * X 0 * X 1) / X 0, m / (X 0 * X 1)]
  | _, _, _ => fun _ => 0

/-- The dimensions a grid may have (`static_assert` in `BaseGrid.h:53`). -/
def IsDim (d : ℕ) : Prop := d = 1 ∨ d = 2 ∨ d = 3

theorem prod_fin1 (f : Fin 1 → ℤ) : ∏ a, f a = f 0 := by simp
theorem prod_fin2 (f : Fin 2 → ℤ) : ∏ a, f a = f 0 * f 1 := Fin.prod_univ_two f
theorem prod_fin3 (f : Fin 3 → ℤ) : ∏ a, f a = f 0 * f 1 * f 2 := Fin.prod_univ_three f

theorem flat_bound {d : ℕ} (hd : IsDim d) (X c : Fin d → ℤ) (hc : ∀ a, 0 ≤ c a ∧ c a < X a) :
    0 ≤ flat X c ∧ flat X c < ∏ a, X a := by
  rcases hd with rfl | rfl | rfl
  · rw [prod_fin1]; exact hc 0
  · rw [prod_fin2]; exact enc2_bound (hc 0).1 (hc 0).2 (hc 1).1 (hc 1).2
  · rw [prod_fin3]; exact enc3_bound (hc 0).1 (hc 0).2 (hc 1).1 (hc 1).2 (hc 2).1 (hc 2).2

theorem unflat_flat {d : ℕ} (hd : IsDim d) (X c : Fin d → ℤ) (hc : ∀ a, 0 ≤ c a ∧ c a < X a) :
    unflat X (flat X c) = c := by
  rcases hd with rfl | rfl | rfl
  · funext a; fin_cases a; rfl
  · have e := dec_div (j := c 1) (hc 0).1 (hc 0).2
    funext a
    fin_cases a
    · change c 1 * X 0 + c 0 - (c 1 * X 0 + c 0) / X 0 * X 0 = c 0
      rw [e]; ring
    · exact e
  · have e := dec3_div (k := c 2) (hc 0).1 (hc 0).2 (hc 1).1 (hc 1).2
    have e2 : (c 2 * X 1 * X 0 + c 1 * X 0 + c 0 - c 2 * X 0 * X 1) / X 0 = c 1 := by
      have e' : c 2 * X 1 * X 0 + c 1 * X 0 + c 0 - c 2 * X 0 * X 1 = c 1 * X 0 + c 0 := by ring
      rw [e']
      exact dec_div (j := c 1) (hc 0).1 (hc 0).2
    funext a
    fin_cases a
    · simp only [unflat, flat, Fin.zero_eta, Fin.isValue, Matrix.cons_val]
      rw [e, e2]; ring
    · simp only [unflat, flat, Fin.mk_one, Fin.isValue, Matrix.cons_val]
      rw [e, e2]
    · simp only [unflat, flat, Fin.reduceFinMk, Fin.isValue, Matrix.cons_val]
      exact e

theorem unflat_bound {d : ℕ} (hd : IsDim d) (X : Fin d → ℤ) (hX : ∀ a, 0 < X a) (m : ℤ) (h0 : 0 ≤ m) (h1 : m < ∏ a, X a) :
    ∀ a, 0 ≤ unflat X m a ∧ unflat X m a < X a := by
  rcases hd with rfl | rfl | rfl
  · rw [prod_fin1] at h1
    intro a; fin_cases a; exact ⟨h0, h1⟩
  · rw [prod_fin2] at h1
    obtain ⟨a0, a1, a2, a3⟩ := dec2 (hX 0) h0 h1
    intro a; fin_cases a
    · exact ⟨a2, a3⟩
    · exact ⟨a0, a1⟩
  · rw [prod_fin3] at h1
    obtain ⟨a0, a1, a2, a3⟩ := dec2 (mul_pos (hX 0) (hX 1)) h0 h1
    rw [← mul_assoc] at a2 a3
    obtain ⟨b0, b1, b2, b3⟩ := dec2 (hX 0) a2 a3
    intro a; fin_cases a
    · simp only [unflat, Fin.zero_eta, Fin.isValue, Matrix.cons_val]
      rw [← sub_sub]; exact ⟨b2, b3⟩
    · exact ⟨b0, b1⟩
    · exact ⟨a0, a1⟩

theorem flat_unflat {d : ℕ} (hd : IsDim d) (X : Fin d → ℤ) (m : ℤ) : flat X (unflat X m) = m := by
  rcases hd with rfl | rfl | rfl
  · rfl
  · simp only [flat, unflat, Fin.isValue, Matrix.cons_val]; ring
  · simp only [flat, unflat, Fin.isValue, Matrix.cons_val]; ring

theorem flat_inj {d : ℕ} (hd : IsDim d) (X c c' : Fin d → ℤ) (hc : ∀ a, 0 ≤ c a ∧ c a < X a)
    (hc' : ∀ a, 0 ≤ c' a ∧ c' a < X a) (h : flat X c = flat X c') : c = c' := by
  rw [← unflat_flat hd X c hc, h, unflat_flat hd X c' hc']

/-! ### The functions of the grid in terms of `flat` -/

section

variable {d : ℕ} {K : Type*}

theorem nodeIndexAt_eq (hd : IsDim d) (g : Grid d K) (hf : Fits g.n) (c : Fin d → ℤ) (hc : IsNode g.n c) :
    g.nodeIndexAt c = flat (fun a => (g.n a : ℤ) + 1) c := by
  obtain ⟨h0, h1⟩ := flat_bound hd (fun a => (g.n a : ℤ) + 1) c fun a => ⟨(hc a).1, by linarith [(hc a).2]⟩
  have h2 := lt_of_lt_of_le h1 hf
  rcases hd with rfl | rfl | rfl
  · rfl
  · exact toI64_id h0 h2
  · exact toI64_id h0 h2

theorem cells_le_nodes (g : Grid d K) : ∏ a, (g.n a : ℤ) ≤ ∏ a, ((g.n a : ℤ) + 1) :=
  Finset.prod_le_prod (fun a _ => by positivity) fun a _ => by linarith

theorem numberOfNodes_eq (g : Grid d K) (hf : Fits g.n) : g.numberOfNodes = ∏ a, ((g.n a : ℤ) + 1) :=
  toU64_id (Finset.prod_nonneg fun a _ => by positivity) (lt_of_le_of_lt hf (by norm_num))

theorem numberOfCells_eq (g : Grid d K) (hf : Fits g.n) : g.numberOfCells = ∏ a, (g.n a : ℤ) :=
  toU64_id (Finset.prod_nonneg fun a _ => by positivity) (lt_of_le_of_lt ((cells_le_nodes g).trans hf) (by norm_num))

theorem cellIndexAt_eq (hd : IsDim d) (g : Grid d K) (hf : Fits g.n) (c : Fin d → ℤ) (hc : IsCell g.n c) :
    g.cellIndexAt c = flat (fun a => (g.n a : ℤ)) c := by
  obtain ⟨h0, h1⟩ := flat_bound hd (fun a => (g.n a : ℤ)) c hc
  have h2 := lt_of_lt_of_le h1 ((cells_le_nodes g).trans hf)
  rcases hd with rfl | rfl | rfl
  · rfl
  · exact toI64_id h0 h2
  · exact toI64_id h0 h2

/-- The axes of a grid that fits are themselves small. -/
theorem axis_lt (g : Grid d K) (hf : Fits g.n) (a : Fin d) : (g.n a : ℤ) + 1 ≤ 2 ^ 63 := by
  refine le_trans ?_ hf
  have : ∀ s : Finset (Fin d), a ∈ s → (g.n a : ℤ) + 1 ≤ ∏ b ∈ s, ((g.n b : ℤ) + 1) := by
    intro s hs
    rw [← Finset.mul_prod_erase s _ hs]
    have h1 : (1 : ℤ) ≤ ∏ b ∈ s.erase a, ((g.n b : ℤ) + 1) := by
      have : (0 : ℤ) < ∏ b ∈ s.erase a, ((g.n b : ℤ) + 1) := Finset.prod_pos fun b _ => by positivity
      omega
    nlinarith [Int.natCast_nonneg (g.n a)]
  exact this _ (Finset.mem_univ a)

theorem nodeCoordinatesAt_eq (hd : IsDim d) (g : Grid d K) (hf : Fits g.n) (m : ℤ) (h0 : 0 ≤ m)
    (h1 : m < ∏ a, ((g.n a : ℤ) + 1)) : g.nodeCoordinatesAt m = unflat (fun a => (g.n a : ℤ) + 1) m := by
  have hX : ∀ a, (0 : ℤ) < (g.n a : ℤ) + 1 := fun a => by positivity
  have hb := unflat_bound hd (fun a => (g.n a : ℤ) + 1) hX m h0 h1
  have hax := axis_lt g hf
  have hm : m < 2 ^ 63 := lt_of_lt_of_le h1 hf
  have hm' : m < 2 ^ 64 := lt_trans hm (by norm_num)
  have big : ∀ x : ℤ, x < 2 ^ 63 → x < 2 ^ 64 := fun x hx => lt_trans hx (by norm_num)
  have big' : ∀ x : ℤ, x ≤ 2 ^ 63 → x < 2 ^ 64 := fun x hx => lt_of_le_of_lt hx (by norm_num)
  rcases hd with rfl | rfl | rfl
  · rfl
  · have b0 := hb 0
    have b1 := hb 1
    simp only [unflat, Fin.isValue, Matrix.cons_val] at b0 b1
    simp only [Grid.nodeCoordinatesAt, unflat]
    rw [toU64_id h0 hm', toU64_id (hX 0).le (big' _ (hax 0)), toU64_id b0.1 (big _ (lt_of_lt_of_le b0.2 (hax 0))),
      toI64_id b0.1 (lt_of_lt_of_le b0.2 (hax 0)), toI64_id b1.1 (lt_of_lt_of_le b1.2 (hax 1))]
  · have b0 := hb 0
    have b1 := hb 1
    have b2 := hb 2
    have hxy : ((g.n 0 : ℤ) + 1) * ((g.n 1 : ℤ) + 1) ≤ 2 ^ 63 := by
      have := hf
      rw [Fits, prod_fin3] at this
      nlinarith [mul_pos (hX 0) (hX 1), hX 2]
    have hxy0 := mul_pos (hX 0) (hX 1)
    simp only [unflat, Fin.isValue, Matrix.cons_val] at b0 b1 b2
    have hr0 : 0 ≤ m - m / (((g.n 0 : ℤ) + 1) * ((g.n 1 : ℤ) + 1)) * ((g.n 0 : ℤ) + 1) * ((g.n 1 : ℤ) + 1) := by
      have := (dec2 (Y := (g.n 2 : ℤ) + 1) hxy0 h0 (by rw [prod_fin3] at h1; exact h1)).2.2.1
      rwa [← mul_assoc] at this
    have hr1 : m - m / (((g.n 0 : ℤ) + 1) * ((g.n 1 : ℤ) + 1)) * ((g.n 0 : ℤ) + 1) * ((g.n 1 : ℤ) + 1) < 2 ^ 64 := by
      have := (dec2 (Y := (g.n 2 : ℤ) + 1) hxy0 h0 (by rw [prod_fin3] at h1; exact h1)).2.2.2
      rw [← mul_assoc] at this
      exact lt_trans this (big' _ hxy)
    simp only [Grid.nodeCoordinatesAt, unflat]
    rw [toU64_id h0 hm', toU64_id hxy0.le (big' _ hxy), toU64_id hr0 hr1, toU64_id (hX 0).le (big' _ (hax 0)),
      toU64_id b0.1 (big _ (lt_of_lt_of_le b0.2 (hax 0))), toI64_id b0.1 (lt_of_lt_of_le b0.2 (hax 0)),
      toI64_id b1.1 (lt_of_lt_of_le b1.2 (hax 1)), toI64_id b2.1 (lt_of_lt_of_le b2.2 (hax 2))]

theorem cellCoordinatesAt_eq (hd : IsDim d) (g : Grid d K) (hf : Fits g.n) (m : ℤ) (h0 : 0 ≤ m)
    (h1 : m < ∏ a, (g.n a : ℤ)) : (∀ a, 0 < g.n a) ∧ g.cellCoordinatesAt m = unflat (fun a => (g.n a : ℤ)) m := by
  have hn : ∀ a, 0 < g.n a := fun a => by
    rcases Nat.eq_zero_or_pos (g.n a) with h | h
    · rw [Finset.prod_eq_zero (Finset.mem_univ a) (by rw [h]; rfl)] at h1
      omega
    · exact h
  refine ⟨hn, ?_⟩
  have hX : ∀ a, (0 : ℤ) < (g.n a : ℤ) := fun a => by exact_mod_cast hn a
  have hb := unflat_bound hd (fun a => (g.n a : ℤ)) hX m h0 h1
  have hax : ∀ a, (g.n a : ℤ) ≤ 2 ^ 63 := fun a => by linarith [axis_lt g hf a]
  have hm : m < 2 ^ 63 := lt_of_lt_of_le h1 ((cells_le_nodes g).trans hf)
  have hm' : m < 2 ^ 64 := lt_trans hm (by norm_num)
  have big : ∀ x : ℤ, x < 2 ^ 63 → x < 2 ^ 64 := fun x hx => lt_trans hx (by norm_num)
  have big' : ∀ x : ℤ, x ≤ 2 ^ 63 → x < 2 ^ 64 := fun x hx => lt_of_le_of_lt hx (by norm_num)
  rcases hd with rfl | rfl | rfl
  · rfl
  · have b0 := hb 0
    have b1 := hb 1
    simp only [unflat, Fin.isValue, Matrix.cons_val] at b0 b1
    simp only [Grid.cellCoordinatesAt, unflat]
    rw [toU64_id h0 hm', toU64_id (hX 0).le (big' _ (hax 0)), toU64_id b0.1 (big _ (lt_of_lt_of_le b0.2 (hax 0))),
      toI64_id b0.1 (lt_of_lt_of_le b0.2 (hax 0)), toI64_id b1.1 (lt_of_lt_of_le b1.2 (hax 1))]
  · have b0 := hb 0
    have b1 := hb 1
    have b2 := hb 2
    have hxy : (g.n 0 : ℤ) * (g.n 1 : ℤ) ≤ 2 ^ 63 := by
      have := (cells_le_nodes g).trans hf
      rw [prod_fin3] at this
      nlinarith [mul_pos (hX 0) (hX 1), hX 2]
    have hxy0 := mul_pos (hX 0) (hX 1)
    simp only [unflat, Fin.isValue, Matrix.cons_val] at b0 b1 b2
    have hr0 : 0 ≤ m - m / ((g.n 0 : ℤ) * (g.n 1 : ℤ)) * (g.n 0 : ℤ) * (g.n 1 : ℤ) := by
      have := (dec2 (Y := (g.n 2 : ℤ)) hxy0 h0 (by rw [prod_fin3] at h1; exact h1)).2.2.1
      rwa [← mul_assoc] at this
    have hr1 : m - m / ((g.n 0 : ℤ) * (g.n 1 : ℤ)) * (g.n 0 : ℤ) * (g.n 1 : ℤ) < 2 ^ 64 := by
      have := (dec2 (Y := (g.n 2 : ℤ)) hxy0 h0 (by rw [prod_fin3] at h1; exact h1)).2.2.2
      rw [← mul_assoc] at this
      exact lt_trans this (big' _ hxy)
    simp only [Grid.cellCoordinatesAt, unflat]
    rw [toU64_id h0 hm', toU64_id hxy0.le (big' _ hxy), toU64_id hr0 hr1, toU64_id (hX 0).le (big' _ (hax 0)),
      toU64_id b0.1 (big _ (lt_of_lt_of_le b0.2 (hax 0))), toI64_id b0.1 (lt_of_lt_of_le b0.2 (hax 0)),
      toI64_id b1.1 (lt_of_lt_of_le b1.2 (hax 1)), toI64_id b2.1 (lt_of_lt_of_le b2.2 (hax 2))]

end

end Caribou
