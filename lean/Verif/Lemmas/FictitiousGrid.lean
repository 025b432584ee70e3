import Verif.Spec.FictitiousGrid
import Verif.Props.Grid
import Mathlib.Tactic.Linarith
import Mathlib.Tactic.FieldSimp
import Mathlib.Tactic.Ring
import Mathlib.Tactic.FinCases
import Mathlib.Tactic.NormNum

/-! Cell trees, dyadic coordinates and neighbours. -/

set_option autoImplicit false
set_option linter.all false

namespace Caribou.FictitiousGrid

open Spec

/-- Two or three dimensions. -/
def Is23 (D : ℕ) : Prop := D = 2 ∨ D = 3

theorem Is23.dim {D : ℕ} (h : Is23 D) : IsDim D := by
  rcases h with rfl | rfl <;> simp [IsDim]

section Tables

variable {D : ℕ}

theorem sub01 (h : Is23 D) (i : Fin (2 ^ D)) (a : Fin D) : subcellCoordinates D i a = 0 ∨ subcellCoordinates D i a = 1 := by
  rcases h with rfl | rfl <;> revert i a <;> decide

theorem sub_inj (h : Is23 D) {i j : Fin (2 ^ D)} (e : ∀ a, subcellCoordinates D i a = subcellCoordinates D j a) : i = j := by
  rcases h with rfl | rfl <;> revert i j <;> decide

theorem sub_index (h : Is23 D) (c : Fin D → ℤ) (hc : ∀ a, c a = 0 ∨ c a = 1) (a : Fin D) :
    subcellCoordinates D (subcellIndex D c) a = c a := by
  rcases h with rfl | rfl
  · have e : c = ![c 0, c 1] := by ext b; fin_cases b <;> rfl
    rw [e]
    rcases hc 0 with h0 | h0 <;> rcases hc 1 with h1 | h1 <;> rw [h0, h1] <;> revert a <;> decide
  · have e : c = ![c 0, c 1, c 2] := by ext b; fin_cases b <;> rfl
    rw [e]
    rcases hc 0 with h0 | h0 <;> rcases hc 1 with h1 | h1 <;> rcases hc 2 with h2 | h2 <;> rw [h0, h1, h2] <;>
      revert a <;> decide

theorem center_eq {K : Type*} [Field K] [CharZero K] (h : Is23 D) (i : Fin (2 ^ D)) (a : Fin D) :
    (subcellCenter D i a : K) = (subcellCoordinates D i a : K) - 1 / 2 := by
  rcases h with rfl | rfl <;> fin_cases i <;> fin_cases a <;>
    simp only [subcellCenter, subcellCoordinates, Matrix.cons_val, Fin.isValue, Fin.reduceFinMk, Fin.zero_eta, Fin.mk_one] <;>
    norm_num <;> simp <;> norm_num

end Tables

/-! ### Dyadic coordinates -/

variable {D : ℕ}

/-- Integer coordinate of the cell at the end of a path (deepest index first) below a top cell with coordinates `T`, in
units of the size of the cell. -/
def val (T : Fin D → ℤ) (a : Fin D) : List (Fin (2 ^ D)) → ℤ
  | [] => T a
  | i :: up => 2 * val T a up + subcellCoordinates D i a

/-- Coordinate of a path relative to its origin. -/
def bits (a : Fin D) (p : List (Fin (2 ^ D))) : ℤ := val (fun _ => 0) a p

theorem bits_cons (a : Fin D) (i : Fin (2 ^ D)) (p : List (Fin (2 ^ D))) :
    bits a (i :: p) = 2 * bits a p + subcellCoordinates D i a := rfl

theorem bits_range (h : Is23 D) (a : Fin D) (p : List (Fin (2 ^ D))) : 0 ≤ bits a p ∧ bits a p < 2 ^ p.length := by
  induction p with
  | nil => simp [bits, val]
  | cons i p ih =>
    rw [bits_cons, List.length_cons, pow_succ]
    rcases sub01 h i a with e | e <;> rw [e] <;> constructor <;> linarith [ih.1, ih.2]

theorem val_append (T : Fin D → ℤ) (a : Fin D) (e p : List (Fin (2 ^ D))) :
    val T a (e ++ p) = 2 ^ e.length * val T a p + bits a e := by
  induction e with
  | nil => simp [bits, val]
  | cons i e ih => rw [List.cons_append, val, ih, bits_cons, List.length_cons, pow_succ]; ring

theorem val_inj (h : Is23 D) {T T' : Fin D → ℤ} {p q : List (Fin (2 ^ D))} (hl : p.length = q.length)
    (e : ∀ a, val T a p = val T' a q) : T = T' ∧ p = q := by
  induction p generalizing q with
  | nil =>
    cases q with
    | nil => exact ⟨funext e, rfl⟩
    | cons i q => simp at hl
  | cons i p ih =>
    cases q with
    | nil => simp at hl
    | cons j q =>
      have hv : ∀ a, val T a p = val T' a q ∧ subcellCoordinates D i a = subcellCoordinates D j a := fun a => by
        have := e a
        simp only [val] at this
        rcases sub01 h i a with e1 | e1 <;> rcases sub01 h j a with e2 | e2 <;> rw [e1, e2] at this ⊢ <;> omega
      obtain ⟨rfl, rfl⟩ := ih (by simpa using hl) fun a => (hv a).1
      exact ⟨rfl, by rw [sub_inj h fun a => (hv a).2]⟩

theorem bits_zero (h : Is23 D) (a : Fin D) (p : List (Fin (2 ^ D))) :
    bits a p = 0 ↔ ∀ i ∈ p, subcellCoordinates D i a = 0 := by
  induction p with
  | nil => simp [bits, val]
  | cons i p ih =>
    have := bits_range h a p
    rw [bits_cons, List.forall_mem_cons, ← ih]
    rcases sub01 h i a with e | e <;> rw [e] <;> omega

theorem bits_ones (h : Is23 D) (a : Fin D) (p : List (Fin (2 ^ D))) :
    bits a p = 2 ^ p.length - 1 ↔ ∀ i ∈ p, subcellCoordinates D i a = 1 := by
  induction p with
  | nil => simp [bits, val]
  | cons i p ih =>
    have := bits_range h a p
    rw [bits_cons, List.forall_mem_cons, ← ih, List.length_cons, pow_succ]
    rcases sub01 h i a with e | e <;> rw [e] <;> omega

/-! ### Boxes -/

section Boxes

variable {K : Type*} [Field K] [CharZero K]

theorem refBox_size (g : Grid D K) (p : List (Fin (2 ^ D))) (top : ℤ) (a : Fin D) :
    (refBox g p top).size a = g.H a / 2 ^ p.length := by
  induction p with
  | nil => simp [refBox, gridBox]
  | cons i p ih =>
    show (refBox g p top).size a / 2 = _
    rw [ih, List.length_cons, pow_succ]
    field_simp

theorem refBox_lower (h : Is23 D) (g : Grid D K) (p : List (Fin (2 ^ D))) (top : ℤ) (a : Fin D) :
    lower (refBox g p top) a = g.anchor a + g.H a * ((val (g.cellCoordinatesAt top) a p : ℤ) : K) / 2 ^ p.length := by
  induction p with
  | nil => simp only [lower, refBox, gridBox, Grid.cellCenter, val, List.length_nil, pow_zero]; ring
  | cons i p ih =>
    have e : lower (refBox g (i :: p) top) a
        = lower (refBox g p top) a + (subcellCoordinates D i a : K) * ((refBox g p top).size a / 2) := by
      simp only [lower, refBox, Box.child, Box.world, center_eq h]
      ring
    rw [e, ih, refBox_size]
    simp only [val, List.length_cons, pow_succ]
    push_cast
    field_simp
    ring

theorem refBox_upper (h : Is23 D) (g : Grid D K) (p : List (Fin (2 ^ D))) (top : ℤ) (a : Fin D) :
    upper (refBox g p top) a = g.anchor a + g.H a * (((val (g.cellCoordinatesAt top) a p : ℤ) : K) + 1) / 2 ^ p.length := by
  have e : upper (refBox g p top) a = lower (refBox g p top) a + (refBox g p top).size a := by
    simp only [lower, upper]; ring
  rw [e, refBox_lower h, refBox_size]
  ring

end Boxes

/-- Two dyadic cells share a face: integer version of `Spec.SharesFace`. -/
def IAdj (n m : Fin D → ℤ) (k l : ℕ) (axis : Fin D) (dir : ℤ) : Prop :=
  (if dir = 1 then m axis * 2 ^ k = (n axis + 1) * 2 ^ l else (m axis + 1) * 2 ^ k = n axis * 2 ^ l) ∧
    ∀ a, a ≠ axis → n a * 2 ^ l < (m a + 1) * 2 ^ k ∧ m a * 2 ^ k < (n a + 1) * 2 ^ l

section Adj

variable {K : Type*} [Field K] [LinearOrder K] [IsStrictOrderedRing K]

theorem dy_eq {o H : K} (hH : 0 < H) (x y : ℤ) (k l : ℕ) :
    o + H * (x : K) / 2 ^ l = o + H * (y : K) / 2 ^ k ↔ x * 2 ^ k = y * 2 ^ l := by
  have e : (x : K) / 2 ^ l = (y : K) / 2 ^ k ↔ x * 2 ^ k = y * 2 ^ l := by
    rw [div_eq_div_iff (by positivity) (by positivity)]
    exact_mod_cast Iff.rfl
  rw [← e, add_right_inj, mul_div_assoc, mul_div_assoc]
  exact ⟨fun h => mul_left_cancel₀ hH.ne' h, fun h => by rw [h]⟩

theorem dy_lt {o H : K} (hH : 0 < H) (x y : ℤ) (k l : ℕ) :
    o + H * (x : K) / 2 ^ l < o + H * (y : K) / 2 ^ k ↔ x * 2 ^ k < y * 2 ^ l := by
  have e : (x : K) / 2 ^ l < (y : K) / 2 ^ k ↔ x * 2 ^ k < y * 2 ^ l := by
    rw [div_lt_div_iff₀ (by positivity) (by positivity)]
    exact_mod_cast Iff.rfl
  rw [← e, add_lt_add_iff_left, mul_div_assoc, mul_div_assoc]
  exact ⟨fun h => lt_of_mul_lt_mul_left h hH.le, fun h => mul_lt_mul_of_pos_left h hH⟩

theorem sharesFace_iff (h : Is23 D) (g : Grid D K) (hH : ∀ a, 0 < g.H a) (p q : List (Fin (2 ^ D))) (t u : ℤ) (axis : Fin D)
    (dir : ℤ) : SharesFace (refBox g p t) (refBox g q u) axis dir ↔
      IAdj (fun a => val (g.cellCoordinatesAt t) a p) (fun a => val (g.cellCoordinatesAt u) a q) p.length q.length axis dir := by
  unfold SharesFace IAdj
  refine and_congr ?_ (forall_congr' fun a => imp_congr_right fun _ => and_congr ?_ ?_)
  · by_cases hd : dir = 1
    · rw [if_pos hd, if_pos hd, refBox_lower h, refBox_upper h]
      have := dy_eq (o := g.anchor axis) (hH axis) (val (g.cellCoordinatesAt u) axis q)
        (val (g.cellCoordinatesAt t) axis p + 1) p.length q.length
      push_cast at this ⊢
      exact this
    · rw [if_neg hd, if_neg hd, refBox_lower h, refBox_upper h]
      have := dy_eq (o := g.anchor axis) (hH axis) (val (g.cellCoordinatesAt u) axis q + 1)
        (val (g.cellCoordinatesAt t) axis p) p.length q.length
      push_cast at this ⊢
      exact this
  · rw [refBox_lower h, refBox_upper h]
    have := dy_lt (o := g.anchor a) (hH a) (val (g.cellCoordinatesAt t) a p) (val (g.cellCoordinatesAt u) a q + 1) q.length p.length
    push_cast at this ⊢
    exact this
  · rw [refBox_lower h, refBox_upper h]
    have := dy_lt (o := g.anchor a) (hH a) (val (g.cellCoordinatesAt u) a q) (val (g.cellCoordinatesAt t) a p + 1) p.length q.length
    push_cast at this ⊢
    exact this

end Adj

end Caribou.FictitiousGrid
