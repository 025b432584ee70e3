import Verif.Lemmas.Grid

/-! Edge and face numbers of grids. -/

set_option autoImplicit false
set_option linter.all false

namespace Caribou

open Spec

theorem nat_div_mod {q m r : ℕ} (h : r < m) : (q * m + r) / m = q ∧ (q * m + r) % m = r := by
  have hm : 0 < m := by omega
  constructor
  · rw [add_comm, Nat.add_mul_div_right _ _ hm, Nat.div_eq_of_lt h, zero_add]
  · rw [add_comm, Nat.add_mul_mod_self_right, Nat.mod_eq_of_lt h]

theorem nat_split {i m q : ℕ} (hm : 0 < m) : i = i / m * m + i % m ∧ i % m < m :=
  ⟨by rw [mul_comm]; exact (Nat.div_add_mod i m).symm, Nat.mod_lt _ hm⟩

theorem toNat_coords {d : ℕ} {n : Fin d → ℕ} {c : Fin d → ℤ} (h : IsNode n c) :
    ∃ m : Fin d → ℕ, (c = fun a => (m a : ℤ)) ∧ ∀ a, m a ≤ n a := by
  refine ⟨fun a => (c a).toNat, funext fun a => (Int.toNat_of_nonneg (h a).1).symm, fun a => ?_⟩
  have := (h a).2
  change (c a).toNat ≤ n a
  omega

variable {K : Type*}

/-! ### Two dimensions -/

theorem edge2_dir0 [Field K] (g : Grid 2 K) {x y : ℕ} (hx : x < g.n 0) (hy : y ≤ g.n 1) :
    y * (2 * g.n 0 + 1) + x < g.numberOfEdges2 ∧
      g.edge2 (y * (2 * g.n 0 + 1) + x) = (y * (g.n 0 + 1) + x, y * (g.n 0 + 1) + x + 1) := by
  obtain ⟨h1, h2⟩ := nat_div_mod (q := y) (m := 2 * g.n 0 + 1) (r := x) (by omega)
  constructor
  · have := Nat.mul_le_mul_right (2 * g.n 0 + 1) hy
    simp only [Grid.numberOfEdges2]
    rw [mul_comm (2 * g.n 0 + 1)]
    omega
  · simp only [Grid.edge2, h1, h2, if_pos hx]

theorem edge2_dir1 [Field K] (g : Grid 2 K) {x y : ℕ} (hx : x ≤ g.n 0) (hy : y < g.n 1) :
    y * (2 * g.n 0 + 1) + (g.n 0 + x) < g.numberOfEdges2 ∧
      g.edge2 (y * (2 * g.n 0 + 1) + (g.n 0 + x)) = (y * (g.n 0 + 1) + x, (y + 1) * (g.n 0 + 1) + x) := by
  obtain ⟨h1, h2⟩ := nat_div_mod (q := y) (m := 2 * g.n 0 + 1) (r := g.n 0 + x) (by omega)
  constructor
  · have := Nat.mul_le_mul_right (2 * g.n 0 + 1) (show y + 1 ≤ g.n 1 from hy)
    simp only [Grid.numberOfEdges2]
    rw [mul_comm (2 * g.n 0 + 1)]
    rw [Nat.add_mul] at this
    omega
  · simp only [Grid.edge2, h1, h2, if_neg (show ¬ g.n 0 + x < g.n 0 by omega)]
    have e : y * (g.n 0 + 1) + (g.n 0 + x) - g.n 0 = y * (g.n 0 + 1) + x := by omega
    rw [e]
    congr 1
    ring

theorem edge2_cases [Field K] (g : Grid 2 K) {i : ℕ} (hi : i < g.numberOfEdges2) :
    ∃ x y, (x < g.n 0 ∧ y ≤ g.n 1 ∧ i = y * (2 * g.n 0 + 1) + x) ∨
      (x ≤ g.n 0 ∧ y < g.n 1 ∧ i = y * (2 * g.n 0 + 1) + (g.n 0 + x)) := by
  obtain ⟨h1, h2⟩ := nat_split (i := i) (m := 2 * g.n 0 + 1) (q := 0) (by omega)
  set y := i / (2 * g.n 0 + 1)
  set r := i % (2 * g.n 0 + 1)
  simp only [Grid.numberOfEdges2] at hi
  rw [mul_comm (2 * g.n 0 + 1)] at hi
  by_cases hr : r < g.n 0
  · refine ⟨r, y, Or.inl ⟨hr, ?_, h1⟩⟩
    by_contra hc
    have := Nat.mul_le_mul_right (2 * g.n 0 + 1) (show g.n 1 + 1 ≤ y by omega)
    rw [Nat.add_mul] at this
    omega
  · refine ⟨r - g.n 0, y, Or.inr ⟨by omega, ?_, by omega⟩⟩
    by_contra hc
    have := Nat.mul_le_mul_right (2 * g.n 0 + 1) (show g.n 1 ≤ y by omega)
    omega

/-! ### Three dimensions -/

theorem edge3_slice [Field K] (g : Grid 3 K) {z s : ℕ} (hs : s < (2 * g.n 0 + 1) * g.n 1 + g.n 0) (hz : z ≤ g.n 2) :
    z * ((2 * g.n 0 + 1) * g.n 1 + g.n 0 + (g.n 0 + 1) * (g.n 1 + 1)) + s < g.numberOfEdges3 := by
  simp only [Grid.numberOfEdges3]
  have := Nat.mul_le_mul_right ((2 * g.n 0 + 1) * g.n 1 + g.n 0 + (g.n 0 + 1) * (g.n 1 + 1)) hz
  generalize (2 * g.n 0 + 1) * g.n 1 + g.n 0 = S at *
  generalize (g.n 0 + 1) * (g.n 1 + 1) = B at *
  have e : (g.n 2 + 1) * S + g.n 2 * B = g.n 2 * (S + B) + S := by ring
  omega

theorem edge3_dir0 [Field K] (g : Grid 3 K) (h0 : 0 < g.n 0) {x y z : ℕ} (hx : x < g.n 0) (hy : y ≤ g.n 1) (hz : z ≤ g.n 2) :
    z * ((2 * g.n 0 + 1) * g.n 1 + g.n 0 + (g.n 0 + 1) * (g.n 1 + 1)) + (y * (2 * g.n 0 + 1) + x) < g.numberOfEdges3 ∧
      g.edge3 (z * ((2 * g.n 0 + 1) * g.n 1 + g.n 0 + (g.n 0 + 1) * (g.n 1 + 1)) + (y * (2 * g.n 0 + 1) + x))
        = (z * (g.n 0 + 1) * (g.n 1 + 1) + y * (g.n 0 + 1) + x, z * (g.n 0 + 1) * (g.n 1 + 1) + y * (g.n 0 + 1) + x + 1) := by
  have hs : y * (2 * g.n 0 + 1) + x < (2 * g.n 0 + 1) * g.n 1 + g.n 0 := by
    have := Nat.mul_le_mul_right (2 * g.n 0 + 1) hy
    rw [mul_comm (2 * g.n 0 + 1) (g.n 1)]
    omega
  refine ⟨edge3_slice g hs hz, ?_⟩
  obtain ⟨h1, h2⟩ := nat_div_mod (q := z) (m := (2 * g.n 0 + 1) * g.n 1 + g.n 0 + (g.n 0 + 1) * (g.n 1 + 1))
    (r := y * (2 * g.n 0 + 1) + x) (by omega)
  obtain ⟨h3, h4⟩ := nat_div_mod (q := y) (m := 2 * g.n 0 + 1) (r := x) (by omega)
  simp only [Grid.edge3, h1, h2, h3, h4, if_pos hx]
  rw [if_neg (by omega)]

theorem edge3_dir1 [Field K] (g : Grid 3 K) (h0 : 0 < g.n 0) {x y z : ℕ} (hx : x ≤ g.n 0) (hy : y < g.n 1) (hz : z ≤ g.n 2) :
    z * ((2 * g.n 0 + 1) * g.n 1 + g.n 0 + (g.n 0 + 1) * (g.n 1 + 1)) + (y * (2 * g.n 0 + 1) + (g.n 0 + x))
        < g.numberOfEdges3 ∧
      g.edge3 (z * ((2 * g.n 0 + 1) * g.n 1 + g.n 0 + (g.n 0 + 1) * (g.n 1 + 1)) + (y * (2 * g.n 0 + 1) + (g.n 0 + x)))
        = (z * (g.n 0 + 1) * (g.n 1 + 1) + y * (g.n 0 + 1) + x,
           z * (g.n 0 + 1) * (g.n 1 + 1) + (y + 1) * (g.n 0 + 1) + x) := by
  have hs : y * (2 * g.n 0 + 1) + (g.n 0 + x) < (2 * g.n 0 + 1) * g.n 1 + g.n 0 := by
    have := Nat.mul_le_mul_right (2 * g.n 0 + 1) (show y + 1 ≤ g.n 1 from hy)
    rw [Nat.add_mul] at this
    rw [mul_comm (2 * g.n 0 + 1) (g.n 1)]
    omega
  refine ⟨edge3_slice g hs hz, ?_⟩
  obtain ⟨h1, h2⟩ := nat_div_mod (q := z) (m := (2 * g.n 0 + 1) * g.n 1 + g.n 0 + (g.n 0 + 1) * (g.n 1 + 1))
    (r := y * (2 * g.n 0 + 1) + (g.n 0 + x)) (by omega)
  obtain ⟨h3, h4⟩ := nat_div_mod (q := y) (m := 2 * g.n 0 + 1) (r := g.n 0 + x) (by omega)
  simp only [Grid.edge3, h1, h2, h3, h4, if_neg (show ¬ g.n 0 + x < g.n 0 by omega)]
  rw [if_neg (by omega)]
  have e : z * (g.n 0 + 1) * (g.n 1 + 1) + y * (g.n 0 + 1) + (g.n 0 + x) - g.n 0
      = z * (g.n 0 + 1) * (g.n 1 + 1) + y * (g.n 0 + 1) + x := by omega
  rw [e]
  congr 1
  ring

theorem edge3_dir2 [Field K] (g : Grid 3 K) (h0 : 0 < g.n 0) {x y z : ℕ} (hx : x ≤ g.n 0) (hy : y ≤ g.n 1) (hz : z < g.n 2) :
    z * ((2 * g.n 0 + 1) * g.n 1 + g.n 0 + (g.n 0 + 1) * (g.n 1 + 1))
        + ((2 * g.n 0 + 1) * g.n 1 + g.n 0 + (y * (g.n 0 + 1) + x)) < g.numberOfEdges3 ∧
      g.edge3 (z * ((2 * g.n 0 + 1) * g.n 1 + g.n 0 + (g.n 0 + 1) * (g.n 1 + 1))
        + ((2 * g.n 0 + 1) * g.n 1 + g.n 0 + (y * (g.n 0 + 1) + x)))
        = (z * (g.n 0 + 1) * (g.n 1 + 1) + y * (g.n 0 + 1) + x,
           (z + 1) * (g.n 0 + 1) * (g.n 1 + 1) + y * (g.n 0 + 1) + x) := by
  have hb : y * (g.n 0 + 1) + x < (g.n 0 + 1) * (g.n 1 + 1) := by
    have := Nat.mul_le_mul_right (g.n 0 + 1) hy
    have e : (g.n 0 + 1) * (g.n 1 + 1) = g.n 1 * (g.n 0 + 1) + (g.n 0 + 1) := by ring
    omega
  constructor
  · simp only [Grid.numberOfEdges3]
    have := Nat.mul_le_mul_right ((2 * g.n 0 + 1) * g.n 1 + g.n 0 + (g.n 0 + 1) * (g.n 1 + 1)) (show z + 1 ≤ g.n 2 from hz)
    generalize (2 * g.n 0 + 1) * g.n 1 + g.n 0 = S at *
    generalize (g.n 0 + 1) * (g.n 1 + 1) = B at *
    have e : (g.n 2 + 1) * S + g.n 2 * B = g.n 2 * (S + B) + S := by ring
    rw [Nat.add_mul] at this
    omega
  · obtain ⟨h1, h2⟩ := nat_div_mod (q := z) (m := (2 * g.n 0 + 1) * g.n 1 + g.n 0 + (g.n 0 + 1) * (g.n 1 + 1))
      (r := (2 * g.n 0 + 1) * g.n 1 + g.n 0 + (y * (g.n 0 + 1) + x)) (by omega)
    simp only [Grid.edge3, h1, h2]
    rw [if_pos (by omega), Nat.add_sub_cancel_left]
    congr 1
    · ring
    · ring

theorem edge3_cases [Field K] (g : Grid 3 K) (h0 : 0 < g.n 0) {i : ℕ} (hi : i < g.numberOfEdges3) :
    ∃ x y z,
      (x < g.n 0 ∧ y ≤ g.n 1 ∧ z ≤ g.n 2 ∧
        i = z * ((2 * g.n 0 + 1) * g.n 1 + g.n 0 + (g.n 0 + 1) * (g.n 1 + 1)) + (y * (2 * g.n 0 + 1) + x)) ∨
      (x ≤ g.n 0 ∧ y < g.n 1 ∧ z ≤ g.n 2 ∧
        i = z * ((2 * g.n 0 + 1) * g.n 1 + g.n 0 + (g.n 0 + 1) * (g.n 1 + 1)) + (y * (2 * g.n 0 + 1) + (g.n 0 + x))) ∨
      (x ≤ g.n 0 ∧ y ≤ g.n 1 ∧ z < g.n 2 ∧
        i = z * ((2 * g.n 0 + 1) * g.n 1 + g.n 0 + (g.n 0 + 1) * (g.n 1 + 1))
          + ((2 * g.n 0 + 1) * g.n 1 + g.n 0 + (y * (g.n 0 + 1) + x))) := by
  have hBpos : 0 < (g.n 0 + 1) * (g.n 1 + 1) := by positivity
  obtain ⟨h1, h2⟩ := nat_split (i := i) (m := (2 * g.n 0 + 1) * g.n 1 + g.n 0 + (g.n 0 + 1) * (g.n 1 + 1)) (q := 0) (by omega)
  have hN : g.numberOfEdges3 = g.n 2 * ((2 * g.n 0 + 1) * g.n 1 + g.n 0 + (g.n 0 + 1) * (g.n 1 + 1))
      + ((2 * g.n 0 + 1) * g.n 1 + g.n 0) := by simp only [Grid.numberOfEdges3]; ring
  set M := (2 * g.n 0 + 1) * g.n 1 + g.n 0 + (g.n 0 + 1) * (g.n 1 + 1) with hM
  set z := i / M
  set s := i % M
  have hz : z ≤ g.n 2 := by
    by_contra hc
    have := Nat.mul_le_mul_right M (show g.n 2 + 1 ≤ z by omega)
    rw [Nat.add_mul] at this
    omega
  by_cases hs : s < (2 * g.n 0 + 1) * g.n 1 + g.n 0
  · have hi2 : s < (Grid.numberOfEdges2 (K := K) ⟨fun _ => 0, ![g.n 0, g.n 1], fun _ => 0⟩) := hs
    obtain ⟨x, y, h | h⟩ := edge2_cases (K := K) ⟨fun _ => 0, ![g.n 0, g.n 1], fun _ => 0⟩ hi2
    · exact ⟨x, y, z, Or.inl ⟨h.1, h.2.1, hz, h1.trans (congrArg (z * M + ·) h.2.2)⟩⟩
    · exact ⟨x, y, z, Or.inr (Or.inl ⟨h.1, h.2.1, hz, h1.trans (congrArg (z * M + ·) h.2.2)⟩)⟩
  · have hz' : z < g.n 2 := by
      by_contra hc
      have := Nat.mul_le_mul_right M (show g.n 2 ≤ z by omega)
      omega
    obtain ⟨h3, h4⟩ := nat_split (i := s - ((2 * g.n 0 + 1) * g.n 1 + g.n 0)) (m := g.n 0 + 1) (q := 0) (by omega)
    set t := s - ((2 * g.n 0 + 1) * g.n 1 + g.n 0) with ht
    set y := t / (g.n 0 + 1)
    set x := t % (g.n 0 + 1)
    refine ⟨x, y, z, Or.inr (Or.inr ⟨by omega, ?_, hz', by omega⟩)⟩
    by_contra hc
    have := Nat.mul_le_mul_right (g.n 0 + 1) (show g.n 1 + 1 ≤ y by omega)
    rw [mul_comm (g.n 1 + 1)] at this
    omega

/-! ### Faces -/

/-- Number of the node with natural coordinates, before conversion. -/
theorem node_number3 [Field K] (g : Grid 3 K) (hf : Fits g.n) {x y z : ℕ} (hx : x ≤ g.n 0) (hy : y ≤ g.n 1) (hz : z ≤ g.n 2) :
    g.nodeCoordinatesAt ((z * (g.n 0 + 1) * (g.n 1 + 1) + y * (g.n 0 + 1) + x : ℕ) : ℤ) = ![(x : ℤ), (y : ℤ), (z : ℤ)] := by
  have hd : IsDim 3 := Or.inr (Or.inr rfl)
  have hc : ∀ a, 0 ≤ (![(x : ℤ), (y : ℤ), (z : ℤ)] : Fin 3 → ℤ) a ∧
      (![(x : ℤ), (y : ℤ), (z : ℤ)] : Fin 3 → ℤ) a < (g.n a : ℤ) + 1 := by
    intro a
    fin_cases a
    · exact ⟨Int.natCast_nonneg x, by change (x : ℤ) < (g.n 0 : ℤ) + 1; omega⟩
    · exact ⟨Int.natCast_nonneg y, by change (y : ℤ) < (g.n 1 : ℤ) + 1; omega⟩
    · exact ⟨Int.natCast_nonneg z, by change (z : ℤ) < (g.n 2 : ℤ) + 1; omega⟩
  have e : ((z * (g.n 0 + 1) * (g.n 1 + 1) + y * (g.n 0 + 1) + x : ℕ) : ℤ)
      = flat (fun a => (g.n a : ℤ) + 1) ![(x : ℤ), (y : ℤ), (z : ℤ)] := by
    simp only [flat, Fin.isValue, Matrix.cons_val]
    push_cast
    ring
  obtain ⟨b0, b1⟩ := flat_bound hd _ _ hc
  rw [e, nodeCoordinatesAt_eq hd g hf _ b0 b1, unflat_flat hd _ _ hc]

/-- The four corners `c`, `c + a`, `c + a + b`, `c + b`. -/
def faceAt [Field K] (g : Grid 3 K) (c : Fin 3 → ℤ) (a b : Fin 3) : Fin 4 → ℤ :=
  ![g.nodeIndexAt c, g.nodeIndexAt (next a c), g.nodeIndexAt (next b (next a c)), g.nodeIndexAt (next b c)]

theorem next_e1 (c : Fin 3 → ℤ) : c + ![1, 0, 0] = next 0 c := by
  funext a; fin_cases a <;> simp [next]
theorem next_e2 (c : Fin 3 → ℤ) : c + ![0, 1, 0] = next 1 c := by
  funext a; fin_cases a <;> simp [next]
theorem next_e3 (c : Fin 3 → ℤ) : c + ![0, 0, 1] = next 2 c := by
  funext a; fin_cases a <;> simp [next]

theorem face3_xy [Field K] (g : Grid 3 K) (hf : Fits g.n) {x y z : ℕ} (hx : x < g.n 0) (hy : y < g.n 1) (hz : z ≤ g.n 2) :
    z * (g.n 0 * g.n 1 + ((g.n 0 + 1) * g.n 1 + g.n 0 * (g.n 1 + 1))) + (y * g.n 0 + x) < g.numberOfFaces3 ∧
      g.face3 (z * (g.n 0 * g.n 1 + ((g.n 0 + 1) * g.n 1 + g.n 0 * (g.n 1 + 1))) + (y * g.n 0 + x))
        = faceAt g ![(x : ℤ), (y : ℤ), (z : ℤ)] 0 1 := by
  have hs : y * g.n 0 + x < g.n 0 * g.n 1 := by
    have := Nat.mul_le_mul_right (g.n 0) (show y + 1 ≤ g.n 1 from hy)
    rw [Nat.add_mul] at this
    rw [mul_comm (g.n 0)]
    omega
  constructor
  · have := Nat.mul_le_mul_right (g.n 0 * g.n 1 + ((g.n 0 + 1) * g.n 1 + g.n 0 * (g.n 1 + 1))) hz
    simp only [Grid.numberOfFaces3]
    generalize (g.n 0 + 1) * g.n 1 + g.n 0 * (g.n 1 + 1) = B at *
    generalize g.n 0 * g.n 1 = S at *
    have e : (g.n 2 + 1) * S + g.n 2 * B = g.n 2 * (S + B) + S := by ring
    omega
  · obtain ⟨h1, h2⟩ := nat_div_mod (q := z) (m := g.n 0 * g.n 1 + ((g.n 0 + 1) * g.n 1 + g.n 0 * (g.n 1 + 1)))
      (r := y * g.n 0 + x) (by omega)
    obtain ⟨h3, h4⟩ := nat_div_mod (q := y) (m := g.n 0) (r := x) hx
    simp only [Grid.face3, h1, h2, h3, h4, if_pos hs]
    rw [node_number3 g hf hx.le hy.le hz]
    simp only [next_e1, next_e2, next_e3]
    rfl

theorem face3_xz [Field K] (g : Grid 3 K) (hf : Fits g.n) {x y z : ℕ} (hx : x < g.n 0) (hy : y ≤ g.n 1) (hz : z < g.n 2) :
    z * (g.n 0 * g.n 1 + ((g.n 0 + 1) * g.n 1 + g.n 0 * (g.n 1 + 1))) + (g.n 0 * g.n 1 + (y * g.n 0 + x)) < g.numberOfFaces3 ∧
      g.face3 (z * (g.n 0 * g.n 1 + ((g.n 0 + 1) * g.n 1 + g.n 0 * (g.n 1 + 1))) + (g.n 0 * g.n 1 + (y * g.n 0 + x)))
        = faceAt g ![(x : ℤ), (y : ℤ), (z : ℤ)] 0 2 := by
  have hs : y * g.n 0 + x < g.n 0 * (g.n 1 + 1) := by
    have := Nat.mul_le_mul_right (g.n 0) (show y + 1 ≤ g.n 1 + 1 by omega)
    rw [Nat.add_mul] at this
    rw [mul_comm (g.n 0)]
    omega
  have hb : y * g.n 0 + x < (g.n 0 + 1) * g.n 1 + g.n 0 * (g.n 1 + 1) := by omega
  constructor
  · have := Nat.mul_le_mul_right (g.n 0 * g.n 1 + ((g.n 0 + 1) * g.n 1 + g.n 0 * (g.n 1 + 1))) (show z + 1 ≤ g.n 2 from hz)
    simp only [Grid.numberOfFaces3]
    clear hs
    generalize (g.n 0 + 1) * g.n 1 + g.n 0 * (g.n 1 + 1) = B at *
    generalize g.n 0 * g.n 1 = S at *
    have e : (g.n 2 + 1) * S + g.n 2 * B = g.n 2 * (S + B) + S := by ring
    rw [Nat.add_mul] at this
    omega
  · obtain ⟨h1, h2⟩ := nat_div_mod (q := z) (m := g.n 0 * g.n 1 + ((g.n 0 + 1) * g.n 1 + g.n 0 * (g.n 1 + 1)))
      (r := g.n 0 * g.n 1 + (y * g.n 0 + x)) (by omega)
    obtain ⟨h3, h4⟩ := nat_div_mod (q := y) (m := g.n 0) (r := x) hx
    simp only [Grid.face3, h1, h2, if_neg (show ¬ g.n 0 * g.n 1 + (y * g.n 0 + x) < g.n 0 * g.n 1 by omega),
      Nat.add_sub_cancel_left, if_pos hs, h3, h4]
    rw [node_number3 g hf hx.le hy hz.le]
    simp only [next_e1, next_e2, next_e3]
    rfl

theorem face3_yz [Field K] (g : Grid 3 K) (hf : Fits g.n) {x y z : ℕ} (hx : x ≤ g.n 0) (hy : y < g.n 1) (hz : z < g.n 2) :
    z * (g.n 0 * g.n 1 + ((g.n 0 + 1) * g.n 1 + g.n 0 * (g.n 1 + 1)))
        + (g.n 0 * g.n 1 + (g.n 0 * (g.n 1 + 1) + (y * (g.n 0 + 1) + x))) < g.numberOfFaces3 ∧
      g.face3 (z * (g.n 0 * g.n 1 + ((g.n 0 + 1) * g.n 1 + g.n 0 * (g.n 1 + 1)))
        + (g.n 0 * g.n 1 + (g.n 0 * (g.n 1 + 1) + (y * (g.n 0 + 1) + x))))
        = faceAt g ![(x : ℤ), (y : ℤ), (z : ℤ)] 1 2 := by
  have hb : y * (g.n 0 + 1) + x < (g.n 0 + 1) * g.n 1 := by
    have := Nat.mul_le_mul_right (g.n 0 + 1) (show y + 1 ≤ g.n 1 from hy)
    rw [Nat.add_mul] at this
    rw [mul_comm (g.n 0 + 1)]
    omega
  constructor
  · have := Nat.mul_le_mul_right (g.n 0 * g.n 1 + ((g.n 0 + 1) * g.n 1 + g.n 0 * (g.n 1 + 1))) (show z + 1 ≤ g.n 2 from hz)
    simp only [Grid.numberOfFaces3]
    generalize (g.n 0 + 1) * g.n 1 = B at *
    generalize g.n 0 * (g.n 1 + 1) = C at *
    generalize g.n 0 * g.n 1 = S at *
    have e : (g.n 2 + 1) * S + g.n 2 * (B + C) = g.n 2 * (S + (B + C)) + S := by ring
    rw [Nat.add_mul] at this
    omega
  · obtain ⟨h1, h2⟩ := nat_div_mod (q := z) (m := g.n 0 * g.n 1 + ((g.n 0 + 1) * g.n 1 + g.n 0 * (g.n 1 + 1)))
      (r := g.n 0 * g.n 1 + (g.n 0 * (g.n 1 + 1) + (y * (g.n 0 + 1) + x))) (by omega)
    simp only [Grid.face3, h1, h2,
      if_neg (show ¬ g.n 0 * g.n 1 + (g.n 0 * (g.n 1 + 1) + (y * (g.n 0 + 1) + x)) < g.n 0 * g.n 1 by omega),
      Nat.add_sub_cancel_left,
      if_neg (show ¬ g.n 0 * (g.n 1 + 1) + (y * (g.n 0 + 1) + x) < g.n 0 * (g.n 1 + 1) by omega)]
    rw [← add_assoc, node_number3 g hf hx hy.le hz.le]
    simp only [next_e1, next_e2, next_e3]
    rfl

theorem face3_cases [Field K] (g : Grid 3 K) {i : ℕ} (hi : i < g.numberOfFaces3) :
    ∃ x y z,
      (x < g.n 0 ∧ y < g.n 1 ∧ z ≤ g.n 2 ∧
        i = z * (g.n 0 * g.n 1 + ((g.n 0 + 1) * g.n 1 + g.n 0 * (g.n 1 + 1))) + (y * g.n 0 + x)) ∨
      (x < g.n 0 ∧ y ≤ g.n 1 ∧ z < g.n 2 ∧
        i = z * (g.n 0 * g.n 1 + ((g.n 0 + 1) * g.n 1 + g.n 0 * (g.n 1 + 1))) + (g.n 0 * g.n 1 + (y * g.n 0 + x))) ∨
      (x ≤ g.n 0 ∧ y < g.n 1 ∧ z < g.n 2 ∧
        i = z * (g.n 0 * g.n 1 + ((g.n 0 + 1) * g.n 1 + g.n 0 * (g.n 1 + 1)))
          + (g.n 0 * g.n 1 + (g.n 0 * (g.n 1 + 1) + (y * (g.n 0 + 1) + x)))) := by
  have hN : g.numberOfFaces3 = g.n 2 * (g.n 0 * g.n 1 + ((g.n 0 + 1) * g.n 1 + g.n 0 * (g.n 1 + 1)))
      + g.n 0 * g.n 1 := by simp only [Grid.numberOfFaces3]; ring
  have hMpos : 0 < g.n 0 * g.n 1 + ((g.n 0 + 1) * g.n 1 + g.n 0 * (g.n 1 + 1)) := by
    rcases Nat.eq_zero_or_pos (g.n 0 * g.n 1 + ((g.n 0 + 1) * g.n 1 + g.n 0 * (g.n 1 + 1))) with h | h
    · have : g.n 0 * g.n 1 = 0 := by omega
      rw [hN, h, this] at hi
      omega
    · exact h
  obtain ⟨h1, h2⟩ := nat_split (i := i) (q := 0) hMpos
  set M := g.n 0 * g.n 1 + ((g.n 0 + 1) * g.n 1 + g.n 0 * (g.n 1 + 1)) with hM
  set z := i / M
  set s := i % M
  have hz : z ≤ g.n 2 := by
    by_contra hc
    have := Nat.mul_le_mul_right M (show g.n 2 + 1 ≤ z by omega)
    rw [Nat.add_mul] at this
    omega
  have row : ∀ t m, t < g.n 0 * m → ∃ x y, x < g.n 0 ∧ y < m ∧ t = y * g.n 0 + x := by
    intro t m ht
    have h0 : 0 < g.n 0 := by
      rcases Nat.eq_zero_or_pos (g.n 0) with h | h
      · rw [h] at ht; omega
      · exact h
    obtain ⟨h3, h4⟩ := nat_split (i := t) (q := 0) h0
    refine ⟨t % g.n 0, t / g.n 0, h4, ?_, h3⟩
    by_contra hc
    have := Nat.mul_le_mul_right (g.n 0) (show m ≤ t / g.n 0 by omega)
    rw [mul_comm m] at this
    omega
  by_cases hs : s < g.n 0 * g.n 1
  · obtain ⟨x, y, hx, hy, hsx⟩ := row s _ hs
    exact ⟨x, y, z, Or.inl ⟨hx, hy, hz, by rw [← hsx]; exact h1⟩⟩
  · have hz' : z < g.n 2 := by
      by_contra hc
      have := Nat.mul_le_mul_right M (show g.n 2 ≤ z by omega)
      omega
    by_cases ht : s - g.n 0 * g.n 1 < g.n 0 * (g.n 1 + 1)
    · obtain ⟨x, y, hx, hy, hsx⟩ := row _ _ ht
      exact ⟨x, y, z, Or.inr (Or.inl ⟨hx, by omega, hz', by rw [← hsx]; omega⟩)⟩
    · obtain ⟨h3, h4⟩ := nat_split (i := s - g.n 0 * g.n 1 - g.n 0 * (g.n 1 + 1)) (m := g.n 0 + 1) (q := 0) (by omega)
      set t := s - g.n 0 * g.n 1 - g.n 0 * (g.n 1 + 1)
      refine ⟨t % (g.n 0 + 1), t / (g.n 0 + 1), z, Or.inr (Or.inr ⟨by omega, ?_, hz', by omega⟩)⟩
      by_contra hc
      have := Nat.mul_le_mul_right (g.n 0 + 1) (show g.n 1 ≤ t / (g.n 0 + 1) by omega)
      rw [mul_comm (g.n 1)] at this
      omega

end Caribou
