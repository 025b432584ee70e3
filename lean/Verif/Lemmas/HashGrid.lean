import Verif.Model.HashGrid
import Verif.Lemmas.GridEnclosing

/-! Lemmas on the hash grid. -/

set_option autoImplicit false
set_option linter.all false

namespace Caribou

open Spec

theorem foldl_min_le {K : Type*} [LinearOrder K] (l : List K) (x : K) :
    l.foldl min x ≤ x ∧ (∀ y ∈ l, l.foldl min x ≤ y) ∧ (l.foldl min x = x ∨ l.foldl min x ∈ l) := by
  induction l generalizing x with
  | nil => simp
  | cons z zs ih =>
    obtain ⟨h1, h2, h3⟩ := ih (min x z)
    simp only [List.foldl_cons]
    refine ⟨h1.trans (min_le_left _ _), ?_, ?_⟩
    · intro y hy
      rcases List.mem_cons.mp hy with rfl | hy
      · exact h1.trans (min_le_right _ _)
      · exact h2 y hy
    · rcases h3 with h3 | h3
      · rcases min_choice x z with h | h
        · left; rw [h3, h]
        · right; rw [h3, h]; simp
      · right; exact List.mem_cons_of_mem _ h3

theorem le_foldl_max {K : Type*} [LinearOrder K] (l : List K) (x : K) :
    x ≤ l.foldl max x ∧ (∀ y ∈ l, y ≤ l.foldl max x) ∧ (l.foldl max x = x ∨ l.foldl max x ∈ l) := by
  induction l generalizing x with
  | nil => simp
  | cons z zs ih =>
    obtain ⟨h1, h2, h3⟩ := ih (max x z)
    simp only [List.foldl_cons]
    refine ⟨(le_max_left _ _).trans h1, ?_, ?_⟩
    · intro y hy
      rcases List.mem_cons.mp hy with rfl | hy
      · exact (le_max_right _ _).trans h1
      · exact h2 y hy
    · rcases h3 with h3 | h3
      · rcases max_choice x z with h | h
        · left; rw [h3, h]
        · right; rw [h3, h]; simp
      · right; exact List.mem_cons_of_mem _ h3

section Coeff

variable {K : Type*} [Field K] [LinearOrder K] {n d : ℕ}

theorem minCoeff_spec (hn : 0 < n) (X : Fin n → Fin d → K) (a : Fin d) :
    (∀ i, minCoeff X a ≤ X i a) ∧ ∃ i, minCoeff X a = X i a := by
  unfold minCoeff
  have hlen : (List.ofFn fun i => X i a).length = n := List.length_ofFn
  have hmem : ∀ y, y ∈ (List.ofFn fun i => X i a) ↔ ∃ i, X i a = y := fun y => List.mem_ofFn
  cases hL : (List.ofFn fun i => X i a) with
  | nil => rw [hL] at hlen; simp at hlen; omega
  | cons x xs =>
    rw [hL] at hmem
    obtain ⟨h1, h2, h3⟩ := foldl_min_le xs x
    refine ⟨fun i => ?_, ?_⟩
    · rcases List.mem_cons.mp ((hmem (X i a)).mpr ⟨i, rfl⟩) with h | h
      · change xs.foldl min x ≤ _; rw [h]; exact h1
      · exact h2 _ h
    · have : xs.foldl min x ∈ x :: xs := by
        rcases h3 with h3 | h3
        · rw [h3]; simp
        · exact List.mem_cons_of_mem _ h3
      obtain ⟨i, hi⟩ := (hmem _).mp this
      exact ⟨i, hi.symm⟩

theorem maxCoeff_spec (hn : 0 < n) (X : Fin n → Fin d → K) (a : Fin d) :
    (∀ i, X i a ≤ maxCoeff X a) ∧ ∃ i, maxCoeff X a = X i a := by
  unfold maxCoeff
  have hlen : (List.ofFn fun i => X i a).length = n := List.length_ofFn
  have hmem : ∀ y, y ∈ (List.ofFn fun i => X i a) ↔ ∃ i, X i a = y := fun y => List.mem_ofFn
  cases hL : (List.ofFn fun i => X i a) with
  | nil => rw [hL] at hlen; simp at hlen; omega
  | cons x xs =>
    rw [hL] at hmem
    obtain ⟨h1, h2, h3⟩ := le_foldl_max xs x
    refine ⟨fun i => ?_, ?_⟩
    · rcases List.mem_cons.mp ((hmem (X i a)).mpr ⟨i, rfl⟩) with h | h
      · change _ ≤ xs.foldl max x; rw [h]; exact h1
      · exact h2 _ h
    · have : xs.foldl max x ∈ x :: xs := by
        rcases h3 with h3 | h3
        · rw [h3]; simp
        · exact List.mem_cons_of_mem _ h3
      obtain ⟨i, hi⟩ := (hmem _).mp this
      exact ⟨i, hi.symm⟩

end Coeff

theorem mem_setInsert (x y : ℕ) (l : List ℕ) : y ∈ setInsert x l ↔ y = x ∨ y ∈ l := by
  induction l with
  | nil => simp [setInsert]
  | cons z zs ih =>
    simp only [setInsert]
    split_ifs with h1 h2
    · simp
    · subst h2; simp
    · simp only [List.mem_cons, ih]; tauto

theorem sorted_setInsert (x : ℕ) (l : List ℕ) (h : l.Pairwise (· < ·)) : (setInsert x l).Pairwise (· < ·) := by
  induction l with
  | nil => simp [setInsert]
  | cons z zs ih =>
    have hz := List.pairwise_cons.mp h
    simp only [setInsert]
    split_ifs with h1 h2
    · refine List.pairwise_cons.mpr ⟨?_, h⟩
      intro y hy
      rcases List.mem_cons.mp hy with rfl | hy
      · exact h1
      · exact h1.trans (hz.1 y hy)
    · exact h
    · refine List.pairwise_cons.mpr ⟨?_, ih hz.2⟩
      intro y hy
      rcases (mem_setInsert x y zs).mp hy with rfl | hy
      · omega
      · exact hz.1 y hy

namespace HashGrid

theorem mem_foldl_insert (l s : List ℕ) (y : ℕ) : y ∈ l.foldl (fun s id => setInsert id s) s ↔ y ∈ s ∨ y ∈ l := by
  induction l generalizing s with
  | nil => simp
  | cons z zs ih => simp only [List.foldl_cons, ih, mem_setInsert, List.mem_cons]; tauto

theorem sorted_foldl_insert (l s : List ℕ) (h : s.Pairwise (· < ·)) :
    (l.foldl (fun s id => setInsert id s) s).Pairwise (· < ·) := by
  induction l generalizing s with
  | nil => exact h
  | cons z zs ih => exact ih _ (sorted_setInsert z s h)

variable {d : ℕ} {K : Type*} [Field K] [LinearOrder K] [IsStrictOrderedRing K] [FloorRing K]

theorem mem_get (g : HashGrid d K) (p : Fin d → K) (id : ℕ) : id ∈ g.get p ↔ ∃ c ∈ g.cellsNear p, id ∈ g.table c := by
  have key : ∀ (cells : List (Fin d → ℤ)) (s : List ℕ),
      id ∈ cells.foldl (fun elements cell => (g.table cell).foldl (fun s id => setInsert id s) elements) s ↔
        id ∈ s ∨ ∃ c ∈ cells, id ∈ g.table c := by
    intro cells
    induction cells with
    | nil => simp
    | cons c cs ih => intro s; simp only [List.foldl_cons, ih, mem_foldl_insert, List.mem_cons, exists_eq_or_imp]; tauto
  rw [get, key]; simp

theorem sorted_get (g : HashGrid d K) (p : Fin d → K) : (g.get p).Pairwise (· < ·) := by
  have key : ∀ (cells : List (Fin d → ℤ)) (s : List ℕ), s.Pairwise (· < ·) →
      (cells.foldl (fun elements cell => (g.table cell).foldl (fun s id => setInsert id s) elements) s).Pairwise (· < ·) := by
    intro cells
    induction cells with
    | nil => exact fun s h => h
    | cons c cs ih => exact fun s h => ih _ (sorted_foldl_insert _ _ h)
  exact key _ _ List.Pairwise.nil

theorem mem_cellProduct (hd : IsDim d) (l : Fin d → List ℤ) (c : Fin d → ℤ) : c ∈ cellProduct l ↔ ∀ a, c a ∈ l a := by
  rcases hd with rfl | rfl | rfl
  · simp only [cellProduct, List.mem_map]
    constructor
    · rintro ⟨i, hi, rfl⟩ a
      fin_cases a
      exact hi
    · intro h
      exact ⟨c 0, h 0, by funext a; fin_cases a; rfl⟩
  · simp only [cellProduct, List.mem_flatMap, List.mem_map]
    constructor
    · rintro ⟨i, hi, j, hj, rfl⟩ a
      fin_cases a
      · exact hi
      · exact hj
    · intro h
      exact ⟨c 0, h 0, c 1, h 1, by funext a; fin_cases a <;> rfl⟩
  · simp only [cellProduct, List.mem_flatMap, List.mem_map]
    constructor
    · rintro ⟨i, hi, j, hj, k, hk, rfl⟩ a
      fin_cases a
      · exact hi
      · exact hj
      · exact hk
    · intro h
      exact ⟨c 0, h 0, c 1, h 1, c 2, h 2, by funext a; fin_cases a <;> rfl⟩

theorem closeToAxis_iff (g : HashGrid d K) (p : Fin d → K) (a : Fin d) :
    g.closeToAxis p a = true ↔ |p a / g.cellSize - (roundAway (p a / g.cellSize) : K)| < gridEps K := by
  simp only [closeToAxis, decide_eq_true_eq]
  rw [← abs_lt_iff_mul_self_lt, abs_of_pos (gridEps_pos (K := K))]

theorem mem_axisIndices (g : HashGrid d K) (p : Fin d → K) (a : Fin d) (i : ℤ) :
    i ∈ g.axisIndices p a ↔ near (p a / g.cellSize) i := by
  unfold axisIndices near
  by_cases hc : g.closeToAxis p a = true
  · rw [if_pos hc, floor_int_sub_half, floor_int_add_half, close_indices ((closeToAxis_iff g p a).mp hc)]
    simp
  · rw [if_neg hc, far_indices (by rw [closeToAxis_iff, not_lt] at hc; exact hc)]
    simp

theorem mem_cellsNear (hd : IsDim d) (g : HashGrid d K) (p : Fin d → K) (c : Fin d → ℤ) :
    c ∈ g.cellsNear p ↔ ∀ a, near (p a / g.cellSize) (c a) := by
  unfold cellsNear
  by_cases hc : (List.finRange d).all (fun a => !g.closeToAxis p a) = true
  · rw [if_pos hc]
    simp only [List.all_eq_true, List.mem_finRange, forall_true_left, Bool.not_eq_true'] at hc
    have hfar : ∀ a (i : ℤ), near (p a / g.cellSize) i ↔ i = ⌊p a / g.cellSize⌋ := fun a i => by
      have h := hc a
      rw [← Bool.not_eq_true, closeToAxis_iff, not_lt] at h
      exact far_indices h i
    simp only [hfar, List.mem_singleton]
    exact funext_iff
  · rw [if_neg hc, mem_cellProduct hd]
    exact forall_congr' fun a => mem_axisIndices g p a (c a)

theorem mem_foldl_append (id id' : ℕ) (cells : List (Fin d → ℤ)) (t : (Fin d → ℤ) → List ℕ) (c : Fin d → ℤ) :
    id' ∈ cells.foldl (append id) t c ↔ id' ∈ t c ∨ (id' = id ∧ c ∈ cells) := by
  induction cells generalizing t with
  | nil => simp
  | cons x xs ih =>
    simp only [List.foldl_cons, ih, append]
    split_ifs with h
    · subst h; simp only [List.mem_append, List.mem_singleton, List.mem_cons, true_or, and_true]; tauto
    · simp only [List.mem_cons, h, false_or]

theorem mem_cellsOf {n : ℕ} (hd : IsDim d) (g : HashGrid d K) (nodes : Fin n → Fin d → K) (c : Fin d → ℤ) :
    c ∈ g.cellsOf nodes ↔ ∀ a, ⌊minCoeff nodes a / g.cellSize⌋ ≤ c a ∧ c a ≤ ⌊maxCoeff nodes a / g.cellSize⌋ := by
  rw [cellsOf, mem_cellProduct hd]
  simp only [mul_one, mem_interval]

theorem foldl_add_cellSize {n : ℕ} (hist : List ((Fin n → Fin d → K) × ℕ)) (g : HashGrid d K) :
    (hist.foldl (fun g h => g.add h.1 h.2) g).cellSize = g.cellSize := by
  induction hist generalizing g with
  | nil => rfl
  | cons x xs ih => rw [List.foldl_cons, ih]; rfl

theorem mem_table_foldl {n : ℕ} (hist : List ((Fin n → Fin d → K) × ℕ)) (g : HashGrid d K) (c : Fin d → ℤ) (id : ℕ) :
    id ∈ (hist.foldl (fun g h => g.add h.1 h.2) g).table c ↔
      id ∈ g.table c ∨ ∃ h ∈ hist, h.2 = id ∧ c ∈ g.cellsOf h.1 := by
  induction hist generalizing g with
  | nil => simp
  | cons x xs ih =>
    rw [List.foldl_cons, ih]
    have e : ∀ nodes : Fin n → Fin d → K, (g.add x.1 x.2).cellsOf nodes = g.cellsOf nodes := fun _ => rfl
    simp only [e]
    have e2 : id ∈ (g.add x.1 x.2).table c ↔ id ∈ g.table c ∨ (id = x.2 ∧ c ∈ g.cellsOf x.1) := mem_foldl_append _ _ _ _ _
    rw [e2]
    simp only [List.mem_cons, exists_eq_or_imp, eq_comm (a := id)]
    tauto

end HashGrid

end Caribou
