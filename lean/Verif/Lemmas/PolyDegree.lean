import Verif.Spec.Canonical
import Verif.Spec.Interpolation
import Verif.Lemmas.Elements
import Verif.Lemmas.Basic
import Mathlib.Algebra.Algebra.Operations
import Mathlib.Algebra.Algebra.Pi
import Mathlib.Data.Matrix.Mul
import Mathlib.LinearAlgebra.Matrix.Determinant.Basic

/-! Polynomial functions with bounded degree. -/

set_option autoImplicit false
set_option linter.all false

namespace Caribou

open Spec

variable {d : ℕ}

/-- The monomial with exponents `m`. -/
def monoFn (m : Fin d → ℕ) : (Fin d → ℝ) → ℝ := fun ξ => ∏ j, ξ j ^ m j

/-- Polynomial functions with exponents in `S`. -/
def PolyIn (S : Set (Fin d → ℕ)) : Submodule ℝ ((Fin d → ℝ) → ℝ) := Submodule.span ℝ (monoFn '' S)

theorem polyIn_mono {S T : Set (Fin d → ℕ)} (h : S ⊆ T) : PolyIn S ≤ PolyIn T :=
  Submodule.span_mono (Set.image_mono h)

theorem polyIn_mul {S T : Set (Fin d → ℕ)} {f g : (Fin d → ℝ) → ℝ} (hf : f ∈ PolyIn S) (hg : g ∈ PolyIn T)
    (U : Set (Fin d → ℕ)) (hU : ∀ m ∈ S, ∀ n ∈ T, m + n ∈ U) : (fun ξ => f ξ * g ξ) ∈ PolyIn U := by
  have h := Submodule.mul_mem_mul hf hg
  rw [PolyIn, PolyIn, Submodule.span_mul_span] at h
  refine Submodule.span_mono ?_ h
  rintro _ ⟨_, ⟨m, hm, rfl⟩, _, ⟨n, hn, rfl⟩, rfl⟩
  refine ⟨m + n, hU m hm n hn, ?_⟩
  funext ξ
  simp [monoFn, pow_add, Finset.prod_mul_distrib]

/-- Degree at most `a j` in the variable `j`. -/
def Deg (a : Fin d → ℕ) (f : (Fin d → ℝ) → ℝ) : Prop := f ∈ PolyIn {m | ∀ j, m j ≤ a j}

/-- Total degree at most `k`. -/
def Tot (k : ℕ) (f : (Fin d → ℝ) → ℝ) : Prop := f ∈ PolyIn {m | ∑ j, m j ≤ k}

namespace Deg

theorem mono {a b : Fin d → ℕ} {f : (Fin d → ℝ) → ℝ} (hf : Deg a f) (h : ∀ j, a j ≤ b j) : Deg b f :=
  polyIn_mono (S := {m | ∀ j, m j ≤ a j}) (T := {m | ∀ j, m j ≤ b j}) (fun _ hm j => (hm j).trans (h j)) hf

theorem const (c : ℝ) : Deg (d := d) 0 (fun _ => c) := by
  have h : (fun _ => c : (Fin d → ℝ) → ℝ) = c • monoFn 0 := by funext ξ; simp [monoFn]
  rw [Deg, h]
  exact Submodule.smul_mem _ _ (Submodule.subset_span ⟨0, fun j => le_rfl, rfl⟩)

theorem coord (j : Fin d) : Deg (Pi.single j 1) (fun ξ => ξ j) := by
  have h : (fun ξ : Fin d → ℝ => ξ j) = monoFn (Pi.single j 1) := by
    funext ξ
    rw [monoFn, Finset.prod_eq_single j]
    · simp
    · intro i _ hi; simp [hi]
    · simp
  rw [Deg, h]
  exact Submodule.subset_span ⟨_, fun j => le_rfl, rfl⟩

theorem add {a b : Fin d → ℕ} {f g : (Fin d → ℝ) → ℝ} (hf : Deg a f) (hg : Deg b g) :
    Deg (fun j => max (a j) (b j)) (fun ξ => f ξ + g ξ) :=
  Submodule.add_mem _ (hf.mono fun j => le_max_left _ _) (hg.mono fun j => le_max_right _ _)

theorem sub {a b : Fin d → ℕ} {f g : (Fin d → ℝ) → ℝ} (hf : Deg a f) (hg : Deg b g) :
    Deg (fun j => max (a j) (b j)) (fun ξ => f ξ - g ξ) :=
  Submodule.sub_mem _ (hf.mono fun j => le_max_left _ _) (hg.mono fun j => le_max_right _ _)

theorem neg {a : Fin d → ℕ} {f : (Fin d → ℝ) → ℝ} (hf : Deg a f) : Deg a (fun ξ => - f ξ) :=
  Submodule.neg_mem _ hf

theorem mul {a b : Fin d → ℕ} {f g : (Fin d → ℝ) → ℝ} (hf : Deg a f) (hg : Deg b g) :
    Deg (fun j => a j + b j) (fun ξ => f ξ * g ξ) :=
  polyIn_mul hf hg _ fun m hm n hn j => Nat.add_le_add (hm j) (hn j)

theorem sum {ι : Type*} (s : Finset ι) {a : Fin d → ℕ} {f : ι → (Fin d → ℝ) → ℝ} (hf : ∀ i ∈ s, Deg a (f i)) :
    Deg a (fun ξ => ∑ i ∈ s, f i ξ) := by
  have h : (fun ξ => ∑ i ∈ s, f i ξ) = ∑ i ∈ s, f i := by funext ξ; simp
  rw [Deg, h]
  exact Submodule.sum_mem _ hf

end Deg

namespace Tot

theorem mono {a b : ℕ} {f : (Fin d → ℝ) → ℝ} (hf : Tot a f) (h : a ≤ b) : Tot b f :=
  polyIn_mono (fun _ hm => le_trans hm h) hf

theorem const (c : ℝ) : Tot (d := d) 0 (fun _ => c) := by
  have h : (fun _ => c : (Fin d → ℝ) → ℝ) = c • monoFn 0 := by funext ξ; simp [monoFn]
  rw [Tot, h]
  exact Submodule.smul_mem _ _ (Submodule.subset_span ⟨0, by simp, rfl⟩)

theorem coord (j : Fin d) : Tot 1 (fun ξ => ξ j) := by
  have h : (fun ξ : Fin d → ℝ => ξ j) = monoFn (Pi.single j 1) := by
    funext ξ
    rw [monoFn, Finset.prod_eq_single j]
    · simp
    · intro i _ hi; simp [hi]
    · simp
  rw [Tot, h]
  exact Submodule.subset_span ⟨_, by simp, rfl⟩

theorem add {a b : ℕ} {f g : (Fin d → ℝ) → ℝ} (hf : Tot a f) (hg : Tot b g) :
    Tot (max a b) (fun ξ => f ξ + g ξ) :=
  Submodule.add_mem _ (hf.mono (le_max_left _ _)) (hg.mono (le_max_right _ _))

theorem sub {a b : ℕ} {f g : (Fin d → ℝ) → ℝ} (hf : Tot a f) (hg : Tot b g) :
    Tot (max a b) (fun ξ => f ξ - g ξ) :=
  Submodule.sub_mem _ (hf.mono (le_max_left _ _)) (hg.mono (le_max_right _ _))

theorem neg {a : ℕ} {f : (Fin d → ℝ) → ℝ} (hf : Tot a f) : Tot a (fun ξ => - f ξ) :=
  Submodule.neg_mem _ hf

theorem mul {a b : ℕ} {f g : (Fin d → ℝ) → ℝ} (hf : Tot a f) (hg : Tot b g) :
    Tot (a + b) (fun ξ => f ξ * g ξ) :=
  polyIn_mul hf hg _ fun m hm n hn => by
    simp only [Set.mem_setOf_eq, Pi.add_apply, Finset.sum_add_distrib] at *
    exact Nat.add_le_add hm hn

theorem sum {ι : Type*} (s : Finset ι) {a : ℕ} {f : ι → (Fin d → ℝ) → ℝ} (hf : ∀ i ∈ s, Tot a (f i)) :
    Tot a (fun ξ => ∑ i ∈ s, f i ξ) := by
  have h : (fun ξ => ∑ i ∈ s, f i ξ) = ∑ i ∈ s, f i := by funext ξ; simp
  rw [Tot, h]
  exact Submodule.sum_mem _ hf

end Tot

/-- Splits a polynomial expression into its parts. -/
macro "deg_tac" : tactic => `(tactic| (
  apply Deg.mono
  · repeat' first
      | with_reducible exact Deg.const _
      | with_reducible exact Deg.coord _
      | with_reducible apply Deg.neg
      | with_reducible apply Deg.add
      | with_reducible apply Deg.sub
      | with_reducible apply Deg.mul
  · decide))

/-- Splits a polynomial expression into its parts. -/
macro "tot_tac" : tactic => `(tactic| (
  apply Tot.mono
  · repeat' first
      | with_reducible exact Tot.const _
      | with_reducible exact Tot.coord _
      | with_reducible apply Tot.neg
      | with_reducible apply Tot.add
      | with_reducible apply Tot.sub
      | with_reducible apply Tot.mul
  · decide))

theorem segment1_dL_deg (i : Fin 2) (j : Fin 1) : Deg ![0] (fun ξ => (segment1 (K := ℝ)).dL ξ i j) := by
  fin_cases i <;> fin_cases j <;>
    simp only [segment1, Matrix.cons_val, Fin.isValue, Fin.reduceFinMk, Fin.zero_eta, Fin.mk_one] <;> deg_tac

theorem segment2_dL_deg (i : Fin 3) (j : Fin 1) : Deg ![1] (fun ξ => (segment2 (K := ℝ)).dL ξ i j) := by
  fin_cases i <;> fin_cases j <;>
    simp only [segment2, Matrix.cons_val, Fin.isValue, Fin.reduceFinMk, Fin.zero_eta, Fin.mk_one] <;> deg_tac

theorem triangle1_dL_tot (i : Fin 3) (j : Fin 2) : Tot 0 (fun ξ => (triangle1 (K := ℝ)).dL ξ i j) := by
  fin_cases i <;> fin_cases j <;>
    simp only [triangle1, Matrix.cons_val, Fin.isValue, Fin.reduceFinMk, Fin.zero_eta, Fin.mk_one] <;> tot_tac

theorem triangle2_dL_tot (i : Fin 6) (j : Fin 2) : Tot 1 (fun ξ => (triangle2 (K := ℝ)).dL ξ i j) := by
  fin_cases i <;> fin_cases j <;>
    simp only [triangle2, Matrix.cons_val, Fin.isValue, Fin.reduceFinMk, Fin.zero_eta, Fin.mk_one] <;> tot_tac

theorem tetra1_dL_tot (i : Fin 4) (j : Fin 3) : Tot 0 (fun ξ => (tetra1 (K := ℝ)).dL ξ i j) := by
  fin_cases i <;> fin_cases j <;>
    simp only [tetra1, Matrix.cons_val, Fin.isValue, Fin.reduceFinMk, Fin.zero_eta, Fin.mk_one] <;> tot_tac

theorem quad1_dL_deg (i : Fin 4) :
    Deg ![0, 1] (fun ξ => (quad1 (K := ℝ)).dL ξ i 0) ∧ Deg ![1, 0] (fun ξ => (quad1 (K := ℝ)).dL ξ i 1) := by
  fin_cases i <;> constructor <;>
    simp only [quad1, Matrix.cons_val, Fin.isValue, Fin.reduceFinMk, Fin.zero_eta, Fin.mk_one] <;> deg_tac

theorem quad2_dL_deg (i : Fin 8) :
    Deg ![1, 2] (fun ξ => (quad2 (K := ℝ)).dL ξ i 0) ∧ Deg ![2, 1] (fun ξ => (quad2 (K := ℝ)).dL ξ i 1) := by
  fin_cases i <;> constructor <;>
    simp only [quad2, Matrix.cons_val, Fin.isValue, Fin.reduceFinMk, Fin.zero_eta, Fin.mk_one] <;> deg_tac

theorem hexa1_dL_deg (i : Fin 8) :
    Deg ![0, 1, 1] (fun ξ => (hexa1 (K := ℝ)).dL ξ i 0) ∧ Deg ![1, 0, 1] (fun ξ => (hexa1 (K := ℝ)).dL ξ i 1) ∧
    Deg ![1, 1, 0] (fun ξ => (hexa1 (K := ℝ)).dL ξ i 2) := by
  fin_cases i <;> refine ⟨?_, ?_, ?_⟩ <;>
    simp only [hexa1, Matrix.cons_val, Fin.isValue, Fin.reduceFinMk, Fin.zero_eta, Fin.mk_one] <;> deg_tac

theorem Deg.linear {n : ℕ} {a : Fin d → ℕ} {f : Fin n → (Fin d → ℝ) → ℝ} (c : Fin n → ℝ) (hf : ∀ i, Deg a (f i)) :
    Deg a (fun ξ => ∑ i, c i * f i ξ) :=
  Deg.sum _ fun i _ => ((Deg.const (c i)).mul (hf i)).mono fun j => by simp

theorem Tot.linear {n : ℕ} {a : ℕ} {f : Fin n → (Fin d → ℝ) → ℝ} (c : Fin n → ℝ) (hf : ∀ i, Tot a (f i)) :
    Tot a (fun ξ => ∑ i, c i * f i ξ) :=
  Tot.sum _ fun i _ => ((Tot.const (c i)).mul (hf i)).mono (by simp)

/-- Degree of a determinant of order two. -/
theorem deg_det2 {J : (Fin d → ℝ) → Matrix (Fin 2) (Fin 2) ℝ} {a : Fin 2 → Fin d → ℕ}
    (h : ∀ i j, Deg (a j) (fun ξ => J ξ i j)) : Deg (fun k => a 0 k + a 1 k) (fun ξ => (J ξ).det) := by
  simp only [Matrix.det_fin_two]
  refine (((h 0 0).mul (h 1 1)).sub ((h 0 1).mul (h 1 0))).mono fun k => ?_
  omega

theorem deg_det3 {J : (Fin d → ℝ) → Matrix (Fin 3) (Fin 3) ℝ} {a : Fin 3 → Fin d → ℕ}
    (h : ∀ i j, Deg (a j) (fun ξ => J ξ i j)) : Deg (fun k => a 0 k + a 1 k + a 2 k) (fun ξ => (J ξ).det) := by
  simp only [Matrix.det_fin_three]
  refine ((((((((h 0 0).mul (h 1 1)).mul (h 2 2)).sub (((h 0 0).mul (h 1 2)).mul (h 2 1))).sub
    (((h 0 1).mul (h 1 0)).mul (h 2 2))).add (((h 0 1).mul (h 1 2)).mul (h 2 0))).add
    (((h 0 2).mul (h 1 0)).mul (h 2 1))).sub (((h 0 2).mul (h 1 1)).mul (h 2 0))).mono fun k => ?_
  omega

theorem tot_det2 {J : (Fin d → ℝ) → Matrix (Fin 2) (Fin 2) ℝ} {a : ℕ}
    (h : ∀ i j, Tot a (fun ξ => J ξ i j)) : Tot (2 * a) (fun ξ => (J ξ).det) := by
  simp only [Matrix.det_fin_two]
  refine (((h 0 0).mul (h 1 1)).sub ((h 0 1).mul (h 1 0))).mono ?_
  omega

theorem tot_det3 {J : (Fin d → ℝ) → Matrix (Fin 3) (Fin 3) ℝ} {a : ℕ}
    (h : ∀ i j, Tot a (fun ξ => J ξ i j)) : Tot (3 * a) (fun ξ => (J ξ).det) := by
  simp only [Matrix.det_fin_three]
  refine ((((((((h 0 0).mul (h 1 1)).mul (h 2 2)).sub (((h 0 0).mul (h 1 2)).mul (h 2 1))).sub
    (((h 0 1).mul (h 1 0)).mul (h 2 2))).add (((h 0 1).mul (h 1 2)).mul (h 2 0))).add
    (((h 0 2).mul (h 1 0)).mul (h 2 1))).sub (((h 0 2).mul (h 1 1)).mul (h 2 0))).mono ?_
  omega

/-! ### Normal forms -/

theorem deg_cubic1 {f : (Fin 1 → ℝ) → ℝ} (hf : Deg (fun _ => 3) f) : ∃ c, f = cubic1 c := by
  induction hf using Submodule.span_induction with
  | mem f h =>
    obtain ⟨m, hm, rfl⟩ := h
    refine ⟨fun i => if (i : ℕ) = m 0 then 1 else 0, ?_⟩
    funext ξ
    simp only [monoFn, cubic1, Fin.prod_univ_one, ite_mul, one_mul, zero_mul]
    rw [Finset.sum_eq_single (⟨m 0, Nat.lt_succ_of_le (hm 0)⟩ : Fin 4)]
    · simp
    · intro i _ hi; exact if_neg fun h => hi (Fin.ext h)
    · simp
  | zero => exact ⟨0, by funext ξ; simp [cubic1]⟩
  | add f g _ _ hf hg =>
    obtain ⟨c, rfl⟩ := hf; obtain ⟨c', rfl⟩ := hg
    exact ⟨c + c', by funext ξ; simp [cubic1, add_mul, Finset.sum_add_distrib]⟩
  | smul a f _ hf =>
    obtain ⟨c, rfl⟩ := hf
    exact ⟨a • c, by funext ξ; simp [cubic1, Finset.mul_sum, mul_assoc]⟩

theorem deg_cubic2 {f : (Fin 2 → ℝ) → ℝ} (hf : Deg (fun _ => 3) f) : ∃ c, f = cubic2 c := by
  induction hf using Submodule.span_induction with
  | mem f h =>
    obtain ⟨m, hm, rfl⟩ := h
    refine ⟨fun i j => if (i : ℕ) = m 0 ∧ (j : ℕ) = m 1 then 1 else 0, ?_⟩
    funext ξ
    simp only [monoFn, cubic2, Fin.prod_univ_two, ite_mul, one_mul, zero_mul]
    rw [Finset.sum_eq_single (⟨m 0, Nat.lt_succ_of_le (hm 0)⟩ : Fin 4),
      Finset.sum_eq_single (⟨m 1, Nat.lt_succ_of_le (hm 1)⟩ : Fin 4)]
    · simp
    · intro i _ hi; exact if_neg fun h => hi (Fin.ext h.2)
    · simp
    · intro i _ hi; exact Finset.sum_eq_zero fun j _ => if_neg fun h => hi (Fin.ext h.1)
    · simp
  | zero => exact ⟨0, by funext ξ; simp [cubic2]⟩
  | add f g _ _ hf hg =>
    obtain ⟨c, rfl⟩ := hf; obtain ⟨c', rfl⟩ := hg
    exact ⟨c + c', by funext ξ; simp [cubic2, add_mul, Finset.sum_add_distrib]⟩
  | smul a f _ hf =>
    obtain ⟨c, rfl⟩ := hf
    exact ⟨a • c, by funext ξ; simp [cubic2, Finset.mul_sum, mul_assoc]⟩

theorem deg_cubic3 {f : (Fin 3 → ℝ) → ℝ} (hf : Deg (fun _ => 3) f) : ∃ c, f = cubic3 c := by
  induction hf using Submodule.span_induction with
  | mem f h =>
    obtain ⟨m, hm, rfl⟩ := h
    refine ⟨fun i j k => if (i : ℕ) = m 0 ∧ (j : ℕ) = m 1 ∧ (k : ℕ) = m 2 then 1 else 0, ?_⟩
    funext ξ
    simp only [monoFn, cubic3, Fin.prod_univ_three, ite_mul, one_mul, zero_mul]
    rw [Finset.sum_eq_single (⟨m 0, Nat.lt_succ_of_le (hm 0)⟩ : Fin 4),
      Finset.sum_eq_single (⟨m 1, Nat.lt_succ_of_le (hm 1)⟩ : Fin 4),
      Finset.sum_eq_single (⟨m 2, Nat.lt_succ_of_le (hm 2)⟩ : Fin 4)]
    · simp
    · intro i _ hi; exact if_neg fun h => hi (Fin.ext h.2.2)
    · simp
    · intro i _ hi; exact Finset.sum_eq_zero fun j _ => if_neg fun h => hi (Fin.ext h.2.1)
    · simp
    · intro i _ hi
      exact Finset.sum_eq_zero fun j _ => Finset.sum_eq_zero fun k _ => if_neg fun h => hi (Fin.ext h.1)
    · simp
  | zero => exact ⟨0, by funext ξ; simp [cubic3]⟩
  | add f g _ _ hf hg =>
    obtain ⟨c, rfl⟩ := hf; obtain ⟨c', rfl⟩ := hg
    exact ⟨c + c', by funext ξ; simp [cubic3, add_mul, Finset.sum_add_distrib]⟩
  | smul a f _ hf =>
    obtain ⟨c, rfl⟩ := hf
    exact ⟨a • c, by funext ξ; simp [cubic3, Finset.mul_sum, mul_assoc]⟩

theorem tot_zero {f : (Fin d → ℝ) → ℝ} (hf : Tot 0 f) : ∃ c, f = fun _ => c := by
  induction hf using Submodule.span_induction with
  | mem f h =>
    obtain ⟨m, hm, rfl⟩ := h
    have h0 : ∀ j, m j = 0 := fun j => by
      have := Finset.single_le_sum (f := m) (fun i _ => Nat.zero_le _) (Finset.mem_univ j)
      simp only [Set.mem_setOf_eq] at hm; omega
    exact ⟨1, by funext ξ; simp [monoFn, h0]⟩
  | zero => exact ⟨0, rfl⟩
  | add f g _ _ hf hg =>
    obtain ⟨c, rfl⟩ := hf; obtain ⟨c', rfl⟩ := hg
    exact ⟨c + c', rfl⟩
  | smul a f _ hf =>
    obtain ⟨c, rfl⟩ := hf
    exact ⟨a • c, rfl⟩

theorem tot_quadratic2 {f : (Fin 2 → ℝ) → ℝ} (hf : Tot 2 f) : ∃ c g H, f = quadraticFn c g H := by
  induction hf using Submodule.span_induction with
  | mem f h =>
    obtain ⟨m, hm, rfl⟩ := h
    simp only [Set.mem_setOf_eq, Fin.sum_univ_two] at hm
    have h0 : m 0 ≤ 2 := by omega
    have h1 : m 1 ≤ 2 := by omega
    refine ⟨if m 0 = 0 ∧ m 1 = 0 then 1 else 0,
      ![if m 0 = 1 ∧ m 1 = 0 then 1 else 0, if m 0 = 0 ∧ m 1 = 1 then 1 else 0],
      ![![if m 0 = 2 then 1 else 0, if m 0 = 1 ∧ m 1 = 1 then 1 else 0], ![0, if m 1 = 2 then 1 else 0]], ?_⟩
    funext ξ
    simp only [monoFn, quadraticFn, Fin.prod_univ_two, sum_fin2, Matrix.cons_val]
    generalize m 0 = p at *
    generalize m 1 = q at *
    interval_cases p <;> interval_cases q <;> first | omega | (norm_num <;> ring)
  | zero => exact ⟨0, 0, 0, by funext ξ; simp [quadraticFn]⟩
  | add f g _ _ hf hg =>
    obtain ⟨c, b, H, rfl⟩ := hf; obtain ⟨c', b', H', rfl⟩ := hg
    refine ⟨c + c', b + b', H + H', ?_⟩
    funext ξ
    simp only [quadraticFn, Pi.add_apply, add_mul, Finset.sum_add_distrib]
    ring
  | smul a f _ hf =>
    obtain ⟨c, b, H, rfl⟩ := hf
    refine ⟨a * c, a • b, a • H, ?_⟩
    funext ξ
    simp only [quadraticFn, Pi.smul_apply, smul_eq_mul, mul_add, Finset.mul_sum, mul_assoc]

end Caribou
