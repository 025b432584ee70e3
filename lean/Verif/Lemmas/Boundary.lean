import Verif.Lemmas.Elements
import Verif.Model.Boundary
import Verif.Spec.Boundary

/-! Trace identities, one per element type and side. -/

set_option linter.all false
set_option autoImplicit false

namespace Caribou

open Spec

variable {K : Type*} [Field K] [CharZero K]

/-- The affine parametrisation of the sides of `triangle1`. -/
def triangle1Param (η : Fin 1 → K) : Fin 3 → Fin 2 → K :=
  ![![(1/2) + (1/2) * η 0, 0],
    ![(1/2) - (1/2) * η 0, (1/2) + (1/2) * η 0],
    ![0, (1/2) - (1/2) * η 0]]

theorem triangle1_param (η : Fin 1 → K) (i : Fin 3) :
    segment1.worldCoordinates (fun j => triangle1.node (triangle1Sides i j)) η = triangle1Param η i := by
  fin_cases i <;>
  · simp only [triangle1Param, Matrix.cons_val, Fin.isValue, Fin.reduceFinMk, Fin.zero_eta, Fin.mk_one]
    funext a
    fin_cases a <;>
    · simp only [Elem.worldCoordinates, Elem.interpolate, sum_fin2, triangle1Sides, triangle1, segment1, Matrix.cons_val, Fin.isValue, Fin.reduceFinMk, Fin.zero_eta, Fin.mk_one]
      ring

theorem triangle1_trace {m : ℕ} (nodes : Fin 3 → Fin m → K) (η : Fin 1 → K) (i : Fin 3) :
    segment1.worldCoordinates (fun j => nodes (triangle1Sides i j)) η
      = triangle1.worldCoordinates nodes (segment1.worldCoordinates (fun j => triangle1.node (triangle1Sides i j)) η) := by
  rw [triangle1_param]
  funext a
  fin_cases i <;>
  · simp only [Elem.worldCoordinates, Elem.interpolate, sum_fin3, sum_fin2, triangle1Param, triangle1Sides, triangle1, segment1, Matrix.cons_val, Fin.isValue, Fin.reduceFinMk, Fin.zero_eta, Fin.mk_one]
    ring

/-- The affine parametrisation of the sides of `triangle2`. -/
def triangle2Param (η : Fin 1 → K) : Fin 3 → Fin 2 → K :=
  ![![(1/2) + (1/2) * η 0, 0],
    ![(1/2) - (1/2) * η 0, (1/2) + (1/2) * η 0],
    ![0, (1/2) - (1/2) * η 0]]

theorem triangle2_param (η : Fin 1 → K) (i : Fin 3) :
    segment2.worldCoordinates (fun j => triangle2.node (triangle2Sides i j)) η = triangle2Param η i := by
  fin_cases i <;>
  · simp only [triangle2Param, Matrix.cons_val, Fin.isValue, Fin.reduceFinMk, Fin.zero_eta, Fin.mk_one]
    funext a
    fin_cases a <;>
    · simp only [Elem.worldCoordinates, Elem.interpolate, sum_fin3, triangle2Sides, triangle2, segment2, Matrix.cons_val, Fin.isValue, Fin.reduceFinMk, Fin.zero_eta, Fin.mk_one]
      ring

theorem triangle2_trace {m : ℕ} (nodes : Fin 6 → Fin m → K) (η : Fin 1 → K) (i : Fin 3) :
    segment2.worldCoordinates (fun j => nodes (triangle2Sides i j)) η
      = triangle2.worldCoordinates nodes (segment2.worldCoordinates (fun j => triangle2.node (triangle2Sides i j)) η) := by
  rw [triangle2_param]
  funext a
  fin_cases i <;>
  · simp only [Elem.worldCoordinates, Elem.interpolate, sum_fin6, sum_fin3, triangle2Param, triangle2Sides, triangle2, segment2, Matrix.cons_val, Fin.isValue, Fin.reduceFinMk, Fin.zero_eta, Fin.mk_one]
    ring

/-- The affine parametrisation of the sides of `quad1`. -/
def quad1Param (η : Fin 1 → K) : Fin 4 → Fin 2 → K :=
  ![![0 + η 0, -1],
    ![1, 0 + η 0],
    ![0 - η 0, 1],
    ![-1, 0 - η 0]]

theorem quad1_param (η : Fin 1 → K) (i : Fin 4) :
    segment1.worldCoordinates (fun j => quad1.node (quad1Sides i j)) η = quad1Param η i := by
  fin_cases i <;>
  · simp only [quad1Param, Matrix.cons_val, Fin.isValue, Fin.reduceFinMk, Fin.zero_eta, Fin.mk_one]
    funext a
    fin_cases a <;>
    · simp only [Elem.worldCoordinates, Elem.interpolate, sum_fin2, quad1Sides, quad1, segment1, Matrix.cons_val, Fin.isValue, Fin.reduceFinMk, Fin.zero_eta, Fin.mk_one]
      ring

theorem quad1_trace {m : ℕ} (nodes : Fin 4 → Fin m → K) (η : Fin 1 → K) (i : Fin 4) :
    segment1.worldCoordinates (fun j => nodes (quad1Sides i j)) η
      = quad1.worldCoordinates nodes (segment1.worldCoordinates (fun j => quad1.node (quad1Sides i j)) η) := by
  rw [quad1_param]
  funext a
  fin_cases i <;>
  · simp only [Elem.worldCoordinates, Elem.interpolate, sum_fin4, sum_fin2, quad1Param, quad1Sides, quad1, segment1, Matrix.cons_val, Fin.isValue, Fin.reduceFinMk, Fin.zero_eta, Fin.mk_one]
    ring

/-- The affine parametrisation of the sides of `quad2`. -/
def quad2Param (η : Fin 1 → K) : Fin 4 → Fin 2 → K :=
  ![![0 + η 0, -1],
    ![1, 0 + η 0],
    ![0 - η 0, 1],
    ![-1, 0 - η 0]]

theorem quad2_param (η : Fin 1 → K) (i : Fin 4) :
    segment2.worldCoordinates (fun j => quad2.node (quad2Sides i j)) η = quad2Param η i := by
  fin_cases i <;>
  · simp only [quad2Param, Matrix.cons_val, Fin.isValue, Fin.reduceFinMk, Fin.zero_eta, Fin.mk_one]
    funext a
    fin_cases a <;>
    · simp only [Elem.worldCoordinates, Elem.interpolate, sum_fin3, quad2Sides, quad2, segment2, Matrix.cons_val, Fin.isValue, Fin.reduceFinMk, Fin.zero_eta, Fin.mk_one]
      ring

theorem quad2_trace {m : ℕ} (nodes : Fin 8 → Fin m → K) (η : Fin 1 → K) (i : Fin 4) :
    segment2.worldCoordinates (fun j => nodes (quad2Sides i j)) η
      = quad2.worldCoordinates nodes (segment2.worldCoordinates (fun j => quad2.node (quad2Sides i j)) η) := by
  rw [quad2_param]
  funext a
  fin_cases i <;>
  · simp only [Elem.worldCoordinates, Elem.interpolate, sum_fin8, sum_fin3, quad2Param, quad2Sides, quad2, segment2, Matrix.cons_val, Fin.isValue, Fin.reduceFinMk, Fin.zero_eta, Fin.mk_one]
    ring

/-- The affine parametrisation of the sides of `tetra1`. -/
def tetra1Param (η : Fin 2 → K) : Fin 4 → Fin 3 → K :=
  ![![0 + η 1, 0 + η 0, 0],
    ![0 + η 0, 0, 0 + η 1],
    ![0, 0 + η 1, 0 + η 0],
    ![0 + η 0, 0 + η 1, 1 - η 0 - η 1]]

theorem tetra1_param (η : Fin 2 → K) (i : Fin 4) :
    triangle1.worldCoordinates (fun j => tetra1.node (tetra1Sides i j)) η = tetra1Param η i := by
  fin_cases i <;>
  · simp only [tetra1Param, Matrix.cons_val, Fin.isValue, Fin.reduceFinMk, Fin.zero_eta, Fin.mk_one]
    funext a
    fin_cases a <;>
    · simp only [Elem.worldCoordinates, Elem.interpolate, sum_fin3, tetra1Sides, tetra1, triangle1, Matrix.cons_val, Fin.isValue, Fin.reduceFinMk, Fin.zero_eta, Fin.mk_one]
      ring

theorem tetra1_trace {m : ℕ} (nodes : Fin 4 → Fin m → K) (η : Fin 2 → K) (i : Fin 4) :
    triangle1.worldCoordinates (fun j => nodes (tetra1Sides i j)) η
      = tetra1.worldCoordinates nodes (triangle1.worldCoordinates (fun j => tetra1.node (tetra1Sides i j)) η) := by
  rw [tetra1_param]
  funext a
  fin_cases i <;>
  · simp only [Elem.worldCoordinates, Elem.interpolate, sum_fin4, sum_fin3, tetra1Param, tetra1Sides, tetra1, triangle1, Matrix.cons_val, Fin.isValue, Fin.reduceFinMk, Fin.zero_eta, Fin.mk_one]
    ring

/-- The affine parametrisation of the sides of `tetra2`. -/
def tetra2Param (η : Fin 2 → K) : Fin 4 → Fin 3 → K :=
  ![![0 + η 1, 0 + η 0, 0],
    ![0 + η 0, 0, 0 + η 1],
    ![0, 0 + η 1, 0 + η 0],
    ![0 + η 0, 0 + η 1, 1 - η 0 - η 1]]

theorem tetra2_param (η : Fin 2 → K) (i : Fin 4) :
    triangle2.worldCoordinates (fun j => tetra2.node (tetra2Sides i j)) η = tetra2Param η i := by
  fin_cases i <;>
  · simp only [tetra2Param, Matrix.cons_val, Fin.isValue, Fin.reduceFinMk, Fin.zero_eta, Fin.mk_one]
    funext a
    fin_cases a <;>
    · simp only [Elem.worldCoordinates, Elem.interpolate, sum_fin6, tetra2Sides, tetra2, triangle2, Matrix.cons_val, Fin.isValue, Fin.reduceFinMk, Fin.zero_eta, Fin.mk_one]
      ring

theorem tetra2_trace {m : ℕ} (nodes : Fin 10 → Fin m → K) (η : Fin 2 → K) (i : Fin 4) :
    triangle2.worldCoordinates (fun j => nodes (tetra2Sides i j)) η
      = tetra2.worldCoordinates nodes (triangle2.worldCoordinates (fun j => tetra2.node (tetra2Sides i j)) η) := by
  rw [tetra2_param]
  funext a
  fin_cases i <;>
  · simp only [Elem.worldCoordinates, Elem.interpolate, sum_fin10, sum_fin6, tetra2Param, tetra2Sides, tetra2, triangle2, Matrix.cons_val, Fin.isValue, Fin.reduceFinMk, Fin.zero_eta, Fin.mk_one]
    ring

/-- The affine parametrisation of the sides of `hexa1`. -/
def hexa1Param (η : Fin 2 → K) : Fin 6 → Fin 3 → K :=
  ![![0 + η 1, 0 + η 0, -1],
    ![-1, 0 + η 1, 0 + η 0],
    ![1, 0 + η 0, 0 + η 1],
    ![0 + η 0, -1, 0 + η 1],
    ![0 - η 0, 1, 0 + η 1],
    ![0 + η 0, 0 + η 1, 1]]

theorem hexa1_param (η : Fin 2 → K) (i : Fin 6) :
    quad1.worldCoordinates (fun j => hexa1.node (hexa1Sides i j)) η = hexa1Param η i := by
  fin_cases i <;>
  · simp only [hexa1Param, Matrix.cons_val, Fin.isValue, Fin.reduceFinMk, Fin.zero_eta, Fin.mk_one]
    funext a
    fin_cases a <;>
    · simp only [Elem.worldCoordinates, Elem.interpolate, sum_fin4, hexa1Sides, hexa1, quad1, Matrix.cons_val, Fin.isValue, Fin.reduceFinMk, Fin.zero_eta, Fin.mk_one]
      ring

theorem hexa1_trace {m : ℕ} (nodes : Fin 8 → Fin m → K) (η : Fin 2 → K) (i : Fin 6) :
    quad1.worldCoordinates (fun j => nodes (hexa1Sides i j)) η
      = hexa1.worldCoordinates nodes (quad1.worldCoordinates (fun j => hexa1.node (hexa1Sides i j)) η) := by
  rw [hexa1_param]
  funext a
  fin_cases i <;>
  · simp only [Elem.worldCoordinates, Elem.interpolate, sum_fin8, sum_fin4, hexa1Param, hexa1Sides, hexa1, quad1, Matrix.cons_val, Fin.isValue, Fin.reduceFinMk, Fin.zero_eta, Fin.mk_one]
    ring

/-- The affine parametrisation of the sides of `hexa2`. -/
def hexa2Param (η : Fin 2 → K) : Fin 6 → Fin 3 → K :=
  ![![0 + η 1, 0 + η 0, -1],
    ![-1, 0 + η 1, 0 + η 0],
    ![1, 0 + η 0, 0 + η 1],
    ![0 + η 0, -1, 0 + η 1],
    ![0 - η 0, 1, 0 + η 1],
    ![0 + η 0, 0 + η 1, 1]]

theorem hexa2_param (η : Fin 2 → K) (i : Fin 6) :
    quad2.worldCoordinates (fun j => hexa2.node (hexa2Sides i j)) η = hexa2Param η i := by
  fin_cases i <;>
  · simp only [hexa2Param, Matrix.cons_val, Fin.isValue, Fin.reduceFinMk, Fin.zero_eta, Fin.mk_one]
    funext a
    fin_cases a <;>
    · simp only [Elem.worldCoordinates, Elem.interpolate, sum_fin8, hexa2Sides, hexa2, quad2, Matrix.cons_val, Fin.isValue, Fin.reduceFinMk, Fin.zero_eta, Fin.mk_one]
      ring

theorem hexa2_trace {m : ℕ} (nodes : Fin 20 → Fin m → K) (η : Fin 2 → K) (i : Fin 6) :
    quad2.worldCoordinates (fun j => nodes (hexa2Sides i j)) η
      = hexa2.worldCoordinates nodes (quad2.worldCoordinates (fun j => hexa2.node (hexa2Sides i j)) η) := by
  rw [hexa2_param]
  funext a
  fin_cases i <;>
  · simp only [Elem.worldCoordinates, Elem.interpolate, sum_fin20, sum_fin8, hexa2Param, hexa2Sides, hexa2, hexa2Mid, quad2, Matrix.cons_val, Fin.isValue, Fin.reduceFinMk, Fin.zero_eta, Fin.mk_one]
    ring

section Facets

variable {K : Type*} [Field K] [LinearOrder K] [IsStrictOrderedRing K]

theorem triangle1_facet (i : Fin 3) :
    SupportedSide (triangle1 (K := K)).node (triangle1Sides i) (fun η => segment1.worldCoordinates (fun j => triangle1.node (triangle1Sides i j)) η) := by
  simp only [triangle1_param]
  fin_cases i
  · refine ⟨![0, -1], 0, fun η => ?_, fun k hk => ?_⟩
    · simp only [sum_fin2, triangle1Param, Matrix.cons_val, Fin.isValue, Fin.reduceFinMk, Fin.zero_eta, Fin.mk_one]
      ring
    · fin_cases k <;> first
        | exact absurd rfl (hk 0)
        | exact absurd rfl (hk 1)
        | (simp only [sum_fin2, triangle1, Matrix.cons_val, Fin.isValue, Fin.reduceFinMk, Fin.zero_eta, Fin.mk_one]; norm_num)
  · refine ⟨![1, 1], 1, fun η => ?_, fun k hk => ?_⟩
    · simp only [sum_fin2, triangle1Param, Matrix.cons_val, Fin.isValue, Fin.reduceFinMk, Fin.zero_eta, Fin.mk_one]
      ring
    · fin_cases k <;> first
        | exact absurd rfl (hk 0)
        | exact absurd rfl (hk 1)
        | (simp only [sum_fin2, triangle1, Matrix.cons_val, Fin.isValue, Fin.reduceFinMk, Fin.zero_eta, Fin.mk_one]; norm_num)
  · refine ⟨![-1, 0], 0, fun η => ?_, fun k hk => ?_⟩
    · simp only [sum_fin2, triangle1Param, Matrix.cons_val, Fin.isValue, Fin.reduceFinMk, Fin.zero_eta, Fin.mk_one]
      ring
    · fin_cases k <;> first
        | exact absurd rfl (hk 0)
        | exact absurd rfl (hk 1)
        | (simp only [sum_fin2, triangle1, Matrix.cons_val, Fin.isValue, Fin.reduceFinMk, Fin.zero_eta, Fin.mk_one]; norm_num)

theorem triangle2_facet (i : Fin 3) :
    SupportedSide (triangle2 (K := K)).node (triangle2Sides i) (fun η => segment2.worldCoordinates (fun j => triangle2.node (triangle2Sides i j)) η) := by
  simp only [triangle2_param]
  fin_cases i
  · refine ⟨![0, -1], 0, fun η => ?_, fun k hk => ?_⟩
    · simp only [sum_fin2, triangle2Param, Matrix.cons_val, Fin.isValue, Fin.reduceFinMk, Fin.zero_eta, Fin.mk_one]
      ring
    · fin_cases k <;> first
        | exact absurd rfl (hk 0)
        | exact absurd rfl (hk 1)
        | exact absurd rfl (hk 2)
        | (simp only [sum_fin2, triangle2, Matrix.cons_val, Fin.isValue, Fin.reduceFinMk, Fin.zero_eta, Fin.mk_one]; norm_num)
  · refine ⟨![1, 1], 1, fun η => ?_, fun k hk => ?_⟩
    · simp only [sum_fin2, triangle2Param, Matrix.cons_val, Fin.isValue, Fin.reduceFinMk, Fin.zero_eta, Fin.mk_one]
      ring
    · fin_cases k <;> first
        | exact absurd rfl (hk 0)
        | exact absurd rfl (hk 1)
        | exact absurd rfl (hk 2)
        | (simp only [sum_fin2, triangle2, Matrix.cons_val, Fin.isValue, Fin.reduceFinMk, Fin.zero_eta, Fin.mk_one]; norm_num)
  · refine ⟨![-1, 0], 0, fun η => ?_, fun k hk => ?_⟩
    · simp only [sum_fin2, triangle2Param, Matrix.cons_val, Fin.isValue, Fin.reduceFinMk, Fin.zero_eta, Fin.mk_one]
      ring
    · fin_cases k <;> first
        | exact absurd rfl (hk 0)
        | exact absurd rfl (hk 1)
        | exact absurd rfl (hk 2)
        | (simp only [sum_fin2, triangle2, Matrix.cons_val, Fin.isValue, Fin.reduceFinMk, Fin.zero_eta, Fin.mk_one]; norm_num)

theorem quad1_facet (i : Fin 4) :
    SupportedSide (quad1 (K := K)).node (quad1Sides i) (fun η => segment1.worldCoordinates (fun j => quad1.node (quad1Sides i j)) η) := by
  simp only [quad1_param]
  fin_cases i
  · refine ⟨![0, -1], 1, fun η => ?_, fun k hk => ?_⟩
    · simp only [sum_fin2, quad1Param, Matrix.cons_val, Fin.isValue, Fin.reduceFinMk, Fin.zero_eta, Fin.mk_one]
      ring
    · fin_cases k <;> first
        | exact absurd rfl (hk 0)
        | exact absurd rfl (hk 1)
        | (simp only [sum_fin2, quad1, Matrix.cons_val, Fin.isValue, Fin.reduceFinMk, Fin.zero_eta, Fin.mk_one]; norm_num)
  · refine ⟨![1, 0], 1, fun η => ?_, fun k hk => ?_⟩
    · simp only [sum_fin2, quad1Param, Matrix.cons_val, Fin.isValue, Fin.reduceFinMk, Fin.zero_eta, Fin.mk_one]
      ring
    · fin_cases k <;> first
        | exact absurd rfl (hk 0)
        | exact absurd rfl (hk 1)
        | (simp only [sum_fin2, quad1, Matrix.cons_val, Fin.isValue, Fin.reduceFinMk, Fin.zero_eta, Fin.mk_one]; norm_num)
  · refine ⟨![0, 1], 1, fun η => ?_, fun k hk => ?_⟩
    · simp only [sum_fin2, quad1Param, Matrix.cons_val, Fin.isValue, Fin.reduceFinMk, Fin.zero_eta, Fin.mk_one]
      ring
    · fin_cases k <;> first
        | exact absurd rfl (hk 0)
        | exact absurd rfl (hk 1)
        | (simp only [sum_fin2, quad1, Matrix.cons_val, Fin.isValue, Fin.reduceFinMk, Fin.zero_eta, Fin.mk_one]; norm_num)
  · refine ⟨![-1, 0], 1, fun η => ?_, fun k hk => ?_⟩
    · simp only [sum_fin2, quad1Param, Matrix.cons_val, Fin.isValue, Fin.reduceFinMk, Fin.zero_eta, Fin.mk_one]
      ring
    · fin_cases k <;> first
        | exact absurd rfl (hk 0)
        | exact absurd rfl (hk 1)
        | (simp only [sum_fin2, quad1, Matrix.cons_val, Fin.isValue, Fin.reduceFinMk, Fin.zero_eta, Fin.mk_one]; norm_num)

theorem quad2_facet (i : Fin 4) :
    SupportedSide (quad2 (K := K)).node (quad2Sides i) (fun η => segment2.worldCoordinates (fun j => quad2.node (quad2Sides i j)) η) := by
  simp only [quad2_param]
  fin_cases i
  · refine ⟨![0, -1], 1, fun η => ?_, fun k hk => ?_⟩
    · simp only [sum_fin2, quad2Param, Matrix.cons_val, Fin.isValue, Fin.reduceFinMk, Fin.zero_eta, Fin.mk_one]
      ring
    · fin_cases k <;> first
        | exact absurd rfl (hk 0)
        | exact absurd rfl (hk 1)
        | exact absurd rfl (hk 2)
        | (simp only [sum_fin2, quad2, Matrix.cons_val, Fin.isValue, Fin.reduceFinMk, Fin.zero_eta, Fin.mk_one]; norm_num)
  · refine ⟨![1, 0], 1, fun η => ?_, fun k hk => ?_⟩
    · simp only [sum_fin2, quad2Param, Matrix.cons_val, Fin.isValue, Fin.reduceFinMk, Fin.zero_eta, Fin.mk_one]
      ring
    · fin_cases k <;> first
        | exact absurd rfl (hk 0)
        | exact absurd rfl (hk 1)
        | exact absurd rfl (hk 2)
        | (simp only [sum_fin2, quad2, Matrix.cons_val, Fin.isValue, Fin.reduceFinMk, Fin.zero_eta, Fin.mk_one]; norm_num)
  · refine ⟨![0, 1], 1, fun η => ?_, fun k hk => ?_⟩
    · simp only [sum_fin2, quad2Param, Matrix.cons_val, Fin.isValue, Fin.reduceFinMk, Fin.zero_eta, Fin.mk_one]
      ring
    · fin_cases k <;> first
        | exact absurd rfl (hk 0)
        | exact absurd rfl (hk 1)
        | exact absurd rfl (hk 2)
        | (simp only [sum_fin2, quad2, Matrix.cons_val, Fin.isValue, Fin.reduceFinMk, Fin.zero_eta, Fin.mk_one]; norm_num)
  · refine ⟨![-1, 0], 1, fun η => ?_, fun k hk => ?_⟩
    · simp only [sum_fin2, quad2Param, Matrix.cons_val, Fin.isValue, Fin.reduceFinMk, Fin.zero_eta, Fin.mk_one]
      ring
    · fin_cases k <;> first
        | exact absurd rfl (hk 0)
        | exact absurd rfl (hk 1)
        | exact absurd rfl (hk 2)
        | (simp only [sum_fin2, quad2, Matrix.cons_val, Fin.isValue, Fin.reduceFinMk, Fin.zero_eta, Fin.mk_one]; norm_num)

theorem tetra1_facet (i : Fin 4) :
    SupportedSide (tetra1 (K := K)).node (tetra1Sides i) (fun η => triangle1.worldCoordinates (fun j => tetra1.node (tetra1Sides i j)) η) := by
  simp only [tetra1_param]
  fin_cases i
  · refine ⟨![0, 0, -1], 0, fun η => ?_, fun k hk => ?_⟩
    · simp only [sum_fin3, tetra1Param, Matrix.cons_val, Fin.isValue, Fin.reduceFinMk, Fin.zero_eta, Fin.mk_one]
      ring
    · fin_cases k <;> first
        | exact absurd rfl (hk 0)
        | exact absurd rfl (hk 1)
        | exact absurd rfl (hk 2)
        | (simp only [sum_fin3, tetra1, Matrix.cons_val, Fin.isValue, Fin.reduceFinMk, Fin.zero_eta, Fin.mk_one]; norm_num)
  · refine ⟨![0, -1, 0], 0, fun η => ?_, fun k hk => ?_⟩
    · simp only [sum_fin3, tetra1Param, Matrix.cons_val, Fin.isValue, Fin.reduceFinMk, Fin.zero_eta, Fin.mk_one]
      ring
    · fin_cases k <;> first
        | exact absurd rfl (hk 0)
        | exact absurd rfl (hk 1)
        | exact absurd rfl (hk 2)
        | (simp only [sum_fin3, tetra1, Matrix.cons_val, Fin.isValue, Fin.reduceFinMk, Fin.zero_eta, Fin.mk_one]; norm_num)
  · refine ⟨![-1, 0, 0], 0, fun η => ?_, fun k hk => ?_⟩
    · simp only [sum_fin3, tetra1Param, Matrix.cons_val, Fin.isValue, Fin.reduceFinMk, Fin.zero_eta, Fin.mk_one]
      ring
    · fin_cases k <;> first
        | exact absurd rfl (hk 0)
        | exact absurd rfl (hk 1)
        | exact absurd rfl (hk 2)
        | (simp only [sum_fin3, tetra1, Matrix.cons_val, Fin.isValue, Fin.reduceFinMk, Fin.zero_eta, Fin.mk_one]; norm_num)
  · refine ⟨![1, 1, 1], 1, fun η => ?_, fun k hk => ?_⟩
    · simp only [sum_fin3, tetra1Param, Matrix.cons_val, Fin.isValue, Fin.reduceFinMk, Fin.zero_eta, Fin.mk_one]
      ring
    · fin_cases k <;> first
        | exact absurd rfl (hk 0)
        | exact absurd rfl (hk 1)
        | exact absurd rfl (hk 2)
        | (simp only [sum_fin3, tetra1, Matrix.cons_val, Fin.isValue, Fin.reduceFinMk, Fin.zero_eta, Fin.mk_one]; norm_num)

theorem tetra2_facet (i : Fin 4) :
    SupportedSide (tetra2 (K := K)).node (tetra2Sides i) (fun η => triangle2.worldCoordinates (fun j => tetra2.node (tetra2Sides i j)) η) := by
  simp only [tetra2_param]
  fin_cases i
  · refine ⟨![0, 0, -1], 0, fun η => ?_, fun k hk => ?_⟩
    · simp only [sum_fin3, tetra2Param, Matrix.cons_val, Fin.isValue, Fin.reduceFinMk, Fin.zero_eta, Fin.mk_one]
      ring
    · fin_cases k <;> first
        | exact absurd rfl (hk 0)
        | exact absurd rfl (hk 1)
        | exact absurd rfl (hk 2)
        | exact absurd rfl (hk 3)
        | exact absurd rfl (hk 4)
        | exact absurd rfl (hk 5)
        | (simp only [sum_fin3, tetra2, Matrix.cons_val, Fin.isValue, Fin.reduceFinMk, Fin.zero_eta, Fin.mk_one]; norm_num)
  · refine ⟨![0, -1, 0], 0, fun η => ?_, fun k hk => ?_⟩
    · simp only [sum_fin3, tetra2Param, Matrix.cons_val, Fin.isValue, Fin.reduceFinMk, Fin.zero_eta, Fin.mk_one]
      ring
    · fin_cases k <;> first
        | exact absurd rfl (hk 0)
        | exact absurd rfl (hk 1)
        | exact absurd rfl (hk 2)
        | exact absurd rfl (hk 3)
        | exact absurd rfl (hk 4)
        | exact absurd rfl (hk 5)
        | (simp only [sum_fin3, tetra2, Matrix.cons_val, Fin.isValue, Fin.reduceFinMk, Fin.zero_eta, Fin.mk_one]; norm_num)
  · refine ⟨![-1, 0, 0], 0, fun η => ?_, fun k hk => ?_⟩
    · simp only [sum_fin3, tetra2Param, Matrix.cons_val, Fin.isValue, Fin.reduceFinMk, Fin.zero_eta, Fin.mk_one]
      ring
    · fin_cases k <;> first
        | exact absurd rfl (hk 0)
        | exact absurd rfl (hk 1)
        | exact absurd rfl (hk 2)
        | exact absurd rfl (hk 3)
        | exact absurd rfl (hk 4)
        | exact absurd rfl (hk 5)
        | (simp only [sum_fin3, tetra2, Matrix.cons_val, Fin.isValue, Fin.reduceFinMk, Fin.zero_eta, Fin.mk_one]; norm_num)
  · refine ⟨![1, 1, 1], 1, fun η => ?_, fun k hk => ?_⟩
    · simp only [sum_fin3, tetra2Param, Matrix.cons_val, Fin.isValue, Fin.reduceFinMk, Fin.zero_eta, Fin.mk_one]
      ring
    · fin_cases k <;> first
        | exact absurd rfl (hk 0)
        | exact absurd rfl (hk 1)
        | exact absurd rfl (hk 2)
        | exact absurd rfl (hk 3)
        | exact absurd rfl (hk 4)
        | exact absurd rfl (hk 5)
        | (simp only [sum_fin3, tetra2, Matrix.cons_val, Fin.isValue, Fin.reduceFinMk, Fin.zero_eta, Fin.mk_one]; norm_num)

theorem hexa1_facet (i : Fin 6) :
    SupportedSide (hexa1 (K := K)).node (hexa1Sides i) (fun η => quad1.worldCoordinates (fun j => hexa1.node (hexa1Sides i j)) η) := by
  simp only [hexa1_param]
  fin_cases i
  · refine ⟨![0, 0, -1], 1, fun η => ?_, fun k hk => ?_⟩
    · simp only [sum_fin3, hexa1Param, Matrix.cons_val, Fin.isValue, Fin.reduceFinMk, Fin.zero_eta, Fin.mk_one]
      ring
    · fin_cases k <;> first
        | exact absurd rfl (hk 0)
        | exact absurd rfl (hk 1)
        | exact absurd rfl (hk 2)
        | exact absurd rfl (hk 3)
        | (simp only [sum_fin3, hexa1, Matrix.cons_val, Fin.isValue, Fin.reduceFinMk, Fin.zero_eta, Fin.mk_one]; norm_num)
  · refine ⟨![-1, 0, 0], 1, fun η => ?_, fun k hk => ?_⟩
    · simp only [sum_fin3, hexa1Param, Matrix.cons_val, Fin.isValue, Fin.reduceFinMk, Fin.zero_eta, Fin.mk_one]
      ring
    · fin_cases k <;> first
        | exact absurd rfl (hk 0)
        | exact absurd rfl (hk 1)
        | exact absurd rfl (hk 2)
        | exact absurd rfl (hk 3)
        | (simp only [sum_fin3, hexa1, Matrix.cons_val, Fin.isValue, Fin.reduceFinMk, Fin.zero_eta, Fin.mk_one]; norm_num)
  · refine ⟨![1, 0, 0], 1, fun η => ?_, fun k hk => ?_⟩
    · simp only [sum_fin3, hexa1Param, Matrix.cons_val, Fin.isValue, Fin.reduceFinMk, Fin.zero_eta, Fin.mk_one]
      ring
    · fin_cases k <;> first
        | exact absurd rfl (hk 0)
        | exact absurd rfl (hk 1)
        | exact absurd rfl (hk 2)
        | exact absurd rfl (hk 3)
        | (simp only [sum_fin3, hexa1, Matrix.cons_val, Fin.isValue, Fin.reduceFinMk, Fin.zero_eta, Fin.mk_one]; norm_num)
  · refine ⟨![0, -1, 0], 1, fun η => ?_, fun k hk => ?_⟩
    · simp only [sum_fin3, hexa1Param, Matrix.cons_val, Fin.isValue, Fin.reduceFinMk, Fin.zero_eta, Fin.mk_one]
      ring
    · fin_cases k <;> first
        | exact absurd rfl (hk 0)
        | exact absurd rfl (hk 1)
        | exact absurd rfl (hk 2)
        | exact absurd rfl (hk 3)
        | (simp only [sum_fin3, hexa1, Matrix.cons_val, Fin.isValue, Fin.reduceFinMk, Fin.zero_eta, Fin.mk_one]; norm_num)
  · refine ⟨![0, 1, 0], 1, fun η => ?_, fun k hk => ?_⟩
    · simp only [sum_fin3, hexa1Param, Matrix.cons_val, Fin.isValue, Fin.reduceFinMk, Fin.zero_eta, Fin.mk_one]
      ring
    · fin_cases k <;> first
        | exact absurd rfl (hk 0)
        | exact absurd rfl (hk 1)
        | exact absurd rfl (hk 2)
        | exact absurd rfl (hk 3)
        | (simp only [sum_fin3, hexa1, Matrix.cons_val, Fin.isValue, Fin.reduceFinMk, Fin.zero_eta, Fin.mk_one]; norm_num)
  · refine ⟨![0, 0, 1], 1, fun η => ?_, fun k hk => ?_⟩
    · simp only [sum_fin3, hexa1Param, Matrix.cons_val, Fin.isValue, Fin.reduceFinMk, Fin.zero_eta, Fin.mk_one]
      ring
    · fin_cases k <;> first
        | exact absurd rfl (hk 0)
        | exact absurd rfl (hk 1)
        | exact absurd rfl (hk 2)
        | exact absurd rfl (hk 3)
        | (simp only [sum_fin3, hexa1, Matrix.cons_val, Fin.isValue, Fin.reduceFinMk, Fin.zero_eta, Fin.mk_one]; norm_num)

theorem hexa2_facet (i : Fin 6) :
    SupportedSide (hexa2 (K := K)).node (hexa2Sides i) (fun η => quad2.worldCoordinates (fun j => hexa2.node (hexa2Sides i j)) η) := by
  simp only [hexa2_param]
  fin_cases i
  · refine ⟨![0, 0, -1], 1, fun η => ?_, fun k hk => ?_⟩
    · simp only [sum_fin3, hexa2Param, Matrix.cons_val, Fin.isValue, Fin.reduceFinMk, Fin.zero_eta, Fin.mk_one]
      ring
    · fin_cases k <;> first
        | exact absurd rfl (hk 0)
        | exact absurd rfl (hk 1)
        | exact absurd rfl (hk 2)
        | exact absurd rfl (hk 3)
        | exact absurd rfl (hk 4)
        | exact absurd rfl (hk 5)
        | exact absurd rfl (hk 6)
        | exact absurd rfl (hk 7)
        | (simp only [sum_fin3, hexa2, Matrix.cons_val, Fin.isValue, Fin.reduceFinMk, Fin.zero_eta, Fin.mk_one]; norm_num)
  · refine ⟨![-1, 0, 0], 1, fun η => ?_, fun k hk => ?_⟩
    · simp only [sum_fin3, hexa2Param, Matrix.cons_val, Fin.isValue, Fin.reduceFinMk, Fin.zero_eta, Fin.mk_one]
      ring
    · fin_cases k <;> first
        | exact absurd rfl (hk 0)
        | exact absurd rfl (hk 1)
        | exact absurd rfl (hk 2)
        | exact absurd rfl (hk 3)
        | exact absurd rfl (hk 4)
        | exact absurd rfl (hk 5)
        | exact absurd rfl (hk 6)
        | exact absurd rfl (hk 7)
        | (simp only [sum_fin3, hexa2, Matrix.cons_val, Fin.isValue, Fin.reduceFinMk, Fin.zero_eta, Fin.mk_one]; norm_num)
  · refine ⟨![1, 0, 0], 1, fun η => ?_, fun k hk => ?_⟩
    · simp only [sum_fin3, hexa2Param, Matrix.cons_val, Fin.isValue, Fin.reduceFinMk, Fin.zero_eta, Fin.mk_one]
      ring
    · fin_cases k <;> first
        | exact absurd rfl (hk 0)
        | exact absurd rfl (hk 1)
        | exact absurd rfl (hk 2)
        | exact absurd rfl (hk 3)
        | exact absurd rfl (hk 4)
        | exact absurd rfl (hk 5)
        | exact absurd rfl (hk 6)
        | exact absurd rfl (hk 7)
        | (simp only [sum_fin3, hexa2, Matrix.cons_val, Fin.isValue, Fin.reduceFinMk, Fin.zero_eta, Fin.mk_one]; norm_num)
  · refine ⟨![0, -1, 0], 1, fun η => ?_, fun k hk => ?_⟩
    · simp only [sum_fin3, hexa2Param, Matrix.cons_val, Fin.isValue, Fin.reduceFinMk, Fin.zero_eta, Fin.mk_one]
      ring
    · fin_cases k <;> first
        | exact absurd rfl (hk 0)
        | exact absurd rfl (hk 1)
        | exact absurd rfl (hk 2)
        | exact absurd rfl (hk 3)
        | exact absurd rfl (hk 4)
        | exact absurd rfl (hk 5)
        | exact absurd rfl (hk 6)
        | exact absurd rfl (hk 7)
        | (simp only [sum_fin3, hexa2, Matrix.cons_val, Fin.isValue, Fin.reduceFinMk, Fin.zero_eta, Fin.mk_one]; norm_num)
  · refine ⟨![0, 1, 0], 1, fun η => ?_, fun k hk => ?_⟩
    · simp only [sum_fin3, hexa2Param, Matrix.cons_val, Fin.isValue, Fin.reduceFinMk, Fin.zero_eta, Fin.mk_one]
      ring
    · fin_cases k <;> first
        | exact absurd rfl (hk 0)
        | exact absurd rfl (hk 1)
        | exact absurd rfl (hk 2)
        | exact absurd rfl (hk 3)
        | exact absurd rfl (hk 4)
        | exact absurd rfl (hk 5)
        | exact absurd rfl (hk 6)
        | exact absurd rfl (hk 7)
        | (simp only [sum_fin3, hexa2, Matrix.cons_val, Fin.isValue, Fin.reduceFinMk, Fin.zero_eta, Fin.mk_one]; norm_num)
  · refine ⟨![0, 0, 1], 1, fun η => ?_, fun k hk => ?_⟩
    · simp only [sum_fin3, hexa2Param, Matrix.cons_val, Fin.isValue, Fin.reduceFinMk, Fin.zero_eta, Fin.mk_one]
      ring
    · fin_cases k <;> first
        | exact absurd rfl (hk 0)
        | exact absurd rfl (hk 1)
        | exact absurd rfl (hk 2)
        | exact absurd rfl (hk 3)
        | exact absurd rfl (hk 4)
        | exact absurd rfl (hk 5)
        | exact absurd rfl (hk 6)
        | exact absurd rfl (hk 7)
        | (simp only [sum_fin3, hexa2, Matrix.cons_val, Fin.isValue, Fin.reduceFinMk, Fin.zero_eta, Fin.mk_one]; norm_num)

end Facets

end Caribou
