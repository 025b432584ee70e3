import Verif.Spec.Patch
import Verif.Lemmas.Elements
import Verif.Model.Boundary
import Mathlib.Algebra.BigOperators.Group.Finset.Basic
import Mathlib.Tactic.LinearCombination

/-! Closed formulas for the patch test. -/

set_option autoImplicit false
set_option linter.all false

namespace Caribou

open Spec

/-- One component of the load of corner `c` of a triangle. -/
noncomputable def triFlux (y z : Fin 3 → ℝ) (_ : Fin 3) : ℝ := ((y 1 - y 0) * (z 2 - z 0) - (y 2 - y 0) * (z 1 - z 0)) / 6

/-- One component of the load of corner `c` of a quad. -/
noncomputable def quadFlux (y z : Fin 4 → ℝ) (c : Fin 4) : ℝ :=
  let n := fun i : Fin 4 => (y (i + 1) - y i) * (z (i + 3) - z i) - (y (i + 3) - y i) * (z (i + 1) - z i)
  (4 * n c + 2 * n (c + 1) + n (c + 2) + 2 * n (c + 3)) / 36

theorem triFlux_mirror (y z : Fin 3 → ℝ) (k c : Fin 3) :
    triFlux (fun i => y (k - i)) (fun i => z (k - i)) c = -triFlux y z (k - c) := by
  fin_cases k <;> simp only [triFlux, Fin.isValue, Fin.reduceFinMk, Fin.zero_eta, Fin.mk_one, Fin.reduceSub, sub_zero, sub_self] <;> ring_nf <;> trivial

theorem quadFlux_mirror (y z : Fin 4 → ℝ) (k c : Fin 4) :
    quadFlux (fun i => y (k - i)) (fun i => z (k - i)) c = -quadFlux y z (k - c) := by
  have e : ∀ j : Fin 4, k - (c + j) = (k - c) + (-j) := fun j => by abel
  have e1 : (-1 : Fin 4) = 3 := rfl
  have e2 : (-2 : Fin 4) = 2 := rfl
  have e3 : (-3 : Fin 4) = 1 := rfl
  have f1 : (1 : Fin 4) + 1 = 2 := rfl
  have f2 : (1 : Fin 4) + 3 = 0 := rfl
  have f3 : (2 : Fin 4) + 1 = 3 := rfl
  have f4 : (2 : Fin 4) + 3 = 1 := rfl
  have f5 : (3 : Fin 4) + 1 = 0 := rfl
  have f6 : (3 : Fin 4) + 3 = 2 := rfl
  simp only [quadFlux, add_assoc, e, e1, e2, e3, f1, f2, f3, f4, f5, f6, neg_zero, add_zero]
  ring

/-- The nodal vector of a tetrahedron is the load of its sides. -/
theorem tetra_flux (y z : Fin 4 → ℝ) (a : Fin 4) :
    (∑ f, ∑ c, if tetra1Sides f c = a then triFlux (fun i => y (tetra1Sides f i)) (fun i => z (tetra1Sides f i)) c else 0) =
      1 / 6 * (![-1, 1, 0, 0] a * ((y 2 - y 0) * (z 3 - z 0) - (y 3 - y 0) * (z 2 - z 0)) +
        ![-1, 0, 1, 0] a * ((y 3 - y 0) * (z 1 - z 0) - (y 1 - y 0) * (z 3 - z 0)) +
        ![-1, 0, 0, 1] a * ((y 1 - y 0) * (z 2 - z 0) - (y 2 - y 0) * (z 1 - z 0))) := by
  fin_cases a <;>
    simp only [sum_fin3, sum_fin4, triFlux, tetra1Sides, Matrix.cons_val, Fin.isValue, Fin.reduceFinMk, Fin.zero_eta, Fin.mk_one,
      Fin.reduceEq, if_true, if_false] <;> ring

/-- The value at node `i` of the hexahedron of the trilinear function with coefficients `b` (in the order 1, u, v, w, uv, vw, wu,
uvw). -/
def trilinearAt (b : Fin 8 → ℝ) : Fin 8 → ℝ :=
  ![b 0 - b 1 - b 2 - b 3 + b 4 + b 5 + b 6 - b 7, b 0 + b 1 - b 2 - b 3 - b 4 + b 5 - b 6 + b 7,
    b 0 + b 1 + b 2 - b 3 + b 4 - b 5 - b 6 - b 7, b 0 - b 1 + b 2 - b 3 - b 4 - b 5 + b 6 + b 7,
    b 0 - b 1 - b 2 + b 3 + b 4 - b 5 - b 6 + b 7, b 0 + b 1 - b 2 + b 3 - b 4 - b 5 + b 6 - b 7,
    b 0 + b 1 + b 2 + b 3 + b 4 + b 5 + b 6 + b 7, b 0 - b 1 + b 2 + b 3 - b 4 + b 5 - b 6 - b 7]

/-- The coefficients of the trilinear function with given values at the nodes. -/
noncomputable def trilinearCoef (y : Fin 8 → ℝ) : Fin 8 → ℝ :=
  ![(y 0 + y 1 + y 2 + y 3 + y 4 + y 5 + y 6 + y 7) / 8, (-y 0 + y 1 + y 2 - y 3 - y 4 + y 5 + y 6 - y 7) / 8,
    (-y 0 - y 1 + y 2 + y 3 - y 4 - y 5 + y 6 + y 7) / 8, (-y 0 - y 1 - y 2 - y 3 + y 4 + y 5 + y 6 + y 7) / 8,
    (y 0 - y 1 + y 2 - y 3 + y 4 - y 5 + y 6 - y 7) / 8, (y 0 + y 1 - y 2 - y 3 - y 4 - y 5 + y 6 + y 7) / 8,
    (y 0 - y 1 - y 2 + y 3 - y 4 + y 5 + y 6 - y 7) / 8, (-y 0 + y 1 - y 2 + y 3 + y 4 - y 5 + y 6 - y 7) / 8]

theorem trilinear_surj (y : Fin 8 → ℝ) : trilinearAt (trilinearCoef y) = y := by
  funext i
  fin_cases i <;> simp only [trilinearAt, trilinearCoef, Matrix.cons_val, Fin.isValue, Fin.reduceFinMk, Fin.zero_eta, Fin.mk_one] <;> ring

/-- The gradient of a trilinear function. -/
def trilinearGrad (b : Fin 8 → ℝ) (u v w : ℝ) : Fin 3 → ℝ :=
  ![b 1 + b 4 * v + b 6 * w + b 7 * v * w, b 2 + b 4 * u + b 5 * w + b 7 * u * w, b 3 + b 5 * v + b 6 * u + b 7 * u * v]

/-- The triple product. -/
def triple (a b c : Fin 3 → ℝ) : ℝ :=
  a 0 * (b 1 * c 2 - b 2 * c 1) + a 1 * (b 2 * c 0 - b 0 * c 2) + a 2 * (b 0 * c 1 - b 1 * c 0)

/-- The eight-point sum of the triple product of three gradients. -/
def tripleGauss (a b c : Fin 8 → ℝ) (s : ℝ) : ℝ :=
  triple (trilinearGrad a (-s) (-s) (-s)) (trilinearGrad b (-s) (-s) (-s)) (trilinearGrad c (-s) (-s) (-s)) +
    triple (trilinearGrad a s (-s) (-s)) (trilinearGrad b s (-s) (-s)) (trilinearGrad c s (-s) (-s)) +
    triple (trilinearGrad a (-s) s (-s)) (trilinearGrad b (-s) s (-s)) (trilinearGrad c (-s) s (-s)) +
    triple (trilinearGrad a s s (-s)) (trilinearGrad b s s (-s)) (trilinearGrad c s s (-s)) +
    triple (trilinearGrad a (-s) (-s) s) (trilinearGrad b (-s) (-s) s) (trilinearGrad c (-s) (-s) s) +
    triple (trilinearGrad a s (-s) s) (trilinearGrad b s (-s) s) (trilinearGrad c s (-s) s) +
    triple (trilinearGrad a (-s) s s) (trilinearGrad b (-s) s s) (trilinearGrad c (-s) s s) +
    triple (trilinearGrad a s s s) (trilinearGrad b s s s) (trilinearGrad c s s s)

/-- The coefficients of the shape functions. -/
noncomputable def hexaCoef : Fin 8 → Fin 8 → ℝ := fun i => trilinearCoef (Pi.single i 1)

theorem hexa_flux (b c : Fin 8 → ℝ) (s : ℝ) (hs : s ^ 2 = 1 / 3) (a : Fin 8) :
    (∑ f, ∑ k, if hexa1Sides f k = a then quadFlux (fun i => trilinearAt b (hexa1Sides f i))
      (fun i => trilinearAt c (hexa1Sides f i)) k else 0) = tripleGauss (hexaCoef a) b c s := by
  have h4 : s ^ 4 = 1 / 9 := by rw [show s ^ 4 = (s ^ 2) ^ 2 by ring, hs]; norm_num
  have h6 : s ^ 6 = 1 / 27 := by rw [show s ^ 6 = (s ^ 2) ^ 3 by ring, hs]; norm_num
  have f1 : (1 : Fin 4) + 1 = 2 := rfl
  have f2 : (1 : Fin 4) + 3 = 0 := rfl
  have f3 : (2 : Fin 4) + 1 = 3 := rfl
  have f4 : (2 : Fin 4) + 3 = 1 := rfl
  have f5 : (3 : Fin 4) + 1 = 0 := rfl
  have f6 : (3 : Fin 4) + 3 = 2 := rfl
  fin_cases a <;>
    (simp only [sum_fin4, sum_fin6, quadFlux, hexa1Sides, Matrix.cons_val, Fin.isValue, Fin.reduceFinMk, Fin.zero_eta, Fin.mk_one,
      Fin.reduceEq, if_true, if_false, Fin.reduceAdd, f1, f2, f3, f4, f5, f6, zero_add, add_zero, trilinearAt, tripleGauss, triple, trilinearGrad,
      hexaCoef, trilinearCoef, Pi.single_apply]
     ring_nf
     simp only [hs, h4, h6]
     ring)

end Caribou
