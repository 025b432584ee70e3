import Verif.Model.Elements
import Mathlib.LinearAlgebra.Matrix.NonsingularInverse

/-!
# `Element::local_coordinates`
-/

set_option autoImplicit false

namespace Caribou

variable {K : Type*} [Field K]

/-- `squaredNorm()` of Eigen. -/
def sqNorm {m : ℕ} (r : Fin m → K) : K := ∑ a, r a * r a

/-- The Newton increment, `Element.h:247-252`: `J.inverse() * residual` when the world and local dimensions agree,
`(J.transpose()*J).inverse() * (J.transpose()*residual)` otherwise.  A singular matrix is inverted to `0` here
(Mathlib's convention) while the code would produce infinities or NaNs: theorems assume invertibility. -/
noncomputable def newtonIncrement {m d : ℕ} (J : Matrix (Fin m) (Fin d) K) (r : Fin m → K) : Fin d → K :=
  if h : m = d then (J.submatrix (Fin.cast h.symm) id)⁻¹.mulVec (fun a => r (Fin.cast h.symm a))
  else (J.transpose * J)⁻¹.mulVec (J.transpose.mulVec r)

/-- One pass through the body of the loop, `Element.h:245-256`: the new local coordinates. -/
noncomputable def newtonStep {d n m : ℕ} (E : Elem K d n) (nodes : Fin n → Fin m → K) (p : Fin m → K)
    (ξ : Fin d → K) : Fin d → K :=
  ξ + newtonIncrement (E.jacobian nodes ξ) (p - E.worldCoordinates nodes ξ)

/-- Squared norm of the residual at `ξ`, `Element.h:235-236,254-255`. -/
def residual2 {d n m : ℕ} (E : Elem K d n) (nodes : Fin n → Fin m → K) (p : Fin m → K) (ξ : Fin d → K) : K :=
  sqNorm (p - E.worldCoordinates nodes ξ)

/-- The `do { ... ++iteration } while (iteration < maximum and r_norm_2 >= r0_norm_2*squared_threshold)` loop,
`Element.h:244-259`, over an arbitrary step and residual.  Returns the last iterate and the value of `iteration`. -/
def doWhile [LinearOrder K] {X : Type*} (step : X → X) (res : X → K) (bound : K) (maxIt : ℕ) (it : ℕ) (x : X) : X × ℕ :=
  if it + 1 < maxIt ∧ bound ≤ res (step x) then doWhile step res bound maxIt (it + 1) (step x)
  else (step x, it + 1)
termination_by maxIt - it

/-- `Element::local_coordinates(coordinates, starting_point, residual_tolerance, maximum_number_of_iterations)`,
`Element.h:223-262`, together with the number of Newton updates done. -/
noncomputable def localCoordinatesTrace [LinearOrder K] {d n m : ℕ} (E : Elem K d n) (nodes : Fin n → Fin m → K) (p : Fin m → K)
    (start : Fin d → K) (tol : K) (maxIt : ℕ) : (Fin d → K) × ℕ :=
  let r0 := residual2 E nodes p start
  if r0 < tol * tol then (start, 0)
  else doWhile (newtonStep E nodes p) (residual2 E nodes p) (r0 * (tol * tol)) maxIt 0 start

/-- The value returned by `local_coordinates` with four arguments. -/
noncomputable def localCoordinates [LinearOrder K] {d n m : ℕ} (E : Elem K d n) (nodes : Fin n → Fin m → K) (p : Fin m → K)
    (start : Fin d → K) (tol : K) (maxIt : ℕ) : Fin d → K :=
  (localCoordinatesTrace E nodes p start tol maxIt).1

/-- `Element::local_coordinates(coordinates)`, `Element.h:169-171`. -/
noncomputable def localCoordinatesDefault [LinearOrder K] {d n m : ℕ} (E : Elem K d n) (nodes : Fin n → Fin m → K) (p : Fin m → K) :
    Fin d → K :=
  localCoordinates E nodes p 0 (1 / 100000) 5

end Caribou
