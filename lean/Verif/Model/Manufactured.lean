import Verif.Model.Traction
import Verif.Model.Material
import Mathlib.Analysis.Calculus.Deriv.Basic
import Mathlib.Analysis.SpecialFunctions.Exp

/-!
# Model of the validation by a manufactured solution

`Validation/manufactured_solution/assemble.py`, `Validation/manufactured_solution/sympy_solution.py`, the constants of
`Validation/manufactured_solution.py` and `BaseTriangle::normal`, which the loads of the script use.  Numbers are real.  The symbolic derivatives of sympy are the derivatives of
the functions.  An element is given to the functions of the user as its node positions.
-/

set_option autoImplicit false

namespace Caribou

namespace Manufactured

variable {N n M D d : ℕ}

/-- `detJ`, `assemble.py:25-30` and `:60-65`: for any other pair of dimensions numpy raises, which is left out. -/
noncomputable def gaussFactor (J : Matrix (Fin D) (Fin d) ℝ) : ℝ :=
  if h : D = d then |(J.submatrix id (Fin.cast h)).det|
  else if d = 1 then Real.sqrt (∑ a, ∑ b, J a b * J a b)
  else if h : D = 3 ∧ d = 2 then
    norm2 (crossProduct (fun a => J (Fin.cast h.1.symm a) (Fin.cast h.2.symm 0)) (fun a => J (Fin.cast h.1.symm a) (Fin.cast h.2.symm 1)))
  else 0

/-- `forces[node_index] += v`, `assemble.py:33`. -/
def scatterAdd (forces : Fin N → Fin D → ℝ) (p : Fin N) (v : Fin D → ℝ) : Fin N → Fin D → ℝ :=
  fun q => if q = p then forces q + v else forces q

/-- `assemble`, `assemble.py:8-35`. -/
noncomputable def assembleLoads (E : Elem ℝ d n) (gauss : List (GaussNode d)) (idx : Fin M → Fin n → Fin N) (X : Fin N → Fin D → ℝ)
    (f : (Fin n → Fin D → ℝ) → (Fin D → ℝ) → Fin D → ℝ) : Fin N → Fin D → ℝ :=
  (List.finRange M).foldl (fun forces e =>
    let nodes := fun i => X (idx e i)
    gauss.foldl (fun forces g =>
      let detJ := gaussFactor (E.jacobian nodes g.position)
      let x := E.worldCoordinates nodes g.position
      (List.finRange n).foldl (fun forces i =>
        scatterAdd forces (idx e i) fun a => f nodes x a * E.L g.position i * g.weight * detJ) forces) forces) 0

/-- The accumulation of `integrate`, `assemble.py:72-75`. -/
def accumulate {V : Type*} [Add V] (v : Option V) (w : V) : Option V :=
  match v with
  | none => some w
  | some v => some (v + w)

/-- `integrate`, `assemble.py:38-77`, with the displacements `u` of the nodes; without displacements the function ignores its second
argument. -/
noncomputable def integrateOver {V : Type*} [Add V] [SMul ℝ V] (E : Elem ℝ d n) (gauss : List (GaussNode d)) (idx : Fin M → Fin n → Fin N)
    (X : Fin N → Fin D → ℝ) (u : Fin N → Fin D → ℝ) (f : (Fin n → Fin D → ℝ) → (Fin D → ℝ) → (Fin D → ℝ) → V) : Option V :=
  (List.finRange M).foldl (fun v e =>
    let nodes := fun i => X (idx e i)
    gauss.foldl (fun v g =>
      let detJ := gaussFactor (E.jacobian nodes g.position)
      let x := E.worldCoordinates nodes g.position
      let U := fun a => ∑ i, u (idx e i) a * E.L g.position i
      accumulate v ((g.weight * detJ) • f nodes x U)) v) none

/-- `BaseTriangle::normal`, `BaseTriangle.h:65-71`. -/
noncomputable def surfaceNormal {m : ℕ} [NeZero m] (nodes : Fin m → Fin 3 → ℝ) : Fin 3 → ℝ :=
  normalized (crossProduct (nodes (Fin.ofNat m 1) - nodes (Fin.ofNat m 0)) (nodes (Fin.ofNat m 2) - nodes (Fin.ofNat m 0)))

/-- The displacement `u, v, w` of `sympy_solution.py:12`. -/
noncomputable def solution (length : ℝ) (x : Fin 3 → ℝ) : Fin 3 → ℝ := fun i => x 2 * Real.exp (x i / length)

/-- `grad_u`, `sympy_solution.py:13`. -/
noncomputable def gradient (length : ℝ) (x : Fin 3 → ℝ) : Mat3 :=
  Matrix.of fun i j => deriv (fun t => solution length (Function.update x j t) i) (x j)

/-- `W`, `sympy_solution.py:15-18`, as a function of `F`; `l, m = 1.25, 1.` (line 9) whatever the arguments of `compute` are. -/
noncomputable def energyOf (F : Mat3) : ℝ :=
  let E := (1 / 2 : ℝ) • (F.transpose * F - 1)
  1 / 2 * (5 / 4) * E.trace ^ 2 + 1 * (E * E).trace

/-- `P` before `subs`, `sympy_solution.py:19`: the derivatives of `W` by the entries of `F`. -/
noncomputable def energySlope (F : Mat3) : Mat3 :=
  Matrix.of fun i j => deriv (fun t => energyOf (Matrix.of fun a b => if a = i ∧ b = j then t else F a b)) (F i j)

/-- `P` returned by `compute(mu, lmbda, rad, length)`, `sympy_solution.py:1-26`: the first two arguments and the third one are not used. -/
noncomputable def stressOf (_mu _lmbda _rad length : ℝ) (x : Fin 3 → ℝ) : Mat3 := energySlope (gradient length x + 1)

/-- `f`, `sympy_solution.py:7,20`. -/
noncomputable def bodyForce (mu lmbda rad length : ℝ) (x : Fin 3 → ℝ) : Fin 3 → ℝ :=
  fun i => -∑ j, deriv (fun t => stressOf mu lmbda rad length (Function.update x j t) i j) (x j)

/-- `poisson_ratio` of the script, `manufactured_solution.py:31`. -/
noncomputable def scriptPoisson (mu l : ℝ) : ℝ := 1 / (2 * (mu / l + 1))

/-- `young_modulus` of the script, `manufactured_solution.py:32`. -/
noncomputable def scriptYoung (mu l : ℝ) : ℝ := 2 * mu * (1 + scriptPoisson mu l)

end Manufactured

end Caribou
