import Mathlib.Data.Matrix.Mul
import Mathlib.Algebra.Order.Field.Basic
import Mathlib.Algebra.Order.Ring.Abs

/-!
# Model of `ConjugateGradientSolver`

Vectors are functions `ι → K` over an arbitrary ordered field `K` (the code uses `double`; rounding is not modelled).
A division by zero makes the vectors of the code infinite or not-a-number; no comparison `<` with a threshold succeeds from
then on and the loop runs until its iteration limit.  The model writes `none` for such vectors and numbers.
-/

set_option autoImplicit false

namespace Caribou

/-- The data `maximum_number_of_iterations` and `residual_tolerance_threshold` together with the constants `EPSILON`
(`config.h.in`) and `zero` (the smallest positive normalised number, `ConjugateGradientSolver.inl:204,319`). -/
structure CGParams (K : Type*) where
  maxIterations : ℕ
  tolerance : K
  eps : K
  zero : K

/-- The variables of the loop, `ConjugateGradientSolver.inl:309-319`.  `p` is `none` once it is not finite. -/
structure CGState (K ι : Type*) where
  x : ι → K
  r : ι → K
  p : Option (ι → K)
  rho0 : K
  residuals : List (Option K)
  iteration : ℕ
  converged : Bool

/-- What the caller can see after `solve`: the solution vector (`none`: not finite), `squared_residuals()`, the returned
flag, and `squared_initial_residual()`. -/
structure CGResult (K ι : Type*) where
  x : Option (ι → K)
  residuals : List (Option K)
  converged : Bool
  squaredInitialResidual : K

variable {K ι : Type*} [Field K] [LinearOrder K] [Fintype ι]

/-- The loop of the preconditioned `solve`, `ConjugateGradientSolver.inl:350-384`, with `fuel` iterations left before the
limit.  `A` and `precond` are the functions applied at 353 and 374. -/
def cgLoop (A precond : (ι → K) → ι → K) (threshold : K) : ℕ → CGState K ι → CGState K ι × Bool
  | 0, s => (s, true)
  | fuel + 1, s =>
    if s.converged then (s, true)
    else
      match s.p with
      | none => ({ s with residuals := s.residuals ++ List.replicate (fuel + 1) none }, false)
      | some p =>
        let q := A p
        if p ⬝ᵥ q = 0 then ({ s with residuals := s.residuals ++ List.replicate (fuel + 1) none }, false)
        else
          let alpha := s.rho0 / (p ⬝ᵥ q)
          let x := s.x + alpha • p
          let r := s.r - alpha • q
          let rNorm2 := r ⬝ᵥ r
          let residuals := s.residuals ++ [some rNorm2]
          if rNorm2 < threshold then
            cgLoop A precond threshold fuel
              { s with x := x, r := r, residuals := residuals, iteration := s.iteration + 1, converged := true }
          else
            let z := precond r
            let rho1 := r ⬝ᵥ z
            cgLoop A precond threshold fuel
              { x := x, r := r
                p := if s.rho0 = 0 then none else some (z + (rho1 / s.rho0) • p)
                rho0 := rho1, residuals := residuals, iteration := s.iteration + 1, converged := false }

/-- `solve(precond, A, b, x)`, `ConjugateGradientSolver.inl:298-400`. -/
def cgSolve (c : CGParams K) (A precond : (ι → K) → ι → K) (b x : ι → K) : CGResult K ι :=
  let bNorm2 := b ⬝ᵥ b
  if bNorm2 < c.eps then ⟨some 0, [], false, bNorm2⟩
  else
    let threshold := max (c.tolerance * c.tolerance * bNorm2) c.zero
    let r := b - A x
    if r ⬝ᵥ r < threshold then ⟨some x, [], false, bNorm2⟩
    else
      let p := precond r
      let out := cgLoop A precond threshold c.maxIterations ⟨x, r, some p, r ⬝ᵥ p, [], 0, false⟩
      ⟨if out.2 then some out.1.x else none, out.1.residuals, out.1.converged, bNorm2⟩

/-- The loop of the matrix-free `solve`, `ConjugateGradientSolver.inl:243-281`; `A` is the product with
`m M + b B + k K` (246-247) followed by the projection on the constrained space (251). -/
def cgFreeLoop (A : (ι → K) → ι → K) (threshold : K) : ℕ → CGState K ι → CGState K ι × Bool
  | 0, s => (s, true)
  | fuel + 1, s =>
    if s.converged then (s, true)
    else
      match s.p with
      | none => ({ s with residuals := s.residuals ++ List.replicate (fuel + 1) none }, false)
      | some p =>
        let q := A p
        if p ⬝ᵥ q = 0 then ({ s with residuals := s.residuals ++ List.replicate (fuel + 1) none }, false)
        else
          let alpha := s.rho0 / (p ⬝ᵥ q)
          let x := s.x + alpha • p
          let r := s.r + (-alpha) • q
          let rNorm2 := r ⬝ᵥ r
          let residuals := s.residuals ++ [some rNorm2]
          if rNorm2 < threshold then
            cgFreeLoop A threshold fuel
              { s with x := x, r := r, residuals := residuals, iteration := s.iteration + 1, converged := true }
          else
            let rho1 := rNorm2
            cgFreeLoop A threshold fuel
              { x := x, r := r
                p := if s.rho0 = 0 then none else some (r + (rho1 / s.rho0) • p)
                rho0 := rho1, residuals := residuals, iteration := s.iteration + 1, converged := false }

/-- The matrix-free `solve(b, x)`, `ConjugateGradientSolver.inl:174-296`.  It returns nothing; the flag is the one of its
final message. -/
def cgFreeSolve (c : CGParams K) (A : (ι → K) → ι → K) (b x : ι → K) : CGResult K ι :=
  let bNorm2 := b ⬝ᵥ b
  if bNorm2 < c.eps then ⟨some 0, [], false, bNorm2⟩
  else
    let threshold := max (c.tolerance * c.tolerance * bNorm2) c.zero
    let q := A x
    let r := b + (-1 : K) • q
    let rNorm2 := r ⬝ᵥ r
    if rNorm2 < threshold then ⟨some x, [], false, bNorm2⟩
    else
      let out := cgFreeLoop A threshold c.maxIterations ⟨x, r, some r, rNorm2, [], 0, false⟩
      ⟨if out.2 then some out.1.x else none, out.1.residuals, out.1.converged, bNorm2⟩

/-- Eigen's `DiagonalPreconditioner::factorize` and `solve` as used at `ConjugateGradientSolver.inl:446-448,473`: multiply
by the inverse of the diagonal, where a zero diagonal entry is replaced by one. -/
def diagonalPrecond (A : Matrix ι ι K) (r : ι → K) : ι → K :=
  fun i => (if A i i = 0 then 1 else 1 / A i i) * r i

end Caribou
