import Verif.Model.Mesh
import Verif.Model.ConjugateGradient

/-!
# Model of `EigenSolver` and of the direct solvers `LUSolver`, `LDLTSolver`, `LLTSolver`

The interface used by the solvers of SOFA: `setSystemMBKMatrix`, `setSystemRHVector`, `setSystemLHVector`, `solveSystem`,
`resetSystem`.  `double` is a field; the messages and timers are left out.  The decomposition itself belongs to Eigen (or Pardiso) and
is a parameter, `Decomposition`, together with what Eigen requires from its callers: a matrix can only be factorized after
`analyzePattern` was called with a matrix of the same pattern, and a system solved after a factorization and with vectors of its
size.  Calls which break these rules are undefined behaviour.
-/

set_option autoImplicit false

namespace Caribou

/-- A sparse square matrix: dimension, entries, and which entries are stored. -/
structure SystemMatrix (K : Type*) where
  dim : ℕ
  entry : ℕ → ℕ → K
  stored : ℕ → ℕ → Bool

/-- A top level mechanical object: number of degrees of freedom and its vectors (`MultiVecDerivId` is a number). -/
structure MechObject (K : Type*) where
  dofs : ℕ
  vec : ℕ → List K

variable {K : Type*}

/-- `getGlobalDimension` of the accessor after `getMatrixDimension`, `EigenSolver.inl:50-51`. -/
def globalDimension (objects : List (MechObject K)) : ℕ := (objects.map (·.dofs)).sum

/-- `multiVector2BaseVector`, `EigenSolver.inl:166,184`: the vectors of the objects one after the other (the positions in the global
vector were set by `setupMatrices`). -/
def gatherVec (objects : List (MechObject K)) (id : ℕ) : List K := objects.flatMap fun o => o.vec id

/-- `baseVector2MultiVector`, `EigenSolver.inl:201`. -/
def scatterVec (id : ℕ) : List (MechObject K) → List K → List (MechObject K)
  | [], _ => []
  | o :: objects, v => { o with vec := Function.update o.vec id (v.take o.dofs) } :: scatterVec id objects (v.drop o.dofs)

/-- The virtual functions `analyze_pattern`, `factorize` and `solve` of a solver with internal state `τ`, `LinearSolver.h:64-90`.
`solve` receives `F` and `X` and returns the new `X` and its result. -/
structure SolverBackend (K τ : Type*) where
  analyze : τ → SystemMatrix K → Outcome (τ × Bool)
  factorize : τ → SystemMatrix K → Outcome (τ × Bool)
  solve : τ → SystemMatrix K → List K → List K → Outcome (List K × Bool)

/-- The members of `EigenSolver`, `EigenSolver.h:165-196`: `p_A`, `p_x`, `p_b`, `p_b_id`, `p_x_id`, `p_A_is_factorized` and the
members of the derived class.  `p_A_ptr` points to `p_A` once `assemble` was called (before, it is not initialised:
`hasPointer`).  `p_mechanical_params` only serves to find the objects. -/
structure EigenSolverState (K τ : Type*) where
  A : SystemMatrix K
  hasPointer : Bool
  x : List K
  b : List K
  xId : ℕ
  bId : ℕ
  factorized : Bool
  inner : τ

variable {τ : Type*}

/-- A solver just built. -/
def EigenSolverState.fresh [Zero K] (inner : τ) : EigenSolverState K τ :=
  ⟨⟨0, fun _ _ => 0, fun _ _ => false⟩, false, [], [], 0, 0, false, inner⟩

/-- `resetSystem`, `EigenSolver.inl:23-28`. -/
def EigenSolverState.resetSystem [Zero K] (s : EigenSolverState K τ) : EigenSolverState K τ :=
  { s with A := ⟨0, fun _ _ => 0, fun _ _ => false⟩, x := [], b := [] }

/-- `setSystemMBKMatrix`, `EigenSolver.inl:113-150`; `M` is the matrix assembled from the scene (31-109).  The analysis is made
when the number of rows changed (128-136); when it fails, only a message is printed. -/
def EigenSolverState.setMatrix (B : SolverBackend K τ) (s : EigenSolverState K τ) (M : SystemMatrix K) :
    Outcome (EigenSolverState K τ) :=
  let analysed : Outcome (τ × Bool) := if s.A.dim ≠ M.dim then B.analyze s.inner M else .ok (s.inner, true)
  match analysed with
  | .ok a =>
    match B.factorize a.1 M with
    | .ok f => .ok { s with A := M, hasPointer := true, factorized := f.2, inner := f.1 }
    | .throws f => .throws { s with A := M, hasPointer := true, factorized := false, inner := f.1 }
    | .hangs => .hangs
    | .undefined => .undefined
  | .throws a => .throws { s with A := M, hasPointer := true, factorized := false, inner := a.1 }
  | .hangs => .hangs
  | .undefined => .undefined

/-- `setSystemRHVector`, `EigenSolver.inl:153-169`. -/
def EigenSolverState.setRhs (s : EigenSolverState K τ) (objects : List (MechObject K)) (id : ℕ) : EigenSolverState K τ :=
  { s with bId := id, b := gatherVec objects id }

/-- `setSystemLHVector`, `EigenSolver.inl:172-187`. -/
def EigenSolverState.setLhs (s : EigenSolverState K τ) (objects : List (MechObject K)) (id : ℕ) : EigenSolverState K τ :=
  { s with xId := id, x := gatherVec objects id }

/-- `solveSystem`, `EigenSolver.inl:190-205`: the solution is copied to the objects when `solve` returned true. -/
def EigenSolverState.solveSystem (B : SolverBackend K τ) (s : EigenSolverState K τ) (objects : List (MechObject K)) :
    Outcome (EigenSolverState K τ × List (MechObject K)) :=
  match B.solve s.inner s.A s.b s.x with
  | .ok r => .ok ({ s with x := r.1 }, if r.2 then scatterVec s.xId objects r.1 else objects)
  | .throws r => .throws ({ s with x := r.1 }, objects)
  | .hangs => .hangs
  | .undefined => .undefined

/-- The four calls made by the solvers of SOFA to solve one system (`MultiMatrix::operator=` and `MultiMatrix::solve`). -/
def sofaSolve (B : SolverBackend K τ) (s : EigenSolverState K τ) (M : SystemMatrix K) (objects : List (MechObject K))
    (bId xId : ℕ) : Outcome (EigenSolverState K τ × List (MechObject K)) :=
  match s.setMatrix B M with
  | .ok s' => ((s'.setRhs objects bId).setLhs objects xId).solveSystem B objects
  | .throws s' => .throws (s', objects)
  | .hangs => .hangs
  | .undefined => .undefined

/-! ### Direct solvers -/

/-- A decomposition of Eigen or Pardiso: whether the analysis of a pattern and the factorization of a matrix succeed, and the
solution computed with the factors of a matrix. -/
structure Decomposition (K : Type*) where
  analyses : SystemMatrix K → Bool
  factors : SystemMatrix K → Bool
  solution : SystemMatrix K → List K → List K

/-- The state of the Eigen object: dimension and pattern given to `analyzePattern`, the matrix it holds the factors of, and
`info() == Success`. -/
structure DirectState (K : Type*) where
  pattern : Option (ℕ × (ℕ → ℕ → Bool))
  factor : Option (SystemMatrix K)
  success : Bool

/-- Whether a matrix has the analysed pattern. -/
def samePattern (M : SystemMatrix K) (p : ℕ × (ℕ → ℕ → Bool)) : Bool :=
  decide (M.dim = p.1) && (List.range M.dim).all fun i => (List.range M.dim).all fun j => M.stored i j == p.2 i j

/-- `LUSolver`, `LDLTSolver` and `LLTSolver`: `LUSolver.inl:44-80`, `LDLTSolver.inl:42-73`, `LLTSolver.inl:41-72`.  The solution of a
failed factorization leaves the vector as it is. -/
def directBackend (E : Decomposition K) : SolverBackend K (DirectState K) where
  analyze _ M := .ok (⟨some (M.dim, M.stored), none, E.analyses M⟩, E.analyses M)
  factorize t M :=
    match t.pattern with
    | none => .undefined
    | some p => if samePattern M p then .ok (⟨t.pattern, some M, E.factors M⟩, E.factors M) else .undefined
  solve t _ F X :=
    match t.factor with
    | none => .undefined
    | some M =>
      if F.length ≠ M.dim then .undefined
      else if t.success then .ok (E.solution M F, true) else .ok (X, false)

/-! ### The conjugate gradient solver -/

/-- `analyze_pattern`, `factorize` and `solve` of `ConjugateGradientSolver` for the methods `None` (in an assembled solve) and
`Identity`, `ConjugateGradientSolver.inl:402-412,430-440,462-471`: the identity preconditioner does nothing and always succeeds.  A
vector which is not finite is written as the empty list. -/
def cgBackend [Field K] [LinearOrder K] (c : CGParams K) : SolverBackend K Unit where
  analyze _ _ := .ok ((), true)
  factorize _ _ := .ok ((), true)
  solve _ M F X :=
    let r := cgSolve c (fun v (i : Fin M.dim) => ∑ j : Fin M.dim, M.entry i j * v j) id (fun i => F.getD i 0)
      (fun i => X.getD i 0)
    match r.x with
    | some x => .ok (List.ofFn x, r.converged)
    | none => .ok ([], r.converged)

end Caribou
