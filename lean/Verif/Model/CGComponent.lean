import Verif.Model.EigenSolver

/-!
# The component `ConjugateGradientSolver` and its preconditioners

`ConjugateGradientSolver.inl` around the two loops of `ConjugateGradient`: the option `preconditioning_method`, which decides in each call
whether the system is assembled and which preconditioner is used, as in version 3.3 or later of Eigen.  The data can be changed by the user
between any two calls.  The incomplete factorizations belong to Eigen and are parameters, with what Eigen requires from its callers:
`factorize` after `analyzePattern` for a matrix of this size, `solve` after `factorize` for a matrix of this size.  Messages and timers are
left out.
-/

set_option autoImplicit false

namespace Caribou

/-- `PreconditioningMethod`, `ConjugateGradientSolver.h:46-63`. -/
inductive PrecondMethod where
  | none
  | identity
  | diagonal
  | incompleteCholesky
  | incompleteLU
deriving DecidableEq

/-- `p_preconditioners`, `ConjugateGradientSolver.inl:61-68`. -/
def precondTable : List (String × PrecondMethod) :=
  [("None", .none), ("Identity", .identity), ("Diagonal", .diagonal), ("IncompleteCholesky", .incompleteCholesky),
    ("IncompleteLU", .incompleteLU)]

/-- `to_lower`, `ConjugateGradientSolver.inl:83-89`, character by character. -/
def lowerCase (s : String) : List Char := s.toList.map Char.toLower

/-- `get_preconditioning_method_from_string`, `ConjugateGradientSolver.inl:81-102`. -/
def methodFromString (name : String) : PrecondMethod :=
  match precondTable.find? fun e => lowerCase e.1 == lowerCase name with
  | some e => e.2
  | none => .none

/-- An incomplete factorization of Eigen: whether the analysis and the factorization of a matrix report success, and the vector which
`solve` returns with its factors. -/
structure IncompletePrecond (K : Type*) where
  analyses : SystemMatrix K → Bool
  factors : SystemMatrix K → Bool
  apply : SystemMatrix K → List K → List K

/-- The members `p_diag`, `p_ichol` and `p_iLU`, `ConjugateGradientSolver.h:203-215`: the size given to their last `analyzePattern` and the matrix
given to their last `factorize` since (for `p_diag`, whose analysis does nothing, the last one). -/
structure CGPreconds (K : Type*) where
  diag : Option (SystemMatrix K)
  cholSize : Option ℕ
  chol : Option (SystemMatrix K)
  luSize : Option ℕ
  lu : Option (SystemMatrix K)

variable {K : Type*} [Field K] [LinearOrder K]

/-- The product with a matrix. -/
def SystemMatrix.product (M : SystemMatrix K) (v : Fin M.dim → K) : Fin M.dim → K := fun i => ∑ j : Fin M.dim, M.entry i j * v j

/-- What `solve` writes in the vector `X`; a vector which is not finite is written as the empty list. -/
def CGResult.written {n : ℕ} (r : CGResult K (Fin n)) : List K :=
  match r.x with
  | some x => List.ofFn x
  | none => []

/-- `solve(precond, A, F, X)` as called at `ConjugateGradientSolver.inl:469-481`, for a preconditioner which was given the matrix `D` (the sizes
of the vectors and of the factors have to be those of the matrix). -/
def cgPreconditioned (c : CGParams K) (M : SystemMatrix K) (D : Option (SystemMatrix K))
    (precond : SystemMatrix K → (Fin M.dim → K) → Fin M.dim → K) (F X : List K) : Outcome (List K × Bool) :=
  match D with
  | none => .undefined
  | some D =>
    if D.dim ≠ M.dim ∨ F.length ≠ M.dim ∨ X.length ≠ M.dim then .undefined
    else
      let r := cgSolve c M.product (precond D) (fun i => F.getD i 0) fun i => X.getD i 0
      .ok (r.written, r.converged)

/-- `analyze_pattern`, `factorize` and `solve`, `ConjugateGradientSolver.inl:402-483`, while the method `m` is selected. -/
def cgMethodBackend (c : CGParams K) (chol lu : IncompletePrecond K) (m : PrecondMethod) : SolverBackend K (CGPreconds K) where
  analyze t M :=
    match m with
    | .none | .identity | .diagonal => .ok (t, true)
    | .incompleteCholesky => .ok ({ t with cholSize := some M.dim, chol := none }, chol.analyses M)
    | .incompleteLU => .ok ({ t with luSize := some M.dim, lu := none }, lu.analyses M)
  factorize t M :=
    match m with
    | .none | .identity => .ok (t, true)
    | .diagonal => .ok ({ t with diag := some M }, true)
    | .incompleteCholesky =>
      if t.cholSize = some M.dim then .ok ({ t with chol := some M }, chol.factors M) else .undefined
    | .incompleteLU => if t.luSize = some M.dim then .ok ({ t with lu := some M }, lu.factors M) else .undefined
  solve t M F X :=
    match m with
    | .none | .identity => cgPreconditioned c M (some M) (fun _ r => r) F X
    | .diagonal => cgPreconditioned c M t.diag (fun D r i => (if D.entry i i = 0 then 1 else 1 / D.entry i i) * r i) F X
    | .incompleteCholesky => cgPreconditioned c M t.chol (fun D r i => (chol.apply D (List.ofFn r)).getD i 0) F X
    | .incompleteLU => cgPreconditioned c M t.lu (fun D r i => (lu.apply D (List.ofFn r)).getD i 0) F X

/-- The members of the component: the selected item of `preconditioning_method`, its own `p_b_id` and `p_x_id`
(`ConjugateGradientSolver.h:182-224`), and those of `EigenSolver`. -/
structure CGComponent (K : Type*) where
  selected : Fin 5
  bId : ℕ
  xId : ℕ
  base : EigenSolverState K (CGPreconds K)

namespace CGComponent

/-- The component just built: the item 1 is selected, `ConjugateGradientSolver.inl:70-78`. -/
def fresh : CGComponent K := ⟨1, 0, 0, .fresh ⟨none, none, none, none, none⟩⟩

/-- `getSelectedItem()` of the data `preconditioning_method`. -/
def selectedName (s : CGComponent K) : String := (precondTable.get s.selected).1

/-- The method used by a call, `ConjugateGradientSolver.inl:111,128,145,156,410,438,466`. -/
def method (s : CGComponent K) : PrecondMethod := methodFromString s.selectedName

/-- The user selects an item. -/
def select (s : CGComponent K) (i : Fin 5) : CGComponent K := { s with selected := i }

/-- `setSystemMBKMatrix`, `ConjugateGradientSolver.inl:104-117`; `M` is the matrix assembled from the scene. -/
def setMatrix (c : CGParams K) (chol lu : IncompletePrecond K) (s : CGComponent K) (M : SystemMatrix K) : Outcome (CGComponent K) :=
  if s.method = .none then .ok s
  else
    match s.base.setMatrix (cgMethodBackend c chol lu s.method) M with
    | .ok b => .ok { s with base := b }
    | .throws b => .throws { s with base := b }
    | .hangs => .hangs
    | .undefined => .undefined

/-- `setSystemRHVector`, `ConjugateGradientSolver.inl:119-134`. -/
def setRhs (s : CGComponent K) (objects : List (MechObject K)) (id : ℕ) : CGComponent K :=
  { s with bId := id, base := if s.method = .none then s.base else s.base.setRhs objects id }

/-- `setSystemLHVector`, `ConjugateGradientSolver.inl:136-151`. -/
def setLhs (s : CGComponent K) (objects : List (MechObject K)) (id : ℕ) : CGComponent K :=
  { s with xId := id, base := if s.method = .none then s.base else s.base.setLhs objects id }

/-- `solveSystem`, `ConjugateGradientSolver.inl:153-172`.  Without preconditioning the loop works on the vectors of the objects and `op` is the
product made by the visitors and projected (212-217, 246-251), otherwise the pointer to the matrix is read (470). -/
def solveSystem (c : CGParams K) (chol lu : IncompletePrecond K) (s : CGComponent K) (op : SystemMatrix K) (objects : List (MechObject K)) :
    Outcome (CGComponent K × List (MechObject K)) :=
  if s.method = .none then
    let r := cgFreeSolve c op.product (fun i => (gatherVec objects s.bId).getD i 0) fun i => (gatherVec objects s.xId).getD i 0
    .ok (s, scatterVec s.xId objects r.written)
  else if s.base.hasPointer then
    match s.base.solveSystem (cgMethodBackend c chol lu s.method) objects with
    | .ok r => .ok ({ s with base := r.1 }, r.2)
    | .throws r => .throws ({ s with base := r.1 }, r.2)
    | .hangs => .hangs
    | .undefined => .undefined
  else .undefined

/-- `resetSystem` is the one of `EigenSolver`, `EigenSolver.inl:23-28`. -/
def reset (s : CGComponent K) : CGComponent K := { s with base := s.base.resetSystem }

/-- The four calls made to solve one system; `M` is the matrix assembled from the scene and `op` the product made by its visitors. -/
def solveStep (c : CGParams K) (chol lu : IncompletePrecond K) (s : CGComponent K) (M op : SystemMatrix K) (objects : List (MechObject K))
    (bId xId : ℕ) : Outcome (CGComponent K × List (MechObject K)) :=
  match s.setMatrix c chol lu M with
  | .ok s => ((s.setRhs objects bId).setLhs objects xId).solveSystem c chol lu op objects
  | .throws s => .throws (s, objects)
  | .hangs => .hangs
  | .undefined => .undefined

end CGComponent

end Caribou
