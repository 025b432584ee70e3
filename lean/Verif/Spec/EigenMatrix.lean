import Verif.Model.EigenMatrix

/-!
# Specification vocabulary for matrix wrappers: plain matrices
-/

set_option autoImplicit false

namespace Caribou.Spec

/-- A plain matrix. -/
structure Dense (K : Type*) where
  rows : ℕ
  cols : ℕ
  val : ℕ → ℕ → K

variable {K : Type*} [Ring K]

/-- The zero matrix. -/
def Dense.zero (r c : ℕ) : Dense K := ⟨r, c, fun _ _ => 0⟩

/-- What each method means on a plain matrix. -/
def Dense.step (d : Dense K) : MatOp K → Dense K
  | .set i j v _ => { d with val := fun a b => if a = i ∧ b = j then v else d.val a b }
  | .add i j v _ => { d with val := fun a b => if a = i ∧ b = j then d.val a b + v else d.val a b }
  | .addBlock i j N C m _ =>
    { d with val := fun a b =>
        if i ≤ a ∧ a < i + N ∧ j ≤ b ∧ b < j + C then d.val a b + m (a - i) (b - j) else d.val a b }
  | .compress => d
  | .clear => Dense.zero d.rows d.cols
  | .resize r c => Dense.zero r c
  | .clearRow i => { d with val := fun a b => if a = i then 0 else d.val a b }
  | .clearRows lo hi => { d with val := fun a b => if lo ≤ a ∧ a ≤ hi then 0 else d.val a b }
  | .clearCol j => { d with val := fun a b => if b = j then 0 else d.val a b }
  | .clearCols lo hi => { d with val := fun a b => if lo ≤ b ∧ b ≤ hi then 0 else d.val a b }
  | .clearRowCol i => { d with val := fun a b => if a = i ∨ b = i then 0 else d.val a b }
  | .setSymmetric _ => d

/-- The indices of a call are within the dimensions of the matrix. -/
def Dense.InRange (d : Dense K) : MatOp K → Prop
  | .set i j _ _ => i < d.rows ∧ j < d.cols
  | .add i j _ _ => i < d.rows ∧ j < d.cols
  | .addBlock i j N C _ _ => i + N ≤ d.rows ∧ j + C ≤ d.cols
  | .clearRow i => i < d.rows
  | .clearRows lo hi => lo ≤ hi ∧ hi < d.rows
  | .clearCol j => j < d.cols
  | .clearCols lo hi => lo ≤ hi ∧ hi < d.cols
  | .clearRowCol i => i < d.rows ∧ i < d.cols
  | _ => True

end Caribou.Spec

namespace Caribou.Spec

/-- What a user can know about a sparse matrix without looking inside: whether entries are still being assembled (no read,
no `set` and no clearing of row or column since the last `clear`/`resize`), which entries have ever been written since then,
and whether it is tidy, that is, no entry was created since the last `compress` or since the end of the assembly. -/
structure Usage where
  assembling : Bool
  tidy : Prop
  stored : ℕ → ℕ → Prop
  symmetric : Bool

/-- Usage of a new matrix. -/
def Usage.fresh : Usage := ⟨true, True, fun _ _ => False, false⟩

/-- Effect of a method on the usage. -/
def Usage.step {K : Type*} (u : Usage) : MatOp K → Usage
  | .set i j _ _ =>
    { u with assembling := false, tidy := u.tidy ∧ u.stored i j, stored := fun a b => (a = i ∧ b = j) ∨ u.stored a b }
  | .add i j _ _ =>
    { u with tidy := u.tidy ∧ (u.assembling = true ∨ u.stored i j), stored := fun a b => (a = i ∧ b = j) ∨ u.stored a b }
  | .addBlock i j N C _ _ =>
    { u with tidy := u.tidy ∧ (u.assembling = true ∨ ∀ a b, i ≤ a → a < i + N → j ≤ b → b < j + C → u.stored a b),
             stored := fun a b => (i ≤ a ∧ a < i + N ∧ j ≤ b ∧ b < j + C) ∨ u.stored a b }
  | .compress => { u with assembling := false, tidy := True }
  | .clear => { u with assembling := true, tidy := True, stored := fun _ _ => False }
  | .resize _ _ => { u with assembling := true, tidy := True, stored := fun _ _ => False }
  | .setSymmetric b => { u with symmetric := b }
  | _ => { u with assembling := false }

/-- The method clears entries across the storage order: columns of a row-major matrix, rows of a column-major one. -/
def Crosses {K : Type*} (rowMajor : Bool) : MatOp K → Prop
  | .clearRow _ => rowMajor = false
  | .clearRows _ _ => rowMajor = false
  | .clearCol _ => rowMajor = true
  | .clearCols _ _ => rowMajor = true
  | .clearRowCol _ => True
  | _ => False

/-- The matrix is square and symmetric. -/
def Dense.Symmetric {K : Type*} (d : Dense K) : Prop :=
  d.rows = d.cols ∧ ∀ i j, i < d.rows → j < d.cols → d.val i j = d.val j i

/-- A history of calls that respects the dimensions, declares symmetric only matrices that are symmetric when a row and column
are cleared, and that clears across the storage order only tidy matrices. -/
def Careful {K : Type*} [Ring K] (rowMajor : Bool) : Dense K → Usage → List (MatOp K) → Prop
  | _, _, [] => True
  | d, u, op :: ops =>
    d.InRange op ∧ (Crosses rowMajor op → u.tidy) ∧
    (∀ i, op = .clearRowCol i → u.symmetric = true → d.rows = d.cols → d.Symmetric) ∧
    Careful rowMajor (d.step op) (u.step op) ops

end Caribou.Spec

namespace Caribou.Spec

/-- A history of calls that respects the dimensions of the matrix. -/
def Valid {K : Type*} [Ring K] : Dense K → List (MatOp K) → Prop
  | _, [] => True
  | d, op :: ops => d.InRange op ∧ Valid (d.step op) ops

end Caribou.Spec
