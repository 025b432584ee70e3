import Verif.Model.Mesh
import Mathlib.Algebra.Order.Field.Basic
import Mathlib.Data.Int.Init
import Mathlib.Data.Real.Basic

/-!
# Vectors shared with SOFA

`EigenVector`, the dot product of `BaseVectorOperations.cpp` and `MultiVecEqualVisitor`.
-/

set_option autoImplicit false

namespace Caribou

/-! ### `EigenVector` -/

/-- An entry of an Eigen vector: `none` until it is written (Eigen does not initialise). -/
abbrev VecCell := Option ℝ

/-- The member `p_eigen_vector`, `EigenVector.h:102`: with a value type as template parameter it is a vector of its own, with a
reference type it is the vector `id` of the program. -/
inductive VecHolder
  | owned (content : List VecCell)
  | reference (id : ℕ)

/-- The wrapper and the other vectors of the program. -/
structure VecWorld where
  outside : ℕ → List VecCell
  holder : VecHolder

/-- `vector()`, `EigenVector.h:95-98`. -/
def VecWorld.content (w : VecWorld) : List VecCell :=
  match w.holder with
  | .owned c => c
  | .reference i => w.outside i

/-- Writing through `p_eigen_vector`. -/
def VecWorld.write (w : VecWorld) (c : List VecCell) : VecWorld :=
  match w.holder with
  | .owned _ => { w with holder := .owned c }
  | .reference i => { w with outside := fun j => if j = i then c else w.outside j }

/-- `EigenVector(eigen_vector)`, `EigenVector.h:51`: a copy, or a reference when the template parameter is a reference type. -/
def VecWorld.wrap (outside : ℕ → List VecCell) (i : ℕ) (byReference : Bool) : VecWorld :=
  ⟨outside, if byReference then .reference i else .owned (outside i)⟩

/-- `EigenVector(n)`, `EigenVector.h:57`: the entries are not initialised. -/
def VecWorld.create (outside : ℕ → List VecCell) (n : ℕ) : VecWorld := ⟨outside, .owned (List.replicate n none)⟩

/-- The modifiers of the class. -/
inductive VecOp
  | resize (n : ℕ)
  | clear
  | set (i : ℕ) (v : ℝ)
  | add (i : ℕ) (v : ℝ)

/-- `resize`, `clear`, `set` and `add`, `EigenVector.h:73-82`.  Indices out of range and the sum with an uninitialised entry are undefined
behaviour.  The indices are natural numbers; `Base::Index` is a signed integer. -/
def VecWorld.step (w : VecWorld) : VecOp → Outcome VecWorld
  | .resize n => .ok (w.write (List.replicate n (some 0)))
  | .clear => .ok (w.write (w.content.map fun _ => some 0))
  | .set i v => if i < w.content.length then .ok (w.write (w.content.set i (some v))) else .undefined
  | .add i v =>
    match w.content[i]? with
    | some (some a) => .ok (w.write (w.content.set i (some (a + v))))
    | _ => .undefined

/-- A sequence of modifications. -/
def VecWorld.run (w : VecWorld) : List VecOp → Outcome VecWorld
  | [] => .ok w
  | o :: l =>
    match w.step o with
    | .ok w' => w'.run l
    | .throws r => .throws r
    | .hangs => .hangs
    | .undefined => .undefined

/-- `size`, `EigenVector.h:66` (without the narrowing to `int`). -/
def VecWorld.size (w : VecWorld) : ℕ := w.content.length

/-- `element`, `EigenVector.h:70`. -/
def VecWorld.element (w : VecWorld) (i : ℕ) : Outcome ℝ :=
  match w.content[i]? with
  | some (some a) => .ok a
  | _ => .undefined

/-! ### Dot product -/

/-- The dynamic type of a `BaseVector`: `FullVector<double>`, `FullVector<float>`, or any other one (`EigenVector` for instance). -/
inductive BaseVectorType
  | fullDouble | fullFloat | other
deriving DecidableEq

/-- A `BaseVector`: its type and its entries. -/
structure SofaVector where
  type : BaseVectorType
  entries : List ℝ

/-- The loop `for (i = 0; i < v1->size(); ++i) value += v1->element(i) * v2->element(i)`, `BaseVectorOperations.cpp:29-32`, `:42-44`,
`:105-107`, and `FullVector::dot` of SOFA: an entry of `v2` out of range is undefined behaviour. -/
def dotLoop : List ℝ → List ℝ → Outcome ℝ
  | [], _ => .ok 0
  | _ :: _, [] => .undefined
  | a :: u, b :: v =>
    match dotLoop u v with
    | .ok r => .ok (a * b + r)
    | .throws r => .throws r
    | .hangs => .hangs
    | .undefined => .undefined

/-- `dot`, `BaseVectorOperations.cpp:51-112`: the cascade of `dynamic_cast`; `SReal` is `double`.  When only `v2` is a full vector the
arguments are exchanged.  The sums are exact, whatever the type in which they are accumulated. -/
def baseDot (v1 v2 : SofaVector) : Outcome ℝ :=
  if v1.type = .fullDouble ∧ v2.type = .fullDouble then dotLoop v1.entries v2.entries
  else if v1.type = .fullDouble then
    if v2.type = .fullDouble then dotLoop v1.entries v2.entries
    else if v2.type = .fullFloat then dotLoop v1.entries v2.entries
    else dotLoop v1.entries v2.entries
  else if v1.type = .fullFloat then
    if v2.type = .fullFloat then dotLoop v1.entries v2.entries
    else if v2.type = .fullDouble then dotLoop v1.entries v2.entries
    else dotLoop v1.entries v2.entries
  else if v2.type = .fullDouble then dotLoop v2.entries v1.entries
  else if v2.type = .fullFloat then dotLoop v2.entries v1.entries
  else dotLoop v1.entries v2.entries

/-! ### `MultiVecEqualVisitor` -/

/-- A mechanical object: whether its template is `Vec1`, `Vec2` or `Vec3`, and its vectors.  Coordinates and derivatives of these
templates have the same type of values. -/
structure MultiState (V : Type*) where
  supported : Bool
  vectors : ℕ → List V

/-- A node of the scene: its mechanical object, and the mapping which drives it, if any (`true` when `areForcesMapped`). -/
structure MechNode (V : Type*) where
  state : Option (MultiState V)
  mapping : Option Bool

/-- Scene graphs (trees): a first node with its children, and the next nodes. -/
inductive MechForest (V : Type*)
  | nil
  | cons (n : MechNode V) (children next : MechForest V)

/-- `internal_copy`, `MultiVecEqualVisitor.cpp:25-33`: `a` is enlarged when it is too short, then the entries of `b` are written. -/
def internalCopy {V : Type*} (a b : List V) : List V := b ++ a.drop b.length

/-- `copy`, `MultiVecEqualVisitor.cpp:73-87`. -/
def MultiState.copy {V : Type*} (s : MultiState V) (a b : ℕ) : Outcome (MultiState V) :=
  if s.supported then .ok { s with vectors := fun i => if i = a then internalCopy (s.vectors a) (s.vectors b) else s.vectors i }
  else .throws s

/-- What the visitor does at a node, `MultiVecEqualVisitor.cpp:6-19` and `.h:39-44`, and whether it visits the children.  The order of the
calls (`stopAtMechanicalMapping`, then the state) is the one of `BaseMechanicalVisitor` in SOFA, where a mapping without state does
nothing. -/
def MechNode.visit {V : Type*} (n : MechNode V) (a b : ℕ) (mapped onlyMapped : Bool) : Outcome (MechNode V × Bool) :=
  match n.state, n.mapping with
  | none, _ => .ok (n, true)
  | some s, none =>
    if !onlyMapped then
      match s.copy a b with
      | .ok s' => .ok ({ n with state := some s' }, true)
      | _ => .throws (n, true)
    else .ok (n, true)
  | some s, some forcesMapped =>
    let stop := if mapped || onlyMapped then false else !forcesMapped
    if stop then .ok (n, false)
    else if mapped || onlyMapped then
      match s.copy a b with
      | .ok s' => .ok ({ n with state := some s' }, true)
      | _ => .throws (n, true)
    else .ok (n, true)

/-- The traversal of the scene, children first; an exception leaves the nodes which were visited before modified. -/
def MechForest.visit {V : Type*} (a b : ℕ) (mapped onlyMapped : Bool) : MechForest V → Outcome (MechForest V)
  | .nil => .ok .nil
  | .cons n children next =>
    match n.visit a b mapped onlyMapped with
    | .ok (n', descend) =>
      match if descend then children.visit a b mapped onlyMapped else .ok children with
      | .ok c =>
        match next.visit a b mapped onlyMapped with
        | .ok r => .ok (.cons n' c r)
        | .throws r => .throws (.cons n' c r)
        | _ => .undefined
      | .throws c => .throws (.cons n' c next)
      | _ => .undefined
    | .throws (n', _) => .throws (.cons n' children next)
    | _ => .undefined

end Caribou
