import Mathlib.Algebra.BigOperators.Group.List.Basic
import Mathlib.Algebra.Ring.Defs

/-!
# Model of the wrappers `EigenMatrix`

The sparse wrapper is modelled on the compressed storage of Eigen: each outer vector (row or column, by storage order) has used
slots, sorted by inner index, followed by reserved slots.  A matrix is compressed when no slot is reserved.  Eigen leaves in
reserved slots whatever was in memory: an insertion receives an arbitrary choice of the new reserved slots (`Garbage`).
Scalars are a ring `K`; conversions between `float` and `double` are not modelled.  Indices are natural numbers, to be
checked against the dimensions by the caller (negative or too large indices are undefined behaviour in the code).
-/

set_option autoImplicit false

namespace Caribou

/-- A slot of the storage: inner index and value. -/
abbrev Slot (K : Type*) := ℕ × K

/-- An outer vector: the slots in use and the reserved ones. -/
structure OuterVec (K : Type*) where
  used : List (Slot K)
  room : List (Slot K)

/-- An `Eigen::SparseMatrix`. -/
structure SMatrix (K : Type*) where
  rowMajor : Bool
  rows : ℕ
  cols : ℕ
  vec : ℕ → OuterVec K

/-- Contents of the reserved slots after an insertion. -/
abbrev Garbage (K : Type*) := ℕ → List (Slot K)

/-- The sparse wrapper: `EigenMatrix.h:468-482`. -/
structure SparseWrapper (K : Type*) where
  triplets : List (ℕ × ℕ × K)
  initialized : Bool
  mat : SMatrix K
  symmetric : Bool

variable {K : Type*} [Ring K]

/-- The value stored for an inner index, zero when there is none: `SparseMatrix::coeff` on one outer vector. -/
def slotValue (l : List (Slot K)) (k : ℕ) : K := ((l.find? fun s => s.1 == k).map Prod.snd).getD 0

namespace SMatrix

/-- Number of outer vectors. -/
def outerSize (m : SMatrix K) : ℕ := if m.rowMajor then m.rows else m.cols

/-- Number of inner indices. -/
def innerSize (m : SMatrix K) : ℕ := if m.rowMajor then m.cols else m.rows

/-- Outer index of an entry. -/
def outer (m : SMatrix K) (i j : ℕ) : ℕ := if m.rowMajor then i else j

/-- Inner index of an entry. -/
def inner (m : SMatrix K) (i j : ℕ) : ℕ := if m.rowMajor then j else i

/-- `coeff(i, j)`. -/
def coeff (m : SMatrix K) (i j : ℕ) : K := slotValue (m.vec (m.outer i j)).used (m.inner i j)

/-- No slot is reserved. -/
def Compressed (m : SMatrix K) : Prop := ∀ o, (m.vec o).room = []

/-- `makeCompressed()`. -/
def makeCompressed (m : SMatrix K) : SMatrix K := { m with vec := fun o => ⟨(m.vec o).used, []⟩ }

/-- `setZero()` and `resize`: no slot is left. -/
def empty (rowMajor : Bool) (rows cols : ℕ) : SMatrix K := ⟨rowMajor, rows, cols, fun _ => ⟨[], []⟩⟩

end SMatrix

/-- Insertion of a slot in a sorted list. -/
def insertSlot (s : Slot K) : List (Slot K) → List (Slot K)
  | [] => [s]
  | t :: l => if s.1 < t.1 then s :: t :: l else t :: insertSlot s l

/-- `coeffRef(i, j) = f(coeffRef(i, j))`: modifies the entry if it is stored, otherwise inserts it; an insertion leaves the
matrix uncompressed, with reserved slots of unspecified contents. -/
def SMatrix.modify (m : SMatrix K) (i j : ℕ) (f : K → K) (g : Garbage K) : SMatrix K :=
  let o := m.outer i j
  let k := m.inner i j
  if (m.vec o).used.any fun s => s.1 == k then
    { m with vec := fun o' =>
        if o' = o then { m.vec o with used := (m.vec o).used.map fun s => if s.1 = k then (s.1, f s.2) else s } else m.vec o' }
  else
    { m with vec := fun o' =>
        if o' = o then ⟨insertSlot (k, f 0) (m.vec o).used, g o⟩ else ⟨(m.vec o').used, g o'⟩ }

/-- `setFromTriplets`: one sorted slot per entry of the list, duplicates are summed. -/
def SMatrix.setFromTriplets (m : SMatrix K) (t : List (ℕ × ℕ × K)) : SMatrix K :=
  let at_ o k := t.filter fun e => m.outer e.1 e.2.1 == o && m.inner e.1 e.2.1 == k
  { m with vec := fun o =>
      ⟨((List.range m.innerSize).filter fun k => !(at_ o k).isEmpty).map
        fun k => (k, ((at_ o k).map fun e => e.2.2).sum), []⟩ }

/-- `CompressedStorage::searchLowerIndex(start, end, key)`: binary search on the slots `l`. -/
def searchLower (l : List (Slot K)) (key : ℕ) : ℕ → ℕ → ℕ → ℕ
  | 0, start, _ => start
  | fuel + 1, start, stop =>
    if start < stop then
      let mid := (stop + start) / 2
      if ((l[mid]?.map Prod.fst).getD 0) < key then searchLower l key fuel (mid + 1) stop
      else searchLower l key fuel start mid
    else start

/-- Writes a list of slots back in an outer vector. -/
def OuterVec.rebuild (v : OuterVec K) (l : List (Slot K)) : OuterVec K :=
  ⟨l.take v.used.length, l.drop v.used.length⟩

/-- All the slots of an outer vector, from `outerIndexPtr()[o]` to `outerIndexPtr()[o + 1]`. -/
def OuterVec.slots (v : OuterVec K) : List (Slot K) := v.used ++ v.room

/-- Clearing of a whole outer vector with `memset`, `EigenMatrix.h:301-303`. -/
def OuterVec.wipe (v : OuterVec K) : OuterVec K := v.rebuild (v.slots.map fun s => (s.1, 0))

/-- Clearing of one inner index, `EigenMatrix.h:306-311`. -/
def OuterVec.clearIndex (v : OuterVec K) (k : ℕ) : OuterVec K :=
  let id := searchLower v.slots k v.slots.length 0 v.slots.length
  if (v.slots[id]?.map Prod.fst) = some k then v.rebuild (v.slots.modify id fun s => (s.1, 0)) else v

/-- The loop of `EigenMatrix.h:333-339`. -/
def zeroRange (lo hi : ℕ) : List (Slot K) → List (Slot K)
  | [] => []
  | s :: l =>
    if lo ≤ s.1 ∧ s.1 ≤ hi then (s.1, 0) :: zeroRange lo hi l
    else if hi < s.1 then s :: l
    else s :: zeroRange lo hi l

/-- Clearing of a range of inner indices, `EigenMatrix.h:330-339`. -/
def OuterVec.clearIndices (v : OuterVec K) (lo hi : ℕ) : OuterVec K :=
  let id := searchLower v.slots lo v.slots.length 0 v.slots.length
  v.rebuild (v.slots.take id ++ zeroRange lo hi (v.slots.drop id))

namespace SparseWrapper

/-- Constructor from dimensions, `EigenMatrix.h:194`. -/
def ofDims (rowMajor : Bool) (rows cols : ℕ) : SparseWrapper K := ⟨[], false, SMatrix.empty rowMajor rows cols, false⟩

/-- Constructor around or from an existing matrix, `EigenMatrix.h:187`. -/
def ofMatrix (m : SMatrix K) : SparseWrapper K := ⟨[], false, m, false⟩

/-- `element(i, j)`, `EigenMatrix.h:220-223` (the assertion does nothing in release). -/
def element (s : SparseWrapper K) (i j : ℕ) : K := s.mat.coeff i j

/-- `initialize()`, `EigenMatrix.h:462-466`. -/
def init (s : SparseWrapper K) : SparseWrapper K :=
  { s with mat := s.mat.setFromTriplets s.triplets, triplets := [], initialized := true }

/-- The test at the beginning of most methods, `EigenMatrix.h:248-250`. -/
def ensure (s : SparseWrapper K) : SparseWrapper K := if s.initialized then s else s.init

/-- `resize`, `EigenMatrix.h:226-230`. -/
def resize (s : SparseWrapper K) (r c : ℕ) : SparseWrapper K :=
  { s with triplets := [], mat := SMatrix.empty s.mat.rowMajor r c, initialized := false }

/-- `clear`, `EigenMatrix.h:233-237`. -/
def clear (s : SparseWrapper K) : SparseWrapper K :=
  { s with triplets := [], mat := SMatrix.empty s.mat.rowMajor s.mat.rows s.mat.cols, initialized := false }

/-- `set`, `EigenMatrix.h:247-253`. -/
def set (s : SparseWrapper K) (i j : ℕ) (v : K) (g : Garbage K) : SparseWrapper K :=
  { s.ensure with mat := s.ensure.mat.modify i j (fun _ => v) g }

/-- `add`, `EigenMatrix.h:261-270`. -/
def add (s : SparseWrapper K) (i j : ℕ) (v : K) (g : Garbage K) : SparseWrapper K :=
  if s.initialized then { s with mat := s.mat.modify i j (fun x => x + v) g }
  else { s with triplets := s.triplets ++ [(i, j, v)] }

/-- `add_block`, `EigenMatrix.h:442-455`, row by row. -/
def addBlock (s : SparseWrapper K) (i j N C : ℕ) (m : ℕ → ℕ → K) (g : ℕ → ℕ → Garbage K) : SparseWrapper K :=
  (List.range N).foldl (fun s k => (List.range C).foldl (fun s l => s.add (i + k) (j + l) (m k l) (g k l)) s) s

/-- `compress`, `EigenMatrix.h:278-284`. -/
def compress (s : SparseWrapper K) : SparseWrapper K :=
  if s.initialized then { s with mat := s.mat.makeCompressed } else s.init

/-- Applies a change to the outer vectors. -/
def mapVec (s : SparseWrapper K) (f : ℕ → OuterVec K → OuterVec K) : SparseWrapper K :=
  { s with mat := { s.mat with vec := fun o => f o (s.mat.vec o) } }

/-- The `memset` on outer vectors `lo` to `hi`. -/
def wipeOuter (s : SparseWrapper K) (lo hi : ℕ) : SparseWrapper K :=
  s.mapVec fun o v => if lo ≤ o ∧ o ≤ hi then v.wipe else v

/-- `clearRow`, `EigenMatrix.h:293-314`. -/
def clearRow (s : SparseWrapper K) (i : ℕ) : SparseWrapper K :=
  if s.mat.rowMajor then s.ensure.wipeOuter i i
  else s.ensure.mapVec fun o v => if o < s.ensure.mat.outerSize then v.clearIndex i else v

/-- `clearRows`, `EigenMatrix.h:317-342`. -/
def clearRows (s : SparseWrapper K) (lo hi : ℕ) : SparseWrapper K :=
  if s.mat.rowMajor then s.ensure.wipeOuter lo hi
  else s.ensure.mapVec fun o v => if o < s.ensure.mat.outerSize then v.clearIndices lo hi else v

/-- `clearCol`, `EigenMatrix.h:345-366`. -/
def clearCol (s : SparseWrapper K) (j : ℕ) : SparseWrapper K :=
  if !s.mat.rowMajor then s.ensure.wipeOuter j j
  else s.ensure.mapVec fun o v => if o < s.ensure.mat.outerSize then v.clearIndex j else v

/-- `clearCols`, `EigenMatrix.h:369-394`. -/
def clearCols (s : SparseWrapper K) (lo hi : ℕ) : SparseWrapper K :=
  if !s.mat.rowMajor then s.ensure.wipeOuter lo hi
  else s.ensure.mapVec fun o v => if o < s.ensure.mat.outerSize then v.clearIndices lo hi else v

/-- `clearRowCol`, `EigenMatrix.h:397-433`.  With the symmetric flag only the outer vectors met in vector `i` are searched. -/
def clearRowCol (s : SparseWrapper K) (i : ℕ) : SparseWrapper K :=
  let s := s.ensure.wipeOuter i i
  if s.symmetric && s.mat.rows == s.mat.cols then
    let js := (s.mat.vec i).used.map Prod.fst
    s.mapVec fun o v => if js.contains o then v.clearIndex i else v
  else s.mapVec fun o v => if o < s.mat.outerSize then v.clearIndex i else v

end SparseWrapper

/-- The methods that modify a matrix wrapper.  Insertions come with the contents of the reserved slots they leave. -/
inductive MatOp (K : Type*)
  | set (i j : ℕ) (v : K) (g : Garbage K)
  | add (i j : ℕ) (v : K) (g : Garbage K)
  | addBlock (i j N C : ℕ) (m : ℕ → ℕ → K) (g : ℕ → ℕ → Garbage K)
  | compress
  | clear
  | resize (r c : ℕ)
  | clearRow (i : ℕ)
  | clearRows (lo hi : ℕ)
  | clearCol (j : ℕ)
  | clearCols (lo hi : ℕ)
  | clearRowCol (i : ℕ)
  | setSymmetric (b : Bool)

/-- One method call on the sparse wrapper. -/
def SparseWrapper.step (s : SparseWrapper K) : MatOp K → SparseWrapper K
  | .set i j v g => s.set i j v g
  | .add i j v g => s.add i j v g
  | .addBlock i j N C m g => s.addBlock i j N C m g
  | .compress => s.compress
  | .clear => s.clear
  | .resize r c => s.resize r c
  | .clearRow i => s.clearRow i
  | .clearRows lo hi => s.clearRows lo hi
  | .clearCol j => s.clearCol j
  | .clearCols lo hi => s.clearCols lo hi
  | .clearRowCol i => s.clearRowCol i
  | .setSymmetric b => { s with symmetric := b }

end Caribou

namespace Caribou

variable {K : Type*} [Ring K]

/-- The dense wrapper, `EigenMatrix.h:70-165`: an Eigen matrix, with uninitialised contents when built from dimensions. -/
structure DenseWrapper (K : Type*) where
  rows : ℕ
  cols : ℕ
  coeff : ℕ → ℕ → K

namespace DenseWrapper

/-- `middleRows(i, n).setZero()`, `EigenMatrix.h:133-140`. -/
def zeroRows (w : DenseWrapper K) (i n : ℕ) : DenseWrapper K :=
  { w with coeff := fun a b => if i ≤ a ∧ a < i + n then 0 else w.coeff a b }

/-- `middleCols(j, n).setZero()`, `EigenMatrix.h:143-150`. -/
def zeroCols (w : DenseWrapper K) (j n : ℕ) : DenseWrapper K :=
  { w with coeff := fun a b => if j ≤ b ∧ b < j + n then 0 else w.coeff a b }

/-- `p_eigen_matrix(i, j) += v` and `= v`, `EigenMatrix.h:117-124`. -/
def write (w : DenseWrapper K) (i j : ℕ) (f : K → K) : DenseWrapper K :=
  { w with coeff := fun a b => if a = i ∧ b = j then f (w.coeff a b) else w.coeff a b }

/-- `block(i, j, N, C) += m`, `EigenMatrix.h:157-161`: coefficient by coefficient. -/
def addBlock (w : DenseWrapper K) (i j N C : ℕ) (m : ℕ → ℕ → K) : DenseWrapper K :=
  (List.range N).foldl (fun w k => (List.range C).foldl (fun w l => w.write (i + k) (j + l) (· + m k l)) w) w

/-- One call on the dense wrapper, `EigenMatrix.h:111-161`; `compress` does nothing and `clearRowCol` is inherited from the
base class: it clears the row, then the column. -/
def step (w : DenseWrapper K) : MatOp K → DenseWrapper K
  | .set i j v _ => w.write i j fun _ => v
  | .add i j v _ => w.write i j fun x => x + v
  | .addBlock i j N C m _ => w.addBlock i j N C m
  | .compress => w
  | .clear => { w with coeff := fun _ _ => 0 }
  | .resize r c => ⟨r, c, fun _ _ => 0⟩
  | .clearRow i => w.zeroRows i 1
  | .clearRows lo hi => w.zeroRows lo (hi - lo + 1)
  | .clearCol j => w.zeroCols j 1
  | .clearCols lo hi => w.zeroCols lo (hi - lo + 1)
  | .clearRowCol i => (w.zeroRows i 1).zeroCols i 1
  | .setSymmetric _ => w

end DenseWrapper

end Caribou
