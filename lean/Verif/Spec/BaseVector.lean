import Verif.Model.BaseVector
import Mathlib.Algebra.BigOperators.Group.List.Basic

/-!
# Specification vocabulary: vectors shared with SOFA
-/

set_option autoImplicit false

namespace Caribou.Spec

/-- The value that the operation writes at the entry `i`, whatever was there before. -/
def Writes (i : ℕ) (v : ℝ) : VecOp → Prop
  | .resize n => i < n ∧ v = 0
  | .clear => v = 0
  | .set j w => j = i ∧ v = w
  | .add _ _ => False

/-- The operation neither writes the entry `i` nor removes it; it may add to it. -/
def OnlyAdds (i : ℕ) : VecOp → Prop
  | .resize _ | .clear => False
  | .set j _ => j ≠ i
  | .add _ _ => True

/-- What the operations add to the entry `i`. -/
noncomputable def added (i : ℕ) (ops : List VecOp) : ℝ :=
  (ops.map fun o => match o with | .add j v => if j = i then v else 0 | _ => 0).sum

/-- The operation is allowed for vectors of size `n`. -/
def Allowed (n : ℕ) : VecOp → Prop
  | .resize _ | .clear => True
  | .set i _ | .add i _ => i < n

/-- The size after the operations. -/
def sizeAfter (n : ℕ) : List VecOp → ℕ
  | [] => n
  | .resize m :: l => sizeAfter m l
  | _ :: l => sizeAfter n l

/-- All operations have indices in range. -/
def AllAllowed (n : ℕ) : List VecOp → Prop
  | [] => True
  | o :: l => Allowed n o ∧ AllAllowed (sizeAfter n [o]) l

/-- The node of a scene at a position: `true` goes to the first child, `false` to the next node of the same parent. -/
def nodeAt {V : Type*} : MechForest V → List Bool → Option (MechNode V)
  | .nil, _ => none
  | .cons n _ _, [] => some n
  | .cons _ children _, true :: p => nodeAt children p
  | .cons _ _ next, false :: p => nodeAt next p

/-- The position is below an object whose mapping does not transmit forces (a visual model for instance). -/
def BelowSilentMapping {V : Type*} (f : MechForest V) (p : List Bool) : Prop :=
  ∃ q r n, p = q ++ true :: r ∧ nodeAt f q = some n ∧ n.state.isSome ∧ n.mapping = some false

/-- The objects whose vectors are copied: those which are not mapped, unless `only_mapped`; those which are mapped, with either flag.
Without flag the traversal does not go below mappings which do not transmit forces. -/
def Chosen {V : Type*} (mapped onlyMapped : Bool) (f : MechForest V) (p : List Bool) (n : MechNode V) : Prop :=
  n.state.isSome ∧
  ((n.mapping = none ∧ onlyMapped = false ∧ (mapped = false → ¬ BelowSilentMapping f p)) ∨
   (n.mapping ≠ none ∧ (mapped = true ∨ onlyMapped = true)))

/-- The assignment `a := b` in an object: nothing else changes. -/
def Assigned {V : Type*} (a b : ℕ) (s s' : MultiState V) : Prop :=
  s'.supported = s.supported ∧ s'.vectors a = s.vectors b ∧ ∀ i, i ≠ a → s'.vectors i = s.vectors i

end Caribou.Spec
