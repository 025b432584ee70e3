import Mathlib.Data.Fin.Basic
import Mathlib.Data.Fintype.Basic
import Mathlib.Data.Real.Basic
import Mathlib.Data.Fin.VecNotation

/-!
# Specification vocabulary for conforming meshes
-/

set_option autoImplicit false

namespace Caribou.Spec

/-- Two sides with the same nodes, listed in opposite directions. -/
def Mirrored {m : ℕ} [NeZero m] {α : Type*} (f g : Fin m → α) : Prop := ∃ k : Fin m, ∀ i, g i = f (k - i)

/-- The nodes of a side of a mesh: side `f.2` of element `f.1`. -/
def sideNodes {n m S N M : ℕ} (sides : Fin S → Fin m → Fin n) (idx : Fin M → Fin n → Fin N) (f : Fin M × Fin S) : Fin m → Fin N :=
  fun c => idx f.1 (sides f.2 c)

/-- A side is seen from its two sides by at most two elements. -/
def Conforming {n m S N M : ℕ} [NeZero m] (sides : Fin S → Fin m → Fin n) (idx : Fin M → Fin n → Fin N) : Prop :=
  ∀ f g h, Mirrored (sideNodes sides idx f) (sideNodes sides idx g) → Mirrored (sideNodes sides idx f) (sideNodes sides idx h) → g = h

/-- A side shared with another element. -/
def IsShared {n m S N M : ℕ} [NeZero m] (sides : Fin S → Fin m → Fin n) (idx : Fin M → Fin n → Fin N) (f : Fin M × Fin S) : Prop :=
  ∃ g, Mirrored (sideNodes sides idx f) (sideNodes sides idx g)

/-- A node all of whose sides are shared. -/
def InteriorNode {n m S N M : ℕ} [NeZero m] (sides : Fin S → Fin m → Fin n) (idx : Fin M → Fin n → Fin N) (p : Fin N) : Prop :=
  ∀ f, (∃ c, sideNodes sides idx f c = p) → IsShared sides idx f

/-- The vector product. -/
def vectorProduct (a b : Fin 3 → ℝ) : Fin 3 → ℝ := ![a 1 * b 2 - a 2 * b 1, a 2 * b 0 - a 0 * b 2, a 0 * b 1 - a 1 * b 0]

end Caribou.Spec
