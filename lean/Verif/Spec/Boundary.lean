import Mathlib.Algebra.BigOperators.Fin
import Mathlib.LinearAlgebra.Matrix.Determinant.Basic

/-!
# What it means for a table of sides to describe the boundary of an element

Nothing here mentions the model.
-/

set_option autoImplicit false

namespace Caribou.Spec

/-- The parametrised side `φ` lies in a hyperplane `g · x = b`, and every node that is not listed in the side lies
strictly below it: the side is where the element touches one of its supporting hyperplanes. -/
def SupportedSide {K : Type*} [Field K] [LinearOrder K] {d e n k : ℕ} (node : Fin n → Fin d → K) (side : Fin k → Fin n)
    (φ : (Fin e → K) → Fin d → K) : Prop :=
  ∃ (g : Fin d → K) (b : K), (∀ η, ∑ a, g a * φ η a = b) ∧ ∀ l, (∀ j, side j ≠ l) → ∑ a, g a * node l a < b

/-- The closed polygon with corners `c 0, c 1, ..., c (r-1)` traverses the edge from `a` to `b`. -/
def Traverses {n r : ℕ} [NeZero r] (c : Fin r → Fin n) (a b : Fin n) : Prop := ∃ j, c j = a ∧ c (j + 1) = b

instance {n r : ℕ} [NeZero r] (c : Fin r → Fin n) (a b : Fin n) : Decidable (Traverses c a b) := by
  unfold Traverses; infer_instance

/-- Every edge is traversed by exactly one face in each direction, and faces traverse nothing but edges. -/
def ClosedOriented {n s r e t : ℕ} [NeZero r] (face : Fin s → Fin r → Fin n) (edge : Fin e → Fin (t + 2) → Fin n) :
    Prop :=
  (∀ k, (∃ i, Traverses (face i) (edge k 0) (edge k 1) ∧
            ∀ i', Traverses (face i') (edge k 0) (edge k 1) → i' = i) ∧
        (∃ i, Traverses (face i) (edge k 1) (edge k 0) ∧
            ∀ i', Traverses (face i') (edge k 1) (edge k 0) → i' = i)) ∧
  ∀ i j, ∃ k, (edge k 0 = face i j ∧ edge k 1 = face i (j + 1)) ∨ (edge k 1 = face i j ∧ edge k 0 = face i (j + 1))

/-- The `j`-th mid-edge node of each face is the mid-edge node of the edge between its corners `j` and `j + 1`. -/
def MidNodesAgree {n s r e : ℕ} [NeZero r] (face mid : Fin s → Fin r → Fin n) (edge : Fin e → Fin 3 → Fin n) : Prop :=
  ∀ i j k, ((edge k 0 = face i j ∧ edge k 1 = face i (j + 1)) ∨ (edge k 1 = face i j ∧ edge k 0 = face i (j + 1))) →
    edge k 2 = mid i j

/-- Image of a point under the affine map `ξ ↦ c + A ξ`. -/
def affineMap {K : Type*} [Field K] {d m : ℕ} (c : Fin m → K) (A : Matrix (Fin m) (Fin d) K) (ξ : Fin d → K) :
    Fin m → K := fun a => c a + ∑ j, A a j * ξ j

/-- Six times the signed volume of the tetrahedron `p q r s`, that is `(q - p) × (r - p) · (s - p)`. -/
def volume6 {K : Type*} [Field K] (p q r s : Fin 3 → K) : K :=
  ((q 1 - p 1) * (r 2 - p 2) - (q 2 - p 2) * (r 1 - p 1)) * (s 0 - p 0)
  + ((q 2 - p 2) * (r 0 - p 0) - (q 0 - p 0) * (r 2 - p 2)) * (s 1 - p 1)
  + ((q 0 - p 0) * (r 1 - p 1) - (q 1 - p 1) * (r 0 - p 0)) * (s 2 - p 2)

/-- Twice the signed area of the triangle `p q r`: positive when it is counter-clockwise. -/
def area2 {K : Type*} [Field K] (p q r : Fin 2 → K) : K :=
  (q 0 - p 0) * (r 1 - p 1) - (q 1 - p 1) * (r 0 - p 0)

/-- On every affine image with positive determinant, the right-hand normal of every side points away from all the
nodes that are not on the side. -/
def OutwardNormals {K : Type*} [Field K] [LinearOrder K] {n s k : ℕ} (node : Fin n → Fin 3 → K)
    (side : Fin s → Fin (k + 3) → Fin n) : Prop :=
  ∀ (c : Fin 3 → K) (A : Matrix (Fin 3) (Fin 3) K), 0 < A.det → ∀ i l, (∀ j, side i j ≠ l) →
    volume6 (affineMap c A (node (side i 0))) (affineMap c A (node (side i 1))) (affineMap c A (node (side i 2)))
      (affineMap c A (node l)) < 0

/-- On every affine image with positive determinant, all nodes that are not on a side are to its left. -/
def CounterClockwise {K : Type*} [Field K] [LinearOrder K] {n s k : ℕ} (node : Fin n → Fin 2 → K)
    (side : Fin s → Fin (k + 2) → Fin n) : Prop :=
  ∀ (c : Fin 2 → K) (A : Matrix (Fin 2) (Fin 2) K), 0 < A.det → ∀ i l, (∀ j, side i j ≠ l) →
    0 < area2 (affineMap c A (node (side i 0))) (affineMap c A (node (side i 1))) (affineMap c A (node l))

/-- The sides form one closed cycle: each starts where the previous one ends and all starting points differ. -/
def OneCycle {n s k : ℕ} [NeZero s] (side : Fin s → Fin (k + 2) → Fin n) : Prop :=
  (∀ i, side i 1 = side (i + 1) 0) ∧ ∀ i i', side i 0 = side i' 0 → i = i'

end Caribou.Spec
