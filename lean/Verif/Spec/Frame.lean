import Mathlib.LinearAlgebra.Matrix.Determinant.Basic
import Mathlib.Analysis.Real.Sqrt

/-!
# Rotations, frames and boxes
-/

set_option autoImplicit false

namespace Caribou.Spec

/-- The columns are orthonormal. -/
def OrthonormalCols {K : Type*} [Field K] {m : ℕ} (F : Matrix (Fin m) (Fin m) K) : Prop := F.transpose * F = 1

instance {K : Type*} [Field K] [DecidableEq K] {m : ℕ} (F : Matrix (Fin m) (Fin m) K) :
    Decidable (OrthonormalCols F) := by unfold OrthonormalCols; infer_instance

/-- Orthonormal and direct. -/
def IsRotation {K : Type*} [Field K] {m : ℕ} (F : Matrix (Fin m) (Fin m) K) : Prop := OrthonormalCols F ∧ F.det = 1

/-- The first column of `F` has the direction of `a`, and `b` is in the half plane of the first two columns, on the
positive side of the second. -/
def AlignedWith {K : Type*} [Field K] [LinearOrder K] (F : Matrix (Fin 3) (Fin 3) K) (a b : Fin 3 → K) : Prop :=
  (∃ s : K, s > 0 ∧ ∀ i, a i = s * F i 0) ∧ ∃ β γ : K, γ > 0 ∧ ∀ i, b i = β * F i 0 + γ * F i 1

/-- The image of a point by the rigid motion `x ↦ Q x + t`. -/
def rigid {K : Type*} [Field K] {m : ℕ} (Q : Matrix (Fin m) (Fin m) K) (t : Fin m → K) (x : Fin m → K) : Fin m → K :=
  fun a => ∑ j, Q a j * x j + t a

/-- The vectors `a` and `b` of the space are parallel (or one is zero): all `2 × 2` minors vanish. -/
def Parallel {K : Type*} [Field K] {m : ℕ} (a b : Fin m → K) : Prop := ∀ i j, a i * b j = a j * b i

/-- `p` is in the box of centre `c`, sides `H`, with axes the columns of `R`, enlarged by the relative tolerance `eps`. -/
def InBox {K : Type*} [Field K] [LinearOrder K] {m : ℕ} (c H : Fin m → K) (R : Matrix (Fin m) (Fin m) K) (eps : K)
    (p : Fin m → K) : Prop :=
  ∃ s : Fin m → K, (∀ a, p a = c a + ∑ j, R a j * s j) ∧ ∀ j, |s j| ≤ (1 + eps) * (|H j| / 2)

end Caribou.Spec
