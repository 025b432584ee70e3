import Mathlib.Analysis.Calculus.Deriv.Basic
import Mathlib.LinearAlgebra.Matrix.Notation

/-!
# Tensors in Voigt notation and derivatives of curves of tensors
-/

set_option autoImplicit false

namespace Caribou.Spec

/-- The pair of tensor indices of a Voigt index: `00, 11, 22, 01, 12, 02`. -/
def voigtPair : Fin 6 → Fin 3 × Fin 3 := ![(0, 0), (1, 1), (2, 2), (0, 1), (1, 2), (0, 2)]

/-- Voigt vector of a stress: one entry per pair. -/
def voigtStress (S : Matrix (Fin 3) (Fin 3) ℝ) : Fin 6 → ℝ := fun I => S (voigtPair I).1 (voigtPair I).2

/-- Voigt vector of a strain: shear entries count for both `ij` and `ji`. -/
def voigtStrain (E : Matrix (Fin 3) (Fin 3) ℝ) : Fin 6 → ℝ :=
  fun I => if (voigtPair I).1 = (voigtPair I).2 then E (voigtPair I).1 (voigtPair I).2
    else E (voigtPair I).1 (voigtPair I).2 + E (voigtPair I).2 (voigtPair I).1

/-- The double contraction `A : B`. -/
def ddot (A B : Matrix (Fin 3) (Fin 3) ℝ) : ℝ := ∑ i, ∑ j, A i j * B i j

/-- The curve of matrices `C` is differentiable at `t` with derivative `C'`, entry by entry. -/
def MatDeriv {m n : ℕ} (C : ℝ → Matrix (Fin m) (Fin n) ℝ) (C' : Matrix (Fin m) (Fin n) ℝ) (t : ℝ) : Prop :=
  ∀ i j, HasDerivAt (fun s => C s i j) (C' i j) t

end Caribou.Spec
