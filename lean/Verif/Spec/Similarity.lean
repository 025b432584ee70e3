import Verif.Model.Material
import Verif.Spec.Frame

/-!
# Specification vocabulary: changes of unit and of placement
-/

set_option autoImplicit false

namespace Caribou.Spec

/-- The similarity `x ↦ s Q x + c`: `s` is the change of the unit of length, `Q` and `c` the new placement. -/
def similar {D : ℕ} (s : ℝ) (Q : Matrix (Fin D) (Fin D) ℝ) (c : Fin D → ℝ) (x : Fin D → ℝ) : Fin D → ℝ := s • Q.mulVec x + c

/-- The law `mat` does not single out a direction of the space. -/
def IsotropicLaw (mat : Material) : Prop :=
  ∀ (J : ℝ) (C Q : Matrix (Fin 3) (Fin 3) ℝ), OrthonormalCols Q → mat.energy J (Q * C * Q.transpose) = mat.energy J C ∧
    mat.stress J (Q * C * Q.transpose) = Q * mat.stress J C * Q.transpose

/-- The law `mat'` is the law `mat` with stresses multiplied by `m` (a change of the unit of stress). -/
def LawTimes (m : ℝ) (mat mat' : Material) : Prop :=
  ∀ J C, mat'.energy J C = m * mat.energy J C ∧ mat'.stress J C = m • mat.stress J C

end Caribou.Spec
