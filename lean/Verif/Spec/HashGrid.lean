import Verif.Spec.Grid

/-! Specification notions for the hash grid (C31, C32). -/

set_option autoImplicit false

namespace Caribou.Spec

variable {K : Type*} [Field K] [LinearOrder K]

/-- `p` is in the bounding box of the nodes. -/
def InBoxOf {d n : ℕ} (nodes : Fin n → Fin d → K) (p : Fin d → K) : Prop :=
  ∀ a, (∃ i, nodes i a ≤ p a) ∧ ∃ i, p a ≤ nodes i a

/-- Along every axis, the distance between `p` and the bounding box of the nodes is less than `δ`. -/
def BoxWithin {d n : ℕ} (nodes : Fin n → Fin d → K) (δ : K) (p : Fin d → K) : Prop :=
  ∀ a, (∃ i, nodes i a < p a + δ) ∧ ∃ i, p a < nodes i a + δ

end Caribou.Spec
