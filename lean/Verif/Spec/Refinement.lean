import Verif.Spec.Galerkin

/-!
# Specification vocabulary for two meshes of the same body
-/

set_option autoImplicit false

namespace Caribou.Spec

/-- A displacement `V` of a mesh and a displacement `V'` of another one move every point which is in both of them in the same way. -/
def SameField {n n' N M N' M' : ℕ} (E : Elem ℝ 3 n) (R : Set (Fin 3 → ℝ)) (idx : Fin M → Fin n → Fin N) (X V : Fin N → Fin 3 → ℝ)
    (E' : Elem ℝ 3 n') (R' : Set (Fin 3 → ℝ)) (idx' : Fin M' → Fin n' → Fin N') (X' V' : Fin N' → Fin 3 → ℝ) : Prop :=
  ∀ e, ∀ ξ ∈ R, ∀ e', ∀ ξ' ∈ R', E.worldCoordinates (fun i => X (idx e i)) ξ = E'.worldCoordinates (fun i => X' (idx' e' i)) ξ' →
    E.interpolate ξ (fun i => V (idx e i)) = E'.interpolate ξ' (fun i => V' (idx' e' i))

/-- Two meshes of elements of the classes `C` and `C'`, held at the nodes `fixed` and `fixed'`. Every displacement of the first which leaves its held nodes in place is a displacement of
the second which leaves its own in place. -/
def RefinedBy {N M N' M' : ℕ} (C : CorotClass) (idx : Fin M → Fin C.nodes → Fin N) (X : Fin N → Fin 3 → ℝ) (fixed : Set (Fin N))
    (C' : CorotClass) (idx' : Fin M' → Fin C'.nodes → Fin N') (X' : Fin N' → Fin 3 → ℝ) (fixed' : Set (Fin N')) : Prop :=
  ∀ V : Fin N → Fin 3 → ℝ, (∀ p ∈ fixed, V p = 0) →
    ∃ V' : Fin N' → Fin 3 → ℝ, (∀ p ∈ fixed', V' p = 0) ∧ SameField C.elem C.canonical idx X V C'.elem C'.canonical idx' X' V'

/-- The loads `F` and `F'` on the nodes of two meshes are the same: they do the same work on all displacements which are displacements of both. -/
def SameLoads {N M N' M' : ℕ} (C : CorotClass) (idx : Fin M → Fin C.nodes → Fin N) (X F : Fin N → Fin 3 → ℝ)
    (C' : CorotClass) (idx' : Fin M' → Fin C'.nodes → Fin N') (X' F' : Fin N' → Fin 3 → ℝ) : Prop :=
  ∀ V V', SameField C.elem C.canonical idx X V C'.elem C'.canonical idx' X' V' → power F V = power F' V'

/-- The mesh has no hanging nodes: its displacements do not depend on the element in which they are interpolated. -/
def SingleValued {N M : ℕ} (C : CorotClass) (idx : Fin M → Fin C.nodes → Fin N) (X : Fin N → Fin 3 → ℝ) : Prop :=
  ∀ V, SameField C.elem C.canonical idx X V C.elem C.canonical idx X V

end Caribou.Spec
