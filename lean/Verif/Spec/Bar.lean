import Verif.Spec.Patch
import Verif.Spec.StaticPatch
import Verif.Spec.Quadratic

/-!
# Specification vocabulary for bars in tension
-/

set_option autoImplicit false

namespace Caribou.Spec

/-- The scene of a body with a linear force field under the nodal forces `f`; the fixed degrees of freedom are single coordinates of nodes. -/
noncomputable def loadedScene {N n M : ℕ} (s : CorotState N n M) (frame : (Fin n → Fin 3 → ℝ) → Mat3) (X : Fin N → Fin 3 → ℝ) (fixed : Dof N → Bool) (f : Fin N → Fin 3 → ℝ) :
    StaticScene ℝ (Dof N) (Fin 0) :=
  { withLoad (linearScene s frame X fun _ => false) (fun d => f d.1 d.2) with fixed := fixed }

/-- The supports hold the body: only the null displacement is an infinitesimal rigid motion of every element and leaves the fixed coordinates. -/
def CannotMove {N n M : ℕ} (idx : Fin M → Fin n → Fin N) (X : Fin N → Fin 3 → ℝ) (fixed : Dof N → Bool) : Prop :=
  ∀ v : Fin N → Fin 3 → ℝ, (∀ e, ∃ (c : Fin 3 → ℝ) (W : Mat3), (∀ a b, W a b = -W b a) ∧ ∀ i, v (idx e i) = c + W.mulVec (X (idx e i))) →
    (∀ p a, fixed (p, a) = true → v p a = 0) → v = 0

/-- The same nodes in the same direction, starting from another one. -/
def Turned {m : ℕ} [NeZero m] {α : Type*} (f g : Fin m → α) : Prop := ∃ k : Fin m, ∀ i, g i = f (k + i)

/-- The vector area of a surface element at local coordinates `ξ`. -/
noncomputable def vectorArea {m : ℕ} (E : Elem ℝ 2 m) (Y : Fin m → Fin 3 → ℝ) (ξ : Fin 2 → ℝ) : Fin 3 → ℝ :=
  vectorProduct (fun i => E.jacobian Y ξ i 0) (fun i => E.jacobian Y ξ i 1)

/-- A straight bar of length `len` along the first axis, loaded at its end. The surface elements `surf` are sides of the mesh (`face`), each one once, listed in any direction; they are in
the plane of the end, not folded and face outwards. Every other side of the boundary is held in the direction of the axis or parallel to it. The coordinates which are held are at those of the point `o`. -/
structure IsBar {n m S N M Q : ℕ} [NeZero m] (E : Elem ℝ 2 m) (gauss : List (GaussNode 2)) (sides : Fin S → Fin m → Fin n) (idx : Fin M → Fin n → Fin N) (X : Fin N → Fin 3 → ℝ)
    (surf : Fin Q → Fin m → Fin N) (face : Fin Q → Fin M × Fin S) (fixed : Dof N → Bool) (o : Fin 3 → ℝ) (len : ℝ) : Prop where
  once : Function.Injective face
  boundary : ∀ q, ¬IsShared sides idx (face q)
  plane : ∀ q i, X (surf q i) 0 = o 0 + len
  outwards : ∀ q, (Turned (sideNodes sides idx (face q)) (surf q) ∧ ∀ g ∈ gauss, 0 < vectorArea E (fun i => X (surf q i)) g.position 0) ∨
    (Mirrored (sideNodes sides idx (face q)) (surf q) ∧ ∀ g ∈ gauss, vectorArea E (fun i => X (surf q i)) g.position 0 < 0)
  others : ∀ f, ¬IsShared sides idx f → (∃ q, face q = f) ∨ (∀ c, fixed (sideNodes sides idx f c, 0) = true) ∨
    ∀ ξ, vectorArea E (fun i => X (sideNodes sides idx f i)) ξ 0 = 0
  supports : ∀ p a, fixed (p, a) = true → X p a = o a

/-- Positions of a bar stretched by the factors `a` along its axis and `b` across it, the point `o` staying in place. -/
noncomputable def stretchedBar {N : ℕ} (o : Fin 3 → ℝ) (a b : ℝ) (X : Fin N → Fin 3 → ℝ) : Fin N → Fin 3 → ℝ :=
  fun p => ![o 0 + a * (X p 0 - o 0), o 1 + b * (X p 1 - o 1), o 2 + b * (X p 2 - o 2)]

end Caribou.Spec
