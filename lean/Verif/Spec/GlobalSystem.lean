import Verif.Model.GlobalSystem

/-!
# Specification of the system of a scene of several bodies

The spec follows a motion of the top level bodies through the mappings, and adds the work of every force field of the scene.
-/

set_option autoImplicit false

namespace Caribou.Spec

open Finset

variable {K : Type*}

/-- The bodies visited before the body `k`. -/
def Before (l : List (MechBody K)) (k : ℕ) : List (MechBody K) := l.drop (l.length - k)

/-- The number of degrees of freedom of the top level bodies of a list. -/
def topSize (l : List (MechBody K)) : ℕ := ((l.filter fun b => b.link.isNone).map fun b => b.size).sum

/-- The body `b` is the body `k` of the scene. -/
def IsBody (l : List (MechBody K)) (k : ℕ) (b : MechBody K) : Prop := k < l.length ∧ l[l.length - 1 - k]? = some b

/-- All mappings between the body `k` and a top level body satisfy `p`. -/
inductive Through (p : BodyLink K → Prop) : List (MechBody K) → ℕ → Prop
  | top {b : MechBody K} {l : List (MechBody K)} (h : b.link = none) : Through p (b :: l) l.length
  | mapped {b : MechBody K} {l : List (MechBody K)} {m : BodyLink K} (h : b.link = some m) (hp : p m) (hm : Through p l m.parent) :
      Through p (b :: l) l.length
  | later {b : MechBody K} {l : List (MechBody K)} {k : ℕ} (h : Through p l k) : Through p (b :: l) k

/-- The input of every mapping comes before its output. -/
def InOrder : List (MechBody K) → Prop
  | [] => True
  | b :: l => (∀ m, b.link = some m → m.parent < l.length) ∧ InOrder l

variable [Field K]

/-- Number of degrees of freedom of the body `k`. -/
def dofsOf (l : List (MechBody K)) (k : ℕ) : ℕ := if k < l.length then ((l[l.length - 1 - k]?).map fun b => b.size).getD 0 else 0

/-- The motion of the body `k` when the top level bodies move by `u`: a top level body has its part of `u`, a mapped one the motion of its
parent multiplied by `J`. -/
def motion : List (MechBody K) → (ℕ → K) → ℕ → ℕ → K
  | [], _, _ => 0
  | b :: l, u, k =>
    if k = l.length then
      match b.link with
      | none => fun i => u (topSize l + i)
      | some m => fun i => ∑ a ∈ range (dofsOf l m.parent), m.J i a * motion l u m.parent a
    else motion l u k

/-- The mappings are affine, with the linear part `J`. -/
def AffineLinks : List (MechBody K) → Prop
  | [] => True
  | b :: l =>
    (∀ m, b.link = some m → ∀ (y z : ℕ → K) (i : ℕ),
      m.apply z i = m.apply y i + ∑ a ∈ range (dofsOf l m.parent), m.J i a * (z a - y a)) ∧ AffineLinks l

/-- The bilinear form of a matrix of size `n`. -/
def form (n : ℕ) (M : ℕ → ℕ → K) (u v : ℕ → K) : K := ∑ i ∈ range n, ∑ j ∈ range n, u i * M i j * v j

/-- The power of a force on a motion. -/
def bodyPower (n : ℕ) (f u : ℕ → K) : K := ∑ i ∈ range n, u i * f i

/-- The motion `u` leaves the fixed degrees of freedom in place: `i` is the degree of freedom `i - o` of the body `k`. -/
def AllowedMotion (S : BodyScene K) (u : ℕ → K) : Prop :=
  ∀ c ∈ S.fixed, ∀ i ∈ c.2, u (topSize (Before S.bodies c.1) + i) = 0

/-- Constraints are on top level bodies, and on existing degrees of freedom. -/
def FixedOnTop (S : BodyScene K) : Prop :=
  ∀ c ∈ S.fixed, ∃ b, IsBody S.bodies c.1 b ∧ b.link = none ∧ ∀ i ∈ c.2, i < b.size

end Caribou.Spec
