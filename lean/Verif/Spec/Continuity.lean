import Verif.Model.Boundary

/-!
# Sides shared by two elements

The nodes of a side are listed around it: the corners one after the other, then (quadratic elements) the nodes in the middle of the edges,
the node `j` being between the corners `j` and `j + 1`.  The same side can be listed from another corner, and in the other direction.
-/

set_option autoImplicit false

namespace Caribou.Spec

/-- The corner which comes at the place `j` when the corners are listed from the corner `k`, backwards if `rev`. -/
def listedCorner {r : ℕ} [NeZero r] (k : Fin r) (rev : Bool) (j : Fin r) : Fin r := if rev then k - j else k + j

/-- The middle of the edge which comes at the place `j`: the edge from the corner `k + j` on, or the one up to the corner `k - j`. -/
def listedMiddle {r : ℕ} [NeZero r] (k : Fin r) (rev : Bool) (j : Fin r) : Fin r := if rev then k - j - 1 else k + j

/-- The nodes of a segment, a triangle or a quad listed from the corner `k`, backwards if `rev`. -/
def listed : (T : ElementType) → ℕ → Bool → Fin T.numNodes → Fin T.numNodes
  | .segment1, k, rev => listedCorner (r := 2) (Fin.ofNat 2 k) rev
  | .segment2, k, rev => Fin.lastCases (n := 2) (2 : Fin 3) fun j => (listedCorner (r := 2) (Fin.ofNat 2 k) rev j).castSucc
  | .triangle1, k, rev => listedCorner (r := 3) (Fin.ofNat 3 k) rev
  | .triangle2, k, rev => Fin.addCases (m := 3) (n := 3) (fun j => Fin.castAdd 3 (listedCorner (Fin.ofNat 3 k) rev j))
      fun j => Fin.natAdd 3 (listedMiddle (Fin.ofNat 3 k) rev j)
  | .quad1, k, rev | .rectQuad1, k, rev => listedCorner (r := 4) (Fin.ofNat 4 k) rev
  | .quad2, k, rev | .rectQuad2, k, rev => Fin.addCases (m := 4) (n := 4) (fun j => Fin.castAdd 4 (listedCorner (Fin.ofNat 4 k) rev j))
      fun j => Fin.natAdd 4 (listedMiddle (Fin.ofNat 4 k) rev j)
  | _, _, _ => id

/-- The side with the node numbers `a` is the side with the node numbers `b`, listed from the corner `k` of the latter. -/
def SameSide (T : ElementType) (a b : Fin T.numNodes → ℕ) (k : ℕ) (rev : Bool) : Prop := ∀ j, a j = b (listed T k rev j)

end Caribou.Spec
