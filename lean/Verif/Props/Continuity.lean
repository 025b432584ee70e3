import Verif.Lemmas.Continuity
import Verif.Props.Boundary
import Verif.Props.Canonical

/-!
# Property C119: fields are continuous across the sides shared by elements
-/

set_option autoImplicit false

namespace Caribou

open Spec

section

variable {K : Type*} [Field K] [CharZero K]

/-- Listing the nodes of a side in another order moves the points of the canonical side. -/
theorem side_listed (B : BoundedType) {m : ℕ} (P : Fin B.sideType.numNodes → Fin m → K) (k : ℕ) (rev : Bool) (η : Fin B.sideType.dim → K) :
    B.sideType.elem.worldCoordinates (fun j => P (listed B.sideType k rev j)) η =
      B.sideType.elem.worldCoordinates P (B.sideType.elem.worldCoordinates (fun j => B.sideType.elem.node (listed B.sideType k rev j)) η) := by
  rcases B with _ | _ | _ | _ | _ | _ | _ | _ | _ | _ | _ | _
  · exact segment1_listed P k rev η
  · exact segment2_listed P k rev η
  · exact segment1_listed P k rev η
  · exact segment2_listed P k rev η
  · exact triangle1_listed P k rev η
  · exact triangle2_listed P k rev η
  · exact quad1_listed P k rev η
  · exact quad2_listed P k rev η
  · exact segment1_listed P k rev η
  · exact segment2_listed P k rev η
  · exact quad1_listed P k rev η
  · exact quad2_listed P k rev η

/-- **C119 (continuity).** Two elements, possibly of different types, share a side, which the second one lists from the corner `k` of the
first one, backwards or not.  Then what the first one interpolates from the values `V` of the nodes at a point of the side is what the second
one interpolates at one point of its side, which is the same for all values: the positions and all fields agree there. -/
theorem C119_continuous (B B' : BoundedType) (hB : B ≠ .rectHexa2) (hB' : B' ≠ .rectHexa2) (hs : B'.sideType = B.sideType)
    (conn : Fin B.type.numNodes → ℕ) (conn' : Fin B'.type.numNodes → ℕ) (i : Fin B.numSides) (i' : Fin B'.numSides) (k : ℕ) (rev : Bool)
    (hshare : SameSide B.sideType (fun j => conn (B.sides i j)) (fun j => conn' (B'.sides i' (Fin.cast (by rw [hs]) j))) k rev)
    (η : Fin B.sideType.dim → K) :
    ∃ η' : Fin B'.sideType.dim → K,
      (∀ a, η' a = B.sideType.elem.worldCoordinates (fun j => B.sideType.elem.node (listed B.sideType k rev j)) η (Fin.cast (by rw [hs]) a)) ∧
      ∀ {m : ℕ} (V : ℕ → Fin m → K),
        B.type.elem.worldCoordinates (fun j => V (conn j)) (B.sideType.elem.worldCoordinates (B.boundaryNodes B.type.elem.node i) η) =
          B'.type.elem.worldCoordinates (fun j => V (conn' j))
            (B'.sideType.elem.worldCoordinates (B'.boundaryNodes B'.type.elem.node i') η') := by
  refine ⟨_, fun a => rfl, fun {m} V => ?_⟩
  rw [← C09_boundary_is_trace B hB, ← C09_boundary_is_trace B' hB']
  have h1 : B.boundaryNodes (fun j => V (conn j)) i =
      fun j => (fun l => V (conn' (B'.sides i' (Fin.cast (by rw [hs]) l)))) (listed B.sideType k rev j) := by
    funext j; exact congrArg V (hshare j)
  rw [h1, side_listed B (fun l => V (conn' (B'.sides i' (Fin.cast (by rw [hs]) l)))) k rev]
  clear h1 hshare
  have h2 : B'.boundaryNodes (fun j => V (conn' j)) i' = fun j => V (conn' (B'.sides i' j)) := rfl
  rw [h2]
  clear h2
  generalize B'.sides i' = S
  generalize B'.sideType = T' at *
  subst hs
  rfl

/-- **C119 (segments and triangles).** When the sides are straight segments or linear triangles nothing has to be asked of the order: two
sides with the same three (two) nodes are always listings of each other. -/
theorem C119_any_order (T : ElementType) (hT : T = .segment1 ∨ T = .triangle1) (a b : Fin T.numNodes → ℕ) (ha : Function.Injective a)
    (hab : ∀ j, ∃ l, a j = b l) : ∃ k rev, SameSide T a b k rev := by
  choose f hf using hab
  have hinj : Function.Injective f := by
    intro x y hxy; apply ha; rw [hf, hf, hxy]
  rcases hT with rfl | rfl
  · have key : ∀ g : Fin 2 → Fin 2, Function.Injective g → ∃ (k : Fin 2) (rev : Bool), g = segment1Order k rev := by decide
    obtain ⟨k, rev, h⟩ := key f hinj
    refine ⟨k, rev, fun j => ?_⟩
    rw [hf j, segment1_order, h]
    congr 2
    ext
    simp [Nat.mod_eq_of_lt k.isLt]
  · have key : ∀ g : Fin 3 → Fin 3, Function.Injective g → ∃ (k : Fin 3) (rev : Bool), g = triangle1Order k rev := by decide
    obtain ⟨k, rev, h⟩ := key f hinj
    refine ⟨k, rev, fun j => ?_⟩
    rw [hf j, triangle1_order, h]
    congr 2
    ext
    simp [Nat.mod_eq_of_lt k.isLt]

end

variable {K : Type*} [Field K] [LinearOrder K] [IsStrictOrderedRing K]

theorem segment1_listed_mem (k : ℕ) (rev : Bool) (η : Fin 1 → K) (h : Shape.cube.Mem η) :
    Shape.cube.Mem (segment1.worldCoordinates (fun j => segment1.node (listed .segment1 k rev j)) η) := by
  rw [segment1_order, segment1_listed_param]
  generalize Fin.ofNat 2 k = q
  simp only [Shape.Mem, Fin.forall_fin_one, Fin.isValue] at h
  cases rev <;> fin_cases q <;>
  · simp only [Shape.Mem, Fin.forall_fin_one, segment1Listed, Matrix.cons_val, Fin.isValue, Fin.reduceFinMk, Fin.zero_eta, Fin.mk_one]
    refine ⟨by linarith, by linarith⟩

theorem segment2_listed_mem (k : ℕ) (rev : Bool) (η : Fin 1 → K) (h : Shape.cube.Mem η) :
    Shape.cube.Mem (segment2.worldCoordinates (fun j => segment2.node (listed .segment2 k rev j)) η) := by
  rw [segment2_order, segment2_listed_param]
  generalize Fin.ofNat 2 k = q
  simp only [Shape.Mem, Fin.forall_fin_one, Fin.isValue] at h
  cases rev <;> fin_cases q <;>
  · simp only [Shape.Mem, Fin.forall_fin_one, segment2Listed, Matrix.cons_val, Fin.isValue, Fin.reduceFinMk, Fin.zero_eta, Fin.mk_one]
    refine ⟨by linarith, by linarith⟩

theorem triangle1_listed_mem (k : ℕ) (rev : Bool) (η : Fin 2 → K) (h : Shape.simplex.Mem η) :
    Shape.simplex.Mem (triangle1.worldCoordinates (fun j => triangle1.node (listed .triangle1 k rev j)) η) := by
  rw [triangle1_order, triangle1_listed_param]
  generalize Fin.ofNat 3 k = q
  simp only [Shape.Mem, Fin.sum_univ_two, Fin.forall_fin_two, Fin.isValue] at h
  cases rev <;> fin_cases q <;>
  · simp only [Shape.Mem, Fin.sum_univ_two, Fin.forall_fin_two, triangle1Listed, Matrix.cons_val, Fin.isValue, Fin.reduceFinMk, Fin.zero_eta, Fin.mk_one]
    refine ⟨⟨by linarith, by linarith⟩, by linarith⟩

theorem triangle2_listed_mem (k : ℕ) (rev : Bool) (η : Fin 2 → K) (h : Shape.simplex.Mem η) :
    Shape.simplex.Mem (triangle2.worldCoordinates (fun j => triangle2.node (listed .triangle2 k rev j)) η) := by
  rw [triangle2_order, triangle2_listed_param]
  generalize Fin.ofNat 3 k = q
  simp only [Shape.Mem, Fin.sum_univ_two, Fin.forall_fin_two, Fin.isValue] at h
  cases rev <;> fin_cases q <;>
  · simp only [Shape.Mem, Fin.sum_univ_two, Fin.forall_fin_two, triangle2Listed, Matrix.cons_val, Fin.isValue, Fin.reduceFinMk, Fin.zero_eta, Fin.mk_one]
    refine ⟨⟨by linarith, by linarith⟩, by linarith⟩

theorem quad1_listed_mem (k : ℕ) (rev : Bool) (η : Fin 2 → K) (h : Shape.cube.Mem η) :
    Shape.cube.Mem (quad1.worldCoordinates (fun j => quad1.node (listed .quad1 k rev j)) η) := by
  rw [quad1_order, quad1_listed_param]
  generalize Fin.ofNat 4 k = q
  simp only [Shape.Mem, Fin.forall_fin_two, Fin.isValue] at h
  cases rev <;> fin_cases q <;>
  · simp only [Shape.Mem, Fin.forall_fin_two, quad1Listed, Matrix.cons_val, Fin.isValue, Fin.reduceFinMk, Fin.zero_eta, Fin.mk_one]
    refine ⟨⟨by linarith, by linarith⟩, by linarith, by linarith⟩

theorem quad2_listed_mem (k : ℕ) (rev : Bool) (η : Fin 2 → K) (h : Shape.cube.Mem η) :
    Shape.cube.Mem (quad2.worldCoordinates (fun j => quad2.node (listed .quad2 k rev j)) η) := by
  rw [quad2_order, quad2_listed_param]
  generalize Fin.ofNat 4 k = q
  simp only [Shape.Mem, Fin.forall_fin_two, Fin.isValue] at h
  cases rev <;> fin_cases q <;>
  · simp only [Shape.Mem, Fin.forall_fin_two, quad2Listed, Matrix.cons_val, Fin.isValue, Fin.reduceFinMk, Fin.zero_eta, Fin.mk_one]
    refine ⟨⟨by linarith, by linarith⟩, by linarith, by linarith⟩


/-- **C119 (the points of the side).** The point of the second side is in the canonical side if the point of the first one is. -/
theorem C119_inside (B : BoundedType) (k : ℕ) (rev : Bool) (η : Fin B.sideType.dim → K) (h : B.sideType.shape.Mem η) :
    B.sideType.shape.Mem (B.sideType.elem.worldCoordinates (fun j => B.sideType.elem.node (listed B.sideType k rev j)) η) := by
  rcases B with _ | _ | _ | _ | _ | _ | _ | _ | _ | _ | _ | _
  · exact segment1_listed_mem k rev η h
  · exact segment2_listed_mem k rev η h
  · exact segment1_listed_mem k rev η h
  · exact segment2_listed_mem k rev η h
  · exact triangle1_listed_mem k rev η h
  · exact triangle2_listed_mem k rev η h
  · exact quad1_listed_mem k rev η h
  · exact quad2_listed_mem k rev η h
  · exact segment1_listed_mem k rev η h
  · exact segment2_listed_mem k rev η h
  · exact quad1_listed_mem k rev η h
  · exact quad2_listed_mem k rev η h

/-- **C119 (one value).** A point of the side of the first element and a point of the side of the second one are at the same place in space,
and the shared side is not folded over itself.  Then all fields have the same value at the two points. -/
theorem C119_one_value (B B' : BoundedType) (hB : B ≠ .rectHexa2) (hB' : B' ≠ .rectHexa2) (hs : B'.sideType = B.sideType)
    (conn : Fin B.type.numNodes → ℕ) (conn' : Fin B'.type.numNodes → ℕ) (i : Fin B.numSides) (i' : Fin B'.numSides) (k : ℕ) (rev : Bool)
    (hshare : SameSide B.sideType (fun j => conn (B.sides i j)) (fun j => conn' (B'.sides i' (Fin.cast (by rw [hs]) j))) k rev)
    {n m : ℕ} (x : ℕ → Fin n → K) (V : ℕ → Fin m → K) (ξ : Fin B.type.dim → K) (ξ' : Fin B'.type.dim → K)
    (hξ : ∃ η, B.sideType.shape.Mem η ∧ ξ = B.sideType.elem.worldCoordinates (B.boundaryNodes B.type.elem.node i) η)
    (hξ' : ∃ η, B'.sideType.shape.Mem η ∧ ξ' = B'.sideType.elem.worldCoordinates (B'.boundaryNodes B'.type.elem.node i') η)
    (hfold : Set.InjOn (fun η => B'.sideType.elem.worldCoordinates (B'.boundaryNodes (fun j => x (conn' j)) i') η) {η | B'.sideType.shape.Mem η})
    (hplace : B.type.elem.worldCoordinates (fun j => x (conn j)) ξ = B'.type.elem.worldCoordinates (fun j => x (conn' j)) ξ') :
    B.type.elem.worldCoordinates (fun j => V (conn j)) ξ = B'.type.elem.worldCoordinates (fun j => V (conn' j)) ξ' := by
  obtain ⟨η, hη, rfl⟩ := hξ
  obtain ⟨η₂, hη₂, rfl⟩ := hξ'
  obtain ⟨η', hη', hV⟩ := C119_continuous B B' hB hB' hs conn conn' i i' k rev hshare η
  have hmem : B'.sideType.shape.Mem η' := by
    have h := C119_inside B k rev η hη
    revert hη' h
    generalize B.sideType.elem.worldCoordinates (fun j => B.sideType.elem.node (listed B.sideType k rev j)) η = ζ
    clear * - hs
    revert ζ hs
    generalize B.sideType = S
    rintro rfl ζ h1 h2
    have : η' = ζ := funext h1
    rwa [this]
  rw [hV V]
  rw [hV x, ← C09_boundary_is_trace B' hB', ← C09_boundary_is_trace B' hB'] at hplace
  rw [hfold hmem hη₂ hplace]

/-- Two cubes: the second one stands on the first one and is turned by half a turn, its bottom side lists the nodes of the top side of the first
one from another corner and backwards. -/
theorem stacked_share : SameSide .quad1 (fun j => (![0, 1, 2, 3, 4, 5, 6, 7] : Fin 8 → ℕ) (hexa1Sides 5 j))
    (fun j => (![6, 7, 4, 5, 10, 11, 8, 9] : Fin 8 → ℕ) (hexa1Sides 0 j)) 2 true := by
  have h : ∀ j : Fin 4, (![0, 1, 2, 3, 4, 5, 6, 7] : Fin 8 → ℕ) (hexa1Sides 5 j) =
      (![6, 7, 4, 5, 10, 11, 8, 9] : Fin 8 → ℕ) (hexa1Sides 0 (listedCorner (r := 4) (Fin.ofNat 4 2) true j)) := by decide
  exact h

/-- The positions of the nodes of the two cubes. -/
def stackedNodes (n : ℕ) : Fin 3 → ℚ := ![if n % 4 = 0 ∨ n % 4 = 3 then -1 else 1, if n % 4 = 0 ∨ n % 4 = 1 then -1 else 1, 2 * (n / 4 : ℕ) - 1]

/-- Instance of C119: the point `(1/2, 1/3)` of the top of the first cube and the point `(-1/2, -1/3)` of the bottom of the second one are at the
same place, and every field has one value there. -/
example (V : ℕ → Fin 1 → ℚ) :
    hexa1.worldCoordinates (fun j => V ((![0, 1, 2, 3, 4, 5, 6, 7] : Fin 8 → ℕ) j)) ![1/2, 1/3, 1] =
      hexa1.worldCoordinates (fun j => V ((![6, 7, 4, 5, 10, 11, 8, 9] : Fin 8 → ℕ) j)) ![-1/2, -1/3, -1] := by
  refine C119_one_value .hexa1 .hexa1 (by decide) (by decide) rfl ![0, 1, 2, 3, 4, 5, 6, 7] ![6, 7, 4, 5, 10, 11, 8, 9] (5 : Fin 6) (0 : Fin 6) 2 true stacked_share
    stackedNodes V ![1/2, 1/3, 1] ![-1/2, -1/3, -1] ⟨(![1/2, 1/3] : Fin 2 → ℚ), ?_, ?_⟩ ⟨(![-1/3, -1/2] : Fin 2 → ℚ), ?_, ?_⟩ ?_ ?_
  · show ∀ j : Fin 2, _ ∧ _
    decide +kernel
  · funext a; fin_cases a <;>
    · simp only [Elem.worldCoordinates, Elem.interpolate, BoundedType.boundaryNodes, BoundedType.sides, BoundedType.sideType, BoundedType.type,
        ElementType.elem, hexa1Sides, quad1, hexa1]
      decide +kernel
  · show ∀ j : Fin 2, _ ∧ _
    decide +kernel
  · funext a; fin_cases a <;>
    · simp only [Elem.worldCoordinates, Elem.interpolate, BoundedType.boundaryNodes, BoundedType.sides, BoundedType.sideType, BoundedType.type,
        ElementType.elem, hexa1Sides, quad1, hexa1]
      decide +kernel
  · have h : ∀ η : Fin 2 → ℚ, quad1.worldCoordinates
        (fun j => stackedNodes ((![6, 7, 4, 5, 10, 11, 8, 9] : Fin 8 → ℕ) (hexa1Sides 0 j))) η = ![-η 1, -η 0, 1] := by
      intro η
      funext a
      fin_cases a <;>
      · simp only [Elem.worldCoordinates, Elem.interpolate, sum_fin4, hexa1Sides, quad1, stackedNodes, Matrix.cons_val, Fin.isValue,
          Fin.reduceFinMk, Fin.zero_eta, Fin.mk_one, Nat.reduceMod, Nat.reduceDiv]
        norm_num
        try ring
    intro (η : Fin 2 → ℚ) _ (η' : Fin 2 → ℚ) _ e
    have e' : (![-η 1, -η 0, 1] : Fin 3 → ℚ) = ![-η' 1, -η' 0, 1] := by rw [← h, ← h]; exact e
    have e0 := congrFun e' 0
    have e1 := congrFun e' 1
    simp only [Matrix.cons_val, neg_inj] at e0 e1
    funext (j : Fin 2)
    fin_cases j
    · exact e1
    · exact e0
  · funext a; fin_cases a <;> decide +kernel

/-- Instance of `C119_any_order`: the faces `1 2 3` and `3 2 1` of two tetrahedra. -/
example : ∃ k rev, SameSide .triangle1 (![1, 2, 3] : Fin 3 → ℕ) (![3, 2, 1] : Fin 3 → ℕ) k rev :=
  C119_any_order .triangle1 (Or.inr rfl) _ _ (by decide : Function.Injective (![1, 2, 3] : Fin 3 → ℕ))
    (by decide : ∀ j : Fin 3, ∃ l : Fin 3, (![1, 2, 3] : Fin 3 → ℕ) j = (![3, 2, 1] : Fin 3 → ℕ) l)

end Caribou
