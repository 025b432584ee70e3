import Verif.Spec.Continuity
import Verif.Lemmas.Boundary

/-!
# Lemmas on sides listed in another order
-/

set_option autoImplicit false
set_option linter.all false

namespace Caribou

open Spec

variable {K : Type*} [Field K] [CharZero K]

/-- Where the points of the canonical `segment1` are when its nodes are listed in another order. -/
def segment1Listed (q : Fin 2) (rev : Bool) (η : Fin 1 → K) : Fin 1 → K :=
  match rev with
  | false => (![![η 0], ![-η 0]] : Fin 2 → Fin 1 → K) q
  | true => (![![η 0], ![-η 0]] : Fin 2 → Fin 1 → K) q

/-- The orders of the nodes of `segment1`. -/
def segment1Order (q : Fin 2) (rev : Bool) : Fin 2 → Fin 2 :=
  match rev with
  | false => (![![0, 1], ![1, 0]] : Fin 2 → Fin 2 → Fin 2) q
  | true => (![![0, 1], ![1, 0]] : Fin 2 → Fin 2 → Fin 2) q

theorem segment1_order (k : ℕ) (rev : Bool) : listed .segment1 k rev = segment1Order (Fin.ofNat 2 k) rev := by
  have key : ∀ (q : Fin 2) (rev : Bool), listedCorner (r := 2) q rev = segment1Order q rev := by
    decide
  exact key _ _

theorem segment1_listed_param (q : Fin 2) (rev : Bool) (η : Fin 1 → K) :
    segment1.worldCoordinates (fun j => segment1.node (segment1Order q rev j)) η = segment1Listed q rev η := by
  funext a
  cases rev <;> fin_cases q <;> fin_cases a <;>
  · simp only [Elem.worldCoordinates, Elem.interpolate, sum_fin2, segment1Listed, segment1Order, segment1, Matrix.cons_val, Fin.isValue, Fin.reduceFinMk, Fin.zero_eta, Fin.mk_one]
    try ring

theorem segment1_listed {m : ℕ} (P : Fin 2 → Fin m → K) (k : ℕ) (rev : Bool) (η : Fin 1 → K) :
    segment1.worldCoordinates (fun j => P (listed .segment1 k rev j)) η =
      segment1.worldCoordinates P (segment1.worldCoordinates (fun j => segment1.node (listed .segment1 k rev j)) η) := by
  rw [segment1_order, segment1_listed_param]
  generalize Fin.ofNat 2 k = q
  funext a
  cases rev <;> fin_cases q <;>
  · simp only [Elem.worldCoordinates, Elem.interpolate, sum_fin2, segment1Listed, segment1Order, segment1, Matrix.cons_val, Fin.isValue, Fin.reduceFinMk, Fin.zero_eta, Fin.mk_one]
    try ring

/-- Where the points of the canonical `segment2` are when its nodes are listed in another order. -/
def segment2Listed (q : Fin 2) (rev : Bool) (η : Fin 1 → K) : Fin 1 → K :=
  match rev with
  | false => (![![η 0], ![-η 0]] : Fin 2 → Fin 1 → K) q
  | true => (![![η 0], ![-η 0]] : Fin 2 → Fin 1 → K) q

/-- The orders of the nodes of `segment2`. -/
def segment2Order (q : Fin 2) (rev : Bool) : Fin 3 → Fin 3 :=
  match rev with
  | false => (![![0, 1, 2], ![1, 0, 2]] : Fin 2 → Fin 3 → Fin 3) q
  | true => (![![0, 1, 2], ![1, 0, 2]] : Fin 2 → Fin 3 → Fin 3) q

theorem segment2_order (k : ℕ) (rev : Bool) : listed .segment2 k rev = segment2Order (Fin.ofNat 2 k) rev := by
  have key : ∀ (q : Fin 2) (rev : Bool), Fin.lastCases (motive := fun _ => Fin 3) (n := 2) (2 : Fin 3) (fun j => (listedCorner (r := 2) q rev j).castSucc) = segment2Order q rev := by
    decide
  exact key _ _

theorem segment2_listed_param (q : Fin 2) (rev : Bool) (η : Fin 1 → K) :
    segment2.worldCoordinates (fun j => segment2.node (segment2Order q rev j)) η = segment2Listed q rev η := by
  funext a
  cases rev <;> fin_cases q <;> fin_cases a <;>
  · simp only [Elem.worldCoordinates, Elem.interpolate, sum_fin3, segment2Listed, segment2Order, segment2, Matrix.cons_val, Fin.isValue, Fin.reduceFinMk, Fin.zero_eta, Fin.mk_one]
    try ring

theorem segment2_listed {m : ℕ} (P : Fin 3 → Fin m → K) (k : ℕ) (rev : Bool) (η : Fin 1 → K) :
    segment2.worldCoordinates (fun j => P (listed .segment2 k rev j)) η =
      segment2.worldCoordinates P (segment2.worldCoordinates (fun j => segment2.node (listed .segment2 k rev j)) η) := by
  rw [segment2_order, segment2_listed_param]
  generalize Fin.ofNat 2 k = q
  funext a
  cases rev <;> fin_cases q <;>
  · simp only [Elem.worldCoordinates, Elem.interpolate, sum_fin3, segment2Listed, segment2Order, segment2, Matrix.cons_val, Fin.isValue, Fin.reduceFinMk, Fin.zero_eta, Fin.mk_one]
    try ring

/-- Where the points of the canonical `triangle1` are when its nodes are listed in another order. -/
def triangle1Listed (q : Fin 3) (rev : Bool) (η : Fin 2 → K) : Fin 2 → K :=
  match rev with
  | false => (![![η 0, η 1], ![(1 - η 0 - η 1), η 0], ![η 1, (1 - η 0 - η 1)]] : Fin 3 → Fin 2 → K) q
  | true => (![![η 1, η 0], ![(1 - η 0 - η 1), η 1], ![η 0, (1 - η 0 - η 1)]] : Fin 3 → Fin 2 → K) q

/-- The orders of the nodes of `triangle1`. -/
def triangle1Order (q : Fin 3) (rev : Bool) : Fin 3 → Fin 3 :=
  match rev with
  | false => (![![0, 1, 2], ![1, 2, 0], ![2, 0, 1]] : Fin 3 → Fin 3 → Fin 3) q
  | true => (![![0, 2, 1], ![1, 0, 2], ![2, 1, 0]] : Fin 3 → Fin 3 → Fin 3) q

theorem triangle1_order (k : ℕ) (rev : Bool) : listed .triangle1 k rev = triangle1Order (Fin.ofNat 3 k) rev := by
  have key : ∀ (q : Fin 3) (rev : Bool), listedCorner (r := 3) q rev = triangle1Order q rev := by
    decide
  exact key _ _

theorem triangle1_listed_param (q : Fin 3) (rev : Bool) (η : Fin 2 → K) :
    triangle1.worldCoordinates (fun j => triangle1.node (triangle1Order q rev j)) η = triangle1Listed q rev η := by
  funext a
  cases rev <;> fin_cases q <;> fin_cases a <;>
  · simp only [Elem.worldCoordinates, Elem.interpolate, sum_fin3, triangle1Listed, triangle1Order, triangle1, Matrix.cons_val, Fin.isValue, Fin.reduceFinMk, Fin.zero_eta, Fin.mk_one]
    try ring

theorem triangle1_listed {m : ℕ} (P : Fin 3 → Fin m → K) (k : ℕ) (rev : Bool) (η : Fin 2 → K) :
    triangle1.worldCoordinates (fun j => P (listed .triangle1 k rev j)) η =
      triangle1.worldCoordinates P (triangle1.worldCoordinates (fun j => triangle1.node (listed .triangle1 k rev j)) η) := by
  rw [triangle1_order, triangle1_listed_param]
  generalize Fin.ofNat 3 k = q
  funext a
  cases rev <;> fin_cases q <;>
  · simp only [Elem.worldCoordinates, Elem.interpolate, sum_fin3, triangle1Listed, triangle1Order, triangle1, Matrix.cons_val, Fin.isValue, Fin.reduceFinMk, Fin.zero_eta, Fin.mk_one]
    try ring

/-- Where the points of the canonical `triangle2` are when its nodes are listed in another order. -/
def triangle2Listed (q : Fin 3) (rev : Bool) (η : Fin 2 → K) : Fin 2 → K :=
  match rev with
  | false => (![![η 0, η 1], ![(1 - η 0 - η 1), η 0], ![η 1, (1 - η 0 - η 1)]] : Fin 3 → Fin 2 → K) q
  | true => (![![η 1, η 0], ![(1 - η 0 - η 1), η 1], ![η 0, (1 - η 0 - η 1)]] : Fin 3 → Fin 2 → K) q

/-- The orders of the nodes of `triangle2`. -/
def triangle2Order (q : Fin 3) (rev : Bool) : Fin 6 → Fin 6 :=
  match rev with
  | false => (![![0, 1, 2, 3, 4, 5], ![1, 2, 0, 4, 5, 3], ![2, 0, 1, 5, 3, 4]] : Fin 3 → Fin 6 → Fin 6) q
  | true => (![![0, 2, 1, 5, 4, 3], ![1, 0, 2, 3, 5, 4], ![2, 1, 0, 4, 3, 5]] : Fin 3 → Fin 6 → Fin 6) q

theorem triangle2_order (k : ℕ) (rev : Bool) : listed .triangle2 k rev = triangle2Order (Fin.ofNat 3 k) rev := by
  have key : ∀ (q : Fin 3) (rev : Bool), Fin.addCases (motive := fun _ => Fin 6) (m := 3) (n := 3) (fun j => Fin.castAdd 3 (listedCorner q rev j)) (fun j => Fin.natAdd 3 (listedMiddle q rev j)) = triangle2Order q rev := by
    decide
  exact key _ _

theorem triangle2_listed_param (q : Fin 3) (rev : Bool) (η : Fin 2 → K) :
    triangle2.worldCoordinates (fun j => triangle2.node (triangle2Order q rev j)) η = triangle2Listed q rev η := by
  funext a
  cases rev <;> fin_cases q <;> fin_cases a <;>
  · simp only [Elem.worldCoordinates, Elem.interpolate, sum_fin6, triangle2Listed, triangle2Order, triangle2, Matrix.cons_val, Fin.isValue, Fin.reduceFinMk, Fin.zero_eta, Fin.mk_one]
    try ring

theorem triangle2_listed {m : ℕ} (P : Fin 6 → Fin m → K) (k : ℕ) (rev : Bool) (η : Fin 2 → K) :
    triangle2.worldCoordinates (fun j => P (listed .triangle2 k rev j)) η =
      triangle2.worldCoordinates P (triangle2.worldCoordinates (fun j => triangle2.node (listed .triangle2 k rev j)) η) := by
  rw [triangle2_order, triangle2_listed_param]
  generalize Fin.ofNat 3 k = q
  funext a
  cases rev <;> fin_cases q <;>
  · simp only [Elem.worldCoordinates, Elem.interpolate, sum_fin6, triangle2Listed, triangle2Order, triangle2, Matrix.cons_val, Fin.isValue, Fin.reduceFinMk, Fin.zero_eta, Fin.mk_one]
    try ring

/-- Where the points of the canonical `quad1` are when its nodes are listed in another order. -/
def quad1Listed (q : Fin 4) (rev : Bool) (η : Fin 2 → K) : Fin 2 → K :=
  match rev with
  | false => (![![η 0, η 1], ![-η 1, η 0], ![-η 0, -η 1], ![η 1, -η 0]] : Fin 4 → Fin 2 → K) q
  | true => (![![η 1, η 0], ![-η 0, η 1], ![-η 1, -η 0], ![η 0, -η 1]] : Fin 4 → Fin 2 → K) q

/-- The orders of the nodes of `quad1`. -/
def quad1Order (q : Fin 4) (rev : Bool) : Fin 4 → Fin 4 :=
  match rev with
  | false => (![![0, 1, 2, 3], ![1, 2, 3, 0], ![2, 3, 0, 1], ![3, 0, 1, 2]] : Fin 4 → Fin 4 → Fin 4) q
  | true => (![![0, 3, 2, 1], ![1, 0, 3, 2], ![2, 1, 0, 3], ![3, 2, 1, 0]] : Fin 4 → Fin 4 → Fin 4) q

theorem quad1_order (k : ℕ) (rev : Bool) : listed .quad1 k rev = quad1Order (Fin.ofNat 4 k) rev := by
  have key : ∀ (q : Fin 4) (rev : Bool), listedCorner (r := 4) q rev = quad1Order q rev := by
    decide
  exact key _ _

theorem quad1_listed_param (q : Fin 4) (rev : Bool) (η : Fin 2 → K) :
    quad1.worldCoordinates (fun j => quad1.node (quad1Order q rev j)) η = quad1Listed q rev η := by
  funext a
  cases rev <;> fin_cases q <;> fin_cases a <;>
  · simp only [Elem.worldCoordinates, Elem.interpolate, sum_fin4, quad1Listed, quad1Order, quad1, Matrix.cons_val, Fin.isValue, Fin.reduceFinMk, Fin.zero_eta, Fin.mk_one]
    try ring

theorem quad1_listed {m : ℕ} (P : Fin 4 → Fin m → K) (k : ℕ) (rev : Bool) (η : Fin 2 → K) :
    quad1.worldCoordinates (fun j => P (listed .quad1 k rev j)) η =
      quad1.worldCoordinates P (quad1.worldCoordinates (fun j => quad1.node (listed .quad1 k rev j)) η) := by
  rw [quad1_order, quad1_listed_param]
  generalize Fin.ofNat 4 k = q
  funext a
  cases rev <;> fin_cases q <;>
  · simp only [Elem.worldCoordinates, Elem.interpolate, sum_fin4, quad1Listed, quad1Order, quad1, Matrix.cons_val, Fin.isValue, Fin.reduceFinMk, Fin.zero_eta, Fin.mk_one]
    try ring

/-- Where the points of the canonical `quad2` are when its nodes are listed in another order. -/
def quad2Listed (q : Fin 4) (rev : Bool) (η : Fin 2 → K) : Fin 2 → K :=
  match rev with
  | false => (![![η 0, η 1], ![-η 1, η 0], ![-η 0, -η 1], ![η 1, -η 0]] : Fin 4 → Fin 2 → K) q
  | true => (![![η 1, η 0], ![-η 0, η 1], ![-η 1, -η 0], ![η 0, -η 1]] : Fin 4 → Fin 2 → K) q

/-- The orders of the nodes of `quad2`. -/
def quad2Order (q : Fin 4) (rev : Bool) : Fin 8 → Fin 8 :=
  match rev with
  | false => (![![0, 1, 2, 3, 4, 5, 6, 7], ![1, 2, 3, 0, 5, 6, 7, 4], ![2, 3, 0, 1, 6, 7, 4, 5], ![3, 0, 1, 2, 7, 4, 5, 6]] : Fin 4 → Fin 8 → Fin 8) q
  | true => (![![0, 3, 2, 1, 7, 6, 5, 4], ![1, 0, 3, 2, 4, 7, 6, 5], ![2, 1, 0, 3, 5, 4, 7, 6], ![3, 2, 1, 0, 6, 5, 4, 7]] : Fin 4 → Fin 8 → Fin 8) q

theorem quad2_order (k : ℕ) (rev : Bool) : listed .quad2 k rev = quad2Order (Fin.ofNat 4 k) rev := by
  have key : ∀ (q : Fin 4) (rev : Bool), Fin.addCases (motive := fun _ => Fin 8) (m := 4) (n := 4) (fun j => Fin.castAdd 4 (listedCorner q rev j)) (fun j => Fin.natAdd 4 (listedMiddle q rev j)) = quad2Order q rev := by
    decide
  exact key _ _

theorem quad2_listed_param (q : Fin 4) (rev : Bool) (η : Fin 2 → K) :
    quad2.worldCoordinates (fun j => quad2.node (quad2Order q rev j)) η = quad2Listed q rev η := by
  funext a
  cases rev <;> fin_cases q <;> fin_cases a <;>
  · simp only [Elem.worldCoordinates, Elem.interpolate, sum_fin8, quad2Listed, quad2Order, quad2, Matrix.cons_val, Fin.isValue, Fin.reduceFinMk, Fin.zero_eta, Fin.mk_one]
    try ring

theorem quad2_listed {m : ℕ} (P : Fin 8 → Fin m → K) (k : ℕ) (rev : Bool) (η : Fin 2 → K) :
    quad2.worldCoordinates (fun j => P (listed .quad2 k rev j)) η =
      quad2.worldCoordinates P (quad2.worldCoordinates (fun j => quad2.node (listed .quad2 k rev j)) η) := by
  rw [quad2_order, quad2_listed_param]
  generalize Fin.ofNat 4 k = q
  funext a
  cases rev <;> fin_cases q <;>
  · simp only [Elem.worldCoordinates, Elem.interpolate, sum_fin8, quad2Listed, quad2Order, quad2, Matrix.cons_val, Fin.isValue, Fin.reduceFinMk, Fin.zero_eta, Fin.mk_one]
    try ring

end Caribou
