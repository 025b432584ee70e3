import Verif.Spec.VTK
import Mathlib.Data.Rat.Defs
import Mathlib.Algebra.Field.Rat
import Mathlib.Tactic.NormNum
import Mathlib.Tactic.Ring
import Mathlib.Tactic.FieldSimp
import Mathlib.Tactic.Linarith
import Mathlib.Tactic.FinCases
import Mathlib.Tactic.IntervalCases
import Mathlib.Algebra.Order.Ring.Rat
import Mathlib.Data.Set.Card
import Std.Data.String.ToNat

/-!
# C68, C69, C79: reading VTK files
-/

set_option autoImplicit false

namespace Caribou

open Spec

/-! ### C68 -/

section C68

variable {K : Type*} [Field K] [CharZero K]

/-- The columns of the reordered table. -/
def hexaSource : Fin 20 → Fin 20 := ![0, 1, 2, 3, 4, 5, 6, 7, 8, 9, 18, 11, 10, 14, 15, 12, 13, 16, 19, 17]

theorem vtkReorder_length (k : VTKKind) (ids : List ℕ) : (vtkReorder k ids).length = ids.length := by
  have h : ∀ (l : List (ℕ × ℕ)) (r : List ℕ), (l.foldl (vtkAssign ids) r).length = r.length := by
    intro l
    induction l with
    | nil => intro r; rfl
    | cons x l ih => intro r; rw [List.foldl_cons, ih]; simp [vtkAssign]
  cases k <;> simp only [vtkReorder, h]

theorem vtkReorder_hexa (ids : List ℕ) (h : ids.length = 20) (i : Fin 20) :
    (vtkReorder .quadraticHexahedron ids)[i.val]? = ids[(hexaSource i).val]? := by
  fin_cases i <;>
    simp [vtkReorder, vtkAssignments, vtkAssign, hexaSource, List.getElem?_set, h]

theorem vtk_table {d : ℕ} (f : (Fin d → K) → Fin d → K) {l l' : List (Fin d → K)}
    (h : List.Forall₂ (fun r x => f r = x) l l') : l.map f = l' := by
  induction h with
  | nil => rfl
  | cons h _ ih => rw [List.map_cons, ih, h]

omit [CharZero K] in
theorem scaled1 {a x : K} (h : 2 * a - 1 = x) : (fun c => 2 * ![a] c - 1) = ![x] := by
  funext c; fin_cases c; exact h

omit [CharZero K] in
theorem scaled2 {a b x y : K} (h : 2 * a - 1 = x) (h' : 2 * b - 1 = y) : (fun c => 2 * ![a, b] c - 1) = ![x, y] := by
  funext c; fin_cases c; exacts [h, h']

omit [CharZero K] in
theorem scaled3 {a b e x y z : K} (h : 2 * a - 1 = x) (h' : 2 * b - 1 = y) (h'' : 2 * e - 1 = z) :
    (fun c => 2 * ![a, b, e] c - 1) = ![x, y, z] := by
  funext c; fin_cases c; exacts [h, h', h'']

/-- The parametric coordinates of VTK are the canonical positions of the nodes, for every registered type. -/
theorem vtk_identity (D : ℕ) (k : VTKKind) (T : ElementType) (hT : vtkElement D k = some T) :
    ∃ h : T.dim = vtkDim k, (vtkParametric k).map (toReference (K := K) k) =
      List.ofFn fun i => fun c => (T.elem (K := K)).node i (Fin.cast h.symm c) := by
  cases k <;> simp only [vtkElement, Option.ite_none_right_eq_some, Option.some.injEq, reduceCtorEq] at hT
  all_goals
    first
      | obtain ⟨-, rfl⟩ := hT
      | subst hT
    refine ⟨rfl, ?_⟩
  · show List.map (fun (r : Fin 1 → K) c => 2 * r c - 1) (vtkParametric .line) =
      [![-1], ![1]]
    refine vtk_table _ ?_
    repeat' first | exact List.Forall₂.nil | refine List.Forall₂.cons (scaled1 ?_) ?_
    all_goals norm_num
  · show List.map (fun (r : Fin 1 → K) c => 2 * r c - 1) (vtkParametric .quadraticEdge) =
      [![-1], ![1], ![0]]
    refine vtk_table _ ?_
    repeat' first | exact List.Forall₂.nil | refine List.Forall₂.cons (scaled1 ?_) ?_
    all_goals norm_num
  · show List.map (fun (r : Fin 2 → K) c => 2 * r c - 1) (vtkParametric .quad) =
      [![-1, -1], ![1, -1], ![1, 1], ![-1, 1]]
    refine vtk_table _ ?_
    repeat' first | exact List.Forall₂.nil | refine List.Forall₂.cons (scaled2 ?_ ?_) ?_
    all_goals norm_num
  · show List.map (fun (r : Fin 2 → K) c => 2 * r c - 1) (vtkParametric .quadraticQuad) =
      [![-1, -1], ![1, -1], ![1, 1], ![-1, 1], ![0, -1], ![1, 0], ![0, 1], ![-1, 0]]
    refine vtk_table _ ?_
    repeat' first | exact List.Forall₂.nil | refine List.Forall₂.cons (scaled2 ?_ ?_) ?_
    all_goals norm_num
  · show List.map (fun r : Fin 2 → K => r) (vtkParametric .triangle) = [![0, 0], ![1, 0], ![0, 1]]
    exact List.map_id _
  · show List.map (fun r : Fin 2 → K => r) (vtkParametric .quadraticTriangle) = [![0, 0], ![1, 0], ![0, 1], ![1/2, 0], ![1/2, 1/2], ![0, 1/2]]
    exact List.map_id _
  · show List.map (fun r : Fin 3 → K => r) (vtkParametric .tetra) = [![0, 0, 0], ![1, 0, 0], ![0, 1, 0], ![0, 0, 1]]
    exact List.map_id _
  · show List.map (fun r : Fin 3 → K => r) (vtkParametric .quadraticTetra) = [![0, 0, 0], ![1, 0, 0], ![0, 1, 0], ![0, 0, 1],
      ![1/2, 0, 0], ![1/2, 1/2, 0], ![0, 1/2, 0], ![0, 0, 1/2], ![1/2, 0, 1/2], ![0, 1/2, 1/2]]
    exact List.map_id _
  · show List.map (fun (r : Fin 3 → K) c => 2 * r c - 1) (vtkParametric .hexahedron) =
      [![-1, -1, -1], ![1, -1, -1], ![1, 1, -1], ![-1, 1, -1],
      ![-1, -1, 1], ![1, -1, 1], ![1, 1, 1], ![-1, 1, 1]]
    refine vtk_table _ ?_
    repeat' first | exact List.Forall₂.nil | refine List.Forall₂.cons (scaled3 ?_ ?_ ?_) ?_
    all_goals norm_num
  · show List.map (fun (r : Fin 3 → K) c => 2 * r c - 1) (vtkParametric .quadraticHexahedron) =
      [![-1, -1, -1], ![1, -1, -1], ![1, 1, -1], ![-1, 1, -1],
      ![-1, -1, 1], ![1, -1, 1], ![1, 1, 1], ![-1, 1, 1],
      ![0, -1, -1], ![1, 0, -1], ![0, 1, -1], ![-1, 0, -1],
      ![0, -1, 1], ![1, 0, 1], ![0, 1, 1], ![-1, 0, 1],
      ![-1, -1, 0], ![1, -1, 0], ![1, 1, 0], ![-1, 1, 0]]
    refine vtk_table _ ?_
    repeat' first | exact List.Forall₂.nil | refine List.Forall₂.cons (scaled3 ?_ ?_ ?_) ?_
    all_goals norm_num

/-- C68 (partial): the i-th node of an element read from a VTK cell is placed at the i-th canonical position of the element
type: whenever the points of the cell are the images, by any map, of the parametric points of its VTK type, the nodes of the
element are the images of the canonical nodes.  This holds for every type but quadratic hexahedra, see `C68_hexahedron` and
`C68_violated`. -/
theorem C68_partial {X : Type*} (D : ℕ) (k : VTKKind) (T : ElementType) (hT : vtkElement D k = some T)
    (hk : k ≠ .quadraticHexahedron) (ids : List ℕ) (point : ℕ → X) (Φ : (Fin (vtkDim k) → K) → X)
    (hfile : ids.map point = (vtkPoints k).map Φ) :
    ∃ h : T.dim = vtkDim k, (vtkReorder k ids).map point =
      List.ofFn fun i => Φ fun c => (T.elem (K := K)).node i (Fin.cast h.symm c) := by
  obtain ⟨h, e⟩ := vtk_identity (K := K) D k T hT
  refine ⟨h, ?_⟩
  have hr : vtkReorder k ids = ids := by
    cases k <;> first | rfl | exact (hk rfl).elim
  rw [hr, hfile, vtkPoints, e, List.map_ofFn]
  rfl

example : vtkElement 3 .quadraticTetra = some .tetra2 ∧
    ([7, 3, 4, 5, 9, 10, 11, 12, 14, 13].map fun n : ℕ => (n : ℚ)) =
      (vtkPoints (K := ℚ) .quadraticTetra).map fun (x : Fin 3 → ℚ) =>
        let a := x 0; let b := x 1; let e := x 2; let l := 1 - a - b - e
        7 * l + 3 * a + 4 * b + 5 * e + 16 * a * l + 26 * a * b + 22 * b * l + 24 * e * l + 40 * a * e + 34 * b * e :=
  ⟨rfl, by decide +kernel⟩

omit [CharZero K] in
/-- The i-th node of a quadratic hexahedron is the point listed at the place `hexaSource i`. -/
theorem hexa_point {X : Type*} (ids : List ℕ) (point : ℕ → X) (pts : List X) (hn : pts.length = 20)
    (hfile : ids.map point = pts) (i : Fin 20) :
    ((vtkReorder .quadraticHexahedron ids).map point)[i.val]? = pts[(hexaSource i).val]? := by
  have hl : ids.length = 20 := by rw [← hn, ← hfile, List.length_map]
  rw [List.getElem?_map, vtkReorder_hexa ids hl, ← List.getElem?_map, hfile]

theorem vtk_hexa : (vtkPoints .quadraticHexahedron : List (Fin 3 → K)) = List.ofFn hexa2.node := by
  obtain ⟨_, e⟩ := vtk_identity (K := K) 3 .quadraticHexahedron .hexa2 rfl
  exact e

/-- C68 for quadratic hexahedra: with the order of the VTK documentation, node `i` is placed at its canonical position for
every cell if and only if it is one of the nodes 0 to 9 and 11. -/
theorem C68_hexahedron (i : Fin 20) :
    (∀ (X : Type) (ids : List ℕ) (point : ℕ → X) (Φ : (Fin 3 → ℚ) → X),
      ids.map point = List.map Φ (vtkPoints .quadraticHexahedron) →
      ((vtkReorder .quadraticHexahedron ids).map point)[i.val]? = some (Φ (hexa2.node i))) ↔
    i.val < 10 ∨ i.val = 11 := by
  have hread : ∀ (X : Type) (ids : List ℕ) (point : ℕ → X) (Φ : (Fin 3 → ℚ) → X),
      ids.map point = List.map Φ (vtkPoints .quadraticHexahedron) →
      ((vtkReorder .quadraticHexahedron ids).map point)[i.val]? = some (Φ (hexa2.node (hexaSource i))) := by
    intro X ids point Φ hf
    rw [vtk_hexa] at hf
    rw [hexa_point ids point _ (by simp) hf i, List.map_ofFn, List.getElem?_ofFn]
    simp
  have hiff : (hexa2 (K := ℚ)).node (hexaSource i) = hexa2.node i ↔ i.val < 10 ∨ i.val = 11 := by
    fin_cases i <;> decide +kernel
  constructor
  · intro h
    have hf : (List.range 20).map (fun n => ((List.ofFn (hexa2 (K := ℚ)).node)[n]?).getD 0) =
        List.map (fun x : Fin 3 → ℚ => x) (vtkPoints (K := ℚ) .quadraticHexahedron) := by
      rw [vtk_hexa]; decide +kernel
    have h1 := h _ _ _ _ hf
    rw [hread _ _ _ _ hf] at h1
    exact hiff.mp (Option.some.inj h1)
  · intro h X ids point Φ hf
    rw [hread X ids point Φ hf, hiff.mpr h]

/-- C68 violated: the straight quadratic hexahedron `[-1,1]³` written in the order of the VTK documentation is read with its
node 10 at the place of node 18. -/
theorem C68_violated : ∃ (ids : List ℕ) (point : ℕ → Fin 3 → ℚ),
    ids.map point = vtkPoints .quadraticHexahedron ∧
    ((vtkReorder .quadraticHexahedron ids).map point)[10]? = some (hexa2.node 18) ∧
    (hexa2 (K := ℚ)).node 18 ≠ hexa2.node 10 := by
  refine ⟨List.range 20, fun n => ((List.ofFn (hexa2 (K := ℚ)).node)[n]?).getD 0, ?_, ?_, ?_⟩
  · rw [vtk_hexa]; decide +kernel
  · decide +kernel
  · decide +kernel

/-- C68 for the quadratic hexahedra of the sample mesh of the unit tests: the order used by that file, which is not the one of
the VTK documentation, is the one that the reader converts correctly. -/
theorem C68_meshio {X : Type*} (ids : List ℕ) (point : ℕ → X) (Φ : (Fin 3 → K) → X)
    (hfile : ids.map point = meshioPoints.map Φ) :
    (vtkReorder .quadraticHexahedron ids).map point = List.ofFn fun i => Φ (hexa2.node i) := by
  have e : (meshioPoints : List (Fin 3 → K)) =
      [hexa2.node 0, hexa2.node 1, hexa2.node 2, hexa2.node 3, hexa2.node 4, hexa2.node 5, hexa2.node 6, hexa2.node 7,
       hexa2.node 8, hexa2.node 9, hexa2.node 12, hexa2.node 11, hexa2.node 15, hexa2.node 16, hexa2.node 13, hexa2.node 14,
       hexa2.node 17, hexa2.node 19, hexa2.node 10, hexa2.node 18] := by
    show _ = [![-1, -1, -1], ![1, -1, -1], ![1, 1, -1], ![-1, 1, -1],
      ![-1, -1, 1], ![1, -1, 1], ![1, 1, 1], ![-1, 1, 1],
      ![0, -1, -1], ![1, 0, -1], ![0, -1, 1], ![-1, 0, -1], ![-1, 0, 1], ![-1, -1, 0], ![1, 0, 1], ![0, 1, 1],
      ![1, -1, 0], ![-1, 1, 0], ![0, 1, -1], ![1, 1, 0]]
    refine vtk_table _ ?_
    repeat' first | exact List.Forall₂.nil | refine List.Forall₂.cons (scaled3 ?_ ?_ ?_) ?_
    all_goals norm_num
  rw [e] at hfile
  apply List.ext_getElem?
  intro n
  by_cases hn : n < 20
  · have := hexa_point ids point _ (by rfl) hfile ⟨n, hn⟩
    rw [this, List.getElem?_ofFn, dif_pos hn]
    interval_cases n <;> rfl
  · have hl : ids.length = 20 := by
      have := congrArg List.length hfile
      simpa using this
    rw [List.getElem?_eq_none (by rw [List.length_map, vtkReorder_length]; omega),
      List.getElem?_eq_none (by rw [List.length_ofFn]; omega)]

example : (List.range 20).map (fun n => ((meshioPoints (K := ℚ))[n]?).getD 0) = meshioPoints.map id := by
  decide +kernel

end C68

/-! ### C69 -/

section C69

variable {K : Type*} [DecidableEq K]

theorem same_fold (p : Fin 3 → K) (axis : Fin 3) : ∀ (rest : List (Fin 3 → K)) (s : Fin 3 → Bool),
    (rest.foldl (sameStep p) s) axis = true ↔ s axis = true ∧ ∀ v ∈ rest, v axis = p axis
  | [], s => by simp
  | v :: rest, s => by
    rw [List.foldl_cons, same_fold p axis rest]
    simp only [sameStep, List.mem_cons, forall_eq_or_imp]
    by_cases h : p axis = v axis
    · simp [h]
    · simp [h, Ne.symm h]

theorem same_iff (p : Fin 3 → K) (rest : List (Fin 3 → K)) (axis : Fin 3) :
    (rest.foldl (sameStep p) (fun _ => true)) axis = false ↔ Varies (p :: rest) axis := by
  rw [← Bool.not_eq_true, same_fold]
  constructor
  · intro h
    simp only [true_and, not_forall] at h
    obtain ⟨v, hv, hne⟩ := h
    exact ⟨v, List.mem_cons_of_mem _ hv, p, List.mem_cons_self, hne⟩
  · rintro ⟨a, ha, b, hb, hne⟩ ⟨-, h⟩
    have : ∀ v ∈ p :: rest, v axis = p axis := by
      intro v hv
      rcases List.mem_cons.mp hv with rfl | hv
      · rfl
      · exact h v hv
    exact hne ((this a ha).trans (this b hb).symm)

/-- C69: for a non-empty point set, reading into a mesh of dimension 1 or 2 succeeds if and only if the number of axes along
which the coordinates vary is the dimension, and throws otherwise; the axes retained are those, in increasing order; two points
of the file which agree on the retained axes are the same, so no information is lost. -/
theorem C69 (D : ℕ) (hD : D ≠ 3) (points : List (Fin 3 → K)) (hp : points ≠ []) :
    ((∃ axes, extractAxes D points = .ok axes) ↔ {axis | Varies points axis}.ncard = D) ∧
    ((∀ axes, extractAxes D points ≠ .ok axes) → extractAxes D points = .throws []) ∧
    ∀ axes, extractAxes D points = .ok axes →
      axes.length = D ∧ axes.Pairwise (· < ·) ∧ (∀ a, a ∈ axes ↔ Varies points a) ∧
      ∀ p ∈ points, ∀ q ∈ points, (importNode D axes p = importNode D axes q ↔ p = q) := by
  obtain ⟨p, rest, rfl⟩ := List.exists_cons_of_ne_nil hp
  set same := rest.foldl (sameStep p) (fun _ => true) with hsame
  have hmem : ∀ a, a ∈ varyingAxes same ↔ Varies (p :: rest) a := by
    intro a
    rw [← same_iff, ← hsame, varyingAxes, List.mem_filter]
    have : a ∈ ([0, 1, 2] : List (Fin 3)) := by fin_cases a <;> simp
    simp [this]
  have hsorted : (varyingAxes same).Pairwise (· < ·) :=
    List.Pairwise.filter _ (by decide)
  have hcard : {axis | Varies (p :: rest) axis}.ncard = (varyingAxes same).length := by
    have : {axis | Varies (p :: rest) axis} = ((varyingAxes same).toFinset : Set (Fin 3)) := by
      ext a
      simp [hmem]
    rw [this, Set.ncard_coe_finset, List.toFinset_card_of_nodup (hsorted.imp fun h => ne_of_lt h)]
  have hval : extractAxes D (p :: rest) =
      if (varyingAxes same).length ≠ D then .throws [] else .ok (varyingAxes same) := by
    simp only [extractAxes, if_neg hD, ← hsame]
  rw [hcard, hval]
  by_cases hl : (varyingAxes same).length = D
  · rw [if_neg (not_not.mpr hl)]
    refine ⟨by simp [hl], fun h => (h _ rfl).elim, ?_⟩
    rintro axes h
    cases h
    refine ⟨hl, hsorted, hmem, fun u hu v hv => ⟨fun h => ?_, fun h => by rw [h]⟩⟩
    funext a
    by_cases ha : Varies (p :: rest) a
    · obtain ⟨n, hn, hna⟩ := List.mem_iff_getElem.mp ((hmem a).mpr ha)
      have := congrFun h ⟨n, by omega⟩
      simp only [importNode, List.getD_eq_getElem?_getD, List.getElem?_eq_getElem hn, Option.getD_some, hna] at this
      exact this
    · by_contra hne
      exact ha ⟨u, hu, v, hv, hne⟩
  · rw [if_pos hl]
    refine ⟨⟨?_, fun h => (hl h).elim⟩, fun _ => rfl, ?_⟩
    · rintro ⟨_, h⟩; cases h
    · intro _ h; cases h

/-- C69: a mesh of dimension 3 keeps the three coordinates. -/
theorem C69_3d (points : List (Fin 3 → K)) :
    extractAxes 3 points = .ok [0, 1, 2] ∧ ∀ v : Fin 3 → K, importNode 3 [0, 1, 2] v = v := by
  refine ⟨rfl, fun v => funext fun a => ?_⟩
  fin_cases a <;> rfl

/-- C69, the excluded case: in dimension 1 or 2 the first point of an empty set is read. -/
theorem C69_empty (D : ℕ) (hD : D ≠ 3) : extractAxes D ([] : List (Fin 3 → K)) = .undefined := by
  simp only [extractAxes, if_neg hD]

example : (2 : ℕ) ≠ 3 ∧ ([![0, 5, 0], ![1, 5, 0], ![0, 5, 2]] : List (Fin 3 → ℚ)) ≠ [] ∧
    extractAxes 2 ([![0, 5, 0], ![1, 5, 0], ![0, 5, 2]] : List (Fin 3 → ℚ)) = .ok [0, 2] := by
  refine ⟨by decide, by simp, ?_⟩
  have h : varyingAxes (List.foldl (sameStep (![0, 5, 0] : Fin 3 → ℚ)) (fun _ => true) [![1, 5, 0], ![0, 5, 2]]) = [0, 2] := by
    decide +kernel
  simp only [extractAxes, h]
  simp

end C69

/-! ### C79 -/

section C79

variable {K : Type*} [DecidableEq K]

theorem importType_names (g : VTKGrid K) (D : ℕ) (ds : List ImportedDomain) (k : VTKKind)
    (h : ds.map (·.name) = (List.range ds.length).map fun n => "domain_" ++ toString (n + 1)) :
    (importType g D ds k).map (·.name) =
      (List.range (importType g D ds k).length).map fun n => "domain_" ++ toString (n + 1) := by
  unfold importType
  by_cases he : (cellsOfKind g k).isEmpty = true
  · simp only [he, if_true]; exact h
  · simp only [he]
    cases hv : vtkElement D k with
    | none => exact h
    | some T =>
      simp only [Bool.false_eq_true, if_false, List.map_append, List.map_cons, List.map_nil, List.length_append, List.length_cons,
        List.length_nil, List.range_succ, h]

theorem import_tables (g : VTKGrid K) (D : ℕ) : ∀ (ks : List VTKKind) (ds : List ImportedDomain),
    (ks.foldl (importType g D) ds).map (fun d => (d.element, d.table)) =
      ds.map (fun d => (d.element, d.table)) ++ ks.filterMap fun k =>
        if (cellsOfKind g k).isEmpty then none
        else (vtkElement D k).map fun T => (T, (cellsOfKind g k).map (vtkReorder k))
  | [], ds => by simp
  | k :: ks, ds => by
    rw [List.foldl_cons, import_tables g D ks]
    by_cases he : (cellsOfKind g k).isEmpty = true
    · simp only [importType, he, if_true, List.filterMap_cons]
    · cases hv : vtkElement D k with
      | none => simp only [importType, he, hv, List.filterMap_cons]; simp
      | some T => simp only [importType, he, hv, List.filterMap_cons]; simp

theorem import_names (g : VTKGrid K) (D : ℕ) : ∀ (ks : List VTKKind) (ds : List ImportedDomain),
    (ds.map (·.name) = (List.range ds.length).map fun n => "domain_" ++ toString (n + 1)) →
    (ks.foldl (importType g D) ds).map (·.name) =
      (List.range (ks.foldl (importType g D) ds).length).map fun n => "domain_" ++ toString (n + 1)
  | [], _, h => h
  | k :: ks, ds, h => import_names g D ks _ (importType_names g D ds k h)

theorem domain_name_injective : Function.Injective fun n : ℕ => "domain_" ++ toString (n + 1) := by
  intro a b h
  have h1 : toString (a + 1) = toString (b + 1) := by
    have := congrArg String.toList h
    simp only [String.toList_append, List.append_cancel_left_eq] at this
    exact String.toList_inj.mp this
  have := Nat.repr_injective h1
  omega

theorem vtkElement_injective (D : ℕ) (k k' : VTKKind) (T : ElementType) (h : vtkElement D k = some T)
    (h' : vtkElement D k' = some T) : k = k' := by
  cases k <;> cases k' <;>
    simp only [vtkElement, Option.ite_none_right_eq_some, Option.some.injEq, reduceCtorEq] at h h' ⊢ <;>
    first
      | (exfalso; obtain ⟨-, rfl⟩ := h; obtain ⟨-, h'⟩ := h'; exact absurd h' (by decide))
      | (exfalso; subst h; obtain ⟨-, h'⟩ := h'; exact absurd h' (by decide))
      | (exfalso; subst h'; obtain ⟨-, h⟩ := h; exact absurd h (by decide))
      | (exfalso; subst h; exact absurd h' (by decide))

/-- C79: when the axes can be extracted and the file has points, reading gives a mesh whose nodes are the points of the file in
order (coordinate `a` of a node is the coordinate of the point along axis `a` of the retained ones), and whose domains have distinct names; every supported cell type of the file gives exactly one domain, of the element
class of that type, and this domain lists the cells of that type in the order of the file; no other domain is created. -/
theorem C79 (D : ℕ) (g : VTKGrid K) (hnodup : g.types.Nodup) (htypes : ∀ k, k ∈ g.types ↔ ∃ c ∈ g.cells, c.kind = k)
    (hp : g.points ≠ []) (axes : List (Fin 3)) (haxes : extractAxes D g.points = .ok axes) :
    ∃ m, readMesh D g = .ok m ∧
      m.nodes.length = g.points.length ∧
      (∀ (i : ℕ) (p : Fin 3 → K), g.points[i]? = some p → ∃ x, m.nodes[i]? = some x ∧
        ∀ (a : Fin D) (b : Fin 3), axes[a.val]? = some b → x a = p b) ∧
      (m.domains.map (·.name)).Nodup ∧ (m.domains.map (·.element)).Nodup ∧
      (∀ k T, vtkElement D k = some T → (∃ c ∈ g.cells, c.kind = k) → ∃ d ∈ m.domains, d.element = T ∧
        d.table = g.cells.filterMap fun c => if c.kind = k then some (vtkReorder k c.ids) else none) ∧
      ∀ d ∈ m.domains, ∃ k, vtkElement D k = some d.element ∧ (∃ c ∈ g.cells, c.kind = k) ∧
        d.table = g.cells.filterMap fun c => if c.kind = k then some (vtkReorder k c.ids) else none := by
  have htab := import_tables g D g.types []
  simp only [List.map_nil, List.nil_append] at htab
  have hne : ∀ k, (∃ c ∈ g.cells, c.kind = k) → ¬ (cellsOfKind g k).isEmpty = true := by
    rintro k ⟨c, hc, hk⟩ h
    simp only [cellsOfKind, List.isEmpty_iff, List.map_eq_nil_iff, List.filter_eq_nil_iff, decide_eq_true_eq] at h
    exact h c hc hk
  have hcells : ∀ k, (cellsOfKind g k).map (vtkReorder k) =
      g.cells.filterMap fun c => if c.kind = k then some (vtkReorder k c.ids) else none := by
    intro k
    unfold cellsOfKind
    induction g.cells with
    | nil => rfl
    | cons c l ih =>
      by_cases h : c.kind = k
      · rw [List.filter_cons_of_pos (by simpa using h), List.map_cons, List.map_cons, ih, List.filterMap_cons, if_pos h]
      · rw [List.filter_cons_of_neg (by simpa using h), ih, List.filterMap_cons, if_neg h]
  refine ⟨⟨g.points.map (importNode D axes), g.types.foldl (importType g D) []⟩, ?_, List.length_map _, ?_, ?_, ?_, ?_, ?_⟩
  · have : ¬ g.points.isEmpty = true := by simpa [List.isEmpty_iff] using hp
    simp only [readMesh, haxes, if_neg this]
  · intro i p hi
    refine ⟨importNode D axes p, by rw [List.getElem?_map, hi]; rfl, fun a b hb => ?_⟩
    rw [importNode, List.getD_eq_getElem?_getD, hb]
    rfl
  · rw [import_names g D g.types [] (by simp)]
    exact List.Nodup.map domain_name_injective List.nodup_range
  · have : (g.types.foldl (importType g D) []).map (·.element) = g.types.filterMap fun k =>
        if (cellsOfKind g k).isEmpty then none else vtkElement D k := by
      have h := congrArg (List.map Prod.fst) htab
      rw [List.map_map, List.map_filterMap] at h
      refine h.trans ?_
      congr 1
      funext k
      by_cases he : (cellsOfKind g k).isEmpty = true
      · simp [he]
      · cases hv : vtkElement D k <;> simp [he]
    rw [this]
    refine List.Nodup.filterMap ?_ hnodup
    intro k k' T hk hk'
    by_cases he : (cellsOfKind g k).isEmpty = true
    · simp [he] at hk
    · by_cases he' : (cellsOfKind g k').isEmpty = true
      · simp [he'] at hk'
      · rw [if_neg he] at hk
        rw [if_neg he'] at hk'
        exact vtkElement_injective D k k' T hk hk'
  · intro k T hT hk
    have hmem : (T, (cellsOfKind g k).map (vtkReorder k)) ∈
        (g.types.foldl (importType g D) []).map (fun d => (d.element, d.table)) := by
      rw [htab, List.mem_filterMap]
      exact ⟨k, (htypes k).mpr hk, by rw [if_neg (hne k hk), hT]; rfl⟩
    obtain ⟨d, hd, e⟩ := List.mem_map.mp hmem
    simp only [Prod.mk.injEq] at e
    exact ⟨d, hd, e.1, by rw [e.2, hcells]⟩
  · intro d hd
    have hmem : (d.element, d.table) ∈ (g.types.foldl (importType g D) []).map (fun d => (d.element, d.table)) :=
      List.mem_map_of_mem hd
    rw [htab, List.mem_filterMap] at hmem
    obtain ⟨k, hk, e⟩ := hmem
    rw [if_neg (hne k ((htypes k).mp hk))] at e
    cases hv : vtkElement D k with
    | none => simp [hv] at e
    | some T =>
      simp only [hv, Option.map_some, Option.some.injEq, Prod.mk.injEq] at e
      exact ⟨k, by rw [hv, e.1], (htypes k).mp hk, by rw [← e.2, hcells]⟩

/-- Two triangles, one segment, one vertex (not supported) in the plane `y = 0`. -/
def sampleFile : VTKGrid ℚ where
  points := [![0, 0, 0], ![1, 0, 0], ![0, 0, 1], ![1, 0, 1]]
  cells := [⟨.triangle, [0, 1, 2]⟩, ⟨.line, [0, 1]⟩, ⟨.other 1, [3]⟩, ⟨.triangle, [1, 3, 2]⟩]
  types := [.triangle, .line, .other 1]

example : sampleFile.types.Nodup ∧ (∀ k, k ∈ sampleFile.types ↔ ∃ c ∈ sampleFile.cells, c.kind = k) ∧
    sampleFile.points ≠ [] ∧ extractAxes 2 sampleFile.points = .ok [0, 2] := by
  refine ⟨by decide, ?_, by simp [sampleFile], ?_⟩
  · intro k
    simp only [sampleFile, List.mem_cons, List.not_mem_nil, or_false, exists_eq_or_imp, exists_eq_left]
    constructor
    · rintro (rfl | rfl | rfl) <;> simp
    · rintro (rfl | rfl | rfl | rfl) <;> simp
  · have h : varyingAxes (List.foldl (sameStep (![0, 0, 0] : Fin 3 → ℚ)) (fun _ => true)
        [![1, 0, 0], ![0, 0, 1], ![1, 0, 1]]) = [0, 2] := by decide +kernel
    simp only [sampleFile, extractAxes, h]
    simp

end C79

end Caribou
