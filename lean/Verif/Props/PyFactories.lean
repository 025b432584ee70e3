import Verif.Lemmas.PyFactories
import Verif.Props.Shape
import Verif.Props.Rectangular

/-!
# Elements made from Python (C113)
-/

set_option autoImplicit false

namespace Caribou

open Spec

private theorem dims_cases {f : PyFactory} {m : ℕ} (hm : m ∈ factoryDims f) (h2 : 2 ≤ m) : m = 2 ∨ m = 3 := by
  cases f <;> simp [factoryDims] at hm <;> omega

/-- **C113**, tables of nodes: an array with one row per node and one column per coordinate makes the element of this order and
dimension with these nodes. -/
theorem C113_table (f : PyFactory) (hf : f ≠ .rectangularHexahedron) (o : Order) (m : ℕ) (hm : m ∈ factoryDims f) (h2 : 2 ≤ m)
    (rows : List (List ℝ)) (hr : rows.length = (factoryType f o).numNodes) :
    f.call [.matrix m rows] = some (.iso (factoryType f o) m rows) := by
  rcases dims_cases hm h2 with rfl | rfl <;> cases f <;> cases o
  all_goals first
    | exact absurd rfl hf
    | (simp [factoryDims] at hm; done)
    | (simp only [factoryType, ElementType.numNodes] at hr
       simp [PyFactory.call, PyFactory.overloads, segmentOverloads, triangleOverloads, quadOverloads, tetraOverloads, hexaOverloads,
         surfaceDefaults, solidDefaults, dispatch, bindArgs, PyParam.convert, hr, ofNodes, triangleOfOrder, quadOfOrder, tetraOfOrder,
         hexaOfOrder, argRows, argOrder, factoryType, List.replicate])

example : PyFactory.quad.call [.matrix 2 [[0, 0], [1, 0], [1, 1], [0, 1]]] = some (.iso .quad1 2 [[0, 0], [1, 0], [1, 1], [0, 1]]) :=
  C113_table .quad (by decide) .linear 2 (by decide) le_rfl _ rfl

private theorem segment_points (o : Order) (m : ℕ) (h2 : 2 ≤ m) (points : List (List ℝ))
    (hr : points.length = (factoryType .segment o).numNodes) (hp : ∀ p ∈ points, p.length = m) (hm : m = 2 ∨ m = 3) :
    PyFactory.segment.call (points.map .vector) = some (.iso (factoryType .segment o) m points) := by
  rcases points with _ | ⟨a, _ | ⟨b, _ | ⟨c, _ | ⟨d, l⟩⟩⟩⟩ <;> cases o <;> simp [factoryType, ElementType.numNodes] at hr hp ⊢ <;>
    rcases hm with rfl | rfl <;>
    simp [PyFactory.call, PyFactory.overloads, segmentOverloads, dispatch, bindArgs, PyParam.convert, hp, ofNodes, argRows]

/-- **C113**, points: one array per node makes the element of this order and dimension with these nodes. -/
theorem C113_points (f : PyFactory) (hf : f ≠ .rectangularHexahedron) (o : Order) (m : ℕ) (hm : m ∈ factoryDims f) (h2 : 2 ≤ m)
    (points : List (List ℝ)) (hr : points.length = (factoryType f o).numNodes) (hp : ∀ p ∈ points, p.length = m) :
    f.call (points.map .vector) = some (.iso (factoryType f o) m points) := by
  obtain ⟨v, vs, rfl⟩ : ∃ v vs, points = v :: vs := by
    cases points with
    | nil => exfalso; cases f <;> cases o <;> simp [factoryType, ElementType.numNodes] at hr
    | cons v vs => exact ⟨v, vs, rfl⟩
  have hv : v.length = m := hp v List.mem_cons_self
  have hw'' : argRows (vs.map .vector) = vs := by simpa [argRows] using argRows_points vs []
  have b1 := fun k e => bind_points k e (v :: vs)
  have b2 := fun k e => bind_points_default k e (v :: vs)
  have hall : ∀ e, (∀ p ∈ v :: vs, p.length = e) ↔ m = e := fun e => by
    constructor
    · intro h; rw [← hv]; exact h v List.mem_cons_self
    · rintro rfl; exact hp
  simp only [hall, hr] at b1 b2
  simp only [List.map_cons] at b1 b2
  rcases dims_cases hm h2 with rfl | rfl <;> cases f <;> cases o
  all_goals first
    | exact absurd rfl hf
    | (simp [factoryDims] at hm; done)
    | exact segment_points _ _ h2 (v :: vs) hr hp (by omega)
    | (simp only [factoryType, ElementType.numNodes] at b1 b2
       simp only [PyFactory.call, PyFactory.overloads, segmentOverloads, triangleOverloads, quadOverloads, tetraOverloads, hexaOverloads,
         surfaceDefaults, solidDefaults, dispatch, List.cons_append, List.nil_append, List.map_cons]
       simp only [b1, b2]
       simp [bindArgs, PyParam.convert, ofNodes, triangleOfOrder, quadOfOrder, tetraOfOrder, hexaOfOrder, factoryType, argOrder_points,
         argRows_points, argRows, argOrder, hw''])

example : PyFactory.segment.call [.vector [0, 1], .vector [2, 3], .vector [1, 2]] = some (.iso .segment2 2 [[0, 1], [2, 3], [1, 2]]) :=
  C113_points .segment (by decide) .quadratic 2 (by decide) le_rfl [[0, 1], [2, 3], [1, 2]] rfl (by simp)

/-- **C113**, segments on a line: an array of numbers, a column, or the numbers themselves are the nodes. -/
theorem C113_line (o : Order) (xs : List ℝ) (hx : xs.length = (factoryType .segment o).numNodes) :
    PyFactory.segment.call [.vector xs] = some (.iso (factoryType .segment o) 1 (xs.map fun x => [x])) ∧
    PyFactory.segment.call [.matrix 1 (xs.map fun x => [x])] = some (.iso (factoryType .segment o) 1 (xs.map fun x => [x])) ∧
    PyFactory.segment.call (xs.map .number) = some (.iso (factoryType .segment o) 1 (xs.map fun x => [x])) := by
  rcases xs with _ | ⟨a, _ | ⟨b, _ | ⟨c, _ | ⟨d, l⟩⟩⟩⟩ <;> cases o <;> simp [factoryType, ElementType.numNodes] at hx ⊢ <;>
    simp [PyFactory.call, PyFactory.overloads, segmentOverloads, dispatch, bindArgs, PyParam.convert, argNumbers]

example : PyFactory.segment.call [.number 3, .number 5] = some (.iso .segment1 1 [[3], [5]]) :=
  (C113_line .linear [3, 5] rfl).2.2

private theorem order_table (f : PyFactory) (hf : f = .triangle ∨ f = .quad ∨ f = .tetrahedron ∨ f = .hexahedron) (m : ℕ)
    (hm : m ∈ factoryDims f) (rows : List (List ℝ)) (hr : rows.length = (factoryType f .linear).numNodes) (o : Order) :
    f.call [.matrix m rows, .order o] = some (match f with
      | .triangle => triangleOfOrder m [.matrix m rows, .order o]
      | .quad => quadOfOrder m [.matrix m rows, .order o]
      | .tetrahedron => tetraOfOrder [.matrix m rows, .order o]
      | _ => hexaOfOrder [.matrix m rows, .order o]) := by
  have h2 : 2 ≤ m := by
    rcases hf with rfl | rfl | rfl | rfl <;> simp [factoryDims] at hm <;> omega
  rcases dims_cases hm h2 with rfl | rfl <;> rcases hf with rfl | rfl | rfl | rfl
  all_goals first
    | (simp [factoryDims] at hm; done)
    | (simp only [factoryType, ElementType.numNodes] at hr
       simp [PyFactory.call, PyFactory.overloads, segmentOverloads, triangleOverloads, quadOverloads, tetraOverloads, hexaOverloads,
         surfaceDefaults, solidDefaults, dispatch, bindArgs, PyParam.convert, hr, List.replicate])

private theorem order_points (f : PyFactory) (hf : f = .triangle ∨ f = .quad ∨ f = .tetrahedron ∨ f = .hexahedron) (m : ℕ)
    (hm : m ∈ factoryDims f) (points : List (List ℝ)) (hr : points.length = (factoryType f .linear).numNodes)
    (hp : ∀ p ∈ points, p.length = m) (o : Order) :
    f.call (points.map .vector ++ [.order o]) = f.call [.matrix m points, .order o] := by
  rw [order_table f hf m hm points hr o]
  obtain ⟨v, vs, rfl⟩ : ∃ v vs, points = v :: vs := by
    cases points with
    | nil => exfalso; rcases hf with rfl | rfl | rfl | rfl <;> simp [factoryType, ElementType.numNodes] at hr
    | cons v vs => exact ⟨v, vs, rfl⟩
  have hv : v.length = m := hp v List.mem_cons_self
  have b1 := fun k e => bind_points_none k e (v :: vs) o
  have b2 := fun k e => bind_points_order k e (v :: vs) o
  have hall : ∀ e, (∀ p ∈ v :: vs, p.length = e) ↔ m = e := fun e => by
    constructor
    · intro h; rw [← hv]; exact h v List.mem_cons_self
    · rintro rfl; exact hp
  simp only [hall, hr] at b2
  simp only [List.map_cons, List.cons_append] at b1 b2
  have h2 : 2 ≤ m := by
    rcases hf with rfl | rfl | rfl | rfl <;> simp [factoryDims] at hm <;> omega
  rcases dims_cases hm h2 with rfl | rfl <;> rcases hf with rfl | rfl | rfl | rfl
  all_goals first
    | (simp [factoryDims] at hm; done)
    | (simp only [factoryType, ElementType.numNodes] at b2
       simp only [PyFactory.call, PyFactory.overloads, segmentOverloads, triangleOverloads, quadOverloads, tetraOverloads, hexaOverloads,
         surfaceDefaults, solidDefaults, dispatch, List.cons_append, List.nil_append, List.map_cons]
       simp only [b1, b2]
       simp [bindArgs, PyParam.convert, triangleOfOrder, quadOfOrder, tetraOfOrder, hexaOfOrder, argOrder_points, argRows_points, argRows,
         argOrder])

/-- **C113**, the order: linear nodes with the linear order make the linear element of these nodes; with the quadratic order they make the
quadratic element which is the same map. -/
theorem C113_order (f : PyFactory) (hf : f = .triangle ∨ f = .quad ∨ f = .tetrahedron ∨ f = .hexahedron) (m : ℕ)
    (hm : m ∈ factoryDims f) (rows : List (List ℝ)) (hr : rows.length = (factoryType f .linear).numNodes)
    (hp : ∀ p ∈ rows, p.length = m) (args : PyArg → List PyArg)
    (ha : (∀ o, args o = [.matrix m rows, o]) ∨ ∀ o, args o = rows.map .vector ++ [o]) :
    f.call (args (.order .linear)) = some (.iso (factoryType f .linear) m rows) ∧
    ∃ e, f.call (args (.order .quadratic)) = some e ∧ madeType e = factoryType f .quadratic ∧ madeDim e = m ∧
      ∀ ξ, ∀ a < m, madeWorld e ξ a = interpolated (factoryType f .linear) rows ξ a := by
  have key : ∀ o, f.call (args (.order o)) = f.call [.matrix m rows, .order o] := by
    intro o
    rcases ha with ha | ha
    · rw [ha]
    · rw [ha]; exact order_points f hf m hm rows hr hp o
  rw [key, key, order_table f hf m hm rows hr, order_table f hf m hm rows hr]
  rcases hf with rfl | rfl | rfl | rfl
  · refine ⟨by simp [triangleOfOrder, argOrder, argRows, factoryType], _, rfl, rfl, rfl, fun ξ a ha' => ?_⟩
    have h := congrFun (C08_triangle_from_linear (rowsFn 3 m rows) fun j => ξ j) ⟨a, ha'⟩
    simp only [Elem.worldCoordinates, Elem.interpolate] at h
    simp only [triangleOfOrder, argOrder, argRows, madeWorld, List.append_nil, interpolated, factoryType]
    refine Eq.trans (Finset.sum_congr rfl fun i _ => ?_) h
    exact congrArg (· * _) (fnRows_getD _ i (⟨a, ha'⟩ : Fin m))
  · refine ⟨by simp [quadOfOrder, argOrder, argRows, factoryType], _, rfl, rfl, rfl, fun ξ a ha' => ?_⟩
    have h := congrFun (C08_quad_from_linear (rowsFn 4 m rows) fun j => ξ j) ⟨a, ha'⟩
    simp only [Elem.worldCoordinates, Elem.interpolate] at h
    simp only [quadOfOrder, argOrder, argRows, madeWorld, List.append_nil, interpolated, factoryType]
    refine Eq.trans (Finset.sum_congr rfl fun i _ => ?_) h
    exact congrArg (· * _) (fnRows_getD _ i (⟨a, ha'⟩ : Fin m))
  · have hm3 : m = 3 := by simpa [factoryDims] using hm
    subst hm3
    refine ⟨by simp [tetraOfOrder, argOrder, argRows, factoryType], _, rfl, rfl, rfl, fun ξ a ha' => ?_⟩
    have h := congrFun (C08_tetra_from_linear (rowsFn 4 3 rows) fun j => ξ j) ⟨a, ha'⟩
    simp only [Elem.worldCoordinates, Elem.interpolate] at h
    simp only [tetraOfOrder, argOrder, argRows, madeWorld, List.append_nil, interpolated, factoryType]
    refine Eq.trans (Finset.sum_congr rfl fun i _ => ?_) h
    exact congrArg (· * _) (fnRows_getD _ i (⟨a, ha'⟩ : Fin 3))
  · have hm3 : m = 3 := by simpa [factoryDims] using hm
    subst hm3
    refine ⟨by simp [hexaOfOrder, argOrder, argRows, factoryType], _, rfl, rfl, rfl, fun ξ a ha' => ?_⟩
    have h := congrFun (C08_hexa_from_linear (rowsFn 8 3 rows) fun j => ξ j) ⟨a, ha'⟩
    simp only [Elem.worldCoordinates, Elem.interpolate] at h
    simp only [hexaOfOrder, argOrder, argRows, madeWorld, List.append_nil, interpolated, factoryType]
    refine Eq.trans (Finset.sum_congr rfl fun i _ => ?_) h
    exact congrArg (· * _) (fnRows_getD _ i (⟨a, ha'⟩ : Fin 3))

example : ∃ e, PyFactory.triangle.call [.vector [0, 0, 1], .vector [2, 0, 1], .vector [0, 3, 1], .order .quadratic] = some e ∧
    madeType e = .triangle2 ∧ madeDim e = 3 := by
  obtain ⟨-, e, h1, h2, h3, -⟩ := C113_order .triangle (Or.inl rfl) 3 (by decide) [[0, 0, 1], [2, 0, 1], [0, 3, 1]] rfl (by simp)
    (fun o => [.vector [0, 0, 1], .vector [2, 0, 1], .vector [0, 3, 1], o]) (Or.inr fun _ => rfl)
  exact ⟨e, h1, h2, h3⟩

/-- **C113**, tables which are refused: an array which has not the number of rows and columns of the nodes of an element of this name raises
an exception. -/
theorem C113_table_refused (f : PyFactory) (m : ℕ) (h2 : 2 ≤ m) (rows : List (List ℝ))
    (h : ¬ (m ∈ factoryDims f ∧ ∃ o, rows.length = (factoryType f o).numNodes)) : f.call [.matrix m rows] = none := by
  have hne : m ≠ 1 := by omega
  have h' : ∀ o, m ∈ factoryDims f → rows.length ≠ (factoryType f o).numNodes := fun o hm hr => h ⟨hm, o, hr⟩
  have hl := h' .linear
  have hq := h' .quadratic
  cases f <;> simp only [factoryDims, factoryType, ElementType.numNodes, List.mem_cons, List.not_mem_nil, or_false] at hl hq
  all_goals
    by_cases m2 : m = 2
    · subst m2
      simp at hl hq
      simp [PyFactory.call, PyFactory.overloads, segmentOverloads, triangleOverloads, quadOverloads, tetraOverloads, hexaOverloads,
        surfaceDefaults, solidDefaults, rectOverloads, dispatch, bindArgs, PyParam.convert, hl, hq, List.replicate]
    · by_cases m3 : m = 3
      · subst m3
        simp at hl hq
        simp [PyFactory.call, PyFactory.overloads, segmentOverloads, triangleOverloads, quadOverloads, tetraOverloads, hexaOverloads,
          surfaceDefaults, solidDefaults, rectOverloads, dispatch, bindArgs, PyParam.convert, hl, hq, List.replicate]
      · simp [PyFactory.call, PyFactory.overloads, segmentOverloads, triangleOverloads, quadOverloads, tetraOverloads, hexaOverloads,
          surfaceDefaults, solidDefaults, rectOverloads, dispatch, bindArgs, PyParam.convert, m2, m3, hne, List.replicate]

example : PyFactory.triangle.call [.matrix 2 [[0, 0], [1, 0], [1, 1], [0, 1]]] = none :=
  C113_table_refused .triangle 2 le_rfl _ (by rintro ⟨-, o, h⟩; cases o <;> simp [factoryType, ElementType.numNodes] at h)

/-- **C113**, points which are refused: arrays of two entries or more which are not the nodes, of one dimension, of an element of this
name raise an exception. -/
theorem C113_points_refused (f : PyFactory) (points : List (List ℝ)) (h2 : ∀ p ∈ points, 2 ≤ p.length) (hs : 2 ≤ points.length)
    (h : ¬ ∃ m ∈ factoryDims f, (∀ p ∈ points, p.length = m) ∧ ∃ o, points.length = (factoryType f o).numNodes) :
    f.call (points.map .vector) = none := by
  have b1 := fun k e => bind_points k e points
  have b2 := fun k e => bind_points_default k e points
  have hno : ∀ e k, e ∈ factoryDims f → (k = (factoryType f .linear).numNodes ∨ k = (factoryType f .quadratic).numNodes) →
      ¬ (points.length = k ∧ ∀ p ∈ points, p.length = e) := by
    rintro e k he hk ⟨h3, h4⟩
    rcases hk with rfl | rfl
    · exact h ⟨e, he, h4, .linear, h3⟩
    · exact h ⟨e, he, h4, .quadratic, h3⟩
  obtain ⟨v, w, vs, rfl⟩ : ∃ v w vs, points = v :: w :: vs := by
    rcases points with _ | ⟨v, _ | ⟨w, vs⟩⟩
    · simp at hs
    · simp at hs
    · exact ⟨v, w, vs, rfl⟩
  simp only [List.map_cons] at b1 b2
  have s2 : ∀ (e : ℕ) (l : List PyArg), bindArgs [.column e, .column e] l = bindArgs (List.replicate 2 (.column e)) l := fun _ _ => rfl
  have s3 : ∀ (e : ℕ) (l : List PyArg), bindArgs [.column e, .column e, .column e] l = bindArgs (List.replicate 3 (.column e)) l :=
    fun _ _ => rfl
  have s1 : ∀ (e : ℕ), bindArgs [.column e] (.vector v :: .vector w :: vs.map .vector) = none := fun e => by
    simp only [bindArgs, PyParam.convert]; split_ifs <;> simp [bindArgs]
  cases f <;>
    simp only [PyFactory.call, PyFactory.overloads, segmentOverloads, triangleOverloads, quadOverloads, tetraOverloads, hexaOverloads,
      surfaceDefaults, solidDefaults, rectOverloads, dispatch, List.cons_append, List.nil_append, List.map_cons, s1, s2, s3, b1, b2]
  · have e1 := hno 2 2 (by decide) (by decide)
    have e2 := hno 3 2 (by decide) (by decide)
    have e3 := hno 2 3 (by decide) (by decide)
    have e4 := hno 3 3 (by decide) (by decide)
    rw [if_neg e1, if_neg e2, if_neg e3, if_neg e4]
    simp [bindArgs, PyParam.convert]
  · have e1 := hno 2 3 (by decide) (by decide)
    have e2 := hno 3 3 (by decide) (by decide)
    have e3 := hno 2 6 (by decide) (by decide)
    have e4 := hno 3 6 (by decide) (by decide)
    rw [if_neg e1, if_neg e2, if_neg e3, if_neg e4]
    simp [bindArgs, PyParam.convert]
  · have e1 := hno 2 4 (by decide) (by decide)
    have e2 := hno 3 4 (by decide) (by decide)
    have e3 := hno 2 8 (by decide) (by decide)
    have e4 := hno 3 8 (by decide) (by decide)
    rw [if_neg e1, if_neg e2, if_neg e3, if_neg e4]
    simp [bindArgs, PyParam.convert]
  · have e1 := hno 3 4 (by decide) (by decide)
    have e2 := hno 3 10 (by decide) (by decide)
    rw [if_neg e1, if_neg e2]
    simp [bindArgs, PyParam.convert]
  · have e1 := hno 3 8 (by decide) (by decide)
    have e2 := hno 3 20 (by decide) (by decide)
    rw [if_neg e1, if_neg e2]
    simp [bindArgs, PyParam.convert]
  · have e1 := hno 3 8 (by decide) (by decide)
    have e2 := hno 3 20 (by decide) (by decide)
    rw [if_neg e1, if_neg e2]
    simp [bindArgs, PyParam.convert]

example : PyFactory.triangle.call [.vector [0, 0], .vector [1, 0], .vector [1, 1, 1]] = none := by
  refine C113_points_refused .triangle [[0, 0], [1, 0], [1, 1, 1]] (by simp) (by simp) ?_
  rintro ⟨m, -, h, -⟩
  have h1 := h [0, 0] (by simp)
  have h2 := h [1, 1, 1] (by simp)
  simp at h1 h2
  omega

private theorem canonical_world (T : ElementType) (m : ℕ) (ξ : ℕ → ℝ) (a : ℕ) (ha : a < m) :
    madeWorld (.iso T m (canonicalRows T m)) ξ a = if a < T.dim then ξ a else 0 := by
  have h1 : madeWorld (.iso T m (canonicalRows T m)) ξ a =
      ∑ i : Fin T.numNodes, (if h : a < T.dim then (T.elem (K := ℝ)).node i ⟨a, h⟩ else 0) * T.elem.L (fun j => ξ j) i := by
    simp only [madeWorld, canonicalRows]
    refine Finset.sum_congr rfl fun i _ => ?_
    exact congrArg (· * _) (fnRows_getD _ i (⟨a, ha⟩ : Fin m))
  rw [h1]
  by_cases h : a < T.dim
  · simp only [h, dif_pos, if_true]
    have := congrFun (C05_affine_reproduction (K := ℝ) T (m := 1) (fun _ => 0) (fun _ => Pi.single ⟨a, h⟩ 1) fun j => ξ j) 0
    simpa [Elem.interpolate, affineFn, Pi.single_apply] using this
  · simp [h]

/-- **C113**, elements without nodes are the canonical ones: the position of a point is its local coordinates, completed with zeros.  The
dimension is the one asked, or the smallest one. -/
theorem C113_default (f : PyFactory) (d : PyDim) (o : Order) (hd : dimOf d ∈ factoryDims f) (args : List PyArg)
    (ha : (args = [] ∧ o = .linear ∧ ∀ k ∈ factoryDims f, dimOf d ≤ k) ∨ (args = [.order o] ∧ ∀ k ∈ factoryDims f, dimOf d ≤ k) ∨
      ((factoryDims f).length ≠ 1 ∧ o = .linear ∧ args = [.dimension d]) ∨
      ((factoryDims f).length ≠ 1 ∧ args = [.dimension d, .order o])) :
    ∃ e, f.call args = some e ∧ madeType e = factoryType f o ∧ madeDim e = dimOf d ∧
      ∀ ξ, ∀ a < dimOf d, madeWorld e ξ a = if a < (factoryType f o).dim then ξ a else 0 := by
  by_cases hf : f = .rectangularHexahedron
  · subst hf
    have hd3 : dimOf d = 3 := by simpa [factoryDims] using hd
    have hw : ∀ o ξ, ∀ a < 3, madeWorld (.rect o .default) ξ a = ξ a := fun o ξ a ha => by
      simp [madeWorld, ha, RectHexa.worldCoordinates, RectHexa.default]
    rcases ha with ⟨rfl, rfl, -⟩ | ⟨rfl, -⟩ | ⟨h, -⟩ | ⟨h, -⟩
    · exact ⟨.rect .linear .default, rfl, rfl, hd3.symm, fun ξ a ha => by
        rw [hd3] at ha; rw [hw _ _ _ ha, if_pos]; exact ha⟩
    · refine ⟨.rect o .default, rfl, by cases o <;> rfl, hd3.symm, fun ξ a ha => ?_⟩
      rw [hd3] at ha; rw [hw _ _ _ ha, if_pos]; cases o <;> exact ha
    · exact absurd rfl h
    · exact absurd rfl h
  · suffices f.call args = some (.iso (factoryType f o) (dimOf d) (canonicalRows (factoryType f o) (dimOf d))) from
      ⟨_, this, rfl, rfl, fun ξ a ha => canonical_world _ _ ξ a ha⟩
    rcases ha with ⟨rfl, rfl, hk⟩ | ⟨rfl, hk⟩ | ⟨h, rfl, rfl⟩ | ⟨h, rfl⟩
    · cases f <;> cases d <;> simp [factoryDims, dimOf] at hd hk hf <;> rfl
    · cases f <;> cases d <;> cases o <;> simp [factoryDims, dimOf] at hd hk hf <;> rfl
    · cases f <;> cases d <;> simp [factoryDims, dimOf] at hd h <;> rfl
    · cases f <;> cases d <;> cases o <;> simp [factoryDims, dimOf] at hd h <;> rfl

example : ∃ e, PyFactory.quad.call [.dimension .d3, .order .quadratic] = some e ∧ madeType e = .quad2 ∧ madeDim e = 3 := by
  obtain ⟨e, h1, h2, h3, -⟩ := C113_default .quad .d3 .quadratic (by decide) _ (Or.inr (Or.inr (Or.inr ⟨by decide, rfl⟩)))
  exact ⟨e, h1, h2, h3⟩

/-- **C113**, rectangular hexahedra: the table of the eight nodes of a box, with an order, or of the twenty nodes, makes this box; so do its
centre, its size and its rotation. -/
theorem C113_box (c H : Fin 3 → ℝ) (R : Matrix (Fin 3) (Fin 3) ℝ) (hR : IsRotation R) (hH : ∀ j, 0 < H j) (o : Order) :
    PyFactory.rectangularHexahedron.call [.matrix 3 (fnRows (RectHexa.nodes ⟨c, H, R⟩ hexa1)), .order o] = some (.rect o ⟨c, H, R⟩) ∧
    PyFactory.rectangularHexahedron.call [.matrix 3 (fnRows (RectHexa.nodes ⟨c, H, R⟩ hexa1))] = some (.rect .linear ⟨c, H, R⟩) ∧
    PyFactory.rectangularHexahedron.call [.matrix 3 (fnRows (RectHexa.nodes ⟨c, H, R⟩ hexa2))] = some (.rect .quadratic ⟨c, H, R⟩) ∧
    PyFactory.rectangularHexahedron.call [.order o, .vector (List.ofFn c)] = some (.rect o ⟨c, fun _ => 2, 1⟩) ∧
    PyFactory.rectangularHexahedron.call [.order o, .vector (List.ofFn c), .vector (List.ofFn H)] = some (.rect o ⟨c, H, 1⟩) ∧
    PyFactory.rectangularHexahedron.call [.order o, .vector (List.ofFn c), .vector (List.ofFn H), .matrix 3 (fnRows fun i j => R i j)] =
      some (.rect o ⟨c, H, R⟩) := by
  have k1 : RectHexa.ofHexa hexa1 (RectHexa.nodes ⟨c, H, R⟩ hexa1) = ⟨c, H, R⟩ := C19_from_hexa .linear ⟨c, H, R⟩ hR hH
  have k2 : RectHexa.ofHexa hexa2 (RectHexa.nodes ⟨c, H, R⟩ hexa2) = ⟨c, H, R⟩ := C19_from_hexa .quadratic ⟨c, H, R⟩ hR hH
  have l1 : (fnRows (RectHexa.nodes ⟨c, H, R⟩ hexa1)).length = 8 := by simp [fnRows]
  have l2 : (fnRows (RectHexa.nodes ⟨c, H, R⟩ hexa2)).length = 20 := by simp [fnRows]
  have l3 : (fnRows fun i j => R i j).length = 3 := by simp [fnRows]
  have g : ∀ (w : Fin 3 → ℝ), (fun i : Fin 3 => (List.ofFn w).getD i 0) = w := fun w => by
    funext i; fin_cases i <;> rfl
  refine ⟨?_, ?_, ?_, ?_, ?_, ?_⟩
  · simp [PyFactory.call, PyFactory.overloads, rectOverloads, dispatch, bindArgs, PyParam.convert, l1, List.replicate, argRows, argOrder,
      rowsFn_fnRows, k1]
  · simp [PyFactory.call, PyFactory.overloads, rectOverloads, dispatch, bindArgs, PyParam.convert, l1, List.replicate, argRows, argOrder,
      rowsFn_fnRows, k1]
  · simp [PyFactory.call, PyFactory.overloads, rectOverloads, dispatch, bindArgs, PyParam.convert, l2, List.replicate, argRows, argOrder,
      rowsFn_fnRows, k2]
  · simp only [PyFactory.call, PyFactory.overloads, rectOverloads, dispatch, bindArgs, PyParam.convert, List.length_ofFn, if_true,
      Option.map_some, argOrder, rectOfArgs, g]
    simp
  · simp only [PyFactory.call, PyFactory.overloads, rectOverloads, dispatch, bindArgs, PyParam.convert, List.length_ofFn, if_true,
      Option.map_some, argOrder, rectOfArgs, g]
    simp
  · simp only [PyFactory.call, PyFactory.overloads, rectOverloads, dispatch, bindArgs, PyParam.convert, List.length_ofFn, if_true,
      Option.map_some, argOrder, rectOfArgs, g, l3, and_self, rowsFn_fnRows]
    simp
    rfl

example : IsRotation (!![0, -1, 0; 1, 0, 0; 0, 0, 1] : Matrix (Fin 3) (Fin 3) ℝ) := by
  constructor
  · ext i j; fin_cases i <;> fin_cases j <;> simp [Matrix.mul_apply, Fin.sum_univ_three]
  · simp [Matrix.det_fin_three]

/-- **C113** is violated: `RectangularHexahedron(n0, …, n7)` and `RectangularHexahedron(n0, …, n19)` never return a rectangular hexahedron, whatever
the points. -/
theorem C113_rectangular_violated (points : List (List ℝ)) (hp : ∀ p ∈ points, p.length = 3) (o : Order)
    (hl : points.length = (factoryType .rectangularHexahedron o).numNodes) :
    PyFactory.rectangularHexahedron.call (points.map .vector) = some (.iso (factoryType .hexahedron o) 3 points) ∧
    factoryType .hexahedron o ≠ factoryType .rectangularHexahedron o := by
  refine ⟨?_, by cases o <;> decide⟩
  have b1 := fun k e => bind_points k e points
  have b2 := fun k e => bind_points_default k e points
  obtain ⟨v, vs, rfl⟩ : ∃ v vs, points = v :: vs := by
    cases points with
    | nil => cases o <;> simp [factoryType, ElementType.numNodes] at hl
    | cons v vs => exact ⟨v, vs, rfl⟩
  have hw : argRows (vs.map .vector) = vs := by simpa [argRows] using argRows_points vs []
  have hall : (∀ p ∈ v :: vs, p.length = 3) ↔ True := iff_true_intro hp
  cases o <;> simp only [factoryType, ElementType.numNodes] at hl <;>
    simp only [PyFactory.call, PyFactory.overloads, rectOverloads, dispatch, List.map_cons] <;>
    simp only [List.map_cons, hl] at b1 b2 <;> simp only [b1, b2, hall] <;>
    simp [bindArgs, PyParam.convert, ofNodes, hexaOfOrder, argOrder_points, argRows_points, argRows, argOrder, hw, factoryType]

/-- **C113** is violated: `Triangle(_1D)` and `Quad(_1D)` are not refused, they return three-dimensional elements. -/
theorem C113_dimension_violated (f : PyFactory) (hf : f = .triangle ∨ f = .quad) (o : Order) :
    dimOf .d1 ∉ factoryDims f ∧
    (∃ e, f.call [.dimension .d1] = some e ∧ madeDim e = 3) ∧ ∃ e, f.call [.dimension .d1, .order o] = some e ∧ madeDim e = 3 := by
  rcases hf with rfl | rfl <;> refine ⟨by decide, ⟨_, rfl, rfl⟩, ?_⟩ <;> cases o <;> exact ⟨_, rfl, rfl⟩

end Caribou
