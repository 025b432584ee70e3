import Verif.Model.PyHashGrid
import Verif.Lemmas.PyGrid
import Verif.Props.HashGrid

/-! # C116: hash grids used from Python -/

set_option autoImplicit false

namespace Caribou

open Spec

variable {K : Type*} [Field K] [LinearOrder K] [IsStrictOrderedRing K] [FloorRing K]

/-- A history is made of integers as identifiers. -/
def IntIds (hist : List (PyHashElem K × PyVal K)) : Prop := ∀ x ∈ hist, ∃ z, x.2 = .int z

theorem asUnsigned_int {z : ℤ} {i : ℕ} : asUnsigned (K := K) (.int z) = some i ↔ z = i ∧ i < 2 ^ 64 := by
  simp only [asUnsigned]
  split
  · rename_i h
    simp only [Option.some.injEq]
    omega
  · rename_i h
    simp only [false_iff, reduceCtorEq]
    omega

/-- The calls which are accepted, as a history of the C++ hash grid. -/
theorem addAll_eq (T : HashElement) (g : HashGrid 3 K) (hist : List (PyHashElem K × PyVal K)) (hi : IntIds hist) :
    ∃ h : List ((Fin T.nodeCount → Fin 3 → K) × ℕ),
      PyHashGrid.addAll ⟨T, g⟩ hist = ⟨T, h.foldl (fun g h => g.add h.1 h.2) g⟩ ∧
      (∀ nodes i, (nodes, i) ∈ h ↔ i < 2 ^ 64 ∧ ((⟨T, nodes⟩ : PyHashElem K), PyVal.int (i : ℤ)) ∈ hist) := by
  induction hist generalizing g with
  | nil => exact ⟨[], rfl, by simp⟩
  | cons x rest ih =>
    have hi' : IntIds rest := fun y hy => hi y (List.mem_cons_of_mem _ hy)
    obtain ⟨e, id⟩ := x
    obtain ⟨z, hz⟩ := hi (e, id) (List.mem_cons_self ..)
    simp only at hz
    subst hz
    obtain ⟨cls, nodes⟩ := e
    by_cases hc : cls = T
    · subst hc
      rcases hu : asUnsigned (K := K) (.int z) with _ | i
      · obtain ⟨h, e1, e2⟩ := ih g hi'
        refine ⟨h, ?_, fun nodes' j => ?_⟩
        · simp only [PyHashGrid.addAll, PyHashGrid.add, if_true, hu, e1]
        · rw [e2]
          refine and_congr_right fun hj => ?_
          constructor
          · exact List.mem_cons_of_mem _
          · intro hm
            rcases List.mem_cons.mp hm with hm | hm
            · injection hm with _ hm
              injection hm with hm
              have := asUnsigned_int (K := K).mpr ⟨hm.symm, hj⟩
              rw [hu] at this
              exact absurd this (by simp)
            · exact hm
      · obtain ⟨h, e1, e2⟩ := ih (g.add nodes i) hi'
        obtain ⟨hz, hlt⟩ := asUnsigned_int.mp hu
        subst hz
        refine ⟨(nodes, i) :: h, ?_, fun nodes' j => ?_⟩
        · simp only [PyHashGrid.addAll, PyHashGrid.add, if_true, hu, e1, List.foldl_cons]
        · rw [List.mem_cons, List.mem_cons, e2]
          constructor
          · rintro (hm | ⟨h1, h2⟩)
            · injection hm with h1 h2
              subst h1; subst h2
              exact ⟨hlt, Or.inl rfl⟩
            · exact ⟨h1, Or.inr h2⟩
          · rintro ⟨h1, h2 | h2⟩
            · left
              simp only [Prod.mk.injEq, PyHashElem.mk.injEq, heq_eq_eq, true_and, PyVal.int.injEq, Int.natCast_inj] at h2
              simp only [Prod.mk.injEq]
              exact h2
            · exact Or.inr ⟨h1, h2⟩
    · obtain ⟨h, e1, e2⟩ := ih g hi'
      refine ⟨h, ?_, fun nodes' j => ?_⟩
      · simp only [PyHashGrid.addAll, PyHashGrid.add, hc, if_false, e1]
      · rw [e2]
        refine and_congr_right fun _ => ?_
        constructor
        · exact List.mem_cons_of_mem _
        · intro hm
          rcases List.mem_cons.mp hm with hm | hm
          · simp only [Prod.mk.injEq, PyHashElem.mk.injEq] at hm
            exact absurd hm.1.1.symm hc
          · exact hm

theorem nodeCount_pos (T : HashElement) : 0 < T.nodeCount := by cases T <;> decide

theorem pyHashGrid_some (T : HashElement) (s : K) (c : Option (PyVal K)) (n : ℕ) (h : c.map asUnsigned = some (some n)) :
    pyHashGrid true (.cls T) (.float s) c = .made ⟨T, HashGrid.empty s⟩ := by
  unfold pyHashGrid
  rw [h]
  rfl

theorem pyHashGrid_made (T : HashElement) (s : K) (count : Option ℕ) (hcount : ∀ n ∈ count, n < 2 ^ 64) :
    pyHashGrid true (.cls T) (.float s) (count.map fun n : ℕ => PyVal.int (n : ℤ)) = .made ⟨T, HashGrid.empty s⟩ := by
  rcases count with _ | n
  · simp only [pyHashGrid, asNumber, Option.map_none, if_true]
  · have : asUnsigned (K := K) (.int (n : ℤ)) = some n := asUnsigned_int.mpr ⟨rfl, hcount n rfl⟩
    have h2 : ((some n).map fun n : ℕ => PyVal.int (K := K) (n : ℤ)).map asUnsigned = some (some n) := by
      rw [Option.map_some, Option.map_some, this]
    exact pyHashGrid_some T s _ n h2

/-- **C116 (a hash grid of Python).** Once `Caribou.Geometry` is imported, `HashGrid(cls, size)` makes a hash grid for the elements of the class.
After any sequence of calls to `add`, those with an element of another class or an identifier which cannot be stored having raised `TypeError`,
`get(p)` has every identifier added with an element whose bounding box contains the point, and only identifiers added with an element
whose bounding box is closer to the point than one cell (plus the tolerance), each one once. -/
theorem C116_get (T : HashElement) (s : K) (hs : 0 < s) (count : Option ℕ) (hcount : ∀ n ∈ count, n < 2 ^ 64)
    (hist : List (PyHashElem K × PyVal K)) (hi : IntIds hist) (p : Fin 3 → K) :
    ∃ h l, pyHashGrid true (.cls T) (.float s) (count.map fun n : ℕ => PyVal.int (n : ℤ)) = .made h ∧
      (h.addAll hist).get (.floats (List.ofFn p)) = .ok l ∧
      (∀ (nodes : Fin T.nodeCount → Fin 3 → K) (i : ℕ), i < 2 ^ 64 → ((⟨T, nodes⟩ : PyHashElem K), PyVal.int (i : ℤ)) ∈ hist →
        InBoxOf nodes p → i ∈ l) ∧
      (∀ i ∈ l, ∃ nodes : Fin T.nodeCount → Fin 3 → K, ((⟨T, nodes⟩ : PyHashElem K), PyVal.int (i : ℤ)) ∈ hist ∧
        BoxWithin nodes ((1 + gridEps K) * s) p) ∧ l.Nodup := by
  obtain ⟨h, e1, e2⟩ := addAll_eq T (HashGrid.empty s) hist hi
  have hmade := pyHashGrid_made T s count hcount
  refine ⟨_, (HashGrid.ofHistory s h).get p, hmade, ?_, fun nodes i hlt hm hp => ?_, fun i hm => ?_, ?_⟩
  · rw [e1]
    simp only [PyHashGrid.get, asPoint_ofFn, HashGrid.ofHistory]
  · exact C31_complete (Or.inr (Or.inr rfl)) (nodeCount_pos T) s hs h nodes i ((e2 nodes i).mpr ⟨hlt, hm⟩) p hp
  · obtain ⟨nodes, hh, hb⟩ := (C32_sound (Or.inr (Or.inr rfl)) (nodeCount_pos T) s hs h p).1 i hm
    exact ⟨nodes, ((e2 nodes i).mp hh).2, hb⟩
  · exact (C32_sound (Or.inr (Or.inr rfl)) (nodeCount_pos T) s hs h p).2.imp fun h => h.ne

/-- **C116 (refused calls).** `add` raises `TypeError` for an element of another class, for a negative identifier and for one which is not
an integer; `get` raises it for a point which has not three coordinates. -/
theorem C116_refused (h : PyHashGrid K) (e : PyHashElem K) :
    (∀ id, e.cls ≠ h.element → h.add e id = .typeError) ∧ (∀ z : ℤ, z < 0 → h.add e (.int z) = .typeError) ∧
    (∀ x, h.add e (.float x) = .typeError) ∧ (∀ l : List K, l.length ≠ 3 → h.get (.floats l) = .typeError) := by
  refine ⟨fun id hne => ?_, fun z hz => ?_, fun x => ?_, fun l hl => ?_⟩
  · simp [PyHashGrid.add, hne]
  · have : asUnsigned (K := K) (.int z) = none := by
      simp only [asUnsigned]
      rw [if_neg (by omega)]
    simp [PyHashGrid.add, this]
  · simp [PyHashGrid.add, asUnsigned]
  · have : asPoint 3 (.floats l) = none := listFn_none l hl
    simp [PyHashGrid.get, this]

/-- **C116 is false for other arguments.** Given anything but one of the six classes, such as the function `Caribou.Geometry.Tetrahedron`,
the function `HashGrid` does not complain: it returns `None`. -/
theorem C116_none_violated (s : K) : ∀ h, pyHashGrid true .other (.float s) none ≠ .made h ∧ pyHashGrid true .other (.float s) none = .none :=
  fun _ => ⟨by simp [pyHashGrid, asNumber], rfl⟩

/-- **Identifiers.** A boolean given for an identifier is the number 0 or 1, lists are refused. -/
theorem C116_identifiers (h : PyHashGrid K) (e : PyHashElem K) :
    h.add e (.flag false) = h.add e (.int 0) ∧ h.add e (.flag true) = h.add e (.int 1) ∧ (∀ l, h.add e (.ints l) = .typeError) ∧ ∀ l, h.add e (.floats l) = .typeError := by
  refine ⟨?_, ?_, fun l => ?_, fun l => ?_⟩ <;> simp [PyHashGrid.add, asUnsigned]

/-- **Names.** For the classes other than the hexahedra, the number in the name of the hash grid is the number of nodes of its elements. -/
theorem C116_names_partial (T : HashElement) (h : T ≠ .hexa1 ∧ T ≠ .hexa2) : T.className.2 = T.nodeCount := by
  cases T <;> simp_all [HashElement.className, HashElement.nodeCount]

/-- **Names are false for the hexahedra.** The class `Hexahedron20HashGrid` accepts elements of 8 nodes and refuses those of 20 nodes; the class
`Hexahedron8HashGrid` is the contrary. -/
theorem C116_names_violated (g : HashGrid 3 K) (e8 : Fin 8 → Fin 3 → K) (e20 : Fin 20 → Fin 3 → K) (id : ℕ) (hid : id < 2 ^ 64) :
    ∃ A B : HashElement, A.className = ("Hexahedron", 20) ∧ B.className = ("Hexahedron", 8) ∧
      (∃ h, PyHashGrid.add ⟨A, g⟩ ⟨.hexa1, e8⟩ (.int id) = .ok h) ∧ PyHashGrid.add ⟨A, g⟩ ⟨.hexa2, e20⟩ (.int id) = .typeError ∧
      (∃ h, PyHashGrid.add ⟨B, g⟩ ⟨.hexa2, e20⟩ (.int id) = .ok h) ∧ PyHashGrid.add ⟨B, g⟩ ⟨.hexa1, e8⟩ (.int id) = .typeError := by
  have := asUnsigned_int (K := K).mpr ⟨rfl, hid⟩
  refine ⟨.hexa1, .hexa2, rfl, rfl, ⟨_, by simp only [PyHashGrid.add, if_true, this]; rfl⟩, by simp [PyHashGrid.add],
    ⟨_, by simp only [PyHashGrid.add, if_true, this]; rfl⟩, by simp [PyHashGrid.add]⟩

/-- A tetrahedron. -/
def pyTetra : PyHashElem ℚ := ⟨.tetra1, ![![0, 0, 0], ![3, 0, 0], ![0, 3, 0], ![0, 0, 3]]⟩

/-- **The size of the cells is not checked.** With a negative size, the hash grid is made, the element is added without a complaint, and it is
not found from the centre of its bounding box, nor from one of its nodes. -/
theorem C116_size_violated :
    ∃ h : PyHashGrid ℚ, pyHashGrid true (.cls .tetra1) (.float (-1)) none = .made h ∧ h.add pyTetra (.int 5) = .ok (h.addAll [(pyTetra, .int 5)]) ∧
      InBoxOf pyTetra.nodes ![3 / 2, 3 / 2, 3 / 2] ∧
      (h.addAll [(pyTetra, .int 5)]).get (.floats [3 / 2, 3 / 2, 3 / 2]) = .ok [] ∧
      (h.addAll [(pyTetra, .int 5)]).get (.floats [3, 0, 0]) = .ok [] := by
  refine ⟨⟨.tetra1, HashGrid.empty (-1)⟩, rfl, rfl, ?_, by decide +kernel, by decide +kernel⟩
  have h : InBoxOf (![![0, 0, 0], ![3, 0, 0], ![0, 3, 0], ![0, 0, 3]] : Fin 4 → Fin 3 → ℚ) ![3 / 2, 3 / 2, 3 / 2] := by
    intro a
    refine ⟨⟨0, ?_⟩, a.succ, ?_⟩ <;> fin_cases a <;> decide +kernel
  exact h

/-! ### A concrete case: an accepted element, a refused one and a refused identifier -/

example : IntIds [(pyTetra, .int 5), (⟨.rect1, fun _ => 0⟩, .int 6), (pyTetra, .int (-2))] ∧
    ((⟨.tetra1, HashGrid.empty 2⟩ : PyHashGrid ℚ).addAll
      [(pyTetra, .int 5), (⟨.rect1, fun _ => 0⟩, .int 6), (pyTetra, .int (-2))]).get (.floats [1, 1, 1]) = .ok [5] := by
  refine ⟨?_, by decide +kernel⟩
  intro x hx
  simp only [List.mem_cons, List.not_mem_nil, or_false] at hx
  rcases hx with rfl | rfl | rfl <;> exact ⟨_, rfl⟩

end Caribou
