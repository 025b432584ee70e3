import Verif.Lemmas.Convergence

/-!
# The nodes of an element belong to it
-/

set_option autoImplicit false
set_option linter.all false

namespace Caribou

open Spec

theorem quad2_node_values (i : Fin 8) (j : Fin 2) : (quad2 (K := ℝ)).node i j = 0 ∨ (quad2 (K := ℝ)).node i j = 1 ∨ (quad2 (K := ℝ)).node i j = -1 := by
  fin_cases i <;> fin_cases j <;> simp [quad2]

theorem hexa1_node_values (i : Fin 8) (j : Fin 3) : (hexa1 (K := ℝ)).node i j = 0 ∨ (hexa1 (K := ℝ)).node i j = 1 ∨ (hexa1 (K := ℝ)).node i j = -1 := by
  fin_cases i <;> fin_cases j <;> simp [hexa1]

set_option maxHeartbeats 1000000 in
theorem hexa2_node_values (i : Fin 20) (j : Fin 3) : (hexa2 (K := ℝ)).node i j = 0 ∨ (hexa2 (K := ℝ)).node i j = 1 ∨ (hexa2 (K := ℝ)).node i j = -1 := by
  fin_cases i <;> fin_cases j <;> simp [hexa2]

/-- A node belongs to its element. -/
theorem node_mem_canonical (T : ElementType) (i : Fin T.numNodes) : T.shape.Mem ((T.elem (K := ℝ)).node i) := by
  have key : ∀ {d n : ℕ} (s : Shape) (E : Elem ℝ d n) (i : Fin n), (match s with
    | .cube => ∀ j, E.node i j = 0 ∨ E.node i j = 1 ∨ E.node i j = -1
    | .simplex => (∀ j, 0 ≤ E.node i j) ∧ ∑ j, E.node i j ≤ 1) → s.Mem (E.node i) := by
    intro d n s E i h
    cases s
    · intro j
      rcases h j with h | h | h <;> rw [h] <;> norm_num
    · exact h
  cases T
  · exact key .cube segment1 i (by revert i; intro (i : Fin 2) (j : Fin 1); fin_cases i <;> fin_cases j <;> simp [segment1])
  · exact key .cube segment2 i (by revert i; intro (i : Fin 3) (j : Fin 1); fin_cases i <;> fin_cases j <;> simp [segment2])
  · exact key .simplex triangle1 i (by
      revert i; intro (i : Fin 3); refine ⟨fun (j : Fin 2) => ?_, ?_⟩
      · fin_cases i <;> fin_cases j <;> simp [triangle1]
      · fin_cases i <;> simp [triangle1, Fin.sum_univ_two])
  · exact key .simplex triangle2 i (by
      revert i; intro (i : Fin 6); refine ⟨fun (j : Fin 2) => ?_, ?_⟩
      · fin_cases i <;> fin_cases j <;> simp [triangle2]
      · fin_cases i <;> simp [triangle2, Fin.sum_univ_two] <;> norm_num)
  · exact key .cube quad1 i (by revert i; intro (i : Fin 4) (j : Fin 2); fin_cases i <;> fin_cases j <;> simp [quad1])
  · exact key .cube quad2 i (quad2_node_values i)
  · exact key .simplex tetra1 i (by
      revert i; intro (i : Fin 4); refine ⟨fun (j : Fin 3) => ?_, ?_⟩
      · fin_cases i <;> fin_cases j <;> simp [tetra1]
      · fin_cases i <;> simp [tetra1, Fin.sum_univ_three])
  · exact key .simplex tetra2 i (by
      revert i; intro (i : Fin 10); refine ⟨fun (j : Fin 3) => ?_, ?_⟩
      · fin_cases i <;> fin_cases j <;> simp [tetra2]
      · fin_cases i <;> simp [tetra2, Fin.sum_univ_three] <;> norm_num)
  · exact key .cube hexa1 i (hexa1_node_values i)
  · exact key .cube hexa2 i (hexa2_node_values i)
  · exact key .cube quad1 i (by revert i; intro (i : Fin 4) (j : Fin 2); fin_cases i <;> fin_cases j <;> simp [quad1])
  · exact key .cube quad2 i (quad2_node_values i)
  · exact key .cube hexa1 i (hexa1_node_values i)
  · exact key .cube hexa2 i (hexa2_node_values i)

theorem node_mem_region (T : ElementType) (X : Fin T.numNodes → Fin T.dim → ℝ) (i : Fin T.numNodes) : X i ∈ elementRegion T X :=
  ⟨T.elem.node i, node_mem_canonical T i, C02_world_coordinates_at_node T X i⟩

end Caribou
