import Mathlib.Algebra.BigOperators.Fin
import Mathlib.Tactic.FinCases

/-! Small facts about `Fin 3`. -/

set_option autoImplicit false

namespace Caribou

theorem forall_fin3 {p : Fin 3 → Prop} : (∀ j, p j) ↔ p 0 ∧ p 1 ∧ p 2 := by
  constructor
  · intro h; exact ⟨h 0, h 1, h 2⟩
  · rintro ⟨h0, h1, h2⟩ j; fin_cases j <;> assumption

theorem exists_fin3 {p : Fin 3 → Prop} : (∃ j, p j) ↔ p 0 ∨ p 1 ∨ p 2 := by
  constructor
  · rintro ⟨j, hj⟩; fin_cases j
    · exact .inl hj
    · exact .inr (.inl hj)
    · exact .inr (.inr hj)
  · rintro (h | h | h) <;> exact ⟨_, h⟩

theorem ext_fin3 {α : Type*} {f g : Fin 3 → α} (h0 : f 0 = g 0) (h1 : f 1 = g 1) (h2 : f 2 = g 2) : f = g := by
  funext j; fin_cases j <;> assumption

theorem ext_fin2 {α : Type*} {f g : Fin 2 → α} (h0 : f 0 = g 0) (h1 : f 1 = g 1) : f = g := by
  funext j; fin_cases j <;> assumption

end Caribou
