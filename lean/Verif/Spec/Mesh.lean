import Mathlib.Data.List.Basic

/-!
# What a registry of named domains is expected to do

Domains are designated by natural numbers; a registry is the list of named domains of a mesh.
-/

set_option autoImplicit false

namespace Caribou

/-- Every name is listed at most once. -/
def UniqueNames (l : List (String × ℕ)) : Prop := (l.map Prod.fst).Nodup

/-- `l'` is `l` without the entry `x`, everything else being kept in order. -/
def Without (l : List (String × ℕ)) (x : String × ℕ) (l' : List (String × ℕ)) : Prop :=
  ∃ before after, l = before ++ x :: after ∧ l' = before ++ after

/-- A position padded with zeros to three coordinates. -/
def padded {K : Type*} [Zero K] {m : ℕ} (p : Fin m → K) : Fin 3 → K :=
  fun c => if h : c.val < m then p ⟨c.val, h⟩ else 0

end Caribou
