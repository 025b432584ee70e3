import Verif.Lemmas.FictitiousNeighbors
import Mathlib.Data.List.Nodup
import Mathlib.Algebra.BigOperators.Fin
import Mathlib.Tactic.LinearCombination

/-! Leaves of cell trees: enumeration, weights and boxes. -/

set_option autoImplicit false
set_option linter.all false

namespace Caribou.FictitiousGrid

open Spec

variable {D : ℕ} {α : Type*}

/-- Depth first enumeration of the leaves. -/
def dfs : CellTree D α → List (Fin (2 ^ D)) → List (List (Fin (2 ^ D)) × α)
  | .leaf d, p => [(p, d)]
  | .node ch, p => (List.finRange (2 ^ D)).flatMap fun i => dfs (ch i) (i :: p)

theorem count_pos (t : CellTree D α) : 0 < t.count := by
  cases t with
  | leaf d => simp [CellTree.count]
  | node ch => rw [CellTree.count]; omega

theorem leafQueue_perm (fuel : ℕ) (queue : List (List (Fin (2 ^ D)) × CellTree D α))
    (hf : (queue.map fun x => x.2.count).sum ≤ fuel) :
    (CellTree.leafQueue fuel queue).Perm (queue.flatMap fun x => dfs x.2 x.1) := by
  induction fuel generalizing queue with
  | zero =>
    cases queue with
    | nil => simp [CellTree.leafQueue]
    | cons x q => have := count_pos x.2; simp at hf; omega
  | succ fuel ih =>
    cases queue with
    | nil => simp [CellTree.leafQueue]
    | cons x q =>
      obtain ⟨p, t⟩ := x
      cases t with
      | leaf d =>
        simp only [List.map_cons, List.sum_cons, CellTree.count] at hf
        rw [CellTree.leafQueue]
        simp only [List.flatMap_cons, dfs, List.cons_append, List.nil_append]
        exact (ih q (by omega)).cons _
      | node ch =>
        simp only [List.map_cons, List.sum_cons, CellTree.count] at hf
        rw [CellTree.leafQueue]
        refine (ih _ ?_).trans ?_
        · simp only [List.map_append, List.sum_append, List.map_map]
          have : ((fun x : List (Fin (2 ^ D)) × CellTree D α => x.2.count) ∘ fun i => (i :: p, ch i)) = fun i => (ch i).count := rfl
          rw [this]; omega
        · simp only [List.flatMap_append, List.flatMap_cons, dfs, List.flatMap_map]
          exact List.perm_append_comm

theorem leafCells_perm (t : CellTree D α) : t.leafCells.Perm (dfs t []) := by
  refine (leafQueue_perm t.count [([], t)] (by simp)).trans ?_
  simp

theorem mem_dfs (t : CellTree D α) (p q : List (Fin (2 ^ D))) (d : α) :
    (q, d) ∈ dfs t p ↔ ∃ e, q = e.reverse ++ p ∧ LeafAt t e d := by
  induction t generalizing p with
  | leaf d' =>
    simp only [dfs, List.mem_singleton, Prod.mk.injEq]
    constructor
    · rintro ⟨rfl, rfl⟩; exact ⟨[], rfl, .here _⟩
    · rintro ⟨e, rfl, h⟩; obtain ⟨rfl, rfl⟩ := leafAt_leaf.mp h; exact ⟨rfl, rfl⟩
  | node ch ih =>
    simp only [dfs, List.mem_flatMap, List.mem_finRange, true_and, ih]
    constructor
    · rintro ⟨i, e, rfl, h⟩; exact ⟨i :: e, by simp, .child _ _ _ _ h⟩
    · rintro ⟨e, rfl, h⟩
      obtain ⟨i, e', rfl, h'⟩ := leafAt_node.mp h
      exact ⟨i, e', by simp, h'⟩

theorem mem_leafCells (t : CellTree D α) (q : List (Fin (2 ^ D))) (d : α) :
    (q, d) ∈ t.leafCells ↔ LeafAt t q.reverse d := by
  rw [(leafCells_perm t).mem_iff, mem_dfs]
  constructor
  · rintro ⟨e, rfl, h⟩; simpa using h
  · intro h; exact ⟨q.reverse, by simp, h⟩

theorem dfs_nodup (t : CellTree D α) (p : List (Fin (2 ^ D))) : ((dfs t p).map Prod.fst).Nodup := by
  induction t generalizing p with
  | leaf d => simp [dfs]
  | node ch ih =>
    rw [dfs, List.map_flatMap, List.nodup_flatMap]
    refine ⟨fun i _ => ih i _, ?_⟩
    refine (List.nodup_finRange _).imp ?_
    intro i j hij
    refine List.disjoint_left.mpr fun x hx hy => hij ?_
    simp only [List.mem_map, Prod.exists, exists_and_right, exists_eq_right, mem_dfs] at hx hy
    obtain ⟨d, e, he, _⟩ := hx
    obtain ⟨d', e', he', _⟩ := hy
    have h1 : e.reverse ++ [i] = e'.reverse ++ [j] := by
      refine List.append_cancel_right (bs := p) ?_
      simpa using he.symm.trans he'
    have := List.append_inj_right' h1 rfl
    simpa using this

theorem leafCells_nodup (t : CellTree D α) : (t.leafCells.map Prod.fst).Nodup :=
  ((leafCells_perm t).map _).nodup_iff.mpr (dfs_nodup t [])

/-! ### Weights -/

section Field

variable {K : Type*} [Field K]

theorem dfs_weight [CharZero K] (classify : Box D K → CellType × Bool) (n : ℕ) (e : Box D K) (w : K)
    (p : List (Fin (2 ^ D))) : ((dfs (subdivide classify n e w) p).map fun x => x.2.weight).sum = w := by
  induction n generalizing e w p with
  | zero => simp [subdivide, dfs]
  | succ n ih =>
    rw [subdivide]
    split_ifs with h
    · rw [dfs, List.map_flatMap, List.flatMap_def, List.sum_flatten, List.map_map]
      have : ((List.finRange (2 ^ D)).map (List.sum ∘ fun i =>
          (dfs (subdivide classify n (e.child i) (w / 2 ^ D)) (i :: p)).map fun x => x.2.weight))
          = (List.finRange (2 ^ D)).map fun _ => w / 2 ^ D := List.map_congr_left fun i _ => ih _ _ _
      rw [this]
      simp only [List.map_const', List.length_finRange, List.sum_replicate, nsmul_eq_mul, Nat.cast_pow, Nat.cast_ofNat]
      field_simp
    · simp [dfs]

theorem leafCells_weight [CharZero K] (classify : Box D K → CellType × Bool) (n : ℕ) (e : Box D K) (w : K) :
    ((subdivide classify n e w).leafCells.map fun x => x.2.weight).sum = w := by
  rw [((leafCells_perm _).map _).sum_eq, dfs_weight]

/-- The box at the end of a path (from the top). -/
def boxBelow (e : Box D K) : List (Fin (2 ^ D)) → Box D K
  | [] => e
  | i :: p => boxBelow (e.child i) p

theorem boxBelow_append (e : Box D K) (p : List (Fin (2 ^ D))) (i : Fin (2 ^ D)) :
    boxBelow e (p ++ [i]) = (boxBelow e p).child i := by
  induction p generalizing e with
  | nil => rfl
  | cons j p ih => exact ih _

theorem refBox_eq (g : Grid D K) (p : List (Fin (2 ^ D))) (top : ℤ) : refBox g p top = boxBelow (gridBox g top) p.reverse := by
  induction p with
  | nil => rfl
  | cons i p ih => rw [refBox, ih, List.reverse_cons, boxBelow_append]

theorem leaf_data (classify : Box D K → CellType × Bool) (n : ℕ) (e : Box D K) (w : K) (p : List (Fin (2 ^ D)))
    (d : CellData K) (h : LeafAt (subdivide classify n e w) p d) :
    d.weight = w / (2 ^ D) ^ p.length ∧ d.type = (classify (boxBelow e p)).1 ∧ p.length ≤ n ∧
      (p.length < n → (classify (boxBelow e p)).2 = false) := by
  induction n generalizing e w p with
  | zero =>
    rw [subdivide] at h
    obtain ⟨rfl, rfl⟩ := leafAt_leaf.mp h
    simp [boxBelow]
  | succ n ih =>
    rw [subdivide] at h
    split_ifs at h with hc
    · obtain ⟨i, q, rfl, hq⟩ := leafAt_node.mp h
      obtain ⟨h1, h2, h3, h4⟩ := ih _ _ _ hq
      refine ⟨?_, h2, by simpa using h3, fun hl => h4 (by simpa using hl)⟩
      rw [h1, List.length_cons, pow_succ]
      rw [div_div, mul_comm]
    · obtain ⟨rfl, rfl⟩ := leafAt_leaf.mp h
      simpa [boxBelow] using hc

theorem boxBelow_volume (e : Box D K) (p : List (Fin (2 ^ D))) :
    boxVolume (boxBelow e p) = boxVolume e / (2 ^ D) ^ p.length := by
  induction p generalizing e with
  | nil => simp [boxBelow]
  | cons i p ih =>
    rw [boxBelow, ih]
    have : boxVolume (e.child i) = boxVolume e / 2 ^ D := by
      simp only [boxVolume, Box.child, div_eq_mul_inv, Finset.prod_mul_distrib, Finset.prod_const, Finset.card_univ,
        Fintype.card_fin, inv_pow]
    rw [this, List.length_cons, pow_succ, div_div, mul_comm]

variable [LinearOrder K] [IsStrictOrderedRing K]

theorem child_lower (h : Is23 D) (e : Box D K) (i : Fin (2 ^ D)) (a : Fin D) :
    lower (e.child i) a = lower e a + (subcellCoordinates D i a : K) * (e.size a / 2) := by
  simp only [lower, Box.child, Box.world, center_eq h]; ring

theorem child_upper (h : Is23 D) (e : Box D K) (i : Fin (2 ^ D)) (a : Fin D) :
    upper (e.child i) a = lower e a + ((subcellCoordinates D i a : K) + 1) * (e.size a / 2) := by
  simp only [lower, upper, Box.child, Box.world, center_eq h]; ring

theorem child_cover (h : Is23 D) (e : Box D K) (x : Fin D → K) (hx : InCellBox e x) : ∃ i, InCellBox (e.child i) x := by
  refine ⟨subcellIndex D fun a => if x a ≤ e.center a then 0 else 1, fun a => ?_⟩
  rw [child_lower h, child_upper h, sub_index h _ fun a => by split <;> simp]
  obtain ⟨h1, h2⟩ := hx a
  simp only [lower, upper] at h1 h2 ⊢
  split_ifs with hc
  · constructor <;> push_cast <;> linarith
  · push Not at hc; constructor <;> push_cast <;> linarith

theorem child_subset (h : Is23 D) (e : Box D K) (he : ∀ a, 0 ≤ e.size a) (i : Fin (2 ^ D)) (a : Fin D) :
    lower e a ≤ lower (e.child i) a ∧ upper (e.child i) a ≤ upper e a := by
  have hu : upper e a = lower e a + e.size a := by simp only [lower, upper]; ring
  rw [child_lower h, child_upper h, hu]
  have := he a
  rcases sub01 h i a with e0 | e0 <;> rw [e0] <;> push_cast <;> constructor <;> linarith

theorem child_disjoint (h : Is23 D) (e : Box D K) {i j : Fin (2 ^ D)} (hij : i ≠ j) (x : Fin D → K)
    (hi : InsideBox (e.child i) x) : ¬ InsideBox (e.child j) x := by
  intro hj
  apply hij
  refine sub_inj h fun a => ?_
  have h1 := hi a
  have h2 := hj a
  rw [child_lower h, child_upper h] at h1 h2
  rcases sub01 h i a with e1 | e1 <;> rcases sub01 h j a with e2 | e2 <;> rw [e1] at h1 ⊢ <;> rw [e2] at h2 ⊢ <;>
    push_cast at h1 h2 <;> exfalso <;> linarith [h1.1, h1.2, h2.1, h2.2]

theorem boxBelow_subset (h : Is23 D) (e : Box D K) (he : ∀ a, 0 ≤ e.size a) (p : List (Fin (2 ^ D))) (a : Fin D) :
    lower e a ≤ lower (boxBelow e p) a ∧ upper (boxBelow e p) a ≤ upper e a := by
  induction p generalizing e with
  | nil => exact ⟨le_rfl, le_rfl⟩
  | cons i p ih =>
    have h1 := child_subset h e he i a
    have h2 := ih (e.child i) (fun b => by have := he b; simp only [Box.child]; linarith)
    exact ⟨h1.1.trans h2.1, h2.2.trans h1.2⟩

theorem leaf_cover (h : Is23 D) (t : CellTree D α) (e : Box D K) (x : Fin D → K) (hx : InCellBox e x) :
    ∃ p d, LeafAt t p d ∧ InCellBox (boxBelow e p) x := by
  induction t generalizing e with
  | leaf d => exact ⟨[], d, .here _, hx⟩
  | node ch ih =>
    obtain ⟨i, hi⟩ := child_cover h e x hx
    obtain ⟨p, d, hl, hb⟩ := ih i (e.child i) hi
    exact ⟨i :: p, d, .child _ _ _ _ hl, hb⟩

theorem leaf_disjoint (h : Is23 D) (t : CellTree D α) (e : Box D K) (he : ∀ a, 0 ≤ e.size a) (p q : List (Fin (2 ^ D))) (d d' : α)
    (hp : LeafAt t p d) (hq : LeafAt t q d') (hne : p ≠ q) (x : Fin D → K) (hx : InsideBox (boxBelow e p) x) :
    ¬ InsideBox (boxBelow e q) x := by
  induction t generalizing e p q with
  | leaf d0 =>
    obtain ⟨rfl, _⟩ := leafAt_leaf.mp hp
    obtain ⟨rfl, _⟩ := leafAt_leaf.mp hq
    exact absurd rfl hne
  | node ch ih =>
    obtain ⟨i, p', rfl, hp'⟩ := leafAt_node.mp hp
    obtain ⟨j, q', rfl, hq'⟩ := leafAt_node.mp hq
    have hc : ∀ k, ∀ a, 0 ≤ (e.child k).size a := fun k b => by have := he b; simp only [Box.child]; linarith
    by_cases hij : i = j
    · subst hij
      exact ih i (e.child i) (hc i) p' q' hp' hq' (fun h' => hne (by rw [h'])) hx
    · intro hx'
      refine child_disjoint h e hij x ?_ ?_
      · intro a
        have := boxBelow_subset h (e.child i) (hc i) p' a
        exact ⟨this.1.trans_lt (hx a).1, (hx a).2.trans_le this.2⟩
      · intro a
        have := boxBelow_subset h (e.child j) (hc j) q' a
        exact ⟨this.1.trans_lt (hx' a).1, (hx' a).2.trans_le this.2⟩

end Field

end Caribou.FictitiousGrid
