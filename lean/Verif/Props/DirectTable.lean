import Verif.Spec.DirectTable
import Mathlib.Data.List.Forall2

/-!
# Property C159: the tables of the direct solvers show the durations of their Newton iterations
-/

set_option autoImplicit false
set_option linter.all false

namespace Caribou

open Spec

theorem columnAdd_new (name : String) (v : TableCell) (cs : List (String × List TableCell)) (h : name ∉ cs.map (·.1)) :
    columnAdd name v cs = cs ++ [(name, [v])] := by
  induction cs with
  | nil => rfl
  | cons c cs ih =>
    simp only [List.map_cons, List.mem_cons, not_or] at h
    simp only [columnAdd, if_neg (Ne.symm h.1), ih h.2, List.cons_append]

theorem columnAdd_last (name : String) (v : TableCell) (l : List TableCell) (cs : List (String × List TableCell))
    (h : name ∉ cs.map (·.1)) : columnAdd name v (cs ++ [(name, l)]) = cs ++ [(name, l ++ [v])] := by
  induction cs with
  | nil => simp [columnAdd]
  | cons c cs ih =>
    simp only [List.map_cons, List.mem_cons, not_or] at h
    simp only [List.cons_append, columnAdd, if_neg (Ne.symm h.1), ih h.2]

theorem columnValues_last (name : String) (vs : List TableCell) : ∀ (l : List TableCell) (cs : List (String × List TableCell)),
    name ∉ cs.map (·.1) → columnValues name vs (cs ++ [(name, l)]) = cs ++ [(name, l ++ vs)] := by
  induction vs with
  | nil => intro l cs h; simp [columnValues]
  | cons v vs ih =>
    intro l cs h
    simp only [columnValues, columnAdd_last name v l cs h, ih _ cs h, List.append_assoc, List.singleton_append]

theorem columnValues_new (name : String) (vs : List TableCell) (hv : vs ≠ []) (cs : List (String × List TableCell))
    (h : name ∉ cs.map (·.1)) : columnValues name vs cs = cs ++ [(name, vs)] := by
  cases vs with
  | nil => exact absurd rfl hv
  | cons v vs => simp only [columnValues, columnAdd_new name v cs h, columnValues_last name vs [v] cs h, List.singleton_append]

theorem columnsOf_append (ms : List (String × List TableCell)) : ∀ cs : List (String × List TableCell),
    ((cs ++ ms).map (·.1)).Nodup → (∀ m ∈ ms, m.2 ≠ []) → columnsOf ms cs = cs ++ ms := by
  induction ms with
  | nil => intro cs _ _; simp [columnsOf]
  | cons m ms ih =>
    intro cs hn hv
    have hm : m.1 ∉ cs.map (·.1) := by
      intro hmem
      rw [List.map_append, List.map_cons] at hn
      exact (List.nodup_append.1 hn).2.2 _ hmem _ List.mem_cons_self rfl
    simp only [columnsOf, columnValues_new m.1 m.2 (hv m List.mem_cons_self) cs hm]
    rw [ih (cs ++ [m]) (by simpa using hn) fun m' h' => hv m' (List.mem_cons_of_mem _ h')]
    simp

theorem filter_stops (l : List DirectRow) (h : l.Pairwise fun x y => completeRow y = true → completeRow x = true) : ∀ it : ℕ,
    (l.filter completeRow)[it]? = (l[it]?).filter completeRow := by
  induction l with
  | nil => intro it; simp
  | cons a l ih =>
    intro it
    rw [List.pairwise_cons] at h
    by_cases ha : completeRow a = true
    · rw [List.filter_cons_of_pos ha]
      cases it with
      | zero => simp [Option.filter, ha]
      | succ it => simpa using ih h.2 it
    · have hl : l.filter completeRow = [] := by
        rw [List.filter_eq_nil_iff]
        exact fun y hy hc => ha (h.1 y hy hc)
      rw [List.filter_cons_of_neg ha, hl]
      cases it with
      | zero => simp [Option.filter, ha]
      | succ it =>
        rw [List.getElem?_cons_succ]
        cases hi : l[it]? with
        | none => simp
        | some y =>
          have hy : ¬completeRow y = true := fun hc => ha (h.1 y (List.mem_of_getElem? hi) hc)
          simp [Option.filter, hy]

/-- The cells of a record. -/
def directCells (r : DirectRecord) : List TableCell := ((iterationsOf r).filter completeRow).map fun r => durationCell r.total

theorem directSteps_stops (guarded : Bool) (r : DirectRecord) (h : Stops r) : directSteps guarded r = some (directCells r) ∧ directCells r ≠ [] := by
  obtain ⟨a, b, l, rfl, ha, -⟩ := h
  refine ⟨rfl, ?_⟩
  simp [directCells, iterationsOf, ha]

theorem directCells_get (r : DirectRecord) (h : Stops r) (it : ℕ) :
    (directCells r)[it]? = (((iterationsOf r)[it]?).filter completeRow).map fun r => durationCell r.total := by
  obtain ⟨a, b, l, rfl, -, hp⟩ := h
  simp only [directCells, iterationsOf, List.getElem?_map, filter_stops _ hp]

theorem foldl_max_lt (ms : List (String × List TableCell)) : ∀ (n it : ℕ),
    it < ms.foldl (fun n m => max n m.2.length) n ↔ it < n ∨ ∃ m ∈ ms, it < m.2.length := by
  induction ms with
  | nil => intro n it; simp
  | cons m ms ih =>
    intro n it
    rw [List.foldl_cons, ih, lt_max_iff]
    simp only [List.mem_cons, exists_eq_or_imp]
    tauto

theorem mapM_stops (guarded : Bool) (records : List (String × DirectRecord)) (h : ∀ m ∈ records, Stops m.2) :
    (records.mapM fun (m : String × DirectRecord) => (directSteps guarded m.2).map fun l => (m.1, l)) =
      some (records.map fun m => (m.1, directCells m.2)) := by
  induction records with
  | nil => rfl
  | cons m ms ih =>
    rw [List.mapM_cons, ih fun m' h' => h m' (List.mem_cons_of_mem _ h'), (directSteps_stops guarded m.2 (h m List.mem_cons_self)).1]
    rfl

/-- **C159** (partial): if the methods have different names, and each has made several iterations and has stopped after one which did not come
to the linear solve, both scripts print the table with the durations of all iterations.  Missing: methods which needed one iteration
or none (`C159_violated`). -/
theorem C159_partial (guarded : Bool) (records : List (String × DirectRecord)) (hn : (records.map (·.1)).Nodup)
    (h : ∀ m ∈ records, Stops m.2) : ∃ table, directTable guarded records = some table ∧ IsDirectTable records table := by
  have hcols : columnsOf (records.map fun m => (m.1, directCells m.2)) [] = records.map fun m => (m.1, directCells m.2) := by
    rw [columnsOf_append _ [] (by simpa [List.map_map, Function.comp_def] using hn)]
    · rfl
    · intro m hm
      obtain ⟨m', hm', rfl⟩ := List.mem_map.1 hm
      exact (directSteps_stops guarded m'.2 (h m' hm')).2
  refine ⟨_, by rw [directTable, mapM_stops guarded records h]; rfl, ?_, ?_, ?_⟩
  · simp only [printTable, hcols, List.map_map, Function.comp_def]
  · intro it
    simp only [printTable, List.length_map, List.length_range, foldl_max_lt, Nat.not_lt_zero, false_or, List.mem_map]
    constructor
    · rintro ⟨_, ⟨m, hm, rfl⟩, hlt⟩
      refine ⟨m, hm, ?_⟩
      have := directCells_get m.2 (h m hm) it
      rw [List.getElem?_eq_getElem hlt] at this
      cases hi : (iterationsOf m.2)[it]? with
      | none => rw [hi] at this; simp at this
      | some row =>
        rw [hi] at this
        refine ⟨row, rfl, ?_⟩
        by_contra hc
        simp [Option.filter, hc] at this
    · rintro ⟨m, hm, row, hi, hc⟩
      refine ⟨_, ⟨m, hm, rfl⟩, ?_⟩
      have := directCells_get m.2 (h m hm) it
      rw [hi] at this
      simp only [Option.filter, hc, if_true, Option.map_some] at this
      exact (List.getElem?_eq_some_iff.1 this).1
  · intro it line hline
    simp only [printTable, hcols, List.getElem?_map, Option.map_eq_some_iff] at hline
    obtain ⟨i, hi, rfl⟩ := hline
    obtain ⟨-, rfl⟩ : i < _ ∧ i = it := by
      have := List.getElem?_eq_some_iff.1 hi
      obtain ⟨h1, h2⟩ := this
      rw [List.getElem_range] at h2
      exact ⟨by rw [← h2]; simpa using h1, h2.symm⟩
    rw [List.map_map, List.forall₂_map_right_iff, List.forall₂_same]
    intro m hm
    have hg := directCells_get m.2 (h m hm) i
    have hcell : (if i ≥ (directCells m.2).length then TableCell.dash else (directCells m.2).getD i .dash) = ((directCells m.2)[i]?).getD .dash := by
      split_ifs with hge
      · rw [List.getElem?_eq_none hge]; rfl
      · rw [List.getD_eq_getElem?_getD]
    simp only [Function.comp, hcell, hg]
    unfold ExpectedCell
    cases (iterationsOf m.2)[i]? with
    | none => rfl
    | some row =>
      refine ⟨fun hc => by simp [Option.filter, hc], fun hc => ?_⟩
      simp only [Option.filter, hc, if_true, Option.map_some, Option.getD_some, durationCell]
      exact ⟨fun hlt => by rw [if_pos hlt], fun hle => by rw [if_neg (not_lt.2 hle)]⟩

/-- **C159 is violated.** A method which needed a single iteration has no column, in both scripts and whatever the other methods are; without
iteration the script of the beam raises an exception. -/
theorem C159_violated (guarded : Bool) (name : String) (row : DirectRow) (hr : completeRow row = true) :
    (directTable guarded [(name, .rows [row])] = some ([], []) ∧ ¬IsDirectTable [(name, .rows [row])] ([], [])) ∧
    (∀ records : List (String × DirectRecord), (∀ m ∈ records, m.1 ≠ name ∧ Stops m.2) → (records.map (·.1)).Nodup →
      ∃ table, directTable guarded ((name, .rows [row]) :: records) = some table ∧ name ∉ table.1) ∧
    directTable false [(name, .rows [])] = none := by
  refine ⟨⟨rfl, fun h => by simpa using h.1⟩, fun records hrec hn => ?_, rfl⟩
  have hm := mapM_stops guarded records fun m hm => (hrec m hm).2
  refine ⟨printTable ((name, []) :: records.map fun m => (m.1, directCells m.2)), ?_, ?_⟩
  · rw [directTable, List.mapM_cons, hm]; rfl
  · simp only [printTable, columnsOf, columnValues]
    rw [columnsOf_append _ [] (by simpa [List.map_map, Function.comp_def] using hn)]
    · simp only [List.nil_append, List.map_map, Function.comp_def, List.mem_map, not_exists, not_and]
      exact fun m hm => (hrec m hm).1
    · intro m hm
      obtain ⟨m', hm', rfl⟩ := List.mem_map.1 hm
      exact (directSteps_stops guarded m'.2 (hrec m' hm').2).2

/-- Two methods; the second one diverges in its third iteration, and one of its iterations is very short. -/
def twoSolvers : List (String × DirectRecord) :=
  [("LLTEigen", .rows [⟨true, true, 3⟩, ⟨true, true, 2⟩, ⟨true, true, 1⟩]),
    ("LLTSofa", .rows [⟨true, true, 5⟩, ⟨true, true, 1 / 100000⟩, ⟨true, false, 1⟩])]

example : ∃ table, directTable false twoSolvers = some table ∧ IsDirectTable twoSolvers table := by
  refine C159_partial false twoSolvers (by decide) fun m hm => ?_
  simp only [twoSolvers, List.mem_cons, List.not_mem_nil, or_false] at hm
  rcases hm with rfl | rfl
  · exact ⟨_, _, _, rfl, rfl, by simp [completeRow]⟩
  · exact ⟨_, _, _, rfl, rfl, by simp [completeRow]⟩

/-- The table of these methods. -/
example : directTable false twoSolvers = some (["LLTEigen", "LLTSofa"], [[.number 3, .number 5], [.number 2, .zero], [.number 1, .dash]]) := by
  decide +kernel

/-- A single iteration which came to the linear solve. -/
example : completeRow ⟨true, true, 7⟩ = true := rfl

end Caribou
