import Verif.Model.DocInventory
import Verif.Spec.DocInventory

/-!
# Property C163: the inventory of the documentation
-/

set_option autoImplicit false
set_option linter.all false

namespace Caribou

open Spec

theorem readLines_line (a r : List Char) (ha : '\n' ∉ a) : ∀ cur, readLines cur (a ++ '\n' :: r) = (cur.reverse ++ a) :: readLines [] r := by
  induction a with
  | nil => intro cur; simp [readLines]
  | cons c a ih =>
    intro cur
    have hc : c ≠ '\n' := fun h => ha (by simp [h])
    have := ih (fun h => ha (List.mem_cons_of_mem _ h)) (c :: cur)
    simp only [List.cons_append, readLines, if_neg hc, this, List.reverse_cons, List.append_assoc, List.singleton_append]
    simp

theorem readField_sep (a r : List Char) (ha : ' ' ∉ a) (hr : r.head? ≠ some ' ') : readField (a ++ ' ' :: r) = (a, r) := by
  have h1 : ∀ c ∈ a, decide (c ≠ ' ') = true := by
    intro c hc
    simp only [decide_eq_true_eq]
    rintro rfl
    exact ha hc
  simp only [readField]
  rw [List.takeWhile_append_of_pos h1, List.dropWhile_append_of_pos h1]
  simp only [List.takeWhile_cons, List.dropWhile_cons]
  cases r with
  | nil => simp
  | cons x r =>
    have : x ≠ ' ' := by simpa using hr
    simp [List.dropWhile_cons, this]

theorem readItem_line (name role prio uri disp : List Char) (h1 : ' ' ∉ name) (h2 : ' ' ∉ role) (h3 : ' ' ∉ prio) (h4 : ' ' ∉ uri)
    (n1 : name ≠ []) (n2 : role ≠ []) (n3 : prio ≠ []) (n4 : uri ≠ []) (n5 : disp ≠ []) (hh : disp.head? ≠ some ' ') (hl : disp.getLast? ≠ some ' ') :
    readItem (name ++ ' ' :: (role ++ ' ' :: (prio ++ ' ' :: (uri ++ ' ' :: disp)))) =
      some ⟨name, role, prio, uri, if disp = ['-'] then name else disp⟩ := by
  have hd : ∀ (a r : List Char), ' ' ∉ a → a ≠ [] → (a ++ r).head? ≠ some ' ' := by
    intro a r ha hn
    cases a with
    | nil => exact absurd rfl hn
    | cons c a =>
      simp only [List.cons_append, List.head?_cons, ne_eq, Option.some.injEq]
      rintro rfl
      exact ha (by simp)
  have hstrip : ∀ l : List Char, List.rdropWhile (fun c => decide (c = ' ')) (l ++ disp) = l ++ disp := by
    intro l
    rw [List.rdropWhile_eq_self_iff]
    intro hne h
    apply hl
    rw [List.getLast_append_of_ne_nil _ n5] at h
    rw [List.getLast?_eq_some_getLast n5]
    simpa using h
  have hs := hstrip (name ++ ' ' :: (role ++ ' ' :: (prio ++ ' ' :: (uri ++ [' ']))))
  simp only [List.append_assoc, List.cons_append, List.nil_append] at hs
  simp only [readItem, hs]
  rw [readField_sep name _ h1 (hd _ _ h2 n2)]
  simp only
  rw [readField_sep role _ h2 (hd _ _ h3 n3)]
  simp only
  rw [readField_sep prio _ h3 (hd _ _ h4 n4)]
  simp only
  rw [readField_sep uri _ h4 hh]
  simp [n1, n2, n3, n4, n5]

/-- **C163**: whatever compounds Doxygen found, reading the inventory gives, in their order, exactly the classes and structures among them: the name without spaces, the domain of
the language, the page, and the name with its spaces as the text of the link. -/
theorem C163 (l : List DoxCompound)
    (hid : ∀ c ∈ l, ' ' ∉ c.id ∧ '\n' ∉ c.id)
    (hname : ∀ c ∈ l, '\n' ∉ c.compoundname ∧ (∃ x ∈ c.compoundname, x ≠ ' ') ∧ c.compoundname.head? ≠ some ' ' ∧ c.compoundname.getLast? ≠ some ' ') :
    readInventory (inventoryLines l) = (l.filter fun c => decide (c.kind = "class" ∨ c.kind = "struct")).map fun c =>
      ⟨c.compoundname.filter (fun x => decide (x ≠ ' ')), (match c.language with | .cpp => "cpp:class".toList | .python => "python:class".toList), "1".toList,
        c.id ++ ".html".toList, c.compoundname⟩ := by
  induction l with
  | nil => rfl
  | cons c l ih =>
    have ih' := ih (fun d hd => hid d (List.mem_cons_of_mem _ hd)) (fun d hd => hname d (List.mem_cons_of_mem _ hd))
    obtain ⟨i1, i2⟩ := hid c (by simp)
    obtain ⟨n1, ⟨x, hx, hxs⟩, n3, n4⟩ := hname c (by simp)
    by_cases hk : c.kind = "class" ∨ c.kind = "struct"
    · have hrole : sphinxDomain c.language ++ [':', 'c', 'l', 'a', 's', 's'] =
          (match c.language with | .cpp => "cpp:class".toList | .python => "python:class".toList) := by
        cases c.language <;> decide
      have hrs : ' ' ∉ sphinxDomain c.language ++ [':', 'c', 'l', 'a', 's', 's'] := by cases c.language <;> decide
      have hrn : '\n' ∉ sphinxDomain c.language ++ [':', 'c', 'l', 'a', 's', 's'] := by cases c.language <;> decide
      have hne : c.compoundname ≠ [] := by rintro h; rw [h] at hx; cases hx
      set name := c.compoundname.filter (fun x => decide (x ≠ ' ')) with hnm
      set disp := (if c.compoundname = name then ['-'] else c.compoundname) with hdp
      have hns : ' ' ∉ name := by simp [hnm]
      have hnn : '\n' ∉ name := fun h => n1 (List.mem_filter.1 h).1
      have hn0 : name ≠ [] := List.ne_nil_of_mem (List.mem_filter.2 ⟨hx, by simpa using hxs⟩)
      have hd0 : disp ≠ [] := by rw [hdp]; split_ifs <;> simp [hne]
      have hdn : '\n' ∉ disp := by rw [hdp]; split_ifs; · decide
                                   · exact n1
      have hdh : disp.head? ≠ some ' ' := by rw [hdp]; split_ifs; · decide
                                             · exact n3
      have hdl : disp.getLast? ≠ some ' ' := by rw [hdp]; split_ifs; · decide
                                                · exact n4
      have hshown : (if disp = ['-'] then name else disp) = c.compoundname := by
        by_cases hcn : c.compoundname = name
        · rw [hdp, if_pos hcn, if_pos rfl, ← hcn]
        · rw [hdp, if_neg hcn, if_neg]
          intro h
          apply hcn
          rw [hnm, h]
          decide
      have hline : inventoryLines (c :: l) = (name ++ ' ' :: ((sphinxDomain c.language ++ [':', 'c', 'l', 'a', 's', 's']) ++ ' ' :: (['1'] ++ ' ' ::
          ((c.id ++ ['.', 'h', 't', 'm', 'l']) ++ ' ' :: disp)))) ++ '\n' :: inventoryLines l := by
        have hk' : c.kind ∈ ["class", "struct"] := by simpa using hk
        simp only [inventoryLines, inventoryEntry, if_pos hk', ← hnm, ← hdp]
        simp only [List.append_assoc, List.cons_append, List.nil_append]
      have hnl : '\n' ∉ (name ++ ' ' :: ((sphinxDomain c.language ++ [':', 'c', 'l', 'a', 's', 's']) ++ ' ' :: (['1'] ++ ' ' ::
          ((c.id ++ ['.', 'h', 't', 'm', 'l']) ++ ' ' :: disp)))) := by
        intro h
        rcases List.mem_append.1 h with h | h
        · exact hnn h
        rcases List.mem_cons.1 h with h | h
        · exact absurd h (by decide)
        rcases List.mem_append.1 h with h | h
        · exact hrn h
        rcases List.mem_cons.1 h with h | h
        · exact absurd h (by decide)
        rcases List.mem_append.1 h with h | h
        · exact absurd h (by decide)
        rcases List.mem_cons.1 h with h | h
        · exact absurd h (by decide)
        rcases List.mem_append.1 h with h | h
        · rcases List.mem_append.1 h with h | h
          · exact i2 h
          · exact absurd h (by decide)
        rcases List.mem_cons.1 h with h | h
        · exact absurd h (by decide)
        · exact hdn h
      have huri : ' ' ∉ c.id ++ ['.', 'h', 't', 'm', 'l'] := by
        intro h
        rcases List.mem_append.1 h with h | h
        · exact i1 h
        · exact absurd h (by decide)
      have hitem := readItem_line name _ ['1'] _ disp hns hrs (by decide) huri hn0 (by simp) (by simp) (by simp) hd0 hdh hdl
      rw [hshown] at hitem
      unfold readInventory at ih' ⊢
      rw [hline, readLines_line _ _ hnl, List.filterMap_cons, List.reverse_nil, List.nil_append, hitem, List.filter_cons, if_pos (by simpa using hk), List.map_cons]
      simp only
      rw [ih', hrole]
      rfl
    · have hk' : c.kind ∉ ["class", "struct"] := by simpa using hk
      have : inventoryLines (c :: l) = inventoryLines l := by
        simp only [inventoryLines, inventoryEntry, if_neg hk', List.nil_append]
      rw [this, ih', List.filter_cons, if_neg (by simpa using hk)]

/-- A template of the documentation. -/
example : readInventory (inventoryLines [⟨"structA".toList, "struct", .cpp, "caribou::A< B, 3 >".toList⟩, ⟨"dir".toList, "dir", .cpp, "x".toList⟩,
      ⟨"classB".toList, "class", .cpp, "caribou::B".toList⟩]) =
    [⟨"caribou::A<B,3>".toList, "cpp:class".toList, "1".toList, "structA.html".toList, "caribou::A< B, 3 >".toList⟩,
      ⟨"caribou::B".toList, "cpp:class".toList, "1".toList, "classB.html".toList, "caribou::B".toList⟩] := by
  decide +kernel

/-- The hypotheses on the template. -/
example : (' ' ∉ "structA".toList ∧ '\n' ∉ "structA".toList) ∧ '\n' ∉ "caribou::A< B, 3 >".toList ∧ (∃ x ∈ "caribou::A< B, 3 >".toList, x ≠ ' ') ∧
    "caribou::A< B, 3 >".toList.head? ≠ some ' ' ∧ "caribou::A< B, 3 >".toList.getLast? ≠ some ' ' := by
  decide +kernel

end Caribou
