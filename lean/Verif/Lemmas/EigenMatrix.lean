import Verif.Spec.EigenMatrix
import Mathlib.Data.List.Basic
import Mathlib.Data.List.GetD
import Mathlib.Tactic.Ring
import Mathlib.Tactic.NormNum
import Mathlib.Algebra.BigOperators.Group.List.Basic

set_option autoImplicit false
set_option linter.all false

namespace Caribou

variable {K : Type*} [Ring K]

@[simp] theorem slotValue_nil (k : ℕ) : slotValue ([] : List (Slot K)) k = 0 := rfl

theorem slotValue_cons (s : Slot K) (l : List (Slot K)) (k : ℕ) :
    slotValue (s :: l) k = if s.1 = k then s.2 else slotValue l k := by
  unfold slotValue
  rw [List.find?_cons]
  by_cases h : s.1 = k
  · simp [h]
  · simp [h, beq_eq_false_iff_ne.mpr h]

theorem slotValue_not_mem {l : List (Slot K)} {k : ℕ} (h : ∀ s ∈ l, s.1 ≠ k) : slotValue l k = 0 := by
  induction l with
  | nil => rfl
  | cons s l ih =>
    rw [slotValue_cons, if_neg (h s (by simp)), ih fun t ht => h t (by simp [ht])]

theorem slotValue_map (l : List (Slot K)) (k k' : ℕ) (f : K → K) :
    slotValue (l.map fun s => if s.1 = k then (s.1, f s.2) else s) k' =
      if k' = k ∧ ∃ s ∈ l, s.1 = k then f (slotValue l k) else slotValue l k' := by
  induction l with
  | nil => simp
  | cons s l ih =>
    rw [List.map_cons, slotValue_cons, slotValue_cons, slotValue_cons, ih]
    by_cases h : s.1 = k
    · by_cases hk : k' = k
      · subst hk; simp [h]
      · have : s.1 ≠ k' := fun e => hk (e.symm.trans h)
        rw [if_pos h, if_neg this, if_neg (fun e => hk e.1), if_neg (fun e => hk e.1), if_neg this]
    · by_cases hk : k' = k
      · subst hk
        rw [if_neg h, if_neg h]
        refine if_congr (and_congr_right fun _ => ?_) (by rw [if_neg h]) (by rw [if_neg h])
        simp [h]
      · by_cases h' : s.1 = k' <;> simp [h, hk, h']

theorem slotValue_mapZero (l : List (Slot K)) (P : ℕ → Prop) [DecidablePred P] (k' : ℕ) :
    slotValue (l.map fun s => if P s.1 then (s.1, 0) else s) k' = if P k' then 0 else slotValue l k' := by
  induction l with
  | nil => simp
  | cons s l ih =>
    rw [List.map_cons, slotValue_cons, slotValue_cons, ih]
    by_cases h : s.1 = k'
    · subst h
      by_cases hp : P s.1 <;> simp [hp]
    · by_cases hp : P s.1 <;> simp [hp, h]

theorem slotValue_insert (l : List (Slot K)) (k k' : ℕ) (v : K) (h : ∀ s ∈ l, s.1 ≠ k) :
    slotValue (insertSlot (k, v) l) k' = if k' = k then v else slotValue l k' := by
  induction l with
  | nil => rw [insertSlot, slotValue_cons]; exact if_congr eq_comm rfl rfl
  | cons s l ih =>
    rw [insertSlot]
    split_ifs with h1 h2 h2
    · subst h2; rw [slotValue_cons]; simp
    · rw [slotValue_cons, if_neg fun e => h2 e.symm]
    · subst h2
      rw [slotValue_cons, if_neg (h s (by simp)), ih fun t ht => h t (by simp [ht])]; simp
    · rw [slotValue_cons, slotValue_cons, ih fun t ht => h t (by simp [ht]), if_neg h2]

/-- Sorted by inner index. -/
def SortedSlots (l : List (Slot K)) : Prop := l.Pairwise fun s t => s.1 < t.1

theorem mem_insertSlot (s t : Slot K) (l : List (Slot K)) : t ∈ insertSlot s l ↔ t = s ∨ t ∈ l := by
  induction l with
  | nil => simp [insertSlot]
  | cons a l ih =>
    rw [insertSlot]
    split_ifs
    · simp
    · simp only [List.mem_cons, ih]; tauto

theorem sorted_insert {l : List (Slot K)} (h : SortedSlots l) (k : ℕ) (v : K) (hk : ∀ s ∈ l, s.1 ≠ k) :
    SortedSlots (insertSlot (k, v) l) := by
  induction l with
  | nil => simp [insertSlot, SortedSlots]
  | cons a l ih =>
    have h' := List.pairwise_cons.mp h
    rw [insertSlot]
    split_ifs with hlt
    · refine List.pairwise_cons.mpr ⟨fun t ht => ?_, h⟩
      rcases List.mem_cons.mp ht with e | e
      · subst e; exact hlt
      · exact lt_trans hlt (h'.1 t e)
    · refine List.pairwise_cons.mpr ⟨fun t ht => ?_, ih h'.2 fun s hs => hk s (by simp [hs])⟩
      rcases (mem_insertSlot _ _ _).mp ht with e | e
      · subst e
        have := hk a (by simp)
        simp only at hlt ⊢
        omega
      · exact h'.1 t e

theorem sorted_map {l : List (Slot K)} (h : SortedSlots l) (f : Slot K → Slot K) (hf : ∀ s, (f s).1 = s.1) :
    SortedSlots (l.map f) := by
  unfold SortedSlots
  rw [List.pairwise_map]
  exact h.imp fun {a b} hab => by rw [hf, hf]; exact hab

/-- The inner index of a slot. -/
def keyAt (l : List (Slot K)) (i : ℕ) : ℕ := (l[i]?.map Prod.fst).getD 0

theorem keyAt_mono {l : List (Slot K)} (h : SortedSlots l) {i j : ℕ} (hij : i < j) (hj : j < l.length) :
    keyAt l i < keyAt l j := by
  unfold keyAt
  rw [List.getElem?_eq_getElem (hij.trans hj), List.getElem?_eq_getElem hj]
  exact List.pairwise_iff_getElem.mp h i j (hij.trans hj) hj hij

theorem searchLower_spec {l : List (Slot K)} (h : SortedSlots l) (key : ℕ) (fuel : ℕ) :
    ∀ start stop, start ≤ stop → stop ≤ l.length → stop - start ≤ fuel →
      start ≤ searchLower l key fuel start stop ∧ searchLower l key fuel start stop ≤ stop ∧
      (∀ i, start ≤ i → i < searchLower l key fuel start stop → keyAt l i < key) ∧
      ∀ i, searchLower l key fuel start stop ≤ i → i < stop → key ≤ keyAt l i := by
  induction fuel with
  | zero =>
    intro start stop h1 h2 h3
    rw [searchLower]
    refine ⟨le_refl _, h1, fun i a b => by omega, fun i a b => by omega⟩
  | succ n ih =>
    intro start stop h1 h2 h3
    rw [searchLower]
    by_cases hlt : start < stop
    · rw [if_pos hlt]
      simp only []
      have hm1 : start ≤ (stop + start) / 2 := by omega
      have hm2 : (stop + start) / 2 < stop := by omega
      generalize (stop + start) / 2 = mid at *
      by_cases hk : ((l[mid]?.map Prod.fst).getD 0) < key
      · rw [if_pos hk]
        obtain ⟨a, b, c, d⟩ := ih (mid + 1) stop (by omega) h2 (by omega)
        refine ⟨by omega, b, fun i hi hi' => ?_, d⟩
        by_cases him : i ≤ mid
        · rcases Nat.lt_or_eq_of_le him with hx | hx
          · exact lt_trans (keyAt_mono h hx (by omega)) hk
          · subst hx; exact hk
        · exact c i (by omega) hi'
      · rw [if_neg hk]
        obtain ⟨a, b, c, d⟩ := ih start mid (by omega) (by omega) (by omega)
        refine ⟨a, by omega, c, fun i hi hi' => ?_⟩
        by_cases him : i < mid
        · exact d i hi him
        · rcases Nat.lt_or_eq_of_le (Nat.le_of_not_lt him) with hx | hx
          · exact le_trans (Nat.le_of_not_lt hk) (keyAt_mono h hx (by omega)).le
          · subst hx; exact Nat.le_of_not_lt hk
    · rw [if_neg hlt]
      refine ⟨le_refl _, h1, fun i a b => by omega, fun i a b => by omega⟩

theorem rebuild_of_length {v : OuterVec K} (hr : v.room = []) {l : List (Slot K)} (h : l.length = v.used.length) :
    v.rebuild l = ⟨l, []⟩ := by
  unfold OuterVec.rebuild
  rw [← h, List.take_length, List.drop_length]

theorem clearIndex_eq {v : OuterVec K} (hs : SortedSlots v.used) (hr : v.room = []) (k : ℕ) :
    v.clearIndex k = ⟨v.used.map fun s => if s.1 = k then (s.1, 0) else s, []⟩ := by
  obtain ⟨used, room⟩ := v
  simp only at hs hr
  subst hr
  have hsl : (OuterVec.slots ⟨used, []⟩ : List (Slot K)) = used := by simp [OuterVec.slots]
  unfold OuterVec.clearIndex
  rw [hsl]
  simp only []
  obtain ⟨-, h2, h3, h4⟩ := searchLower_spec hs k used.length 0 used.length (Nat.zero_le _) (le_refl _) (by omega)
  generalize searchLower used k used.length 0 used.length = id at *
  by_cases hid : (used[id]?.map Prod.fst) = some k
  · rw [if_pos hid]
    have hlt : id < used.length := by
      by_contra hc
      rw [List.getElem?_eq_none (by omega)] at hid
      simp at hid
    have hk : used[id].1 = k := by
      rw [List.getElem?_eq_getElem hlt] at hid; simpa using hid
    rw [rebuild_of_length rfl (by simp)]
    congr 1
    refine List.ext_getElem (by simp) fun i hi hi' => ?_
    simp only [List.length_modify] at hi
    rw [List.getElem_modify, List.getElem_map]
    by_cases e : id = i
    · subst e; simp [hk]
    · rw [if_neg e, if_neg]
      intro e'
      rcases lt_or_gt_of_ne e with hx | hx
      · have := keyAt_mono hs hx hi
        unfold keyAt at this
        rw [List.getElem?_eq_getElem hi, List.getElem?_eq_getElem hlt] at this
        simp only [Option.map_some, Option.getD_some] at this
        omega
      · have := keyAt_mono hs hx hlt
        unfold keyAt at this
        rw [List.getElem?_eq_getElem hi, List.getElem?_eq_getElem hlt] at this
        simp only [Option.map_some, Option.getD_some] at this
        omega
  · rw [if_neg hid]
    congr 1
    refine List.ext_getElem (by simp) fun i hi hi' => ?_
    rw [List.getElem_map, if_neg]
    intro e
    have key : keyAt used i = k := by unfold keyAt; rw [List.getElem?_eq_getElem hi]; simpa using e
    by_cases hlt : i < id
    · have := h3 i (Nat.zero_le _) hlt; omega
    · rcases Nat.lt_or_eq_of_le (Nat.le_of_not_lt hlt) with hx | hx
      · have a := keyAt_mono hs hx hi
        have b := h4 id (le_refl _) (by omega)
        omega
      · subst hx
        apply hid
        rw [List.getElem?_eq_getElem hi]
        simpa using e

theorem zeroRange_eq {l : List (Slot K)} (hs : SortedSlots l) (lo hi : ℕ) (h : ∀ s ∈ l, lo ≤ s.1) :
    zeroRange lo hi l = l.map fun s => if lo ≤ s.1 ∧ s.1 ≤ hi then (s.1, 0) else s := by
  induction l with
  | nil => rfl
  | cons s l ih =>
    have hs' := List.pairwise_cons.mp hs
    rw [zeroRange, List.map_cons]
    by_cases h1 : lo ≤ s.1 ∧ s.1 ≤ hi
    · rw [if_pos h1, if_pos h1, ih hs'.2 fun t ht => h t (by simp [ht])]
    · rw [if_neg h1, if_neg h1]
      have hlt : hi < s.1 := by
        have := h s (by simp)
        by_contra hc
        exact h1 ⟨this, by omega⟩
      rw [if_pos hlt]
      congr 1
      symm
      conv_rhs => rw [← List.map_id l]
      refine List.map_congr_left fun t ht => ?_
      have := hs'.1 t ht
      rw [if_neg (by omega)]; rfl

theorem clearIndices_eq {v : OuterVec K} (hs : SortedSlots v.used) (hr : v.room = []) (lo hi : ℕ) :
    v.clearIndices lo hi = ⟨v.used.map fun s => if lo ≤ s.1 ∧ s.1 ≤ hi then (s.1, 0) else s, []⟩ := by
  obtain ⟨used, room⟩ := v
  simp only at hs hr
  subst hr
  have hsl : (OuterVec.slots ⟨used, []⟩ : List (Slot K)) = used := by simp [OuterVec.slots]
  unfold OuterVec.clearIndices
  rw [hsl]
  simp only []
  obtain ⟨-, h2, h3, h4⟩ := searchLower_spec hs lo used.length 0 used.length (Nat.zero_le _) (le_refl _) (by omega)
  generalize searchLower used lo used.length 0 used.length = id at *
  have key : used.take id ++ zeroRange lo hi (used.drop id) =
      used.map fun s => if lo ≤ s.1 ∧ s.1 ≤ hi then (s.1, 0) else s := by
    conv_rhs => rw [← List.take_append_drop id used, List.map_append]
    congr 1
    · symm
      conv_rhs => rw [← List.map_id (used.take id)]
      refine List.map_congr_left fun t ht => ?_
      obtain ⟨i, hi', e⟩ := List.mem_iff_getElem.mp ht
      rw [List.length_take] at hi'
      rw [List.getElem_take] at e
      have := h3 i (Nat.zero_le _) (by omega)
      unfold keyAt at this
      rw [List.getElem?_eq_getElem (by omega)] at this
      simp only [Option.map_some, Option.getD_some, e] at this
      rw [if_neg (by omega)]; rfl
    · refine zeroRange_eq (List.Pairwise.sublist (List.drop_sublist _ _) hs) lo hi fun t ht => ?_
      obtain ⟨i, hi', e⟩ := List.mem_iff_getElem.mp ht
      rw [List.length_drop] at hi'
      rw [List.getElem_drop] at e
      have := h4 (id + i) (by omega) (by omega)
      unfold keyAt at this
      rw [List.getElem?_eq_getElem (by omega)] at this
      simpa only [Option.map_some, Option.getD_some, e] using this
  rw [key, rebuild_of_length rfl (by simp)]

theorem wipe_used (v : OuterVec K) : v.wipe.used = v.used.map fun s => (s.1, 0) := by
  unfold OuterVec.wipe OuterVec.rebuild OuterVec.slots
  simp [List.map_append, List.take_append]

theorem wipe_room (v : OuterVec K) : v.wipe.room = v.room.map fun s => (s.1, 0) := by
  unfold OuterVec.wipe OuterVec.rebuild OuterVec.slots
  simp [List.map_append, List.drop_append]

end Caribou

namespace Caribou

variable {K : Type*} [Ring K]

theorem outer_inner_iff (m : SMatrix K) (i j a b : ℕ) :
    (m.outer a b = m.outer i j ∧ m.inner a b = m.inner i j) ↔ (a = i ∧ b = j) := by
  unfold SMatrix.outer SMatrix.inner
  cases m.rowMajor
  · simp [and_comm]
  · simp

theorem outer_lt (m : SMatrix K) {i j : ℕ} (hi : i < m.rows) (hj : j < m.cols) : m.outer i j < m.outerSize := by
  unfold SMatrix.outer SMatrix.outerSize; split_ifs <;> assumption

theorem inner_lt (m : SMatrix K) {i j : ℕ} (hi : i < m.rows) (hj : j < m.cols) : m.inner i j < m.innerSize := by
  unfold SMatrix.inner SMatrix.innerSize; split_ifs <;> assumption

/-- Whether an entry is stored. -/
def SMatrix.Has (m : SMatrix K) (i j : ℕ) : Prop := ∃ s ∈ (m.vec (m.outer i j)).used, s.1 = m.inner i j

theorem coeff_of_not_has {m : SMatrix K} {i j : ℕ} (h : ¬ m.Has i j) : m.coeff i j = 0 :=
  slotValue_not_mem fun s hs e => h ⟨s, hs, e⟩

theorem any_iff (m : SMatrix K) (i j : ℕ) :
    ((m.vec (m.outer i j)).used.any fun s => s.1 == m.inner i j) = true ↔ m.Has i j := by
  simp [SMatrix.Has]

theorem modify_outer (m : SMatrix K) (i j : ℕ) (f : K → K) (g : Garbage K) :
    (m.modify i j f g).rowMajor = m.rowMajor ∧ (m.modify i j f g).rows = m.rows ∧ (m.modify i j f g).cols = m.cols := by
  unfold SMatrix.modify
  simp only []
  split_ifs <;> exact ⟨rfl, rfl, rfl⟩

theorem modify_coeff (m : SMatrix K) (i j : ℕ) (f : K → K) (g : Garbage K) (a b : ℕ) :
    (m.modify i j f g).coeff a b = if a = i ∧ b = j then f (m.coeff i j) else m.coeff a b := by
  unfold SMatrix.modify
  simp only []
  by_cases h : m.Has i j
  · rw [if_pos ((any_iff m i j).mpr h)]
    show slotValue (if m.outer a b = m.outer i j then _ else m.vec (m.outer a b)).used (m.inner a b) = _
    by_cases ho : m.outer a b = m.outer i j
    · rw [if_pos ho, slotValue_map]
      by_cases hk : m.inner a b = m.inner i j
      · rw [if_pos ⟨hk, h⟩, if_pos ((outer_inner_iff m i j a b).mp ⟨ho, hk⟩)]; rfl
      · rw [if_neg fun e => hk e.1, if_neg fun e => hk ((outer_inner_iff m i j a b).mpr e).2, SMatrix.coeff, ho]
    · rw [if_neg ho, if_neg fun e => ho ((outer_inner_iff m i j a b).mpr e).1]; rfl
  · rw [if_neg fun e => h ((any_iff m i j).mp e)]
    show slotValue (if m.outer a b = m.outer i j then (⟨insertSlot (m.inner i j, f 0) (m.vec (m.outer i j)).used,
      g (m.outer i j)⟩ : OuterVec K) else ⟨(m.vec (m.outer a b)).used, g (m.outer a b)⟩).used (m.inner a b) = _
    by_cases ho : m.outer a b = m.outer i j
    · rw [if_pos ho, slotValue_insert _ _ _ _ fun s hs e => h ⟨s, hs, e⟩]
      by_cases hk : m.inner a b = m.inner i j
      · rw [if_pos hk, if_pos ((outer_inner_iff m i j a b).mp ⟨ho, hk⟩), coeff_of_not_has h]
      · rw [if_neg hk, if_neg fun e => hk ((outer_inner_iff m i j a b).mpr e).2, SMatrix.coeff, ho]
    · rw [if_neg ho, if_neg fun e => ho ((outer_inner_iff m i j a b).mpr e).1]; rfl

theorem modify_has (m : SMatrix K) (i j : ℕ) (f : K → K) (g : Garbage K) (a b : ℕ) :
    (m.modify i j f g).Has a b ↔ (a = i ∧ b = j) ∨ m.Has a b := by
  unfold SMatrix.modify
  simp only []
  by_cases h : m.Has i j
  · rw [if_pos ((any_iff m i j).mpr h)]
    show (∃ s ∈ (if m.outer a b = m.outer i j then (⟨(m.vec (m.outer i j)).used.map fun s => if s.1 = m.inner i j then
      (s.1, f s.2) else s, (m.vec (m.outer i j)).room⟩ : OuterVec K) else m.vec (m.outer a b)).used, s.1 = m.inner a b) ↔ _
    by_cases ho : m.outer a b = m.outer i j
    · rw [if_pos ho]
      have e1 : (∃ s ∈ ((m.vec (m.outer i j)).used.map fun s => if s.1 = m.inner i j then (s.1, f s.2) else s),
          s.1 = m.inner a b) ↔ m.Has a b := by
        unfold SMatrix.Has
        rw [ho]
        constructor
        · rintro ⟨s, hs, e⟩
          obtain ⟨t, ht, rfl⟩ := List.mem_map.mp hs
          refine ⟨t, ht, ?_⟩
          split_ifs at e <;> exact e
        · rintro ⟨s, hs, e⟩
          refine ⟨_, List.mem_map.mpr ⟨s, hs, rfl⟩, ?_⟩
          split_ifs <;> exact e
      rw [e1]
      constructor
      · exact Or.inr
      · rintro (⟨rfl, rfl⟩ | e)
        · exact h
        · exact e
    · rw [if_neg ho]
      constructor
      · exact Or.inr
      · rintro (⟨rfl, rfl⟩ | e)
        · exact absurd rfl ho
        · exact e
  · rw [if_neg fun e => h ((any_iff m i j).mp e)]
    show (∃ s ∈ (if m.outer a b = m.outer i j then (⟨insertSlot (m.inner i j, f 0) (m.vec (m.outer i j)).used,
      g (m.outer i j)⟩ : OuterVec K) else ⟨(m.vec (m.outer a b)).used, g (m.outer a b)⟩).used, s.1 = m.inner a b) ↔ _
    by_cases ho : m.outer a b = m.outer i j
    · rw [if_pos ho]
      simp only [mem_insertSlot]
      constructor
      · rintro ⟨s, rfl | hs, e⟩
        · exact Or.inl ((outer_inner_iff m i j a b).mp ⟨ho, e.symm⟩)
        · exact Or.inr ⟨s, by rw [ho]; exact hs, e⟩
      · rintro (⟨rfl, rfl⟩ | ⟨s, hs, e⟩)
        · exact ⟨_, Or.inl rfl, rfl⟩
        · exact ⟨s, Or.inr (by rw [ho] at hs; exact hs), e⟩
    · rw [if_neg ho]
      constructor
      · exact Or.inr
      · rintro (⟨rfl, rfl⟩ | e)
        · exact absurd rfl ho
        · exact e

theorem modify_sorted {m : SMatrix K} (hs : ∀ o, SortedSlots (m.vec o).used) (i j : ℕ) (f : K → K) (g : Garbage K) (o : ℕ) :
    SortedSlots ((m.modify i j f g).vec o).used := by
  unfold SMatrix.modify
  simp only []
  by_cases h : m.Has i j
  · rw [if_pos ((any_iff m i j).mpr h)]
    simp only []
    split_ifs
    · exact sorted_map (hs _) _ fun s => by split_ifs <;> rfl
    · exact hs o
  · rw [if_neg fun e => h ((any_iff m i j).mp e)]
    simp only []
    split_ifs
    · exact sorted_insert (hs _) _ _ fun s hs e => h ⟨s, hs, e⟩
    · exact hs o

theorem modify_compressed {m : SMatrix K} (hc : m.Compressed) {i j : ℕ} (h : m.Has i j) (f : K → K) (g : Garbage K) :
    (m.modify i j f g).Compressed := by
  intro o
  unfold SMatrix.modify
  simp only []
  rw [if_pos ((any_iff m i j).mpr h)]
  simp only []
  split_ifs
  · exact hc _
  · exact hc _

theorem sft_filter (m : SMatrix K) (t : List (ℕ × ℕ × K)) (a b : ℕ) :
    (t.filter fun e => m.outer e.1 e.2.1 == m.outer a b && m.inner e.1 e.2.1 == m.inner a b) =
      t.filter fun e => e.1 == a && e.2.1 == b := by
  refine List.filter_congr fun e _ => ?_
  rw [Bool.eq_iff_iff]
  simp only [Bool.and_eq_true, beq_iff_eq]
  exact outer_inner_iff m a b e.1 e.2.1

/-- Sum of the triplets of an entry. -/
def tripSum (t : List (ℕ × ℕ × K)) (a b : ℕ) : K := ((t.filter fun e => e.1 == a && e.2.1 == b).map fun e => e.2.2).sum

theorem slotValue_range (n : ℕ) (P : ℕ → Bool) (v : ℕ → K) (k : ℕ) (hk : k < n) (h0 : P k = false → v k = 0) :
    slotValue (((List.range n).filter P).map fun k => (k, v k)) k = v k := by
  have gen : ∀ l : List ℕ, slotValue ((l.filter P).map fun k => (k, v k)) k = if k ∈ l ∧ P k = true then v k else 0 := by
    intro l
    induction l with
    | nil => simp
    | cons x l ih =>
      rw [List.filter_cons]
      by_cases hp : P x = true
      · rw [if_pos hp, List.map_cons, slotValue_cons, ih]
        by_cases hx : x = k
        · subst hx; simp [hp]
        · have : ¬ k = x := fun e => hx e.symm
          simp [hx, this]
      · rw [if_neg hp, ih]
        by_cases hx : x = k
        · subst hx; simp [hp]
        · have : ¬ k = x := fun e => hx e.symm
          simp [this]
  rw [gen]
  cases hp : P k
  · rw [if_neg (by simp), h0 hp]
  · rw [if_pos ⟨List.mem_range.mpr hk, rfl⟩]

theorem sft_coeff (m : SMatrix K) (t : List (ℕ × ℕ × K)) {a b : ℕ} (ha : a < m.rows) (hb : b < m.cols) :
    (m.setFromTriplets t).coeff a b = tripSum t a b := by
  show slotValue ((((List.range m.innerSize).filter _).map _)) (m.inner a b) = _
  rw [slotValue_range _ _ _ _ (inner_lt m ha hb)]
  · show ((t.filter fun e => m.outer e.1 e.2.1 == m.outer a b && m.inner e.1 e.2.1 == m.inner a b).map _).sum = _
    rw [sft_filter]; rfl
  · intro h
    simp only [Bool.not_eq_false', List.isEmpty_iff] at h
    have h' : (t.filter fun e => m.outer e.1 e.2.1 == m.outer a b && m.inner e.1 e.2.1 == m.inner a b) = [] := h
    show ((t.filter fun e => m.outer e.1 e.2.1 == m.outer a b && m.inner e.1 e.2.1 == m.inner a b).map _).sum = _
    rw [h']; rfl

theorem sft_sorted (m : SMatrix K) (t : List (ℕ × ℕ × K)) (o : ℕ) : SortedSlots ((m.setFromTriplets t).vec o).used := by
  show (List.map _ (List.filter _ (List.range _))).Pairwise _
  rw [List.pairwise_map]
  exact (List.pairwise_lt_range).filter _

theorem sft_has (m : SMatrix K) (t : List (ℕ × ℕ × K)) {a b : ℕ} (ha : a < m.rows) (hb : b < m.cols) :
    (m.setFromTriplets t).Has a b ↔ ∃ e ∈ t, e.1 = a ∧ e.2.1 = b := by
  show (∃ s : Slot K, s ∈ (((List.range m.innerSize).filter fun k => !(t.filter fun e => m.outer e.1 e.2.1 == m.outer a b &&
    m.inner e.1 e.2.1 == k).isEmpty).map _) ∧ s.1 = m.inner a b) ↔ _
  constructor
  · rintro ⟨s, hs, e⟩
    obtain ⟨k, hk, rfl⟩ := List.mem_map.mp hs
    simp only at e
    subst e
    have := (List.mem_filter.mp hk).2
    rw [sft_filter] at this
    simp only [Bool.not_eq_true', List.isEmpty_eq_false_iff] at this
    obtain ⟨e, he⟩ := List.exists_mem_of_ne_nil _ this
    have h2 := (List.mem_filter.mp he)
    refine ⟨e, h2.1, ?_⟩
    simpa using h2.2
  · rintro ⟨e, he, h1, h2⟩
    refine ⟨_, List.mem_map.mpr ⟨m.inner a b, List.mem_filter.mpr ⟨List.mem_range.mpr (inner_lt m ha hb), ?_⟩, rfl⟩, rfl⟩
    rw [sft_filter]
    simp only [Bool.not_eq_true', List.isEmpty_eq_false_iff]
    exact List.ne_nil_of_mem (List.mem_filter.mpr ⟨he, by simp [h1, h2]⟩)

end Caribou

namespace Caribou

variable {K : Type*} [Ring K]

/-- The wrapper represents a plain matrix, with the known usage. -/
structure Rel (s : SparseWrapper K) (d : Spec.Dense K) (u : Spec.Usage) : Prop where
  rows : s.mat.rows = d.rows
  cols : s.mat.cols = d.cols
  val : ∀ i j, i < d.rows → j < d.cols → s.mat.coeff i j + tripSum s.triplets i j = d.val i j
  sorted : ∀ o, SortedSlots (s.mat.vec o).used
  init : s.initialized = !u.assembling
  blank : s.initialized = false → ∀ o, s.mat.vec o = ⟨[], []⟩
  flushed : s.initialized = true → s.triplets = []
  tidy : u.tidy → s.mat.Compressed
  stored : ∀ i j, i < d.rows → j < d.cols → (u.stored i j ↔ s.mat.Has i j ∨ ∃ e ∈ s.triplets, e.1 = i ∧ e.2.1 = j)
  symm : s.symmetric = u.symmetric

theorem tripSum_append (t t' : List (ℕ × ℕ × K)) (a b : ℕ) : tripSum (t ++ t') a b = tripSum t a b + tripSum t' a b := by
  simp [tripSum]

@[simp] theorem tripSum_nil (a b : ℕ) : tripSum ([] : List (ℕ × ℕ × K)) a b = 0 := rfl

theorem tripSum_single (i j : ℕ) (v : K) (a b : ℕ) : tripSum [(i, j, v)] a b = if a = i ∧ b = j then v else 0 := by
  unfold tripSum
  by_cases h : a = i ∧ b = j
  · obtain ⟨rfl, rfl⟩ := h; simp
  · rw [if_neg h, List.filter_cons_of_neg]
    · rfl
    · simp only [Bool.and_eq_true, beq_iff_eq]; exact fun e => h ⟨e.1.symm, e.2.symm⟩

theorem coeff_blank {m : SMatrix K} (h : ∀ o, m.vec o = ⟨[], []⟩) (a b : ℕ) : m.coeff a b = 0 := by
  unfold SMatrix.coeff; rw [h]; rfl

theorem has_blank {m : SMatrix K} (h : ∀ o, m.vec o = ⟨[], []⟩) (a b : ℕ) : ¬ m.Has a b := by
  unfold SMatrix.Has; rw [h]; simp

theorem empty_blank (r : Bool) (n c : ℕ) (o : ℕ) : (SMatrix.empty r n c : SMatrix K).vec o = ⟨[], []⟩ := rfl

theorem rel_fresh (rm : Bool) (r c : ℕ) (b : Bool) (u : Spec.Usage) (h1 : u.assembling = true) (h2 : ∀ i j, ¬ u.stored i j)
    (h3 : u.symmetric = b) :
    Rel (⟨[], false, SMatrix.empty rm r c, b⟩ : SparseWrapper K) (Spec.Dense.zero r c) u where
  rows := rfl
  cols := rfl
  val i j _ _ := by rw [coeff_blank (empty_blank rm r c)]; simp [Spec.Dense.zero]
  sorted o := List.Pairwise.nil
  init := by simp [h1]
  blank _ o := rfl
  flushed h := by simp at h
  tidy _ o := rfl
  stored i j _ _ := by
    constructor
    · exact fun h => absurd h (h2 i j)
    · rintro (h | h)
      · exact absurd h (has_blank (empty_blank rm r c) i j)
      · simp at h
  symm := h3.symm

/-- Initialisation does not change the matrix represented. -/
theorem rel_ensure {s : SparseWrapper K} {d : Spec.Dense K} {u : Spec.Usage} (h : Rel s d u) :
    Rel s.ensure d { u with assembling := false } := by
  unfold SparseWrapper.ensure
  cases hi : s.initialized
  · rw [if_neg (by simp)]
    refine ⟨h.rows, h.cols, fun i j a b => ?_, fun o => sft_sorted _ _ o, rfl, fun e => by simp [SparseWrapper.init] at e,
      fun _ => rfl, fun _ o => rfl, fun i j a b => ?_, h.symm⟩
    · show (s.mat.setFromTriplets s.triplets).coeff i j + 0 = _
      rw [sft_coeff _ _ (h.rows ▸ a) (h.cols ▸ b), add_zero, ← h.val i j a b, coeff_blank (h.blank hi), zero_add]
    · show u.stored i j ↔ (s.mat.setFromTriplets s.triplets).Has i j ∨ ∃ e ∈ [], _
      rw [sft_has _ _ (h.rows ▸ a) (h.cols ▸ b), h.stored i j a b]
      have := has_blank (h.blank hi) i j
      simp [this]
  · rw [if_pos (by simp)]
    have := h.init
    exact ⟨h.rows, h.cols, h.val, h.sorted, by simp [hi], h.blank, h.flushed, h.tidy, h.stored, h.symm⟩

theorem ensure_init {s : SparseWrapper K} : s.ensure.initialized = true := by
  unfold SparseWrapper.ensure
  cases hi : s.initialized
  · rw [if_neg (by simp)]; rfl
  · rw [if_pos (by simp)]; exact hi

theorem ensure_rowMajor {s : SparseWrapper K} : s.ensure.mat.rowMajor = s.mat.rowMajor := by
  unfold SparseWrapper.ensure
  split_ifs <;> rfl

/-- Writing an entry of an initialised matrix. -/
theorem rel_modify {s : SparseWrapper K} {d : Spec.Dense K} {u : Spec.Usage} (h : Rel s d u) (hi : s.initialized = true)
    (i j : ℕ) (hij : i < d.rows ∧ j < d.cols) (f : K → K) (g : Garbage K) :
    Rel { s with mat := s.mat.modify i j f g }
      { d with val := fun a b => if a = i ∧ b = j then f (d.val a b) else d.val a b }
      { u with tidy := u.tidy ∧ u.stored i j, stored := fun a b => (a = i ∧ b = j) ∨ u.stored a b } := by
  have ht := h.flushed hi
  have hm := modify_outer s.mat i j f g
  refine ⟨hm.2.1.trans h.rows, hm.2.2.trans h.cols, fun a b ha hb => ?_, modify_sorted h.sorted i j f g, h.init,
    fun e => by simp only at e; rw [hi] at e; simp at e, h.flushed, fun e => modify_compressed (h.tidy e.1) ?_ f g,
    fun a b ha hb => ?_, h.symm⟩
  · have hv := h.val a b ha hb
    simp only [ht, tripSum_nil, add_zero] at hv ⊢
    rw [modify_coeff]
    split_ifs with e
    · rw [← hv, e.1, e.2]
    · exact hv
  · have := (h.stored i j hij.1 hij.2).mp e.2
    rw [ht] at this
    rcases this with hx | ⟨_, hx, _⟩
    · exact hx
    · simp at hx
  · have hst := h.stored a b ha hb
    simp only [ht] at hst ⊢
    rw [modify_has, hst]
    tauto

theorem rel_add {s : SparseWrapper K} {d : Spec.Dense K} {u : Spec.Usage} (h : Rel s d u) (i j : ℕ)
    (hij : i < d.rows ∧ j < d.cols) (v : K) (g : Garbage K) :
    Rel (s.add i j v g) (d.step (.add i j v g)) (u.step (.add i j v g)) := by
  unfold SparseWrapper.add
  by_cases hi : s.initialized = true
  swap
  · rw [Bool.not_eq_true] at hi
    have ha : u.assembling = true := by have := h.init; rw [hi] at this; simpa using this
    rw [if_neg (by simp [hi])]
    refine ⟨h.rows, h.cols, fun a b ha hb => ?_, h.sorted, h.init, fun _ => h.blank hi, fun e => by simp only at e; rw [hi] at e; simp at e,
      fun e => h.tidy e.1, fun a b ha hb => ?_, h.symm⟩
    · show s.mat.coeff a b + tripSum (s.triplets ++ [(i, j, v)]) a b = if a = i ∧ b = j then d.val a b + v else d.val a b
      rw [tripSum_append, tripSum_single, ← add_assoc, h.val a b ha hb]
      split_ifs
      · rfl
      · rw [add_zero]
    · show ((a = i ∧ b = j) ∨ u.stored a b) ↔ s.mat.Has a b ∨ ∃ e ∈ s.triplets ++ [(i, j, v)], e.1 = a ∧ e.2.1 = b
      rw [h.stored a b ha hb]
      constructor
      · rintro (⟨rfl, rfl⟩ | hx | ⟨e, he, hx⟩)
        · exact Or.inr ⟨(a, b, v), by simp, rfl, rfl⟩
        · exact Or.inl hx
        · exact Or.inr ⟨e, by simp [he], hx⟩
      · rintro (hx | ⟨e, he, hx⟩)
        · exact Or.inr (Or.inl hx)
        · rcases List.mem_append.mp he with hy | hy
          · exact Or.inr (Or.inr ⟨e, hy, hx⟩)
          · rw [List.mem_singleton.mp hy] at hx
            exact Or.inl ⟨hx.1.symm, hx.2.symm⟩
  · rw [if_pos hi]
    have r := rel_modify h hi i j hij (fun x => x + v) g
    have hass : u.assembling = false := by
      have := h.init; rw [hi] at this
      cases hh : u.assembling
      · rfl
      · rw [hh] at this; simp at this
    refine ⟨r.rows, r.cols, r.val, r.sorted, r.init, r.blank, r.flushed, fun e => r.tidy ⟨e.1, ?_⟩, r.stored, r.symm⟩
    rcases e.2 with hx | hx
    · rw [hass] at hx; simp at hx
    · exact hx

/-- The relation only looks at entries within the dimensions. -/
theorem rel_congr {s : SparseWrapper K} {d d' : Spec.Dense K} {u u' : Spec.Usage} (h : Rel s d u) (hr : d'.rows = d.rows)
    (hc : d'.cols = d.cols) (hv : ∀ a b, a < d.rows → b < d.cols → d'.val a b = d.val a b)
    (ha : u'.assembling = u.assembling) (ht : u'.tidy → u.tidy) (hs : ∀ a b, a < d.rows → b < d.cols → (u'.stored a b ↔ u.stored a b))
    (hy : u'.symmetric = u.symmetric) : Rel s d' u' where
  rows := by rw [hr, h.rows]
  cols := by rw [hc, h.cols]
  val i j a b := by rw [hr] at a; rw [hc] at b; rw [hv i j a b]; exact h.val i j a b
  sorted := h.sorted
  init := by rw [ha]; exact h.init
  blank := h.blank
  flushed := h.flushed
  tidy e := h.tidy (ht e)
  stored i j a b := by rw [hr] at a; rw [hc] at b; rw [hs i j a b]; exact h.stored i j a b
  symm := by rw [hy]; exact h.symm

theorem rel_adds {d : Spec.Dense K} {u : Spec.Usage} (L : List (ℕ × ℕ × K × Garbage K)) :
    ∀ {s : SparseWrapper K} {d : Spec.Dense K} {u : Spec.Usage}, Rel s d u →
    (∀ e ∈ L, e.1 < d.rows ∧ e.2.1 < d.cols) →
    Rel (L.foldl (fun s e => s.add e.1 e.2.1 e.2.2.1 e.2.2.2) s)
      { d with val := fun a b => d.val a b + tripSum (L.map fun e => (e.1, e.2.1, e.2.2.1)) a b }
      { u with tidy := u.tidy ∧ (u.assembling = true ∨ ∀ e ∈ L, u.stored e.1 e.2.1),
               stored := fun a b => (∃ e ∈ L, e.1 = a ∧ e.2.1 = b) ∨ u.stored a b } := by
  induction L with
  | nil =>
    intro s d u h _
    refine rel_congr h rfl rfl (fun a b _ _ => by simp) rfl (fun e => e.1) (fun a b _ _ => by simp) rfl
  | cons e L ih =>
    intro s d u h hL
    have h1 := rel_add h e.1 e.2.1 (hL e (by simp)) e.2.2.1 e.2.2.2
    have h2 := ih h1 fun e' he' => hL e' (by simp [he'])
    rw [List.foldl_cons]
    refine rel_congr h2 rfl rfl (fun a b _ _ => ?_) rfl (fun ht => ⟨⟨ht.1, ?_⟩, ?_⟩) (fun a b _ _ => ?_) rfl
    · show d.val a b + tripSum ([(e.1, e.2.1, e.2.2.1)] ++ L.map _) a b =
        (if a = e.1 ∧ b = e.2.1 then d.val a b + e.2.2.1 else d.val a b) + tripSum (L.map _) a b
      rw [tripSum_append, tripSum_single, ← add_assoc]
      split_ifs
      · rfl
      · rw [add_zero]
    · rcases ht.2 with hx | hx
      · exact Or.inl hx
      · exact Or.inr (hx e (by simp))
    · rcases ht.2 with hx | hx
      · exact Or.inl hx
      · exact Or.inr fun e' he' => Or.inr (hx e' (by simp [he']))
    · show (∃ e' ∈ e :: L, e'.1 = a ∧ e'.2.1 = b) ∨ u.stored a b ↔
        (∃ e' ∈ L, e'.1 = a ∧ e'.2.1 = b) ∨ ((a = e.1 ∧ b = e.2.1) ∨ u.stored a b)
      constructor
      · rintro (⟨e', he', hx⟩ | hx)
        · rcases List.mem_cons.mp he' with rfl | hy
          · exact Or.inr (Or.inl ⟨hx.1.symm, hx.2.symm⟩)
          · exact Or.inl ⟨e', hy, hx⟩
        · exact Or.inr (Or.inr hx)
      · rintro (⟨e', he', hx⟩ | ⟨rfl, rfl⟩ | hx)
        · exact Or.inl ⟨e', by simp [he'], hx⟩
        · exact Or.inl ⟨e, by simp, rfl, rfl⟩
        · exact Or.inr hx

/-- The entries of a block, row by row. -/
def blockList (i j N C : ℕ) (m : ℕ → ℕ → K) (g : ℕ → ℕ → Garbage K) : List (ℕ × ℕ × K × Garbage K) :=
  (List.range N).flatMap fun k => (List.range C).map fun l => (i + k, j + l, m k l, g k l)

theorem addBlock_eq (s : SparseWrapper K) (i j N C : ℕ) (m : ℕ → ℕ → K) (g : ℕ → ℕ → Garbage K) :
    s.addBlock i j N C m g = (blockList i j N C m g).foldl (fun s e => s.add e.1 e.2.1 e.2.2.1 e.2.2.2) s := by
  unfold SparseWrapper.addBlock blockList
  rw [List.foldl_flatMap]
  simp only [List.foldl_map]

theorem mem_blockList (i j N C : ℕ) (m : ℕ → ℕ → K) (g : ℕ → ℕ → Garbage K) (e : ℕ × ℕ × K × Garbage K) :
    e ∈ blockList i j N C m g ↔ ∃ k l, k < N ∧ l < C ∧ e = (i + k, j + l, m k l, g k l) := by
  simp only [blockList, List.mem_flatMap, List.mem_map, List.mem_range]
  constructor
  · rintro ⟨k, hk, l, hl, rfl⟩; exact ⟨k, l, hk, hl, rfl⟩
  · rintro ⟨k, l, hk, hl, rfl⟩; exact ⟨k, hk, l, hl, rfl⟩

theorem tripSum_row (i j k C : ℕ) (m : ℕ → ℕ → K) (a b : ℕ) :
    tripSum ((List.range C).map fun l => (i + k, j + l, m k l)) a b =
      if a = i + k ∧ j ≤ b ∧ b < j + C then m k (b - j) else 0 := by
  induction C with
  | zero => rw [if_neg (by omega)]; rfl
  | succ C ih =>
    rw [List.range_succ, List.map_append, tripSum_append, ih]
    show _ + tripSum [(i + k, j + C, m k C)] a b = _
    rw [tripSum_single]
    by_cases ha : a = i + k
    · by_cases hb : b = j + C
      · rw [if_neg (by omega), if_pos ⟨ha, hb⟩, if_pos (by omega), zero_add]; congr 1; omega
      · rw [if_neg (c := a = i + k ∧ b = j + C) (fun e => hb e.2), add_zero]
        exact if_congr (by omega) rfl rfl
    · rw [if_neg (by omega), if_neg (by omega), if_neg (by omega), add_zero]

theorem tripSum_block (i j N C : ℕ) (m : ℕ → ℕ → K) (g : ℕ → ℕ → Garbage K) (a b : ℕ) :
    tripSum ((blockList i j N C m g).map fun e => (e.1, e.2.1, e.2.2.1)) a b =
      if i ≤ a ∧ a < i + N ∧ j ≤ b ∧ b < j + C then m (a - i) (b - j) else 0 := by
  have : (blockList i j N C m g).map (fun e => (e.1, e.2.1, e.2.2.1)) =
      (List.range N).flatMap fun k => (List.range C).map fun l => (i + k, j + l, m k l) := by
    simp [blockList, List.map_flatMap, Function.comp_def]
  rw [this]
  clear this
  induction N with
  | zero => rw [if_neg (by omega)]; rfl
  | succ N ih =>
    rw [List.range_succ, List.flatMap_append, tripSum_append, ih, List.flatMap_singleton, tripSum_row]
    by_cases ha : a = i + N
    · rw [if_neg (by omega), zero_add]
      have : a - i = N := by omega
      rw [this]
      exact if_congr (by omega) rfl rfl
    · rw [if_neg (c := a = i + N ∧ j ≤ b ∧ b < j + C) (fun e => ha e.1), add_zero]
      exact if_congr (by omega) rfl rfl

theorem rel_addBlock {s : SparseWrapper K} {d : Spec.Dense K} {u : Spec.Usage} (h : Rel s d u) (i j N C : ℕ)
    (m : ℕ → ℕ → K) (g : ℕ → ℕ → Garbage K) (hr : i + N ≤ d.rows ∧ j + C ≤ d.cols) :
    Rel (s.addBlock i j N C m g) (d.step (.addBlock i j N C m g)) (u.step (.addBlock i j N C m g)) := by
  rw [addBlock_eq]
  have r := rel_adds (d := d) (u := u) (blockList i j N C m g) h (by
    intro e he
    obtain ⟨k, l, hk, hl, rfl⟩ := (mem_blockList ..).mp he
    exact ⟨by simp only; omega, by simp only; omega⟩)
  refine rel_congr r rfl rfl (fun a b _ _ => ?_) rfl (fun ht => ⟨ht.1, ?_⟩) (fun a b _ _ => ?_) rfl
  · show (if i ≤ a ∧ a < i + N ∧ j ≤ b ∧ b < j + C then d.val a b + m (a - i) (b - j) else d.val a b) = d.val a b + _
    rw [tripSum_block]
    split_ifs
    · rfl
    · rw [add_zero]
  · rcases ht.2 with hx | hx
    · exact Or.inl hx
    · refine Or.inr fun e he => ?_
      obtain ⟨k, l, hk, hl, rfl⟩ := (mem_blockList ..).mp he
      exact hx _ _ (by simp) (by simp only; omega) (by simp) (by simp only; omega)
  · refine or_congr ?_ Iff.rfl
    constructor
    · rintro ⟨h1, h2, h3, h4⟩
      exact ⟨_, (mem_blockList ..).mpr ⟨a - i, b - j, by omega, by omega, rfl⟩, by simp only; omega, by simp only; omega⟩
    · rintro ⟨e, he, rfl, rfl⟩
      obtain ⟨k, l, hk, hl, rfl⟩ := (mem_blockList ..).mp he
      exact ⟨by simp, by simp only; omega, by simp, by simp only; omega⟩

end Caribou

namespace Caribou

variable {K : Type*} [Ring K]

/-- Clearing entries of an initialised matrix. -/
theorem rel_mapZero {s : SparseWrapper K} {d : Spec.Dense K} {u : Spec.Usage} (h : Rel s d u) (hi : s.initialized = true)
    (F : ℕ → OuterVec K → OuterVec K) (Z : ℕ → ℕ → Prop) [∀ o k, Decidable (Z o k)]
    (hF : ∀ o, (F o (s.mat.vec o)).used = (s.mat.vec o).used.map fun e => if Z o e.1 then (e.1, 0) else e)
    (hr : s.mat.Compressed → ∀ o, (F o (s.mat.vec o)).room = []) :
    Rel (s.mapVec F)
      { d with val := fun a b => if Z (s.mat.outer a b) (s.mat.inner a b) then 0 else d.val a b } u := by
  have ht := h.flushed hi
  refine ⟨h.rows, h.cols, fun a b ha hb => ?_, fun o => ?_, h.init, fun e => absurd (hi.symm.trans e) (by simp), h.flushed,
    fun e => hr (h.tidy e), fun a b ha hb => ?_, h.symm⟩
  · have hv := h.val a b ha hb
    rw [ht, tripSum_nil, add_zero] at hv
    show slotValue (F (s.mat.outer a b) (s.mat.vec (s.mat.outer a b))).used (s.mat.inner a b) + tripSum s.triplets a b = _
    rw [ht, tripSum_nil, add_zero, hF, slotValue_mapZero _ (Z (s.mat.outer a b))]
    refine if_congr Iff.rfl rfl hv
  · show SortedSlots (F o (s.mat.vec o)).used
    rw [hF]
    exact sorted_map (h.sorted o) _ fun e => by split_ifs <;> rfl
  · rw [h.stored a b ha hb]
    refine or_congr ?_ Iff.rfl
    show _ ↔ ∃ e ∈ (F (s.mat.outer a b) (s.mat.vec (s.mat.outer a b))).used, e.1 = s.mat.inner a b
    rw [hF]
    constructor
    · rintro ⟨e, he, hx⟩
      refine ⟨_, List.mem_map.mpr ⟨e, he, rfl⟩, ?_⟩
      split_ifs <;> exact hx
    · rintro ⟨e, he, hx⟩
      obtain ⟨t, ht', rfl⟩ := List.mem_map.mp he
      refine ⟨t, ht', ?_⟩
      split_ifs at hx <;> exact hx

theorem map_noop (l : List (Slot K)) (P : ℕ → Prop) [DecidablePred P] (h : ∀ k, ¬ P k) :
    l = l.map fun e => if P e.1 then (e.1, 0) else e := by
  conv_lhs => rw [← List.map_id l]
  exact List.map_congr_left fun t _ => by rw [if_neg (h _)]; rfl

theorem rel_wipeOuter {s : SparseWrapper K} {d : Spec.Dense K} {u : Spec.Usage} (h : Rel s d u) (hi : s.initialized = true)
    (lo hi' : ℕ) :
    Rel (s.wipeOuter lo hi')
      { d with val := fun a b => if lo ≤ s.mat.outer a b ∧ s.mat.outer a b ≤ hi' then 0 else d.val a b } u := by
  refine rel_congr (rel_mapZero h hi _ (fun o _ => lo ≤ o ∧ o ≤ hi') (fun o => ?_) (fun hc o => ?_)) rfl rfl
    (fun a b _ _ => if_congr Iff.rfl rfl rfl) rfl id (fun _ _ _ _ => Iff.rfl) rfl
  · split_ifs with hx
    · exact wipe_used _
    · simp
  · split_ifs with hx
    · rw [wipe_room, hc]; rfl
    · exact hc o

theorem rel_clearIndexWhere {s : SparseWrapper K} {d : Spec.Dense K} {u : Spec.Usage} (h : Rel s d u)
    (hi : s.initialized = true) (hc : s.mat.Compressed) (i : ℕ) (P : ℕ → Prop) [DecidablePred P] :
    Rel (s.mapVec fun o v => if P o then v.clearIndex i else v)
      { d with val := fun a b => if P (s.mat.outer a b) ∧ s.mat.inner a b = i then 0 else d.val a b } u := by
  refine rel_congr (rel_mapZero h hi _ (fun o k => P o ∧ k = i) (fun o => ?_) (fun _ o => ?_)) rfl rfl
    (fun a b _ _ => if_congr Iff.rfl rfl rfl) rfl id (fun _ _ _ _ => Iff.rfl) rfl
  · split_ifs with hx
    · rw [clearIndex_eq (h.sorted o) (hc o)]
      exact List.map_congr_left fun t _ => if_congr (by simp [hx]) rfl rfl
    · exact map_noop _ (fun k => P o ∧ k = i) fun k e => hx e.1
  · split_ifs with hx
    · rw [clearIndex_eq (h.sorted o) (hc o)]
    · exact hc o

theorem rel_clearIndices {s : SparseWrapper K} {d : Spec.Dense K} {u : Spec.Usage} (h : Rel s d u)
    (hi : s.initialized = true) (hc : s.mat.Compressed) (lo hi' : ℕ) :
    Rel (s.mapVec fun o v => if o < s.mat.outerSize then v.clearIndices lo hi' else v)
      { d with val := fun a b =>
          if s.mat.outer a b < s.mat.outerSize ∧ lo ≤ s.mat.inner a b ∧ s.mat.inner a b ≤ hi' then 0 else d.val a b } u := by
  refine rel_congr (rel_mapZero h hi _ (fun o k => o < s.mat.outerSize ∧ lo ≤ k ∧ k ≤ hi') (fun o => ?_) (fun _ o => ?_)) rfl rfl
    (fun a b _ _ => if_congr Iff.rfl rfl rfl) rfl id (fun _ _ _ _ => Iff.rfl) rfl
  · split_ifs with hx
    · rw [clearIndices_eq (h.sorted o) (hc o)]
      exact List.map_congr_left fun t _ => if_congr (by simp [hx]) rfl rfl
    · exact map_noop _ (fun k => o < s.mat.outerSize ∧ lo ≤ k ∧ k ≤ hi') fun k e => hx e.1
  · split_ifs with hx
    · rw [clearIndices_eq (h.sorted o) (hc o)]
    · exact hc o

theorem rel_compress {s : SparseWrapper K} {d : Spec.Dense K} {u : Spec.Usage} (h : Rel s d u) :
    Rel s.compress d { u with assembling := false, tidy := True } := by
  have r := rel_ensure h
  unfold SparseWrapper.compress
  unfold SparseWrapper.ensure at r
  cases hi : s.initialized
  · rw [hi, if_neg (by simp)] at r
    rw [if_neg (by simp)]
    exact ⟨r.rows, r.cols, r.val, r.sorted, r.init, r.blank, r.flushed, fun _ o => rfl, r.stored, r.symm⟩
  · rw [hi, if_pos rfl] at r
    rw [if_pos rfl]
    exact ⟨r.rows, r.cols, r.val, r.sorted, by simp [hi], fun e => absurd e (by simp [hi]), fun _ => r.flushed hi, fun _ o => rfl,
      r.stored, r.symm⟩

theorem rel_clearRowCol {s : SparseWrapper K} {d : Spec.Dense K} {u : Spec.Usage} (h : Rel s d u) (i : ℕ)
    (hi : i < d.rows ∧ i < d.cols) (ht : u.tidy) (hsym : u.symmetric = true → d.rows = d.cols → d.Symmetric) :
    Rel (s.clearRowCol i) (d.step (.clearRowCol i)) (u.step (MatOp.clearRowCol (K := K) i)) := by
  have r := rel_ensure h
  have hin := ensure_init (s := s)
  unfold SparseWrapper.clearRowCol
  generalize s.ensure = t at *
  have r1 := rel_wipeOuter r hin i i
  have hin1 : (t.wipeOuter i i).initialized = true := hin
  have hc1 : (t.wipeOuter i i).mat.Compressed := r1.tidy ht
  simp only []
  by_cases hs : ((t.wipeOuter i i).symmetric && (t.wipeOuter i i).mat.rows == (t.wipeOuter i i).mat.cols) = true
  · rw [if_pos hs]
    simp only [Bool.and_eq_true, beq_iff_eq] at hs
    have hus : u.symmetric = true := by rw [← r1.symm]; exact hs.1
    have hsq : d.rows = d.cols := by rw [← r.rows, ← r.cols]; exact hs.2
    have hd := hsym hus hsq
    have hsub := rel_clearIndexWhere r1 hin1 hc1 i
      (fun o => (((t.wipeOuter i i).mat.vec i).used.map Prod.fst).contains o = true)
    refine rel_congr hsub rfl rfl (fun a b ha hb => ?_) rfl id (fun _ _ _ _ => Iff.rfl) rfl
    show (if a = i ∨ b = i then 0 else d.val a b) =
      if (((t.wipeOuter i i).mat.vec i).used.map Prod.fst).contains (t.mat.outer a b) = true ∧ t.mat.inner a b = i then 0
      else if i ≤ t.mat.outer a b ∧ t.mat.outer a b ≤ i then 0 else d.val a b
    have houter : ∀ a b, (a = i ∨ b = i) ↔ (t.mat.outer a b = i ∨ t.mat.inner a b = i) := by
      intro a b
      unfold SMatrix.outer SMatrix.inner
      split_ifs <;> tauto
    by_cases ho : t.mat.outer a b = i
    · rw [if_pos ((houter a b).mpr (Or.inl ho))]
      split_ifs with h1 h2
      · rfl
      · rfl
      · omega
    · by_cases hk : t.mat.inner a b = i
      · rw [if_pos ((houter a b).mpr (Or.inr hk))]
        split_ifs with h1 h2
        · rfl
        · rfl
        · -- the entry of the transposed position is not stored, so both values are zero
          have hnot : ¬ t.mat.Has b a := by
            rintro ⟨e, he, hx⟩
            apply h1
            refine ⟨?_, hk⟩
            have hob : t.mat.outer b a = i := by
              have : t.mat.outer b a = t.mat.inner a b := by unfold SMatrix.outer SMatrix.inner; split_ifs <;> rfl
              rw [this, hk]
            have hib : t.mat.inner b a = t.mat.outer a b := by unfold SMatrix.outer SMatrix.inner; split_ifs <;> rfl
            rw [hob] at he
            show ((((if i ≤ i ∧ i ≤ i then (t.mat.vec i).wipe else t.mat.vec i)).used.map Prod.fst).contains _) = true
            rw [if_pos ⟨le_refl _, le_refl _⟩, wipe_used]
            simp only [List.map_map, List.contains_iff_mem, List.mem_map]
            exact ⟨e, he, by simp only [Function.comp]; rw [hx, hib]⟩
          have hba := r.val b a (hsq ▸ hb) (hsq ▸ ha)
          rw [r.flushed hin, tripSum_nil, add_zero, coeff_of_not_has hnot] at hba
          rw [hd.2 a b ha hb, ← hba]
      · have hn : ¬ (a = i ∨ b = i) := fun e => ((houter a b).mp e).elim ho hk
        rw [if_neg hn, if_neg fun e => hk e.2, if_neg (by omega)]
  · rw [if_neg hs]
    have hsub := rel_clearIndexWhere r1 hin1 hc1 i (fun o => o < (t.wipeOuter i i).mat.outerSize)
    refine rel_congr hsub rfl rfl (fun a b ha hb => ?_) rfl id (fun _ _ _ _ => Iff.rfl) rfl
    show (if a = i ∨ b = i then 0 else d.val a b) =
      if t.mat.outer a b < t.mat.outerSize ∧ t.mat.inner a b = i then 0
      else if i ≤ t.mat.outer a b ∧ t.mat.outer a b ≤ i then 0 else d.val a b
    have hlt := outer_lt t.mat (i := a) (j := b) (r.rows ▸ ha) (r.cols ▸ hb)
    have houter : (a = i ∨ b = i) ↔ (t.mat.outer a b = i ∨ t.mat.inner a b = i) := by
      unfold SMatrix.outer SMatrix.inner
      split_ifs <;> tauto
    by_cases ho : t.mat.outer a b = i <;> by_cases hk : t.mat.inner a b = i
    · rw [if_pos (houter.mpr (Or.inl ho)), if_pos ⟨hlt, hk⟩]
    · rw [if_pos (houter.mpr (Or.inl ho)), if_neg fun e => hk e.2, if_pos (by omega)]
    · rw [if_pos (houter.mpr (Or.inr hk)), if_pos ⟨hlt, hk⟩]
    · rw [if_neg fun e => (houter.mp e).elim ho hk, if_neg fun e => hk e.2, if_neg (by omega)]

/-- One call simulates the operation on the plain matrix. -/
theorem rel_step {s : SparseWrapper K} {d : Spec.Dense K} {u : Spec.Usage} (h : Rel s d u) (op : MatOp K)
    (hin : d.InRange op) (ht : Spec.Crosses s.mat.rowMajor op → u.tidy)
    (hsym : ∀ i, op = .clearRowCol i → u.symmetric = true → d.rows = d.cols → d.Symmetric) :
    Rel (s.step op) (d.step op) (u.step op) := by
  have re := rel_ensure h
  have hi := ensure_init (s := s)
  have hrm := ensure_rowMajor (s := s)
  cases op with
  | set i j v g =>
    refine rel_congr (rel_modify re hi i j hin (fun _ => v) g) rfl rfl (fun a b _ _ => rfl) rfl id (fun _ _ _ _ => Iff.rfl) rfl
  | add i j v g => exact rel_add h i j hin v g
  | addBlock i j N C m g => exact rel_addBlock h i j N C m g hin
  | compress => exact rel_compress h
  | clear =>
    have := rel_fresh (K := K) s.mat.rowMajor s.mat.rows s.mat.cols s.symmetric (u.step (MatOp.clear (K := K))) rfl
      (fun _ _ => id) h.symm.symm
    rw [h.rows, h.cols] at this
    simp only [SparseWrapper.step, SparseWrapper.clear, h.rows, h.cols]
    exact this
  | resize r c =>
    exact rel_fresh (K := K) s.mat.rowMajor r c s.symmetric (u.step (MatOp.resize (K := K) r c)) rfl (fun _ _ => id) h.symm.symm
  | clearRow i =>
    simp only [SparseWrapper.step, SparseWrapper.clearRow]
    cases hm : s.mat.rowMajor
    · rw [if_neg (by simp)]
      have hc : s.ensure.mat.Compressed := re.tidy (ht hm)
      refine rel_congr (rel_clearIndexWhere re hi hc i _) rfl rfl (fun a b ha hb => ?_) rfl id (fun _ _ _ _ => Iff.rfl) rfl
      have hlt := outer_lt s.ensure.mat (i := a) (j := b) (re.rows ▸ ha) (re.cols ▸ hb)
      refine if_congr ?_ rfl rfl
      simp only [hlt, true_and]
      unfold SMatrix.inner
      rw [hrm, hm]; simp
    · rw [if_pos (by simp)]
      refine rel_congr (rel_wipeOuter re hi i i) rfl rfl (fun a b ha hb => ?_) rfl id (fun _ _ _ _ => Iff.rfl) rfl
      refine if_congr ?_ rfl rfl
      unfold SMatrix.outer
      rw [hrm, hm, if_pos rfl]; omega
  | clearRows lo hi' =>
    simp only [SparseWrapper.step, SparseWrapper.clearRows]
    cases hm : s.mat.rowMajor
    · rw [if_neg (by simp)]
      have hc : s.ensure.mat.Compressed := re.tidy (ht hm)
      refine rel_congr (rel_clearIndices re hi hc lo hi') rfl rfl (fun a b ha hb => ?_) rfl id (fun _ _ _ _ => Iff.rfl) rfl
      have hlt := outer_lt s.ensure.mat (i := a) (j := b) (re.rows ▸ ha) (re.cols ▸ hb)
      refine if_congr ?_ rfl rfl
      simp only [hlt, true_and]
      unfold SMatrix.inner
      rw [hrm, hm]; simp
    · rw [if_pos (by simp)]
      refine rel_congr (rel_wipeOuter re hi lo hi') rfl rfl (fun a b ha hb => ?_) rfl id (fun _ _ _ _ => Iff.rfl) rfl
      refine if_congr ?_ rfl rfl
      unfold SMatrix.outer
      rw [hrm, hm, if_pos rfl]
  | clearCol i =>
    simp only [SparseWrapper.step, SparseWrapper.clearCol]
    cases hm : s.mat.rowMajor
    · rw [if_pos (by simp)]
      refine rel_congr (rel_wipeOuter re hi i i) rfl rfl (fun a b ha hb => ?_) rfl id (fun _ _ _ _ => Iff.rfl) rfl
      refine if_congr ?_ rfl rfl
      unfold SMatrix.outer
      rw [hrm, hm, if_neg (by simp)]; omega
    · rw [if_neg (by simp)]
      have hc : s.ensure.mat.Compressed := re.tidy (ht hm)
      refine rel_congr (rel_clearIndexWhere re hi hc i _) rfl rfl (fun a b ha hb => ?_) rfl id (fun _ _ _ _ => Iff.rfl) rfl
      have hlt := outer_lt s.ensure.mat (i := a) (j := b) (re.rows ▸ ha) (re.cols ▸ hb)
      refine if_congr ?_ rfl rfl
      simp only [hlt, true_and]
      unfold SMatrix.inner
      rw [hrm, hm]; simp
  | clearCols lo hi' =>
    simp only [SparseWrapper.step, SparseWrapper.clearCols]
    cases hm : s.mat.rowMajor
    · rw [if_pos (by simp)]
      refine rel_congr (rel_wipeOuter re hi lo hi') rfl rfl (fun a b ha hb => ?_) rfl id (fun _ _ _ _ => Iff.rfl) rfl
      refine if_congr ?_ rfl rfl
      unfold SMatrix.outer
      rw [hrm, hm, if_neg (by simp)]
    · rw [if_neg (by simp)]
      have hc : s.ensure.mat.Compressed := re.tidy (ht hm)
      refine rel_congr (rel_clearIndices re hi hc lo hi') rfl rfl (fun a b ha hb => ?_) rfl id (fun _ _ _ _ => Iff.rfl) rfl
      have hlt := outer_lt s.ensure.mat (i := a) (j := b) (re.rows ▸ ha) (re.cols ▸ hb)
      refine if_congr ?_ rfl rfl
      simp only [hlt, true_and]
      unfold SMatrix.inner
      rw [hrm, hm]; simp
  | clearRowCol i => exact rel_clearRowCol h i hin (ht trivial) (hsym i rfl)
  | setSymmetric b =>
    exact ⟨h.rows, h.cols, h.val, h.sorted, h.init, h.blank, h.flushed, h.tidy, h.stored, rfl⟩

theorem modify_rm (m : SMatrix K) (i j : ℕ) (f : K → K) (g : Garbage K) : (m.modify i j f g).rowMajor = m.rowMajor :=
  (modify_outer m i j f g).1

theorem add_rm (s : SparseWrapper K) (i j : ℕ) (v : K) (g : Garbage K) : (s.add i j v g).mat.rowMajor = s.mat.rowMajor := by
  unfold SparseWrapper.add; split_ifs
  · exact modify_rm ..
  · rfl

theorem step_rm (s : SparseWrapper K) (op : MatOp K) : (s.step op).mat.rowMajor = s.mat.rowMajor := by
  have hrm := ensure_rowMajor (s := s)
  cases op with
  | set i j v g => exact (modify_rm ..).trans hrm
  | add i j v g => exact add_rm ..
  | addBlock i j N C m g =>
    simp only [SparseWrapper.step]
    rw [addBlock_eq]
    generalize blockList i j N C m g = L
    clear hrm
    induction L generalizing s with
    | nil => rfl
    | cons e L ih => rw [List.foldl_cons, ih, add_rm]
  | compress => simp only [SparseWrapper.step, SparseWrapper.compress]; split_ifs <;> rfl
  | clear => rfl
  | resize r c => rfl
  | clearRow i => simp only [SparseWrapper.step, SparseWrapper.clearRow]; split_ifs <;> exact hrm
  | clearRows lo hi' => simp only [SparseWrapper.step, SparseWrapper.clearRows]; split_ifs <;> exact hrm
  | clearCol i => simp only [SparseWrapper.step, SparseWrapper.clearCol]; split_ifs <;> exact hrm
  | clearCols lo hi' => simp only [SparseWrapper.step, SparseWrapper.clearCols]; split_ifs <;> exact hrm
  | clearRowCol i =>
    simp only [SparseWrapper.step, SparseWrapper.clearRowCol]
    split_ifs <;> exact hrm
  | setSymmetric b => rfl

theorem rel_run {rm : Bool} (ops : List (MatOp K)) :
    ∀ {s : SparseWrapper K} {d : Spec.Dense K} {u : Spec.Usage}, Rel s d u → s.mat.rowMajor = rm →
      Spec.Careful rm d u ops →
      Rel (ops.foldl SparseWrapper.step s) (ops.foldl Spec.Dense.step d) (ops.foldl Spec.Usage.step u) := by
  induction ops with
  | nil => intro s d u h _ _; exact h
  | cons op ops ih =>
    intro s d u h hm hc
    exact ih (rel_step h op hc.1 (hm ▸ hc.2.1) hc.2.2.1) ((step_rm s op).trans hm) hc.2.2.2

end Caribou
