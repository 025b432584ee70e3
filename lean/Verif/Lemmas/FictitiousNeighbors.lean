import Verif.Lemmas.FictitiousGrid

/-! Neighbours in a forest of cell trees. -/

set_option autoImplicit false
set_option linter.all false

namespace Caribou.FictitiousGrid

open Spec

variable {D : ℕ} {α : Type*}

/-! ### Leaves and paths -/

theorem leafAt_nil {t : CellTree D α} {d : α} (h : LeafAt t [] d) : t = .leaf d := by cases h; rfl

theorem leafAt_cons {t : CellTree D α} {i : Fin (2 ^ D)} {p : List (Fin (2 ^ D))} {d : α} (h : LeafAt t (i :: p) d) :
    ∃ ch, t = .node ch ∧ LeafAt (ch i) p d := by
  cases h with
  | child ch i p d h => exact ⟨ch, rfl, h⟩

theorem leafAt_leaf {d d' : α} {p : List (Fin (2 ^ D))} : LeafAt (.leaf d : CellTree D α) p d' ↔ p = [] ∧ d' = d := by
  constructor
  · intro h; cases h; exact ⟨rfl, rfl⟩
  · rintro ⟨rfl, rfl⟩; exact .here _

theorem leafAt_node {ch : Fin (2 ^ D) → CellTree D α} {d : α} {p : List (Fin (2 ^ D))} :
    LeafAt (.node ch) p d ↔ ∃ i q, p = i :: q ∧ LeafAt (ch i) q d := by
  constructor
  · intro h; cases h with
    | child ch i p d h => exact ⟨i, p, rfl, h⟩
  · rintro ⟨i, q, rfl, h⟩; exact .child _ _ _ _ h

theorem leaf_prefix {t : CellTree D α} {e r : List (Fin (2 ^ D))} {d d' : α} (h : LeafAt t e d) (h' : LeafAt t (e ++ r) d') :
    r = [] := by
  induction e generalizing t with
  | nil =>
    rw [leafAt_nil h] at h'
    simpa using (leafAt_leaf.mp h').1
  | cons i e ih =>
    obtain ⟨ch, rfl, hc⟩ := leafAt_cons h
    obtain ⟨j, q, e', hq⟩ := leafAt_node.mp h'
    simp only [List.cons_append, List.cons.injEq] at e'
    obtain ⟨rfl, rfl⟩ := e'
    exact ih hc hq

theorem leaf_unique {t : CellTree D α} {e : List (Fin (2 ^ D))} {d d' : α} (h : LeafAt t e d) (h' : LeafAt t e d') : d = d' := by
  induction e generalizing t with
  | nil => have := leafAt_nil h; rw [this] at h'; exact ((leafAt_leaf.mp h').2).symm
  | cons i e ih =>
    obtain ⟨ch, rfl, hc⟩ := leafAt_cons h
    obtain ⟨j, q, e', hq⟩ := leafAt_node.mp h'
    simp only [List.cons.injEq] at e'
    obtain ⟨rfl, rfl⟩ := e'
    exact ih hc hq

theorem find_append (t : CellTree D α) (e up : List (Fin (2 ^ D))) :
    t.find (e ++ up) = (t.find up).bind fun s => s.find e := by
  induction e with
  | nil => simp [CellTree.find]
  | cons i e ih =>
    rw [List.cons_append, CellTree.find, ih]
    cases h : t.find up with
    | none => simp
    | some s => simp [CellTree.find]

theorem leaf_find {t : CellTree D α} {up e : List (Fin (2 ^ D))} {d : α} (h : LeafAt t (up.reverse ++ e) d) :
    ∃ s, t.find up = some s ∧ LeafAt s e d := by
  induction up generalizing e with
  | nil => exact ⟨t, rfl, by simpa using h⟩
  | cons i up ih =>
    rw [List.reverse_cons, List.append_assoc] at h
    obtain ⟨s, hs, hl⟩ := ih h
    obtain ⟨ch, rfl, hc⟩ := leafAt_cons hl
    exact ⟨ch i, by rw [CellTree.find, hs], hc⟩

theorem find_leaf {t s : CellTree D α} {up : List (Fin (2 ^ D))} (h : t.find up = some s) (e : List (Fin (2 ^ D))) (d : α) :
    LeafAt t (up.reverse ++ e) d ↔ LeafAt s e d := by
  constructor
  · intro hl
    obtain ⟨s', hs, hl⟩ := leaf_find hl
    rw [h] at hs
    cases hs
    exact hl
  · intro hl
    induction up generalizing s e with
    | nil => cases h; simpa using hl
    | cons i up ih =>
      rw [CellTree.find] at h
      cases hf : t.find up with
      | none => rw [hf] at h; simp at h
      | some s' =>
        rw [hf] at h
        cases s' with
        | leaf _ => simp at h
        | node ch =>
          simp only [Option.some.injEq] at h
          subst h
          rw [List.reverse_cons, List.append_assoc]
          exact ih hf (e := i :: e) (.child _ _ _ _ hl)

/-! ### Facing leaves -/

theorem mem_facing (axis : Fin D) (s : ℤ) (t : CellTree D α) (p p' : List (Fin (2 ^ D))) :
    p' ∈ facing axis s t p ↔ ∃ e d, p' = e.reverse ++ p ∧ LeafAt t e d ∧ ∀ i ∈ e, subcellCoordinates D i axis = s := by
  induction t generalizing p with
  | leaf d =>
    simp only [facing, List.mem_singleton]
    constructor
    · rintro rfl; exact ⟨[], d, rfl, .here _, by simp⟩
    · rintro ⟨e, d', rfl, h, _⟩; rw [(leafAt_leaf.mp h).1]; rfl
  | node ch ih =>
    simp only [facing, List.mem_flatMap, List.mem_reverse, List.mem_finRange, true_and]
    constructor
    · rintro ⟨i, hi⟩
      split_ifs at hi with hs
      · obtain ⟨e, d, rfl, hl, ha⟩ := (ih i (i :: p)).mp hi
        exact ⟨i :: e, d, by simp, .child _ _ _ _ hl, by simpa [hs] using ha⟩
      · simp at hi
    · rintro ⟨e, d, rfl, hl, ha⟩
      obtain ⟨i, q, rfl, hq⟩ := leafAt_node.mp hl
      rw [List.forall_mem_cons] at ha
      exact ⟨i, by rw [if_pos ha.1]; exact (ih i (i :: p)).mpr ⟨q, d, by simp, hq, ha.2⟩⟩

/-- `e` (from the top) agrees with `q` as long as both last; what remains of `e` faces the side `s`. -/
def Compat (axis : Fin D) (s : ℤ) : List (Fin (2 ^ D)) → List (Fin (2 ^ D)) → Prop
  | [], e => ∀ i ∈ e, subcellCoordinates D i axis = s
  | _ :: _, [] => True
  | c :: q, i :: e => i = c ∧ Compat axis s q e

theorem mem_descend (axis : Fin D) (dir s : ℤ) (st : List (Fin D → ℤ)) (t : CellTree D α) (p p' : List (Fin (2 ^ D))) :
    p' ∈ facing axis s (descend axis dir st p t).2 (descend axis dir st p t).1 ↔
      ∃ e d, p' = e.reverse ++ p ∧ LeafAt t e d ∧ Compat axis s (st.map fun c => subcellIndex D (opposite axis dir c)) e := by
  induction st generalizing t p with
  | nil => rw [descend, mem_facing]; rfl
  | cons c st ih =>
    cases t with
    | leaf d =>
      simp only [descend, facing, List.mem_singleton, List.map_cons]
      constructor
      · rintro rfl; exact ⟨[], d, rfl, .here _, trivial⟩
      · rintro ⟨e, d', rfl, h, _⟩; rw [(leafAt_leaf.mp h).1]; rfl
    | node ch =>
      simp only [descend, List.map_cons]
      rw [ih]
      constructor
      · rintro ⟨e, d, rfl, hl, hc⟩
        exact ⟨_ :: e, d, by simp, .child _ _ _ _ hl, rfl, hc⟩
      · rintro ⟨e, d, rfl, hl, hc⟩
        obtain ⟨i, q, rfl, hq⟩ := leafAt_node.mp hl
        obtain ⟨rfl, hc⟩ := hc
        exact ⟨q, d, by simp, hq, hc⟩

theorem compat_iff (axis : Fin D) (s : ℤ) (q e : List (Fin (2 ^ D))) :
    Compat axis s q e ↔ (∃ r, q = e ++ r) ∨ ∃ r, e = q ++ r ∧ ∀ i ∈ r, subcellCoordinates D i axis = s := by
  induction q generalizing e with
  | nil =>
    constructor
    · intro h; exact .inr ⟨e, rfl, h⟩
    · rintro (⟨r, h⟩ | ⟨r, rfl, h⟩)
      · have : e = [] := by simpa using (List.append_eq_nil_iff.mp h.symm).1
        subst this; intro i hi; simp at hi
      · exact fun i hi => h i (by simpa using hi)
  | cons c q ih =>
    cases e with
    | nil => simp [Compat]
    | cons i e =>
      simp only [Compat, ih, List.cons_append, List.cons.injEq]
      constructor
      · rintro ⟨rfl, ⟨r, h⟩ | ⟨r, h, h'⟩⟩
        · exact .inl ⟨r, rfl, h⟩
        · exact .inr ⟨r, ⟨rfl, h⟩, h'⟩
      · rintro (⟨r, rfl, h⟩ | ⟨r, ⟨rfl, h⟩, h'⟩)
        · exact ⟨rfl, .inl ⟨r, h⟩⟩
        · exact ⟨rfl, .inr ⟨r, h, h'⟩⟩

/-! ### Going up -/

/-- Moving along the axis stays in the parent. -/
def Movable (axis : Fin D) (dir : ℤ) (i : Fin (2 ^ D)) : Prop :=
  (subcellCoordinates D i axis + dir - 0) * (subcellCoordinates D i axis + dir - 1) ≤ 0

theorem climb_spec (axis : Fin D) (dir : ℤ) (p : List (Fin (2 ^ D))) (st : List (Fin D → ℤ)) :
    (∃ lo x up, p = lo ++ x :: up ∧ (∀ i ∈ lo, ¬ Movable axis dir i) ∧ Movable axis dir x ∧
      climb axis dir p st = (true, up, (lo ++ [x]).reverse.map (subcellCoordinates D) ++ st)) ∨
    ((∀ i ∈ p, ¬ Movable axis dir i) ∧ climb axis dir p st = (false, [], p.reverse.map (subcellCoordinates D) ++ st)) := by
  induction p generalizing st with
  | nil => exact .inr ⟨by simp, by simp [climb]⟩
  | cons i p ih =>
    by_cases hm : Movable axis dir i
    · refine .inl ⟨[], i, p, rfl, by simp, hm, ?_⟩
      have hm' := hm
      unfold Movable at hm'
      rw [climb, if_pos hm']
      simp
    · have hc : climb axis dir (i :: p) st = climb axis dir p (subcellCoordinates D i :: st) := by
        have hm' := hm; unfold Movable at hm'; rw [climb, if_neg hm']
      rcases ih (subcellCoordinates D i :: st) with ⟨lo, x, up, rfl, h1, h2, h3⟩ | ⟨h1, h2⟩
      · refine .inl ⟨i :: lo, x, up, rfl, by simpa [hm] using h1, h2, ?_⟩
        rw [hc, h3]; simp
      · refine .inr ⟨by simpa [hm] using h1, ?_⟩
        rw [hc, h2]; simp

/-- The index on the other side of the axis. -/
def flip (axis : Fin D) (dir : ℤ) (i : Fin (2 ^ D)) : Fin (2 ^ D) :=
  subcellIndex D (opposite axis dir (subcellCoordinates D i))

theorem flip_sub (h : Is23 D) {dir : ℤ} (hd : dir = 1 ∨ dir = -1) (axis : Fin D) (i : Fin (2 ^ D)) (a : Fin D) :
    subcellCoordinates D (flip axis dir i) a = if a = axis then 1 - subcellCoordinates D i a else subcellCoordinates D i a := by
  have key : ∀ a, opposite axis dir (subcellCoordinates D i) a
      = if a = axis then 1 - subcellCoordinates D i a else subcellCoordinates D i a := fun a => by
    by_cases ha : a = axis
    · subst ha
      simp only [opposite, Function.update_self, if_true]
      rcases sub01 h i a with e | e <;> rcases hd with rfl | rfl <;> rw [e] <;> decide
    · simp [opposite, Function.update_of_ne ha, ha]
  rw [flip, sub_index h _ fun a => by
    rw [key]; split <;> rcases sub01 h i a with e | e <;> simp [e], key]

theorem movable_iff (h : Is23 D) {dir : ℤ} (hd : dir = 1 ∨ dir = -1) (axis : Fin D) (i : Fin (2 ^ D)) :
    Movable axis dir i ↔ 1 - subcellCoordinates D i axis = subcellCoordinates D i axis + dir := by
  unfold Movable
  rcases sub01 h i axis with e | e <;> rcases hd with rfl | rfl <;> rw [e] <;> decide

theorem not_movable (h : Is23 D) {dir : ℤ} (hd : dir = 1 ∨ dir = -1) (axis : Fin D) (i : Fin (2 ^ D))
    (hm : ¬ Movable axis dir i) : 1 - subcellCoordinates D i axis = subcellCoordinates D i axis - dir := by
  rw [movable_iff h hd] at hm
  rcases sub01 h i axis with e | e <;> rcases hd with rfl | rfl <;> rw [e] at hm ⊢ <;> omega

/-- The carry of an addition of `dir` on the axis. -/
theorem carry (h : Is23 D) {dir : ℤ} (hd : dir = 1 ∨ dir = -1) (axis : Fin D) {T T' : Fin D → ℤ}
    {u u' lo : List (Fin (2 ^ D))} (hu : ∀ a, val T' a u' = val T a u + if a = axis then dir else 0)
    (hm : ∀ i ∈ lo, ¬ Movable axis dir i) (a : Fin D) :
    val T' a (lo.map (flip axis dir) ++ u') = val T a (lo ++ u) + if a = axis then dir else 0 := by
  induction lo with
  | nil => exact hu a
  | cons i lo ih =>
    rw [List.forall_mem_cons] at hm
    have := ih hm.2
    simp only [List.map_cons, List.cons_append, val, this, flip_sub h hd]
    by_cases ha : a = axis
    · subst ha
      simp only [if_true]
      have := not_movable h hd a i hm.1
      rcases sub01 h i a with e | e <;> rcases hd with rfl | rfl <;> rw [e] at this ⊢ <;> omega
    · simp [ha]

/-! ### Agreement with the neighbour path is adjacency -/

theorem pow_split (a b : ℕ) : (2 : ℤ) ^ (a + b) = 2 ^ a * 2 ^ b := pow_add 2 a b

theorem compat_adj (h : Is23 D) {dir : ℤ} (hd : dir = 1 ∨ dir = -1) (axis : Fin D) {T T' TE : Fin D → ℤ}
    {P Q E : List (Fin (2 ^ D))} (hlen : Q.length = P.length)
    (hQ : ∀ a, val T' a Q = val T a P + if a = axis then dir else 0)
    (hpre : T = TE → ∀ r, P = r ++ E → r = []) :
    (T' = TE ∧ Compat axis (if dir < 0 then 1 else 0) Q.reverse E.reverse) ↔
      IAdj (fun a => val T a P) (fun a => val TE a E) P.length E.length axis dir := by
  rw [compat_iff]
  constructor
  · rintro ⟨rfl, ⟨r, hr⟩ | ⟨r, hr, hs⟩⟩
    · -- the neighbour is coarser or of equal size
      have hr' : Q = r.reverse ++ E := by
        have := congrArg List.reverse hr; simpa using this
      generalize r.reverse = s at hr'
      subst hr'
      have hk : P.length = s.length + E.length := by rw [← hlen]; simp
      have hb := fun a => bits_range h a s
      have hv : ∀ a, val T a P = 2 ^ s.length * val T' a E + bits a s - if a = axis then dir else 0 := fun a => by
        have := hQ a; rw [val_append] at this; linarith
      have hpos : (0 : ℤ) < 2 ^ s.length := by positivity
      have hposE : (0 : ℤ) < 2 ^ E.length := by positivity
      refine ⟨?_, ?_⟩
      · -- on the axis
        have hax := hv axis
        simp only [if_true] at hax
        have hb0 := hb axis
        -- the lower part of the path vanishes on the axis
        have key : ∀ b : ℤ, (0 ≤ bits axis s - dir ∧ bits axis s - dir < 2 ^ s.length) → s = [] := by
          intro _ hc
          have hPs : ∃ P0 P1, P = P1 ++ P0 ∧ P0.length = E.length ∧ P1.length = s.length := by
            refine ⟨P.drop s.length, P.take s.length, (List.take_append_drop _ _).symm, ?_, ?_⟩
            · rw [List.length_drop]; omega
            · rw [List.length_take]; omega
          obtain ⟨P0, P1, rfl, hl0, hl1⟩ := hPs
          have hval : ∀ a, val T a P0 = val T' a E := fun a => by
            have h1 := hv a
            rw [val_append, hl1] at h1
            have h2 := bits_range h a P1
            rw [hl1] at h2
            have h3 := hb a
            by_cases ha : a = axis
            · subst ha
              simp only [if_true] at h1
              have : (2 : ℤ) ^ s.length * (val T a P0 - val T' a E) = bits a s - dir - bits a P1 := by linarith
              have hlt : (2 : ℤ) ^ s.length * (val T a P0 - val T' a E) < 2 ^ s.length * 1 := by linarith [h2.1, hc.2]
              have hgt : (2 : ℤ) ^ s.length * (-1) < 2 ^ s.length * (val T a P0 - val T' a E) := by linarith [h2.2, hc.1]
              have a1 := lt_of_mul_lt_mul_left hlt hpos.le
              have a2 := lt_of_mul_lt_mul_left hgt hpos.le
              omega
            · simp only [ha, if_false, sub_zero] at h1
              have hlt : (2 : ℤ) ^ s.length * (val T a P0 - val T' a E) < 2 ^ s.length * 1 := by linarith [h2.1, h3.2]
              have hgt : (2 : ℤ) ^ s.length * (-1) < 2 ^ s.length * (val T a P0 - val T' a E) := by linarith [h2.2, h3.1]
              have a1 := lt_of_mul_lt_mul_left hlt hpos.le
              have a2 := lt_of_mul_lt_mul_left hgt hpos.le
              omega
          obtain ⟨rfl, rfl⟩ := val_inj h hl0 hval
          have := hpre rfl P1 rfl
          rw [this] at hl1
          exact List.length_eq_zero_iff.mp hl1.symm
        simp only
        rw [hk, pow_split]
        rcases hd with rfl | rfl
        · have hz : bits axis s = 0 := by
            by_contra hne
            have := key 0 ⟨by omega, by omega⟩
            subst this
            exact hne rfl
          rw [if_pos rfl, hax, hz]; ring
        · have hz : bits axis s = 2 ^ s.length - 1 := by
            by_contra hne
            have := key 0 ⟨by omega, by omega⟩
            subst this
            exact hne rfl
          rw [if_neg (by norm_num), hax, hz]; ring
      · intro a ha
        have hva := hv a
        simp only [ha, if_false, sub_zero] at hva
        simp only
        rw [hk, pow_split, hva]
        have h3 := hb a
        constructor
        · have : (2 : ℤ) ^ s.length * val T' a E + bits a s < 2 ^ s.length * (val T' a E + 1) := by linarith [h3.2]
          calc _ < 2 ^ s.length * (val T' a E + 1) * 2 ^ E.length := mul_lt_mul_of_pos_right this hposE
            _ = _ := by ring
        · have : (2 : ℤ) ^ s.length * val T' a E < 2 ^ s.length * val T' a E + bits a s + 1 := by linarith [h3.1]
          calc _ = 2 ^ s.length * val T' a E * 2 ^ E.length := by ring
            _ < _ := mul_lt_mul_of_pos_right this hposE
    · -- the neighbour is finer
      have hr' : E = r.reverse ++ Q := by
        have := congrArg List.reverse hr; simpa using this
      have hs' : ∀ i ∈ r.reverse, subcellCoordinates D i axis = if dir < 0 then 1 else 0 := fun i hi => hs i (by simpa using hi)
      generalize r.reverse = s at hr' hs'
      subst hr'
      have hk : (s ++ Q).length = s.length + P.length := by simp [hlen]
      have hposP : (0 : ℤ) < 2 ^ P.length := by positivity
      have hb := fun a => bits_range h a s
      refine ⟨?_, ?_⟩
      · have hax := hQ axis
        simp only [if_true] at hax
        simp only
        rw [val_append, hk, pow_split, hax]
        rcases hd with rfl | rfl
        · have := (bits_zero h axis s).mpr (by simpa using hs')
          rw [if_pos rfl, this]; ring
        · have := (bits_ones h axis s).mpr (by simpa using hs')
          rw [if_neg (by norm_num), this]; ring
      · intro a ha
        have hva := hQ a
        simp only [ha, if_false, add_zero] at hva
        simp only
        rw [val_append, hk, pow_split, hva]
        have h3 := hb a
        constructor
        · have : (2 : ℤ) ^ s.length * val T a P < 2 ^ s.length * val T a P + bits a s + 1 := by linarith [h3.1]
          calc _ = 2 ^ s.length * val T a P * 2 ^ P.length := by ring
            _ < _ := mul_lt_mul_of_pos_right this hposP
        · have : (2 : ℤ) ^ s.length * val T a P + bits a s < 2 ^ s.length * (val T a P + 1) := by linarith [h3.2]
          calc _ < 2 ^ s.length * (val T a P + 1) * 2 ^ P.length := mul_lt_mul_of_pos_right this hposP
            _ = _ := by ring
  · rintro ⟨hax, hoth⟩
    rcases le_total E.length P.length with hle | hle
    · -- coarser
      obtain ⟨Q0, Q1, rfl, hl0, hl1⟩ : ∃ Q0 Q1, Q = Q1 ++ Q0 ∧ Q0.length = E.length ∧ Q1.length = P.length - E.length := by
        refine ⟨Q.drop (P.length - E.length), Q.take (P.length - E.length), (List.take_append_drop _ _).symm, ?_, ?_⟩
        · rw [List.length_drop]; omega
        · rw [List.length_take]; omega
      have hk : P.length = Q1.length + E.length := by omega
      have hpos : (0 : ℤ) < 2 ^ Q1.length := by positivity
      have hposE : (0 : ℤ) < 2 ^ E.length := by positivity
      have hval : ∀ a, val T' a Q0 = val TE a E := fun a => by
        have h1 := hQ a
        rw [val_append] at h1
        have h2 := bits_range h a Q1
        by_cases ha : a = axis
        · subst ha
          simp only [if_true] at h1
          simp only [hk, pow_split] at hax
          have h3 : 2 ^ Q1.length * (val T' a Q0 - val TE a E) < 2 ^ Q1.length * 1 ∧
              2 ^ Q1.length * (-1) < 2 ^ Q1.length * (val T' a Q0 - val TE a E) := by
            rcases hd with rfl | rfl
            · rw [if_pos rfl] at hax
              have : val TE a E * 2 ^ Q1.length = val T a P + 1 :=
                mul_right_cancel₀ hposE.ne' (by rw [← hax]; ring)
              constructor <;> linarith [h2.1, h2.2]
            · rw [if_neg (by norm_num)] at hax
              have : (val TE a E + 1) * 2 ^ Q1.length = val T a P :=
                mul_right_cancel₀ hposE.ne' (by rw [← hax]; ring)
              constructor <;> linarith [h2.1, h2.2]
          have a1 := lt_of_mul_lt_mul_left h3.1 hpos.le
          have a2 := lt_of_mul_lt_mul_left h3.2 hpos.le
          omega
        · simp only [ha, if_false, add_zero] at h1
          obtain ⟨o1, o2⟩ := hoth a ha
          simp only [hk, pow_split] at o1 o2
          have o1' : val T a P < (val TE a E + 1) * 2 ^ Q1.length :=
            lt_of_mul_lt_mul_right (a := 2 ^ E.length) (by linarith) hposE.le
          have o2' : val TE a E * 2 ^ Q1.length < val T a P + 1 :=
            lt_of_mul_lt_mul_right (a := 2 ^ E.length) (by linarith) hposE.le
          have hlt : 2 ^ Q1.length * (val T' a Q0 - val TE a E) < 2 ^ Q1.length * 1 := by linarith [h2.1]
          have hgt : 2 ^ Q1.length * (-1) < 2 ^ Q1.length * (val T' a Q0 - val TE a E) := by linarith [h2.2]
          have a1 := lt_of_mul_lt_mul_left hlt hpos.le
          have a2 := lt_of_mul_lt_mul_left hgt hpos.le
          omega
      obtain ⟨rfl, rfl⟩ := val_inj h hl0 hval
      exact ⟨rfl, .inl ⟨Q1.reverse, by simp⟩⟩
    · -- finer
      obtain ⟨E0, E1, rfl, hl0, hl1⟩ : ∃ E0 E1, E = E1 ++ E0 ∧ E0.length = P.length ∧ E1.length = E.length - P.length := by
        refine ⟨E.drop (E.length - P.length), E.take (E.length - P.length), (List.take_append_drop _ _).symm, ?_, ?_⟩
        · rw [List.length_drop]; omega
        · rw [List.length_take]; omega
      have hk : (E1 ++ E0).length = E1.length + P.length := by simp [hl0]
      have hpos : (0 : ℤ) < 2 ^ E1.length := by positivity
      have hposP : (0 : ℤ) < 2 ^ P.length := by positivity
      have hvax : val TE axis E0 = val T' axis Q ∧
          ∀ i ∈ E1, subcellCoordinates D i axis = if dir < 0 then 1 else 0 := by
        have h1 := hQ axis
        simp only [if_true] at h1
        have h2 := bits_range h axis E1
        simp only [hk, pow_split, val_append] at hax
        rcases hd with rfl | rfl
        · rw [if_pos rfl] at hax
          have he : 2 ^ E1.length * val TE axis E0 + bits axis E1 = (val T axis P + 1) * 2 ^ E1.length :=
            mul_right_cancel₀ hposP.ne' (by rw [hax]; ring)
          have hlt : 2 ^ E1.length * (val TE axis E0 - val T' axis Q) < 2 ^ E1.length * 1 := by rw [h1]; linarith [h2.1]
          have hgt : 2 ^ E1.length * (-1) < 2 ^ E1.length * (val TE axis E0 - val T' axis Q) := by rw [h1]; linarith [h2.2]
          have a1 := lt_of_mul_lt_mul_left hlt hpos.le
          have a2 := lt_of_mul_lt_mul_left hgt hpos.le
          have e0 : val TE axis E0 = val T' axis Q := by omega
          refine ⟨e0, ?_⟩
          have := (bits_zero h axis E1).mp (by rw [e0, h1] at he; linarith)
          simpa using this
        · rw [if_neg (by norm_num)] at hax
          have he : 2 ^ E1.length * val TE axis E0 + bits axis E1 + 1 = val T axis P * 2 ^ E1.length :=
            mul_right_cancel₀ hposP.ne' (by rw [hax]; ring)
          have hlt : 2 ^ E1.length * (val TE axis E0 - val T' axis Q) < 2 ^ E1.length * 1 := by rw [h1]; linarith [h2.1]
          have hgt : 2 ^ E1.length * (-1) < 2 ^ E1.length * (val TE axis E0 - val T' axis Q) := by rw [h1]; linarith [h2.2]
          have a1 := lt_of_mul_lt_mul_left hlt hpos.le
          have a2 := lt_of_mul_lt_mul_left hgt hpos.le
          have e0 : val TE axis E0 = val T' axis Q := by omega
          refine ⟨e0, ?_⟩
          have := (bits_ones h axis E1).mp (by rw [e0, h1] at he; linarith)
          simpa using this
      have hval : ∀ a, val T' a Q = val TE a E0 := fun a => by
        by_cases ha : a = axis
        · rw [ha]; exact hvax.1.symm
        · have h1 := hQ a
          simp only [ha, if_false, add_zero] at h1
          have h2 := bits_range h a E1
          obtain ⟨o1, o2⟩ := hoth a ha
          simp only [hk, pow_split, val_append] at o1 o2
          have o1' : val T a P * 2 ^ E1.length < 2 ^ E1.length * val TE a E0 + bits a E1 + 1 :=
            lt_of_mul_lt_mul_right (a := 2 ^ P.length) (by linarith) hposP.le
          have o2' : 2 ^ E1.length * val TE a E0 + bits a E1 < (val T a P + 1) * 2 ^ E1.length :=
            lt_of_mul_lt_mul_right (a := 2 ^ P.length) (by linarith) hposP.le
          have hlt : 2 ^ E1.length * (val TE a E0 - val T' a Q) < 2 ^ E1.length * 1 := by rw [h1]; linarith [h2.1]
          have hgt : 2 ^ E1.length * (-1) < 2 ^ E1.length * (val TE a E0 - val T' a Q) := by rw [h1]; linarith [h2.2]
          have a1 := lt_of_mul_lt_mul_left hlt hpos.le
          have a2 := lt_of_mul_lt_mul_left hgt hpos.le
          omega
      obtain ⟨rfl, rfl⟩ := val_inj h (hlen.trans hl0.symm) hval
      exact ⟨rfl, .inr ⟨E1.reverse, by simp, fun i hi => hvax.2 i (by simpa using hi)⟩⟩

/-! ### Neighbours -/

theorem compat_append (axis : Fin D) (s : ℤ) (u q e : List (Fin (2 ^ D))) :
    Compat axis s (u ++ q) (u ++ e) ↔ Compat axis s q e := by
  induction u with
  | nil => rfl
  | cons i u ih => simp [Compat, ih]

theorem toI32_id {x : ℤ} (h0 : -2 ^ 31 ≤ x) (h1 : x < 2 ^ 31) : toI32 x = x := by
  unfold toI32
  exact Int.bmod_eq_of_le (by norm_num; omega) (by norm_num; omega)

theorem mem_collect (axis : Fin D) (dir : ℤ) (st : List (Fin D → ℤ)) (start : List (Fin (2 ^ D))) (t : CellTree D α) (top : ℤ)
    (c' : CellRef D) : c' ∈ collect axis dir st start t top ↔ c'.top = top ∧ ∃ e d, c'.path = e.reverse ++ start ∧ LeafAt t e d ∧
      Compat axis (if dir < 0 then 1 else 0) (st.map fun c => subcellIndex D (opposite axis dir c)) e := by
  rw [collect, List.mem_map, ← mem_descend]
  constructor
  · rintro ⟨p, hp, rfl⟩; exact ⟨rfl, hp⟩
  · rintro ⟨rfl, hp⟩; exact ⟨c'.path, hp, rfl⟩

theorem stack_map (axis : Fin D) (dir : ℤ) (l : List (Fin (2 ^ D))) :
    (l.reverse.map (subcellCoordinates D) ++ []).map (fun c => subcellIndex D (opposite axis dir c))
      = (l.map (flip axis dir)).reverse := by
  rw [List.append_nil, List.map_map, List.map_reverse]
  rfl

variable {K : Type*} [Field K]

theorem coordinates_inj (h : Is23 D) (g : Grid D K) (hf : Fits g.n) {m m' : ℤ} (h0 : 0 ≤ m) (h1 : m < ∏ a, (g.n a : ℤ))
    (h0' : 0 ≤ m') (h1' : m' < ∏ a, (g.n a : ℤ)) (e : g.cellCoordinatesAt m = g.cellCoordinatesAt m') : m = m' := by
  rw [← C24_count g hf] at h1 h1'
  rw [← (C24_index h.dim g hf m h0 h1).2, e, (C24_index h.dim g hf m' h0' h1').2]

theorem mem_getNeighbors (h : Is23 D) (g : Grid D K) (hf : Fits g.n) (hn : ∀ a, (g.n a : ℤ) < 2 ^ 31) (cells : ℤ → CellTree D α)
    (c : CellRef D) (d : α) (hc : IsLeaf g cells c d) (axis : Fin D) {dir : ℤ} (hd : dir = 1 ∨ dir = -1) (c' : CellRef D) :
    c' ∈ getNeighbors g cells c axis dir ↔ (∃ d', IsLeaf g cells c' d') ∧
      IAdj (fun a => val (g.cellCoordinatesAt c.top) a c.path) (fun a => val (g.cellCoordinatesAt c'.top) a c'.path)
        c.path.length c'.path.length axis dir := by
  obtain ⟨h0, h1, hl⟩ := hc
  have hT := (C24_index h.dim g hf c.top h0 (by rw [C24_count g hf]; exact h1)).1
  -- leaves are not above each other
  have hpre : ∀ d', IsLeaf g cells c' d' → g.cellCoordinatesAt c.top = g.cellCoordinatesAt c'.top →
      ∀ r, c.path = r ++ c'.path → r = [] := fun d' hl' e r hr => by
    have et := coordinates_inj h g hf h0 h1 hl'.1 hl'.2.1 e
    have l2 := hl'.2.2
    rw [← et] at l2
    rw [hr, List.reverse_append] at hl
    simpa using leaf_prefix l2 hl
  rcases climb_spec axis dir c.path [] with ⟨lo, x, up, hp, hlo, hx, hcl⟩ | ⟨hlo, hcl⟩
  · -- a suitable parent was found
    have hP : c.path.reverse = up.reverse ++ (lo ++ [x]).reverse := by rw [hp]; simp
    have hl' := hl
    rw [hP] at hl'
    obtain ⟨s, hs, hsl⟩ := leaf_find hl'
    have hQ : ∀ a, val (g.cellCoordinatesAt c.top) a (lo.map (flip axis dir) ++ flip axis dir x :: up)
        = val (g.cellCoordinatesAt c.top) a c.path + if a = axis then dir else 0 := fun a => by
      rw [hp]
      refine carry h hd axis (u := x :: up) (fun b => ?_) hlo a
      simp only [val, flip_sub h hd]
      by_cases hb : b = axis
      · subst hb
        have := (movable_iff h hd b x).mp hx
        simp only [if_true]; linarith
      · simp [hb]
    have hlen : (lo.map (flip axis dir) ++ flip axis dir x :: up).length = c.path.length := by rw [hp]; simp
    have hrev : (lo.map (flip axis dir) ++ flip axis dir x :: up).reverse
        = up.reverse ++ ((lo ++ [x]).map (flip axis dir)).reverse := by simp
    have hmem : c' ∈ getNeighbors g cells c axis dir ↔ c'.top = c.top ∧ ∃ e d, c'.path = e.reverse ++ up ∧ LeafAt s e d ∧
        Compat axis (if dir < 0 then 1 else 0) ((lo ++ [x]).map (flip axis dir)).reverse e := by
      rw [← stack_map, ← mem_collect]
      unfold getNeighbors
      rw [hcl]
      simp only [if_true]
      rw [hs]
    rw [hmem]
    constructor
    · rintro ⟨ht, e, d', hpe, hle, hce⟩
      have hleaf : IsLeaf g cells c' d' := ⟨ht ▸ h0, ht ▸ h1, by
        rw [ht, hpe, List.reverse_append, List.reverse_reverse]; exact (find_leaf hs e d').mpr hle⟩
      refine ⟨⟨d', hleaf⟩, ?_⟩
      refine (compat_adj h hd axis hlen hQ (hpre d' hleaf)).mp ⟨by rw [ht], ?_⟩
      rw [hrev, hpe, List.reverse_append, List.reverse_reverse, compat_append]
      exact hce
    · rintro ⟨⟨d', hleaf⟩, hadj⟩
      obtain ⟨eT, hcomp⟩ := (compat_adj h hd axis hlen hQ (hpre d' hleaf)).mpr hadj
      have et := coordinates_inj h g hf h0 h1 hleaf.1 hleaf.2.1 eT
      have l2 := hleaf.2.2
      rw [← et] at l2
      have hex : ∃ e, c'.path.reverse = up.reverse ++ e := by
        rw [hrev, compat_iff] at hcomp
        rcases hcomp with ⟨r, hr⟩ | ⟨r, hr, _⟩
        · rcases List.append_eq_append_iff.mp hr with ⟨a, ha, _⟩ | ⟨a, ha, hb⟩
          · exact ⟨a, ha⟩
          · exfalso
            rw [ha, List.append_assoc] at hl'
            have := leaf_prefix l2 hl'
            simp at this
        · exact ⟨_, by rw [hr, List.append_assoc]⟩
      obtain ⟨e, he⟩ := hex
      refine ⟨et.symm, e, d', ?_, ?_, ?_⟩
      · have := congrArg List.reverse he; simpa using this
      · rw [he] at l2; exact (find_leaf hs e d').mp l2
      · rw [hrev, he, compat_append] at hcomp; exact hcomp
  · -- the top of the tree was reached
    set T := g.cellCoordinatesAt c.top with hTdef
    set T' := Function.update T axis (T axis + dir) with hT'
    have hTa : ∀ a, T' a = T a + if a = axis then dir else 0 := fun a => by
      by_cases ha : a = axis
      · subst ha; simp [hT']
      · simp [hT', Function.update_of_ne ha, ha]
    have hQ : ∀ a, val T' a (c.path.map (flip axis dir)) = val T a c.path + if a = axis then dir else 0 := fun a => by
      have := carry h hd axis (T := T) (T' := T') (u := []) (u' := []) (lo := c.path) (fun b => hTa b) hlo a
      simpa using this
    have hlen : (c.path.map (flip axis dir)).length = c.path.length := by simp
    have hbound : (0 ≤ toI32 (T axis + dir) ∧ toI32 (T axis + dir) ≤ toI32 (toU64 ((g.n axis : ℤ) - 1))) ↔ IsCell g.n T' := by
      have ha := hT axis
      have hna := hn axis
      rw [toU64_id (by omega) (by omega), toI32_id (x := (g.n axis : ℤ) - 1) (by omega) (by omega),
        toI32_id (x := T axis + dir) (by omega) (by omega)]
      constructor
      · rintro ⟨b0, b1⟩ a
        rw [hTa]
        by_cases hb : a = axis
        · subst hb; simp only [if_true]; omega
        · simp only [hb, if_false, add_zero]; exact hT a
      · intro hcell
        have := hcell axis
        rw [hTa] at this
        simp only [if_true] at this
        omega
    by_cases hcell : IsCell g.n T'
    · have hco := C24_coordinates h.dim g hf T' hcell
      have hmem : c' ∈ getNeighbors g cells c axis dir ↔ c'.top = g.cellIndexAt T' ∧ ∃ e d, c'.path = e.reverse ++ [] ∧
          LeafAt (cells (g.cellIndexAt T')) e d ∧
          Compat axis (if dir < 0 then 1 else 0) (c.path.map (flip axis dir)).reverse e := by
        rw [← stack_map, ← mem_collect]
        unfold getNeighbors
        rw [hcl]
        simp only [Bool.false_eq_true, if_false]
        rw [← hTdef, ← hT', if_pos (hbound.mpr hcell)]
      rw [hmem]
      constructor
      · rintro ⟨ht, e, d', hpe, hle, hce⟩
        rw [List.append_nil] at hpe
        have hleaf : IsLeaf g cells c' d' := ⟨ht ▸ hco.1, by rw [ht, ← C24_count g hf]; exact hco.2.1, by
          rw [ht, hpe, List.reverse_reverse]; exact hle⟩
        refine ⟨⟨d', hleaf⟩, ?_⟩
        refine (compat_adj h hd axis hlen hQ (hpre d' hleaf)).mp ⟨by rw [ht]; exact hco.2.2.symm, ?_⟩
        rw [hpe, List.reverse_reverse]
        exact hce
      · rintro ⟨⟨d', hleaf⟩, hadj⟩
        obtain ⟨eT, hcomp⟩ := (compat_adj h hd axis hlen hQ (hpre d' hleaf)).mpr hadj
        have et : c'.top = g.cellIndexAt T' := by
          rw [eT, (C24_index h.dim g hf c'.top hleaf.1 (by rw [C24_count g hf]; exact hleaf.2.1)).2]
        exact ⟨et, c'.path.reverse, d', by simp, by rw [← et]; exact hleaf.2.2, hcomp⟩
    · have hnil : getNeighbors g cells c axis dir = [] := by
        unfold getNeighbors
        rw [hcl]
        simp only [Bool.false_eq_true, if_false]
        rw [← hTdef, if_neg (fun hb => hcell (hbound.mp hb))]
      rw [hnil]
      constructor
      · intro hm; simp at hm
      · rintro ⟨⟨d', hleaf⟩, hadj⟩
        obtain ⟨eT, _⟩ := (compat_adj h hd axis hlen hQ (hpre d' hleaf)).mpr hadj
        refine absurd ?_ hcell
        rw [eT]
        exact (C24_index h.dim g hf c'.top hleaf.1 (by rw [C24_count g hf]; exact hleaf.2.1)).1

end Caribou.FictitiousGrid
