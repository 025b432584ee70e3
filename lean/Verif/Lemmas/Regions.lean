import Verif.Model.FictitiousRegions
import Verif.Spec.Regions
import Mathlib.Data.List.Nodup
import Mathlib.Data.List.Count

/-! The clustering of cells computes connected components. -/

set_option autoImplicit false
set_option linter.all false

namespace Caribou.FictitiousGrid

open Spec

variable {C S : Type*} [DecidableEq C]

section

variable (type : C → CellType) (nb : C → S → List C) (sides : List S) (leaves : List C)

/-- Hypotheses on the neighbour function. -/
structure Nice : Prop where
  closed : ∀ x ∈ leaves, ∀ y, Adjacent nb sides x y → y ∈ leaves
  symm : ∀ x ∈ leaves, ∀ y, Adjacent nb sides x y → Adjacent nb sides y x

/-- State before a region is started. -/
structure Base (r : ℤ) (b : Clustering C) : Prop where
  fresh : ∀ x, b.regionId x ≠ r
  sat : ∀ x y, b.regionId x ≠ -1 → Linked type nb sides x y → b.regionId y = b.regionId x
  bd : ∀ x, b.regionId x = -1 → b.boundary x = false

/-- Invariant while a region is filled. -/
structure Inv (r : ℤ) (c0 : C) (b s : Clustering C) : Prop where
  regs : s.regions = b.regions
  curNodup : s.current.Nodup
  cur : ∀ x, s.regionId x = r ↔ x ∈ s.current
  old : ∀ x, x ∉ s.current → s.regionId x = b.regionId x
  fresh : ∀ x ∈ s.current, b.regionId x = -1
  leaf : ∀ x ∈ s.current, x ∈ leaves
  conn : ∀ x ∈ s.current, Connected type nb sides c0 x
  start : c0 ∈ s.current
  qsub : ∀ x ∈ s.queue, x ∈ s.current
  qNodup : s.queue.Nodup

/-- Number of cells without region. -/
def unclassified (s : Clustering C) : ℕ := leaves.countP fun x => decide (s.regionId x = -1)

/-- What a visit may change. -/
structure Trans (cell : C) (s s' : Clustering C) : Prop where
  cur : ∀ x ∈ s.current, x ∈ s'.current
  queue : ∀ x ∈ s.queue, x ∈ s'.queue
  new : ∀ x ∈ s'.current, x ∈ s.current ∨ x ∈ s'.queue
  qnew : ∀ x ∈ s'.queue, x ∈ s.queue ∨ x ∉ s.current
  measure : s'.queue.length + unclassified leaves s' ≤ s.queue.length + unclassified leaves s
  bd : ∀ x, x ≠ cell → s'.boundary x = s.boundary x

theorem Trans.refl (cell : C) (s : Clustering C) : Trans leaves cell s s :=
  ⟨fun _ h => h, fun _ h => h, fun _ h => .inl h, fun _ h => .inl h, le_rfl, fun _ _ => rfl⟩

variable {leaves}

theorem Trans.trans {cell : C} {s s' s'' : Clustering C} (h : Trans leaves cell s s') (h' : Trans leaves cell s' s'') :
    Trans leaves cell s s'' where
  cur x hx := h'.cur x (h.cur x hx)
  queue x hx := h'.queue x (h.queue x hx)
  new x hx := by
    rcases h'.new x hx with h1 | h1
    · rcases h.new x h1 with h2 | h2
      · exact .inl h2
      · exact .inr (h'.queue x h2)
    · exact .inr h1
  qnew x hx := by
    rcases h'.qnew x hx with h1 | h1
    · exact h.qnew x h1
    · exact .inr fun h2 => h1 (h.cur x h2)
  measure := h'.measure.trans h.measure
  bd x hx := (h'.bd x hx).trans (h.bd x hx)

variable {type nb sides}

theorem linked_symm (hn : Nice nb sides leaves) {x y : C} (hx : x ∈ leaves) (h : Linked type nb sides x y) :
    Linked type nb sides y x := ⟨hn.symm x hx y h.1, h.2.symm⟩

theorem visitNeighbor_spec (hn : Nice nb sides leaves) {r : ℤ} (hr : r ≠ -1) {c0 cell : C} {b s : Clustering C}
    (hb : Base type nb sides r b) (hi : Inv type nb sides leaves r c0 b s) (hc : cell ∈ s.current) {y : C}
    (hy : Adjacent nb sides cell y) :
    ∃ s', visitNeighbor type (type cell) r cell s y = some s' ∧ Inv type nb sides leaves r c0 b s' ∧ Trans leaves cell s s' ∧
      (type y = type cell → y ∈ s'.current) ∧ (s'.boundary cell = true ↔ s.boundary cell = true ∨ type y ≠ type cell) := by
  have hcl := hi.leaf cell hc
  unfold visitNeighbor
  by_cases ht : type y ≠ type cell
  · rw [if_pos ht]
    refine ⟨_, rfl, ⟨hi.regs, hi.curNodup, hi.cur, hi.old, hi.fresh, hi.leaf, hi.conn, hi.start, hi.qsub, hi.qNodup⟩,
      ⟨fun _ h => h, fun _ h => h, fun _ h => .inl h, fun _ h => .inl h, le_rfl, fun x hx => ?_⟩, fun h => absurd h ht, ?_⟩
    · exact Function.update_of_ne hx _ _
    · simp [ht]
  · push Not at ht
    rw [if_neg (by simpa using ht)]
    have hlink : Linked type nb sides cell y := ⟨hy, ht.symm⟩
    have hno : ¬ (s.regionId y ≠ -1 ∧ s.regionId y ≠ r) := by
      rintro ⟨h1, h2⟩
      have hyc : y ∉ s.current := fun h => h2 ((hi.cur y).mpr h)
      rw [hi.old y hyc] at h1
      have := hb.sat y cell h1 (linked_symm hn hcl hlink)
      rw [hi.fresh cell hc] at this
      exact h1 this.symm
    rw [if_neg hno]
    by_cases h1 : s.regionId y = -1
    · rw [if_pos h1]
      have hyc : y ∉ s.current := fun h => hr (((hi.cur y).mpr h).symm.trans h1)
      have hyl : y ∈ leaves := hn.closed cell hcl y hy
      refine ⟨_, rfl, ⟨hi.regs, ?_, fun x => ?_, fun x hx => ?_, fun x hx => ?_, fun x hx => ?_, fun x hx => ?_, ?_, fun x hx => ?_,
        ?_⟩, ⟨fun x hx => ?_, fun x hx => ?_, fun x hx => ?_, fun x hx => ?_, ?_, fun x hx => rfl⟩, fun _ => ?_, ?_⟩
      · exact List.Nodup.append hi.curNodup (List.nodup_singleton y) (by simpa using hyc)
      · simp only [List.mem_append, List.mem_singleton]
        by_cases hxy : x = y
        · subst hxy; simp
        · rw [Function.update_of_ne hxy, hi.cur x]; simp [hxy]
      · simp only [List.mem_append, List.mem_singleton, not_or] at hx
        simp only
        rw [Function.update_of_ne hx.2]; exact hi.old x hx.1
      · rcases List.mem_append.mp hx with h | h
        · exact hi.fresh x h
        · rw [List.mem_singleton.mp h, ← hi.old y hyc]; exact h1
      · rcases List.mem_append.mp hx with h | h
        · exact hi.leaf x h
        · rw [List.mem_singleton.mp h]; exact hyl
      · rcases List.mem_append.mp hx with h | h
        · exact hi.conn x h
        · rw [List.mem_singleton.mp h]; exact (hi.conn cell hc).tail hlink
      · exact List.mem_append_left _ hi.start
      · rcases List.mem_append.mp hx with h | h
        · exact List.mem_append_left _ (hi.qsub x h)
        · exact List.mem_append_right _ h
      · exact List.Nodup.append hi.qNodup (List.nodup_singleton y) (by
          simp only [List.disjoint_singleton]; exact fun h => hyc (hi.qsub y h))
      · exact List.mem_append_left _ hx
      · exact List.mem_append_left _ hx
      · rcases List.mem_append.mp hx with h | h
        · exact .inl h
        · exact .inr (List.mem_append_right _ h)
      · rcases List.mem_append.mp hx with h | h
        · exact .inl h
        · exact .inr (by rw [List.mem_singleton.mp h]; exact hyc)
      · have hlt : leaves.countP (fun x => decide (Function.update s.regionId y r x = -1)) + 1
            ≤ leaves.countP fun x => decide (s.regionId x = -1) := by
          clear hi hb hn hcl
          induction leaves with
          | nil => simp at hyl
          | cons z l ih =>
            have hmono : l.countP (fun x => decide (Function.update s.regionId y r x = -1))
                ≤ l.countP fun x => decide (s.regionId x = -1) := by
              refine List.countP_mono_left fun x _ hx => ?_
              simp only [decide_eq_true_eq] at hx ⊢
              by_cases hxy : x = y
              · rw [hxy]; exact h1
              · rwa [Function.update_of_ne hxy] at hx
            by_cases hz : z = y
            · subst hz
              simp only [List.countP_cons, Function.update_self]
              simp only [h1, hr, decide_false, decide_true, if_true]
              simp
              omega
            · have := ih (by rcases List.mem_cons.mp hyl with h | h; exacts [absurd h.symm hz, h])
              simp only [List.countP_cons, Function.update_of_ne hz]
              omega
        simp only [unclassified, List.length_append, List.length_singleton]
        omega
      · exact List.mem_append_right _ (List.mem_singleton.mpr rfl)
      · simp [ht]
    · rw [if_neg h1]
      have : s.regionId y = r := by by_contra h2; exact hno ⟨h1, h2⟩
      exact ⟨s, rfl, hi, Trans.refl leaves cell s, fun _ => (hi.cur y).mp this, by simp [ht]⟩

theorem visitList_spec (hn : Nice nb sides leaves) {r : ℤ} (hr : r ≠ -1) {c0 cell : C} {b : Clustering C}
    (hb : Base type nb sides r b) (ys : List C) : ∀ (s : Clustering C) (hi : Inv type nb sides leaves r c0 b s)
    (hc : cell ∈ s.current) (hy : ∀ y ∈ ys, Adjacent nb sides cell y),
    ∃ s', ys.foldlM (visitNeighbor type (type cell) r cell) s = some s' ∧ Inv type nb sides leaves r c0 b s' ∧
      Trans leaves cell s s' ∧ (∀ y ∈ ys, type y = type cell → y ∈ s'.current) ∧
      (s'.boundary cell = true ↔ s.boundary cell = true ∨ ∃ y ∈ ys, type y ≠ type cell) := by
  induction ys with
  | nil => intro s hi hc hy; exact ⟨s, rfl, hi, Trans.refl leaves cell s, by simp, by simp⟩
  | cons y ys ih =>
    intro s hi hc hy
    obtain ⟨s1, e1, i1, t1, m1, b1⟩ := visitNeighbor_spec hn hr hb hi hc (hy y (by simp))
    obtain ⟨s2, e2, i2, t2, m2, b2⟩ := ih s1 i1 (t1.cur _ hc) fun z hz => hy z (by simp [hz])
    refine ⟨s2, ?_, i2, t1.trans t2, ?_, ?_⟩
    · rw [List.foldlM_cons, e1]; exact e2
    · intro z hz ht
      rcases List.mem_cons.mp hz with rfl | h
      · exact t2.cur _ (m1 ht)
      · exact m2 z h ht
    · rw [b2, b1]; simp only [List.mem_cons, exists_eq_or_imp, or_assoc]

theorem visitSide_spec (hn : Nice nb sides leaves) {r : ℤ} (hr : r ≠ -1) {c0 cell : C} {b s : Clustering C}
    (hb : Base type nb sides r b) (hi : Inv type nb sides leaves r c0 b s) (hc : cell ∈ s.current) {side : S} (hs : side ∈ sides) :
    ∃ s', visitSide type nb (type cell) r cell s side = some s' ∧ Inv type nb sides leaves r c0 b s' ∧ Trans leaves cell s s' ∧
      (∀ y ∈ nb cell side, type y = type cell → y ∈ s'.current) ∧
      (s'.boundary cell = true ↔ s.boundary cell = true ∨ nb cell side = [] ∨ ∃ y ∈ nb cell side, type y ≠ type cell) := by
  unfold visitSide
  by_cases h : (nb cell side).length = 0
  · rw [if_pos h]
    have h' : nb cell side = [] := List.length_eq_zero_iff.mp h
    refine ⟨_, rfl, ⟨hi.regs, hi.curNodup, hi.cur, hi.old, hi.fresh, hi.leaf, hi.conn, hi.start, hi.qsub, hi.qNodup⟩,
      ⟨fun _ h => h, fun _ h => h, fun _ h => .inl h, fun _ h => .inl h, le_rfl, fun x hx => Function.update_of_ne hx _ _⟩,
      by simp [h'], by simp [h']⟩
  · rw [if_neg h]
    obtain ⟨s', e, i, t, m, bd⟩ := visitList_spec hn hr hb (nb cell side) s hi hc fun y hy => ⟨side, hs, hy⟩
    have h' : nb cell side ≠ [] := fun h2 => h (by rw [h2]; rfl)
    exact ⟨s', e, i, t, m, by rw [bd]; simp [h']⟩

theorem visitSides_spec (hn : Nice nb sides leaves) {r : ℤ} (hr : r ≠ -1) {c0 cell : C} {b : Clustering C}
    (hb : Base type nb sides r b) (l : List S) : ∀ (s : Clustering C) (hi : Inv type nb sides leaves r c0 b s)
    (hc : cell ∈ s.current) (hl : ∀ x ∈ l, x ∈ sides),
    ∃ s', l.foldlM (visitSide type nb (type cell) r cell) s = some s' ∧ Inv type nb sides leaves r c0 b s' ∧
      Trans leaves cell s s' ∧ (∀ side ∈ l, ∀ y ∈ nb cell side, type y = type cell → y ∈ s'.current) ∧
      (s'.boundary cell = true ↔ s.boundary cell = true ∨
        ∃ side ∈ l, nb cell side = [] ∨ ∃ y ∈ nb cell side, type y ≠ type cell) := by
  induction l with
  | nil => intro s hi hc hl; exact ⟨s, rfl, hi, Trans.refl leaves cell s, by simp, by simp⟩
  | cons a l ih =>
    intro s hi hc hl
    obtain ⟨s1, e1, i1, t1, m1, b1⟩ := visitSide_spec hn hr hb hi hc (hl a (by simp))
    obtain ⟨s2, e2, i2, t2, m2, b2⟩ := ih s1 i1 (t1.cur _ hc) fun z hz => hl z (by simp [hz])
    refine ⟨s2, ?_, i2, t1.trans t2, ?_, ?_⟩
    · rw [List.foldlM_cons, e1]; exact e2
    · intro z hz y hy ht
      rcases List.mem_cons.mp hz with rfl | h
      · exact t2.cur _ (m1 y hy ht)
      · exact m2 z h y hy ht
    · rw [b2, b1]; simp only [List.mem_cons, exists_eq_or_imp, or_assoc]

/-- The cells of the region no longer in the queue have been fully treated. -/
structure Done (r : ℤ) (b s : Clustering C) : Prop where
  link : ∀ x ∈ s.current, x ∉ s.queue → ∀ y, Linked type nb sides x y → y ∈ s.current
  bd : ∀ x ∈ s.current, x ∉ s.queue → (s.boundary x = true ↔ OnRegionBoundary type nb sides x)
  bdQueue : ∀ x ∈ s.queue, s.boundary x = false
  bdOut : ∀ x, x ∉ s.current → s.boundary x = b.boundary x

theorem cluster_spec (hn : Nice nb sides leaves) {r : ℤ} (hr : r ≠ -1) {c0 : C} {b : Clustering C} (hb : Base type nb sides r b)
    (htype : ∀ x, Connected type nb sides c0 x → type x = type c0) (fuel : ℕ) : ∀ (s : Clustering C)
    (hi : Inv type nb sides leaves r c0 b s) (hd : Done (type := type) (nb := nb) (sides := sides) r b s)
    (hf : s.queue.length + unclassified leaves s ≤ fuel),
    ∃ s', cluster type nb sides (type c0) r fuel s = .ok s' ∧ Inv type nb sides leaves r c0 b s' ∧
      Done (type := type) (nb := nb) (sides := sides) r b s' ∧ s'.queue = [] := by
  induction fuel with
  | zero =>
    intro s hi hd hf
    have hq : s.queue = [] := List.length_eq_zero_iff.mp (by omega)
    exact ⟨s, by rw [cluster, hq], hi, hd, hq⟩
  | succ fuel ih =>
    intro s hi hd hf
    cases hq : s.queue with
    | nil => exact ⟨s, by rw [cluster, hq], hi, hd, hq⟩
    | cons cell queue =>
      have hnd := hi.qNodup
      rw [hq, List.nodup_cons] at hnd
      have hcell : cell ∈ s.current := hi.qsub cell (by rw [hq]; simp)
      have htc : type cell = type c0 := htype cell (hi.conn cell hcell)
      have hi0 : Inv type nb sides leaves r c0 b { s with queue := queue } :=
        ⟨hi.regs, hi.curNodup, hi.cur, hi.old, hi.fresh, hi.leaf, hi.conn, hi.start,
          fun x hx => hi.qsub x (by rw [hq]; exact List.mem_cons_of_mem _ hx), hnd.2⟩
      obtain ⟨s1, e1, i1, t1, m1, b1⟩ := visitSides_spec hn hr hb sides _ hi0 hcell fun x hx => hx
      have hcq : cell ∉ s1.queue := fun h => by
        rcases t1.qnew cell h with h1 | h1
        · exact hnd.1 h1
        · exact h1 hcell
      have hd1 : Done (type := type) (nb := nb) (sides := sides) r b s1 := by
        refine ⟨fun x hx hxq y hxy => ?_, fun x hx hxq => ?_, fun x hxq => ?_, fun x hx => ?_⟩
        · by_cases hxc : x = cell
          · subst hxc
            obtain ⟨⟨side, hs, hy⟩, ht⟩ := hxy
            exact m1 side hs y hy ht.symm
          · have hxs : x ∈ s.current := by
              rcases t1.new x hx with h | h
              · exact h
              · exact absurd h hxq
            have hxsq : x ∉ s.queue := fun h => by
              rw [hq] at h
              rcases List.mem_cons.mp h with h | h
              · exact hxc h
              · exact hxq (t1.queue x h)
            exact t1.cur y (hd.link x hxs hxsq y hxy)
        · by_cases hxc : x = cell
          · subst hxc
            rw [b1]
            have := hd.bdQueue x (by rw [hq]; simp)
            simp only [this, Bool.false_eq_true, false_or]
            rfl
          · have hxs : x ∈ s.current := by
              rcases t1.new x hx with h | h
              · exact h
              · exact absurd h hxq
            have hxsq : x ∉ s.queue := fun h => by
              rw [hq] at h
              rcases List.mem_cons.mp h with h | h
              · exact hxc h
              · exact hxq (t1.queue x h)
            rw [t1.bd x hxc]
            exact hd.bd x hxs hxsq
        · have hxc : x ≠ cell := fun h => hcq (h ▸ hxq)
          rw [t1.bd x hxc]
          rcases t1.qnew x hxq with h | h
          · exact hd.bdQueue x (by rw [hq]; exact List.mem_cons_of_mem _ h)
          · show s.boundary x = false
            rw [hd.bdOut x h]
            exact hb.bd x (i1.fresh x (i1.qsub x hxq))
        · have hxs : x ∉ s.current := fun h => hx (t1.cur x h)
          have hxc : x ≠ cell := fun h => hxs (h ▸ hcell)
          rw [t1.bd x hxc]
          exact hd.bdOut x hxs
      have hm : s1.queue.length + unclassified leaves s1 ≤ fuel := by
        have := t1.measure
        have hu : unclassified leaves { s with queue := queue } = unclassified leaves s := rfl
        rw [hq] at hf
        simp only [List.length_cons] at hf
        simp only [hu] at this
        omega
      obtain ⟨s2, e2, i2, d2, q2⟩ := ih s1 i1 hd1 hm
      refine ⟨s2, ?_, i2, d2, q2⟩
      rw [cluster, hq]
      simp only
      rw [← htc, e1]
      simp only
      rw [htc]
      exact e2

/-- Invariant of the loop on the leaves. -/
structure Outer (s : Clustering C) : Prop where
  ids : ∀ x, s.regionId x = -1 ∨ 0 ≤ s.regionId x ∧ s.regionId x < s.regions.length
  sat : ∀ x y, s.regionId x ≠ -1 → Linked type nb sides x y → s.regionId y = s.regionId x
  comp : ∀ x y, s.regionId x ≠ -1 → s.regionId x = s.regionId y → Connected type nb sides x y
  regs : ∀ (i : ℕ) (R : Region C), s.regions[i]? = some R → R.cells.Nodup ∧ R.cells ≠ [] ∧
    (∀ x, x ∈ R.cells ↔ s.regionId x = i) ∧ ∀ x ∈ R.cells, type x = R.type
  leaf : ∀ x, s.regionId x ≠ -1 → x ∈ leaves
  bd0 : ∀ x, s.regionId x = -1 → s.boundary x = false
  bd : ∀ x, s.regionId x ≠ -1 → (s.boundary x = true ↔ OnRegionBoundary type nb sides x)

theorem connected_type {x y : C} (h : Connected type nb sides x y) : type y = type x := by
  induction h with
  | refl => rfl
  | tail _ h ih => rw [← h.2, ih]

theorem connected_leaf (hn : Nice nb sides leaves) {x y : C} (hx : x ∈ leaves) (h : Connected type nb sides x y) : y ∈ leaves := by
  induction h with
  | refl => exact hx
  | tail _ h ih => exact hn.closed _ ih _ h.1

theorem connected_symm (hn : Nice nb sides leaves) {x y : C} (hx : x ∈ leaves) (h : Connected type nb sides x y) :
    Connected type nb sides y x := by
  induction h with
  | refl => exact .refl
  | tail h1 h ih => exact Relation.ReflTransGen.head (linked_symm hn (connected_leaf hn hx h1) h) ih

theorem processLeaf_spec (hn : Nice nb sides leaves) {fuel : ℕ} (hf : leaves.length ≤ fuel) {s : Clustering C}
    (ho : Outer (type := type) (nb := nb) (sides := sides) (leaves := leaves) s) {c : C} (hc : c ∈ leaves) :
    ∃ s', processLeaf type nb sides fuel s c = .ok s' ∧
      Outer (type := type) (nb := nb) (sides := sides) (leaves := leaves) s' ∧ s'.regionId c ≠ -1 ∧
      (∀ x, s.regionId x ≠ -1 → s'.regionId x ≠ -1) := by
  unfold processLeaf
  by_cases h : s.regionId c > -1
  · rw [if_pos h]
    exact ⟨s, rfl, ho, by omega, fun _ h => h⟩
  · rw [if_neg h]
    have hc1 : s.regionId c = -1 := by rcases ho.ids c with h1 | h1 <;> omega
    set r : ℤ := (s.regions.length : ℤ) with hrdef
    have hr : r ≠ -1 := by omega
    have hb : Base type nb sides r s := by
      refine ⟨fun x => ?_, ho.sat, ho.bd0⟩
      rcases ho.ids x with h1 | h1 <;> omega
    set s0 : Clustering C := { s with regionId := Function.update s.regionId c r, current := [c], queue := [c] } with hs0
    have hi0 : Inv type nb sides leaves r c s s0 := by
      refine ⟨rfl, List.nodup_singleton c, fun x => ?_, fun x hx => ?_, fun x hx => ?_, fun x hx => ?_, fun x hx => ?_,
        List.mem_singleton.mpr rfl, fun x hx => hx, List.nodup_singleton c⟩
      · by_cases hx : x = c
        · subst hx; simp [hs0]
        · simp only [hs0, Function.update_of_ne hx, List.mem_singleton, hx, iff_false]; exact hb.fresh x
      · have hx : x ≠ c := by simpa [hs0] using hx
        simp [hs0, Function.update_of_ne hx]
      · have hx : x = c := by simpa [hs0] using hx
        rw [hx]; exact hc1
      · have hx : x = c := by simpa [hs0] using hx
        rw [hx]; exact hc
      · have hx : x = c := by simpa [hs0] using hx
        rw [hx]; exact .refl
    have hd0 : Done (type := type) (nb := nb) (sides := sides) r s s0 := by
      refine ⟨fun x hx hxq => absurd hx hxq, fun x hx hxq => absurd hx hxq, fun x hx => ?_, fun x hx => rfl⟩
      have hx : x = c := by simpa [hs0] using hx
      rw [hx]; exact ho.bd0 c hc1
    have hm : s0.queue.length + unclassified leaves s0 ≤ fuel := by
      have hlt : leaves.countP (fun x => decide (Function.update s.regionId c r x = -1)) + 1 ≤ leaves.length := by
        have h1 : leaves.countP (fun x => decide (Function.update s.regionId c r x = -1)) < leaves.length := by
          refine lt_of_le_of_ne List.countP_le_length fun he => ?_
          have := List.countP_eq_length.mp he c hc
          simp [hr] at this
        omega
      have : s0.queue.length = 1 := rfl
      have hu : unclassified leaves s0 = leaves.countP (fun x => decide (Function.update s.regionId c r x = -1)) := rfl
      omega
    obtain ⟨s1, e1, i1, d1, q1⟩ := cluster_spec hn hr hb (fun x hx => connected_type hx) fuel s0 hi0 hd0 hm
    simp only
    rw [e1]
    refine ⟨_, rfl, ?_, ?_, ?_⟩
    · have hcurr : ∀ x, x ∈ s1.current → s1.regionId x = r := fun x hx => (i1.cur x).mpr hx
      have hlen : ((s1.regions ++ [(⟨type c, s1.current⟩ : Region C)]).length : ℤ) = r + 1 := by
        rw [i1.regs, List.length_append]; simp [hrdef]
      have hlinkout : ∀ x y, x ∉ s1.current → x ∈ leaves → Linked type nb sides x y → y ∉ s1.current := fun x y hx hxl hxy hy =>
        hx (d1.link y hy (by rw [q1]; simp) x (linked_symm hn hxl hxy))
      refine ⟨fun x => ?_, fun x y hx hxy => ?_, fun x y hx hxy => ?_, fun i R hR => ?_, fun x hx => ?_, fun x hx => ?_, fun x hx => ?_⟩
      · simp only [hlen]
        by_cases hxc : x ∈ s1.current
        · right; rw [hcurr x hxc]; omega
        · rw [i1.old x hxc]
          rcases ho.ids x with h1 | h1
          · exact .inl h1
          · right; omega
      · simp only at hx ⊢
        by_cases hxc : x ∈ s1.current
        · rw [hcurr x hxc, hcurr y (d1.link x hxc (by rw [q1]; simp) y hxy)]
        · have hx' := hx
          rw [i1.old x hxc] at hx'
          have hyc := hlinkout x y hxc (ho.leaf x hx') hxy
          rw [i1.old x hxc, i1.old y hyc]
          exact ho.sat x y hx' hxy
      · simp only at hx hxy
        by_cases hxc : x ∈ s1.current
        · have hyc : y ∈ s1.current := (i1.cur y).mp (by rw [← hxy]; exact hcurr x hxc)
          exact (connected_symm hn hc (i1.conn x hxc)).trans (i1.conn y hyc)
        · have hyc : y ∉ s1.current := fun h => hxc ((i1.cur x).mp (by rw [hxy]; exact hcurr y h))
          rw [i1.old x hxc] at hx hxy
          rw [i1.old y hyc] at hxy
          exact ho.comp x y hx hxy
      · simp only at hR ⊢
        rw [i1.regs, List.getElem?_append] at hR
        split_ifs at hR with hi
        · obtain ⟨h1, h2, h3, h4⟩ := ho.regs i R hR
          refine ⟨h1, h2, fun x => ?_, h4⟩
          rw [h3]
          by_cases hxc : x ∈ s1.current
          · rw [hcurr x hxc, i1.fresh x hxc]; constructor <;> intro he <;> omega
          · rw [i1.old x hxc]
        · have hi' : i = s.regions.length := by
            by_contra hne
            have : [(⟨type c, s1.current⟩ : Region C)][i - s.regions.length]? = none := by
              rw [List.getElem?_eq_none_iff]; simp; omega
            rw [this] at hR; cases hR
          subst hi'
          simp only [Nat.sub_self, List.getElem?_cons_zero, Option.some.injEq] at hR
          subst hR
          refine ⟨i1.curNodup, fun he => by have := i1.start; simp only at he; rw [he] at this; simp at this,
            fun x => (i1.cur x).symm, fun x hx => connected_type (i1.conn x hx)⟩
      · simp only at hx
        by_cases hxc : x ∈ s1.current
        · exact i1.leaf x hxc
        · rw [i1.old x hxc] at hx; exact ho.leaf x hx
      · simp only at hx ⊢
        have hxc : x ∉ s1.current := fun h => hr ((hcurr x h).symm.trans hx)
        rw [i1.old x hxc] at hx
        rw [d1.bdOut x hxc]; exact ho.bd0 x hx
      · simp only at hx ⊢
        by_cases hxc : x ∈ s1.current
        · exact d1.bd x hxc (by rw [q1]; simp)
        · rw [i1.old x hxc] at hx
          rw [d1.bdOut x hxc]; exact ho.bd x hx
    · simp only
      rw [(i1.cur c).mpr i1.start]; exact hr
    · intro x hx
      simp only
      by_cases hxc : x ∈ s1.current
      · rw [(i1.cur x).mpr hxc]; exact hr
      · rw [i1.old x hxc]; exact hx

theorem processLeaves_spec (hn : Nice nb sides leaves) {fuel : ℕ} (hf : leaves.length ≤ fuel) (l : List C) : ∀ (s : Clustering C)
    (ho : Outer (type := type) (nb := nb) (sides := sides) (leaves := leaves) s) (hl : ∀ x ∈ l, x ∈ leaves),
    ∃ s', processLeaves type nb sides fuel l s = .ok s' ∧
      Outer (type := type) (nb := nb) (sides := sides) (leaves := leaves) s' ∧ (∀ x ∈ l, s'.regionId x ≠ -1) ∧
      (∀ x, s.regionId x ≠ -1 → s'.regionId x ≠ -1) := by
  induction l with
  | nil => intro s ho hl; exact ⟨s, rfl, ho, by simp, fun _ h => h⟩
  | cons c l ih =>
    intro s ho hl
    obtain ⟨s1, e1, o1, n1, k1⟩ := processLeaf_spec hn hf ho (hl c (by simp))
    obtain ⟨s2, e2, o2, n2, k2⟩ := ih s1 o1 fun x hx => hl x (by simp [hx])
    refine ⟨s2, ?_, o2, ?_, fun x hx => k2 x (k1 x hx)⟩
    · rw [processLeaves, e1]; exact e2
    · intro x hx
      rcases List.mem_cons.mp hx with rfl | h
      · exact k2 x n1
      · exact n2 x h

theorem createRegions_spec (hn : Nice nb sides leaves) {fuel : ℕ} (hf : leaves.length ≤ fuel) :
    ∃ s, createRegions type nb sides fuel leaves = .ok s ∧
      Outer (type := type) (nb := nb) (sides := sides) (leaves := leaves) s ∧ ∀ x ∈ leaves, s.regionId x ≠ -1 := by
  obtain ⟨s, e, o, n, _⟩ := processLeaves_spec (type := type) hn hf leaves ⟨fun _ => -1, fun _ => false, [], [], []⟩
    ⟨fun _ => .inl rfl, fun _ _ h => absurd rfl h, fun _ _ h => absurd rfl h, fun i R h => by simp at h, fun _ h => absurd rfl h,
      fun _ _ => rfl, fun _ h => absurd rfl h⟩ fun x hx => hx
  exact ⟨s, e, o, n⟩

end

end Caribou.FictitiousGrid
