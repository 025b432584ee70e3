import Verif.Spec.GlobalSystem
import Mathlib.Tactic.Ring
import Mathlib.Tactic.Linarith
import Mathlib.Algebra.BigOperators.Ring.Finset
import Mathlib.Algebra.BigOperators.Intervals

/-!
# Lemmas on the system assembled from a scene of several bodies
-/

set_option autoImplicit false
set_option linter.all false

namespace Caribou

open Finset Spec

namespace Bodies

section
variable {K : Type*}

theorem bodyAt_eq (l : List (MechBody K)) (k : ℕ) : bodyAt l k = if k < l.length then l[l.length - 1 - k]? else none := by
  induction l with
  | nil => simp [bodyAt]
  | cons b l ih =>
    unfold bodyAt
    by_cases h : k = l.length
    · subst h; simp
    · rw [if_neg h, ih]
      by_cases h2 : k < l.length
      · rw [if_pos h2, if_pos (by simp; omega)]
        have : (b :: l).length - 1 - k = (l.length - 1 - k) + 1 := by simp; omega
        rw [this, List.getElem?_cons_succ]
      · rw [if_neg h2, if_neg (by simp; omega)]

theorem isBody_iff (l : List (MechBody K)) (k : ℕ) (b : MechBody K) : IsBody l k b ↔ bodyAt l k = some b := by
  rw [bodyAt_eq]
  unfold IsBody
  by_cases h : k < l.length <;> simp [h]

theorem bodyAt_lt {l : List (MechBody K)} {k : ℕ} {b : MechBody K} (h : bodyAt l k = some b) : k < l.length :=
  ((isBody_iff l k b).2 h).1

theorem bodyAt_none {l : List (MechBody K)} {k : ℕ} (h : bodyAt l k = none) : l.length ≤ k := by
  rw [bodyAt_eq] at h
  by_contra hc
  push Not at hc
  rw [if_pos hc, List.getElem?_eq_none_iff] at h
  omega

theorem bodyAt_cons_lt {l : List (MechBody K)} {k : ℕ} (b : MechBody K) (h : k < l.length) : bodyAt (b :: l) k = bodyAt l k := by
  simp [bodyAt, h.ne]

theorem offset_ge (l : List (MechBody K)) (k : ℕ) (h : l.length ≤ k) : offset l k = topSize l := by
  induction l with
  | nil => simp [offset, topSize]
  | cons b l ih =>
    simp only [List.length_cons] at h
    have h2 : l.length < k := h
    rw [offset, ih (by omega)]
    cases hb : b.link <;> simp [topSize, hb, h2, Nat.add_comm]

theorem dimension_eq (l : List (MechBody K)) : dimension l = topSize l := offset_ge l _ le_rfl

theorem offset_eq (l : List (MechBody K)) (k : ℕ) : offset l k = topSize (Before l k) := by
  by_cases h : l.length ≤ k
  · rw [offset_ge l k h]
    unfold Before
    rw [show l.length - k = 0 by omega, List.drop_zero]
  · push Not at h
    induction l with
    | nil => simp at h
    | cons b l ih =>
      simp only [List.length_cons] at h
      have h2 : ¬ l.length < k := by omega
      rw [offset]
      simp only [h2, decide_false, Bool.and_false, Bool.false_eq_true, if_false, Nat.add_zero]
      have e : Before (b :: l) k = Before l k := by
        unfold Before
        rw [show (b :: l).length - k = (l.length - k) + 1 by simp; omega, List.drop_succ_cons]
      rw [e]
      by_cases h3 : k < l.length
      · exact ih h3
      · have : k = l.length := by omega
        subst this
        rw [offset_ge l _ le_rfl]
        unfold Before
        simp

theorem offset_cons_le (b : MechBody K) (l : List (MechBody K)) (k : ℕ) (h : k ≤ l.length) : offset (b :: l) k = offset l k := by
  rw [offset]
  simp [Nat.not_lt.2 h]

theorem offset_mono (l : List (MechBody K)) (j k : ℕ) (h : j ≤ k) : offset l j ≤ offset l k := by
  induction l with
  | nil => simp [offset]
  | cons b l ih =>
    rw [offset, offset]
    apply Nat.add_le_add ih
    split_ifs with h1 h2
    · exact le_rfl
    · simp only [Bool.and_eq_true, decide_eq_true_eq] at h1 h2
      exact absurd ⟨h1.1, by omega⟩ h2
    · exact Nat.zero_le _
    · exact le_rfl

/-- The block of a top level body ends before those of the bodies visited later. -/
theorem offset_next {l : List (MechBody K)} {k : ℕ} {b : MechBody K} (h : bodyAt l k = some b) (ht : b.link = none) {j : ℕ} (hj : k < j) :
    offset l k + b.size ≤ offset l j := by
  induction l with
  | nil => simp [bodyAt] at h
  | cons a l ih =>
    unfold bodyAt at h
    split_ifs at h with hk
    · obtain rfl : a = b := by simpa using h
      subst hk
      rw [offset, offset, offset_ge l _ le_rfl, offset_ge l j (by omega)]
      simp [ht, hj]
    · have := ih h
      have hlt := bodyAt_lt h
      rw [offset_cons_le a l k hlt.le, offset]
      omega

theorem offset_end {l : List (MechBody K)} {k : ℕ} {b : MechBody K} (h : bodyAt l k = some b) (ht : b.link = none) :
    offset l k + b.size ≤ dimension l := offset_next h ht (bodyAt_lt h)

/-- `Through` as a function. -/
def thru (p : BodyLink K → Bool) : List (MechBody K) → ℕ → Bool
  | [], _ => false
  | b :: l, k =>
    if k = l.length then
      match b.link with
      | none => true
      | some m => p m && thru p l m.parent
    else thru p l k

theorem thru_lt {p : BodyLink K → Bool} {l : List (MechBody K)} {k : ℕ} (h : thru p l k = true) : k < l.length := by
  induction l generalizing k with
  | nil => simp [thru] at h
  | cons b l ih =>
    unfold thru at h
    split_ifs at h with hk
    · simp [hk]
    · have := ih h
      simp; omega

theorem through_lt {p : BodyLink K → Prop} {l : List (MechBody K)} {k : ℕ} (h : Through p l k) : k < l.length := by
  induction h with
  | top h => simp
  | mapped h hp hm ih => simp
  | later h ih => simp; omega

theorem thru_iff (p : BodyLink K → Bool) (l : List (MechBody K)) (k : ℕ) : thru p l k = true ↔ Through (fun m => p m = true) l k := by
  induction l generalizing k with
  | nil =>
    refine ⟨fun h => by simp [thru] at h, fun h => ?_⟩
    have := through_lt h
    simp at this
  | cons b l ih =>
    unfold thru
    by_cases hk : k = l.length
    · subst hk
      rw [if_pos rfl]
      cases hb : b.link with
      | none => exact ⟨fun _ => .top hb, fun _ => rfl⟩
      | some m =>
        simp only [Bool.and_eq_true]
        constructor
        · rintro ⟨h1, h2⟩
          exact .mapped hb h1 ((ih _).1 h2)
        · intro h
          generalize hj : l.length = j at h
          cases h with
          | top h => rw [hb] at h; simp at h
          | mapped h hp hm =>
            rw [hb] at h
            obtain rfl := Option.some.inj h
            exact ⟨hp, (ih _).2 hm⟩
          | later h => exact absurd (through_lt h) (by omega)
    · rw [if_neg hk, ih]
      constructor
      · exact fun h => .later h
      · intro h
        cases h with
        | top h => exact absurd rfl hk
        | mapped h hp hm => exact absurd rfl hk
        | later h => exact h

theorem visited_eq (l : List (MechBody K)) (k : ℕ) : visited l k = thru (fun m => m.mapsMatrices) l k := by
  induction l generalizing k with
  | nil => rfl
  | cons b l ih =>
    unfold visited thru
    rw [ih]
    cases b.link with
    | none => rfl
    | some m => simp only [ih]

theorem forceVisited_eq (l : List (MechBody K)) (k : ℕ) : forceVisited l k = thru (fun m => m.mapsForces) l k := by
  induction l generalizing k with
  | nil => rfl
  | cons b l ih =>
    unfold forceVisited thru
    rw [ih]
    cases b.link with
    | none => rfl
    | some m => simp only [ih]

/-- The mapping takes part in `computeGlobalMatrix`. -/
def active (m : BodyLink K) : Bool := m.mapsMatrices && m.givesJ

theorem thru_mono {p q : BodyLink K → Bool} (h : ∀ m, p m = true → q m = true) (l : List (MechBody K)) (k : ℕ) (hp : thru p l k = true) :
    thru q l k = true := by
  induction l generalizing k with
  | nil => simp [thru] at hp
  | cons b l ih =>
    unfold thru at hp ⊢
    split_ifs at hp ⊢ with hk
    · cases hb : b.link with
      | none => rfl
      | some m =>
        rw [hb] at hp
        simp only [Bool.and_eq_true] at hp ⊢
        exact ⟨h m hp.1, ih _ hp.2⟩
    · exact ih _ hp

theorem thru_cons_lt {p : BodyLink K → Bool} {l : List (MechBody K)} {k : ℕ} (b : MechBody K) (h : k < l.length) :
    thru p (b :: l) k = thru p l k := by
  rw [thru, if_neg h.ne]

theorem thru_top {p : BodyLink K → Bool} {l : List (MechBody K)} {k : ℕ} {b : MechBody K} (h : bodyAt l k = some b) (ht : b.link = none) :
    thru p l k = true := by
  induction l with
  | nil => simp [bodyAt] at h
  | cons a l ih =>
    unfold bodyAt at h
    unfold thru
    split_ifs at h ⊢ with hk
    · obtain rfl : a = b := by simpa using h
      rw [ht]
    · exact ih h

end

variable {K : Type*} [Field K]

theorem dofsOf_eq (l : List (MechBody K)) (k : ℕ) : dofsOf l k = ((bodyAt l k).map fun b => b.size).getD 0 := by
  rw [bodyAt_eq]
  unfold dofsOf
  by_cases h : k < l.length <;> simp [h]

theorem dofsOf_some {l : List (MechBody K)} {k : ℕ} {b : MechBody K} (h : bodyAt l k = some b) : dofsOf l k = b.size := by
  rw [dofsOf_eq, h]; rfl

theorem dofsOf_cons_lt {l : List (MechBody K)} {k : ℕ} (b : MechBody K) (h : k < l.length) : dofsOf (b :: l) k = dofsOf l k := by
  rw [dofsOf_eq, dofsOf_eq, bodyAt_cons_lt b h]

theorem dofsOf_cons_self (b : MechBody K) (l : List (MechBody K)) : dofsOf (b :: l) l.length = b.size :=
  dofsOf_some (by simp [bodyAt])

theorem motion_cons_lt {l : List (MechBody K)} {k : ℕ} (b : MechBody K) (u : ℕ → K) (h : k < l.length) :
    motion (b :: l) u k = motion l u k := by
  rw [motion, if_neg h.ne]

theorem motion_top {l : List (MechBody K)} {k : ℕ} {b : MechBody K} (h : bodyAt l k = some b) (ht : b.link = none) (u : ℕ → K) (i : ℕ) :
    motion l u k i = u (offset l k + i) := by
  induction l with
  | nil => simp [bodyAt] at h
  | cons a l ih =>
    unfold bodyAt at h
    unfold motion
    split_ifs at h ⊢ with hk
    · obtain rfl : a = b := by simpa using h
      subst hk
      rw [ht, offset_cons_le a l _ le_rfl, offset_ge l _ le_rfl]
    · rw [offset_cons_le a l k (bodyAt_lt h).le]
      exact ih h

/-! ## Forms -/

theorem form_add (n : ℕ) (M N : ℕ → ℕ → K) (u v : ℕ → K) : form n (M + N) u v = form n M u v + form n N u v := by
  simp only [form, ← sum_add_distrib]
  refine sum_congr rfl fun i _ => sum_congr rfl fun j _ => ?_
  simp only [Pi.add_apply]
  ring

theorem form_zero (n : ℕ) (u v : ℕ → K) : form n (0 : ℕ → ℕ → K) u v = 0 := by simp [form]

theorem sum_window (o n N : ℕ) (h : o + n ≤ N) (f : ℕ → K) :
    ∑ i ∈ range N, (if o ≤ i ∧ i < o + n then f (i - o) else 0) = ∑ i ∈ range n, f i := by
  obtain ⟨r, rfl⟩ : ∃ r, N = o + (n + r) := ⟨N - o - n, by omega⟩
  rw [sum_range_add, sum_range_add]
  have h1 : ∑ i ∈ range o, (if o ≤ i ∧ i < o + n then f (i - o) else 0) = 0 :=
    sum_eq_zero fun i hi => by rw [mem_range] at hi; rw [if_neg (by omega)]
  have h2 : ∑ i ∈ range r, (if o ≤ o + (n + i) ∧ o + (n + i) < o + n then f (o + (n + i) - o) else 0) = 0 :=
    sum_eq_zero fun i hi => by rw [if_neg (by omega)]
  rw [h1, zero_add, h2, add_zero]
  refine sum_congr rfl fun i hi => ?_
  rw [mem_range] at hi
  rw [if_pos (by omega), Nat.add_sub_cancel_left]

theorem form_addBlock (o n N : ℕ) (h : o + n ≤ N) (M G : ℕ → ℕ → K) (u v : ℕ → K) :
    form N (addBlock o n M G) u v = form N G u v + form n M (fun i => u (o + i)) fun i => v (o + i) := by
  have e : form n M (fun i => u (o + i)) (fun i => v (o + i)) =
      form N (fun i j => if o ≤ i ∧ i < o + n ∧ o ≤ j ∧ j < o + n then M (i - o) (j - o) else 0) u v := by
    unfold form
    rw [← sum_window o n N h fun i => ∑ j ∈ range n, u (o + i) * M i j * v (o + j)]
    refine sum_congr rfl fun i _ => ?_
    by_cases hi : o ≤ i ∧ i < o + n
    · rw [if_pos hi, ← sum_window o n N h fun j => u (o + (i - o)) * M (i - o) j * v (o + j)]
      refine sum_congr rfl fun j _ => ?_
      beta_reduce
      by_cases hj : o ≤ j ∧ j < o + n
      · rw [if_pos hj, if_pos ⟨hi.1, hi.2, hj.1, hj.2⟩, Nat.add_sub_cancel' hi.1, Nat.add_sub_cancel' hj.1]
      · rw [if_neg hj, if_neg (fun c => hj ⟨c.2.2.1, c.2.2.2⟩)]
        ring
    · rw [if_neg hi]
      symm
      refine sum_eq_zero fun j _ => ?_
      beta_reduce
      rw [if_neg (fun c => hi ⟨c.1, c.2.1⟩)]
      ring
  rw [e, ← form_add]
  rfl

theorem form_pull (n p : ℕ) (J M : ℕ → ℕ → K) (x y : ℕ → K) :
    form p (pullMatrix n J M) x y = form n M (fun i => ∑ a ∈ range p, J i a * x a) fun i => ∑ a ∈ range p, J i a * y a := by
  unfold form pullMatrix
  simp only [mul_sum, sum_mul]
  rw [show (∑ i ∈ range p, ∑ j ∈ range p, ∑ k ∈ range n, ∑ l ∈ range n, x i * (J k i * M k l * J l j) * y j) =
    ∑ i ∈ range p, ∑ k ∈ range n, ∑ l ∈ range n, ∑ j ∈ range p, x i * (J k i * M k l * J l j) * y j from
      sum_congr rfl fun i _ => by
        rw [sum_comm]
        exact sum_congr rfl fun k _ => sum_comm]
  rw [sum_comm]
  refine sum_congr rfl fun k _ => ?_
  rw [sum_comm]
  refine sum_congr rfl fun l _ => ?_
  rw [sum_comm]
  refine sum_congr rfl fun j _ => sum_congr rfl fun i _ => ?_
  ring

/-- What the state of the accessor will give at the end: the global matrix, and the matrices of the mapped bodies. -/
def total (l : List (MechBody K)) (n : ℕ) (s : State K) (u v : ℕ → K) : K :=
  form n s.global u v + ∑ k ∈ range l.length,
    if thru active l k && ((bodyAt l k).any fun b => b.link.isSome) then
      form (dofsOf l k) ((s.mapped k).getD 0) (motion l u k) (motion l v k) else 0

theorem total_addTo (l : List (MechBody K)) (n : ℕ) (hn : dimension l ≤ n) (k : ℕ) (M : ℕ → ℕ → K) (s : State K) (u v : ℕ → K) :
    total l n (addTo l k M s) u v =
      total l n s u v + if thru active l k then form (dofsOf l k) M (motion l u k) (motion l v k) else 0 := by
  unfold addTo
  cases hb : bodyAt l k with
  | none =>
    have : thru active l k = false := by
      cases h : thru active l k with
      | false => rfl
      | true => exact absurd (thru_lt h) (Nat.not_lt.2 (bodyAt_none hb))
    simp [this]
  | some b =>
    cases ht : b.link with
    | none =>
      simp only [ht]
      rw [thru_top hb ht, if_pos rfl]
      unfold total
      simp only
      rw [form_addBlock _ _ _ ((offset_end hb ht).trans hn), dofsOf_some hb, add_right_comm]
      rw [show motion l u k = fun i => u (offset l k + i) from funext (motion_top hb ht u),
        show motion l v k = fun i => v (offset l k + i) from funext (motion_top hb ht v)]
    | some m =>
      simp only [ht]
      unfold total
      simp only
      rw [add_assoc]
      congr 1
      have hk := bodyAt_lt hb
      rw [← add_sum_erase _ _ (mem_range.2 hk), ← add_sum_erase (range l.length) _ (mem_range.2 hk)]
      have he : ∀ j ∈ (range l.length).erase k, Function.update s.mapped k (some ((s.mapped k).getD 0 + M)) j = s.mapped j :=
        fun j hj => Function.update_of_ne (ne_of_mem_erase hj) _ _
      rw [sum_congr rfl fun j hj => by rw [he j hj]]
      rw [Function.update_self, hb]
      simp only [Option.any_some, ht, Option.isSome_some, Bool.and_true, Option.getD_some, form_add]
      by_cases hc : thru active l k = true
      · simp only [hc, if_true]; ring
      · simp only [hc, Bool.false_eq_true, if_false]; ring

theorem dimension_cons_ge (b : MechBody K) (l : List (MechBody K)) : dimension l ≤ dimension (b :: l) := by
  unfold dimension
  rw [← offset_cons_le b l l.length le_rfl]
  exact offset_mono _ _ _ (by simp)

theorem total_cons (b : MechBody K) (l : List (MechBody K)) (n : ℕ) (s : State K) (u v : ℕ → K) :
    total (b :: l) n s u v = total l n s u v +
      if thru active (b :: l) l.length && b.link.isSome then
        form b.size ((s.mapped l.length).getD 0) (motion (b :: l) u l.length) (motion (b :: l) v l.length) else 0 := by
  unfold total
  rw [List.length_cons, sum_range_succ, ← add_assoc]
  have e : bodyAt (b :: l) l.length = some b := by simp [bodyAt]
  rw [e, dofsOf_cons_self, Option.any_some]
  congr 2
  refine sum_congr rfl fun k hk => ?_
  rw [mem_range] at hk
  rw [thru_cons_lt b hk, bodyAt_cons_lt b hk, dofsOf_cons_lt b hk, motion_cons_lt b u hk, motion_cons_lt b v hk]

/-- `computeGlobalMatrix` gathers everything in the global matrix. -/
theorem form_pullUp (l : List (MechBody K)) (n : ℕ) (hn : dimension l ≤ n) (s : State K) (u v : ℕ → K) :
    form n (pullUp l s).global u v = total l n s u v := by
  induction l generalizing s with
  | nil => simp [pullUp, total]
  | cons b l ih =>
    have hl : dimension l ≤ n := (dimension_cons_ge b l).trans hn
    rw [total_cons]
    unfold pullUp
    cases hb : b.link with
    | none => simp [hb, ih hl]
    | some m =>
      have ht : thru active (b :: l) l.length = (active m && thru active l m.parent) := by simp [thru, hb]
      simp only [ht, Option.isSome_some, Bool.and_true]
      by_cases ha : active m = true
      · have ha' : (m.mapsMatrices && m.givesJ) = true := ha
        simp only [ha', if_true, ha, Bool.true_and]
        cases hM : s.mapped l.length with
        | none =>
          simp only [ih hl, Option.getD_none, form_zero, ite_self, add_zero]
        | some M =>
          simp only [ih hl, Option.getD_some]
          rw [total_addTo l n hl, form_pull]
          congr 2
          have e : ∀ w : ℕ → K, motion (b :: l) w l.length = fun i => ∑ a ∈ range (dofsOf l m.parent), m.J i a * motion l w m.parent a := by
            intro w
            rw [motion, if_pos rfl, hb]
          rw [e u, e v]
      · have ha' : ¬ (m.mapsMatrices && m.givesJ) = true := ha
        simp only [Bool.not_eq_true] at ha ha'
        simp only [ha', Bool.false_eq_true, if_false, ha, Bool.false_and, add_zero]
        exact ih hl s

theorem total_assemble (l : List (MechBody K)) (n : ℕ) (hn : dimension l ≤ n) (c : K) (pos : ℕ → ℕ → K) (forces : List (BodyForce K))
    (s : State K) (u v : ℕ → K) :
    total l n (assemble l c pos forces s) u v = total l n s u v + (forces.map fun f =>
      if thru active l f.body then form (dofsOf l f.body) (fun i j => c * f.stiff (pos f.body) i j) (motion l u f.body)
        (motion l v f.body) else 0).sum := by
  unfold assemble
  induction forces generalizing s with
  | nil => simp
  | cons f forces ih =>
    rw [List.map_cons, List.sum_cons]
    by_cases hv : visited l f.body = true
    · rw [List.filter_cons_of_pos (by exact hv), List.foldl_cons, ih, total_addTo l n hn]
      ring
    · rw [List.filter_cons_of_neg (by exact hv), ih]
      have : thru active l f.body = false := by
        cases h : thru active l f.body with
        | false => rfl
        | true =>
          exfalso
          apply hv
          rw [visited_eq]
          exact thru_mono (fun m hm => by
            simp only [active, Bool.and_eq_true] at hm
            exact hm.1) l f.body h
      simp [this]

theorem form_clearRows (n : ℕ) (p : ℕ → Bool) (M : ℕ → ℕ → K) (u v : ℕ → K) (hu : ∀ i, p i = true → u i = 0)
    (hv : ∀ i, p i = true → v i = 0) : form n (clearRows p M) u v = form n M u v := by
  unfold form
  refine sum_congr rfl fun i _ => sum_congr rfl fun j _ => ?_
  unfold clearRows
  by_cases hi : p i = true
  · rw [hu i hi]; ring
  · by_cases hj : p j = true
    · rw [hv j hj]; ring
    · simp [hi, hj]

theorem total_constrain (l : List (MechBody K)) (n : ℕ) (fixed : List (ℕ × List ℕ)) (s : State K) (u v : ℕ → K)
    (top : ∀ c ∈ fixed, ∃ b, bodyAt l c.1 = some b ∧ b.link = none)
    (hu : ∀ c ∈ fixed, ∀ i ∈ c.2, u (offset l c.1 + i) = 0) (hv : ∀ c ∈ fixed, ∀ i ∈ c.2, v (offset l c.1 + i) = 0) :
    total l n (constrain l fixed s) u v = total l n s u v := by
  unfold constrain
  induction fixed generalizing s with
  | nil => rfl
  | cons c fixed ih =>
    have ih' := fun s => ih s (fun d hd => top d (List.mem_cons_of_mem _ hd)) (fun d hd => hu d (List.mem_cons_of_mem _ hd))
      fun d hd => hv d (List.mem_cons_of_mem _ hd)
    by_cases hc : visited l c.1 = true
    · rw [List.filter_cons_of_pos (by exact hc), List.foldl_cons, ih']
      obtain ⟨b, hb, ht⟩ := top c List.mem_cons_self
      have hz : ∀ w : ℕ → K, (∀ i ∈ c.2, w (offset l c.1 + i) = 0) → ∀ i, fixedAt (offset l c.1) c.2 i = true → w i = 0 := by
        intro w hw i hi
        simp only [fixedAt, Bool.and_eq_true, decide_eq_true_eq] at hi
        have := hw _ hi.2
        rwa [Nat.add_sub_cancel' hi.1] at this
      simp only [constrainOne, hb, ht, total]
      rw [form_clearRows _ _ _ _ _ (hz u (hu c List.mem_cons_self)) (hz v (hv c List.mem_cons_self))]
    · rw [List.filter_cons_of_neg (by exact hc), ih']

/-! ## Forces -/

theorem pullForces_ge (l : List (MechBody K)) (ho : InOrder l) (f : ℕ → ℕ → K) (k : ℕ) (hk : l.length ≤ k) : pullForces l f k = f k := by
  induction l generalizing f with
  | nil => rfl
  | cons b l ih =>
    simp only [List.length_cons] at hk
    unfold pullForces
    cases hb : b.link with
    | none => exact ih ho.2 f (by omega)
    | some m =>
      simp only
      split_ifs
      · rw [ih ho.2 _ (by omega), Function.update_of_ne]
        have := ho.1 m hb
        omega
      · exact ih ho.2 f (by omega)

theorem bodyPower_add (n : ℕ) (f g u : ℕ → K) : bodyPower n (f + g) u = bodyPower n f u + bodyPower n g u := by
  simp only [bodyPower, ← sum_add_distrib, Pi.add_apply, mul_add]

theorem bodyPower_pull (n p : ℕ) (J : ℕ → ℕ → K) (f x : ℕ → K) :
    bodyPower p (fun a => ∑ i ∈ range n, J i a * f i) x = bodyPower n f fun i => ∑ a ∈ range p, J i a * x a := by
  unfold bodyPower
  simp only [mul_sum, sum_mul]
  rw [sum_comm]
  exact sum_congr rfl fun i _ => sum_congr rfl fun a _ => by ring

/-- The power of the forces of the bodies which forces reach. -/
def reach (l : List (MechBody K)) (f : ℕ → ℕ → K) (u : ℕ → K) : K :=
  ∑ k ∈ range l.length, if thru (fun m => m.mapsForces) l k then bodyPower (dofsOf l k) (f k) (motion l u k) else 0

/-- The power of the forces of the top level bodies. -/
def topPower (l : List (MechBody K)) (f : ℕ → ℕ → K) (u : ℕ → K) : K :=
  ∑ k ∈ range l.length, if (bodyAt l k).any fun b => b.link.isNone then bodyPower (dofsOf l k) (f k) (motion l u k) else 0

theorem reach_cons (b : MechBody K) (l : List (MechBody K)) (f : ℕ → ℕ → K) (u : ℕ → K) :
    reach (b :: l) f u = reach l f u + if thru (fun m => m.mapsForces) (b :: l) l.length then
      bodyPower b.size (f l.length) (motion (b :: l) u l.length) else 0 := by
  unfold reach
  rw [List.length_cons, sum_range_succ, dofsOf_cons_self]
  congr 1
  refine sum_congr rfl fun k hk => ?_
  rw [mem_range] at hk
  rw [thru_cons_lt b hk, dofsOf_cons_lt b hk, motion_cons_lt b u hk]

theorem topPower_cons (b : MechBody K) (l : List (MechBody K)) (f : ℕ → ℕ → K) (u : ℕ → K) :
    topPower (b :: l) f u = topPower l f u + if b.link.isNone then bodyPower b.size (f l.length) (fun i => u (dimension l + i)) else 0 := by
  unfold topPower
  rw [List.length_cons, sum_range_succ, dofsOf_cons_self]
  have e : bodyAt (b :: l) l.length = some b := by simp [bodyAt]
  congr 1
  · refine sum_congr rfl fun k hk => ?_
    rw [mem_range] at hk
    rw [bodyAt_cons_lt b hk, dofsOf_cons_lt b hk, motion_cons_lt b u hk]
  · rw [e, Option.any_some]
    by_cases h : b.link.isNone = true
    · rw [if_pos h, if_pos h]
      congr 1
      funext i
      rw [motion_top e (Option.isNone_iff_eq_none.1 h), offset_cons_le b l _ le_rfl]
      rfl
    · rw [if_neg h, if_neg h]

theorem topPower_congr (l : List (MechBody K)) (f g : ℕ → ℕ → K) (u : ℕ → K) (h : ∀ k < l.length, f k = g k) :
    topPower l f u = topPower l g u := by
  unfold topPower
  refine sum_congr rfl fun k hk => ?_
  rw [h k (mem_range.1 hk)]

theorem reach_update (l : List (MechBody K)) (f : ℕ → ℕ → K) (p : ℕ) (g : ℕ → K) (u : ℕ → K) :
    reach l (Function.update f p (f p + g)) u = reach l f u +
      if thru (fun m => m.mapsForces) l p then bodyPower (dofsOf l p) g (motion l u p) else 0 := by
  by_cases hp : p < l.length
  · unfold reach
    rw [← add_sum_erase _ _ (mem_range.2 hp), ← add_sum_erase (range l.length) _ (mem_range.2 hp)]
    rw [sum_congr rfl fun j hj => by rw [Function.update_of_ne (ne_of_mem_erase hj)]]
    rw [Function.update_self, bodyPower_add]
    split_ifs <;> ring
  · have : thru (fun m : BodyLink K => m.mapsForces) l p = false := by
      cases h : thru (fun m : BodyLink K => m.mapsForces) l p with
      | false => rfl
      | true => exact absurd (thru_lt h) hp
    rw [this]
    simp only [Bool.false_eq_true, if_false, add_zero]
    unfold reach
    refine sum_congr rfl fun k hk => ?_
    rw [mem_range] at hk
    rw [Function.update_of_ne (by omega)]

theorem topPower_pullForces (l : List (MechBody K)) (ho : InOrder l) (f : ℕ → ℕ → K) (u : ℕ → K) :
    topPower l (pullForces l f) u = reach l f u := by
  induction l generalizing f with
  | nil => simp [topPower, reach]
  | cons b l ih =>
    rw [topPower_cons, reach_cons]
    unfold pullForces
    cases hb : b.link with
    | none =>
      simp only [Option.isNone_none, if_true]
      rw [ih ho.2, pullForces_ge l ho.2 f _ le_rfl]
      simp only [thru, if_true, hb, motion]
      congr 2
      funext i
      rw [dimension_eq]
    | some m =>
      simp only [Option.isNone_some, Bool.false_eq_true, if_false, add_zero]
      simp only [thru, if_true, hb, motion]
      by_cases hm : m.mapsForces = true
      · rw [if_pos hm, ih ho.2, reach_update, bodyPower_pull]
        simp only [hm, Bool.true_and]
      · rw [if_neg hm, ih ho.2]
        simp only [hm, Bool.false_and, Bool.false_eq_true, if_false, add_zero]

theorem dimension_cons (b : MechBody K) (l : List (MechBody K)) : dimension (b :: l) = dimension l + if b.link.isNone then b.size else 0 := by
  unfold dimension
  rw [offset, offset_ge l _ (by simp), offset_ge l _ le_rfl]
  simp

theorem gather_power (l : List (MechBody K)) (f : ℕ → ℕ → K) (u : ℕ → K) :
    bodyPower (dimension l) (gather l f) u = topPower l f u := by
  induction l with
  | nil => simp [dimension, offset, bodyPower, topPower]
  | cons b l ih =>
    rw [topPower_cons, dimension_cons]
    unfold gather
    cases hb : b.link with
    | some m => simpa using ih
    | none =>
      simp only [Option.isNone_none, if_true]
      rw [← ih]
      unfold bodyPower
      rw [sum_range_add]
      congr 1
      · refine sum_congr rfl fun i hi => ?_
        rw [mem_range] at hi
        beta_reduce
        rw [if_neg (by omega)]
      · refine sum_congr rfl fun i hi => ?_
        rw [mem_range] at hi
        beta_reduce
        rw [if_pos (by omega), Nat.add_sub_cancel_left]

theorem gather_at {l : List (MechBody K)} {k : ℕ} {b : MechBody K} (h : bodyAt l k = some b) (ht : b.link = none) (f : ℕ → ℕ → K) (i : ℕ)
    (hi : i < b.size) : gather l f (offset l k + i) = f k i := by
  induction l with
  | nil => simp [bodyAt] at h
  | cons a l ih =>
    unfold bodyAt at h
    split_ifs at h with hk
    · obtain rfl : a = b := by simpa using h
      subst hk
      unfold gather
      rw [offset_cons_le a l _ le_rfl]
      simp only [ht]
      rw [show offset l l.length = dimension l from rfl]
      rw [if_pos (by omega), Nat.add_sub_cancel_left]
    · have hlt := bodyAt_lt h
      rw [offset_cons_le a l k hlt.le]
      unfold gather
      cases ha : a.link with
      | some m => exact ih h
      | none =>
        simp only
        have := offset_end h ht
        rw [if_neg (by omega)]
        exact ih h

theorem topPower_project (S : BodyScene K) (ht : FixedOnTop S) (f : ℕ → ℕ → K) (u : ℕ → K) (hu : AllowedMotion S u) :
    topPower S.bodies (S.project f) u = topPower S.bodies f u := by
  unfold topPower
  refine sum_congr rfl fun k hk => ?_
  cases hb : bodyAt S.bodies k with
  | none => rfl
  | some b =>
    rw [Option.any_some]
    by_cases hn : b.link.isNone = true
    · rw [if_pos hn, if_pos hn]
      unfold bodyPower
      refine sum_congr rfl fun i _ => ?_
      unfold BodyScene.project
      split_ifs with hc
      · simp only [List.any_eq_true, Bool.and_eq_true, decide_eq_true_eq] at hc
        obtain ⟨c, hc, rfl, hi⟩ := hc
        rw [motion_top hb (Option.isNone_iff_eq_none.1 hn), offset_eq, hu c hc i hi]
        ring
      · rfl
    · rw [if_neg hn, if_neg hn]

theorem reach_forces (S : BodyScene K) (x u : ℕ → K) :
    reach S.bodies (S.bodyForces x) u = (S.forces.map fun f => if thru (fun m => m.mapsForces) S.bodies f.body then
      bodyPower (dofsOf S.bodies f.body) (f.force (positions S.bodies x f.body)) (motion S.bodies u f.body) else 0).sum := by
  unfold BodyScene.bodyForces
  induction S.forces with
  | nil => simp [reach, bodyPower]
  | cons f forces ih =>
    rw [List.map_cons, List.sum_cons, ← ih]
    clear ih
    unfold reach
    by_cases hv : thru (fun m : BodyLink K => m.mapsForces) S.bodies f.body = true
    · rw [if_pos hv]
      have hlt := thru_lt hv
      rw [← add_sum_erase _ _ (mem_range.2 hlt), ← add_sum_erase (range S.bodies.length) _ (mem_range.2 hlt), if_pos hv, if_pos hv, ← add_assoc]
      congr 1
      · have e : (fun i => (((f :: forces).filter fun g => forceVisited S.bodies g.body && decide (g.body = f.body)).map fun g =>
            g.force (positions S.bodies x f.body) i).sum) = f.force (positions S.bodies x f.body) + fun i =>
            ((forces.filter fun g => forceVisited S.bodies g.body && decide (g.body = f.body)).map fun g =>
            g.force (positions S.bodies x f.body) i).sum := by
          funext i
          rw [List.filter_cons_of_pos (by simp [forceVisited_eq, hv]), List.map_cons, List.sum_cons]
          rfl
        beta_reduce
        rw [e, bodyPower_add]
      · refine sum_congr rfl fun k hk => ?_
        have hne := ne_of_mem_erase hk
        beta_reduce
        rw [List.filter_cons_of_neg (by simp [Ne.symm hne])]
    · rw [if_neg hv, zero_add]
      refine sum_congr rfl fun k hk => ?_
      beta_reduce
      rw [List.filter_cons_of_neg (by simp [forceVisited_eq, hv])]

/-! ## Positions -/

theorem positions_affine (l : List (MechBody K)) (ha : AffineLinks l) (x v : ℕ → K) (t : K) (k i : ℕ) :
    positions l (fun i => x i + t * v i) k i = positions l x k i + t * motion l v k i := by
  induction l generalizing k i with
  | nil => simp [positions, motion]
  | cons b l ih =>
    unfold positions motion
    split_ifs with hk
    · cases hb : b.link with
      | none => simp only [dimension_eq]
      | some m =>
        simp only
        rw [ha.1 m hb (positions l x m.parent) _ i, mul_sum]
        congr 1
        refine sum_congr rfl fun a _ => ?_
        rw [ih ha.2]
        ring
    · exact ih ha.2 k i

/-! ## Rows of fixed degrees of freedom -/

/-- The row and the column `r` are those of the identity. -/
def UnitRow (G : ℕ → ℕ → K) (r : ℕ) : Prop := ∀ j, G r j = (if r = j then 1 else 0) ∧ G j r = if j = r then 1 else 0

theorem unitRow_clear (p : ℕ → Bool) (G : ℕ → ℕ → K) (r : ℕ) (h : p r = true ∨ UnitRow G r) : UnitRow (clearRows p G) r := by
  intro j
  unfold clearRows
  rcases h with h | h
  · simp [h]
  · rw [(h j).1, (h j).2]
    simp

theorem unitRow_constrain (l : List (MechBody K)) (fixed : List (ℕ × List ℕ)) (s : State K) (r : ℕ)
    (h : UnitRow s.global r ∨ ∃ c ∈ fixed, (∃ b, bodyAt l c.1 = some b ∧ b.link = none) ∧ fixedAt (offset l c.1) c.2 r = true) :
    UnitRow (constrain l fixed s).global r := by
  unfold constrain
  induction fixed generalizing s with
  | nil =>
    rcases h with h | ⟨c, hc, _⟩
    · exact h
    · simp at hc
  | cons d fixed ih =>
    have keep : UnitRow s.global r → UnitRow (constrainOne l d.1 d.2 s).global r := by
      intro hr
      unfold constrainOne
      cases hb : bodyAt l d.1 with
      | none => exact hr
      | some b =>
        cases ht : b.link with
        | none => simp only [ht]; exact unitRow_clear _ _ _ (Or.inr hr)
        | some m => simp only [ht]; exact hr
    by_cases hv : visited l d.1 = true
    · rw [List.filter_cons_of_pos (by exact hv), List.foldl_cons]
      apply ih
      rcases h with h | ⟨c, hc, ⟨b, hb, ht⟩, hf⟩
      · exact Or.inl (keep h)
      · rcases List.mem_cons.1 hc with rfl | hc
        · left
          simp only [constrainOne, hb, ht]
          exact unitRow_clear _ _ _ (Or.inl hf)
        · exact Or.inr ⟨c, hc, ⟨b, hb, ht⟩, hf⟩
    · rw [List.filter_cons_of_neg (by exact hv)]
      apply ih
      rcases h with h | ⟨c, hc, ⟨b, hb, ht⟩, hf⟩
      · exact Or.inl h
      · rcases List.mem_cons.1 hc with rfl | hc
        · exact absurd (by rw [visited_eq]; exact thru_top hb ht) hv
        · exact Or.inr ⟨c, hc, ⟨b, hb, ht⟩, hf⟩

theorem unitRow_addBlock (o n : ℕ) (M G : ℕ → ℕ → K) (r : ℕ) (out : ¬ (o ≤ r ∧ r < o + n)) (hr : UnitRow G r) :
    UnitRow (addBlock o n M G) r := by
  intro j
  have h1 : addBlock o n M G r j = G r j := by
    unfold addBlock
    rw [if_neg (fun c => out ⟨c.1, c.2.1⟩), add_zero]
  have h2 : addBlock o n M G j r = G j r := by
    unfold addBlock
    rw [if_neg (fun c => out ⟨c.2.2.1, c.2.2.2⟩), add_zero]
  rw [h1, h2]
  exact hr j

theorem unitRow_addTo {l : List (MechBody K)} {k : ℕ} {b : MechBody K} (h : bodyAt l k = some b) (ht : b.link = none) (i : ℕ) (hi : i < b.size)
    (p : ℕ) (hp : p ≠ k) (M : ℕ → ℕ → K) (s : State K) (hr : UnitRow s.global (offset l k + i)) :
    UnitRow (addTo l p M s).global (offset l k + i) := by
  unfold addTo
  cases hb : bodyAt l p with
  | none => exact hr
  | some a =>
    cases ha : a.link with
    | some m => simp only [ha]; exact hr
    | none =>
      simp only [ha]
      have out : ¬ (offset l p ≤ offset l k + i ∧ offset l k + i < offset l p + a.size) := by
        rcases Nat.lt_or_gt_of_ne hp with h1 | h1
        · have := offset_next hb ha h1
          omega
        · have := offset_next h ht h1
          omega
      exact unitRow_addBlock _ _ _ _ _ out hr

theorem unitRow_pullUp {l : List (MechBody K)} {k : ℕ} {b : MechBody K} (h : bodyAt l k = some b) (ht : b.link = none) (i : ℕ) (hi : i < b.size)
    (free : ∀ a ∈ l, ∀ m, a.link = some m → active m = true → m.parent ≠ k) (s : State K) (hr : UnitRow s.global (offset l k + i)) :
    UnitRow (pullUp l s).global (offset l k + i) := by
  induction l generalizing s with
  | nil => simp [bodyAt] at h
  | cons a l ih =>
    by_cases hk : k = l.length
    · have ea : a = b := by
        unfold bodyAt at h
        rw [if_pos hk] at h
        simpa using h
      subst ea
      unfold pullUp
      rw [ht]
      simp only
      -- the earlier mappings only write in the blocks of earlier bodies
      have low : ∀ (l' : List (MechBody K)) (s : State K), dimension l' ≤ offset (a :: l) k → UnitRow s.global (offset (a :: l) k + i) →
          UnitRow (pullUp l' s).global (offset (a :: l) k + i) := by
        intro l'
        induction l' with
        | nil => intro s _ hr; exact hr
        | cons c l' ih' =>
          intro s hd hr
          have hd' : dimension l' ≤ offset (a :: l) k := (dimension_cons_ge c l').trans hd
          unfold pullUp
          cases hc : c.link with
          | none => exact ih' s hd' hr
          | some m =>
            simp only
            split_ifs
            · cases hM : s.mapped l'.length with
              | none => exact ih' s hd' hr
              | some M =>
                simp only
                apply ih' _ hd'
                unfold addTo
                cases hp : bodyAt l' m.parent with
                | none => exact hr
                | some e =>
                  cases he : e.link with
                  | some _ => simp only [he]; exact hr
                  | none =>
                    simp only [he]
                    have := offset_end hp he
                    exact unitRow_addBlock _ _ _ _ _ (by omega) hr
            · exact ih' s hd' hr
      apply low l s _ hr
      rw [hk, offset_cons_le a l _ le_rfl]
      rfl
    · have hb : bodyAt l k = some b := by
        unfold bodyAt at h
        rwa [if_neg hk] at h
      have hlt := bodyAt_lt hb
      rw [offset_cons_le a l k hlt.le] at hr ⊢
      have ih' := ih hb (fun c hc => free c (List.mem_cons_of_mem _ hc))
      unfold pullUp
      cases ha : a.link with
      | none => exact ih' s hr
      | some m =>
        simp only
        split_ifs with hact
        · cases hM : s.mapped l.length with
          | none => exact ih' s hr
          | some M =>
            exact ih' _ (unitRow_addTo hb ht i hi m.parent (free a List.mem_cons_self m ha hact) _ s hr)
        · exact ih' s hr

end Bodies

end Caribou
