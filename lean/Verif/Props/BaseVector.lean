import Verif.Spec.BaseVector
import Mathlib.Algebra.BigOperators.Fin
import Mathlib.Tactic.Ring

/-!
# Property C100: vectors shared with SOFA
-/

set_option autoImplicit false

namespace Caribou

open Spec

theorem VecWorld.content_write (w : VecWorld) (c : List VecCell) : (w.write c).content = c := by
  unfold VecWorld.write VecWorld.content
  cases h : w.holder <;> simp

theorem VecWorld.run_cons {w w1 : VecWorld} {o : VecOp} (h : w.step o = .ok w1) (l : List VecOp) : w.run (o :: l) = w1.run l := by
  rw [VecWorld.run, h]

theorem VecWorld.run_cons_inv {w w' : VecWorld} {o : VecOp} {l : List VecOp} (h : w.run (o :: l) = .ok w') :
    ∃ w1, w.step o = .ok w1 ∧ w1.run l = .ok w' := by
  rw [VecWorld.run] at h
  cases hs : w.step o with
  | ok w1 => rw [hs] at h; exact ⟨w1, rfl, h⟩
  | throws _ => rw [hs] at h; exact nomatch h
  | hangs => rw [hs] at h; exact nomatch h
  | undefined => rw [hs] at h; exact nomatch h

/-- The first part of a run which succeeds. -/
theorem VecWorld.run_split (w : VecWorld) (l r : List VecOp) {w' : VecWorld} (h : w.run (l ++ r) = .ok w') :
    ∃ w1, w.run l = .ok w1 ∧ w1.run r = .ok w' := by
  induction l generalizing w with
  | nil => exact ⟨w, rfl, h⟩
  | cons o l ih =>
    rw [List.cons_append] at h
    obtain ⟨w1, hs, h1⟩ := VecWorld.run_cons_inv h
    rw [VecWorld.run_cons hs]
    exact ih w1 h1

theorem VecWorld.step_size (w w' : VecWorld) (o : VecOp) (h : w.step o = .ok w') : w'.size = sizeAfter w.size [o] ∧ Allowed w.size o := by
  unfold VecWorld.size
  cases o with
  | resize n =>
    simp only [VecWorld.step, Outcome.ok.injEq] at h
    rw [← h, VecWorld.content_write]
    exact ⟨List.length_replicate, trivial⟩
  | clear =>
    simp only [VecWorld.step, Outcome.ok.injEq] at h
    rw [← h, VecWorld.content_write]
    exact ⟨List.length_map _, trivial⟩
  | set i v =>
    simp only [VecWorld.step] at h
    split_ifs at h with hi
    simp only [Outcome.ok.injEq] at h
    rw [← h, VecWorld.content_write]
    exact ⟨List.length_set, hi⟩
  | add i v =>
    simp only [VecWorld.step] at h
    split at h
    · rename_i a ha
      simp only [Outcome.ok.injEq] at h
      rw [← h, VecWorld.content_write]
      exact ⟨List.length_set, (List.getElem?_eq_some_iff.1 ha).1⟩
    · exact nomatch h

/-- Writing operations: what they leave at the entry. -/
theorem VecWorld.step_writes (w w' : VecWorld) (o : VecOp) (i : ℕ) (v : ℝ) (h : w.step o = .ok w') (ho : Writes i v o) (hi : i < w'.size) :
    w'.content[i]? = some (some v) := by
  unfold VecWorld.size at hi
  cases o with
  | resize n =>
    simp only [VecWorld.step, Outcome.ok.injEq] at h
    rw [← h, VecWorld.content_write] at hi ⊢
    obtain ⟨h1, rfl⟩ := ho
    simp [h1]
  | clear =>
    simp only [VecWorld.step, Outcome.ok.injEq] at h
    rw [← h, VecWorld.content_write] at hi ⊢
    obtain rfl : v = 0 := ho
    rw [List.length_map] at hi
    simp [hi]
  | set j u =>
    simp only [VecWorld.step] at h
    split_ifs at h with hj
    simp only [Outcome.ok.injEq] at h
    rw [← h, VecWorld.content_write]
    obtain ⟨rfl, rfl⟩ := ho
    simp [hj]
  | add j u => exact absurd ho id

theorem VecWorld.step_onlyAdds (w w' : VecWorld) (o : VecOp) (i : ℕ) (v : ℝ) (h : w.step o = .ok w') (ho : OnlyAdds i o)
    (hv : w.content[i]? = some (some v)) : w'.content[i]? = some (some (v + added i [o])) := by
  cases o with
  | resize n => exact absurd ho id
  | clear => exact absurd ho id
  | set j u =>
    simp only [VecWorld.step] at h
    split_ifs at h with hj
    simp only [Outcome.ok.injEq] at h
    have hji : j ≠ i := ho
    rw [← h, VecWorld.content_write, List.getElem?_set_ne hji, hv]
    simp [added]
  | add j u =>
    simp only [VecWorld.step] at h
    split at h
    · rename_i a ha
      simp only [Outcome.ok.injEq] at h
      rw [← h, VecWorld.content_write]
      by_cases hji : j = i
      · subst hji
        rw [hv] at ha
        simp only [Option.some.injEq] at ha
        have hl := (List.getElem?_eq_some_iff.1 hv).1
        simp [added, hl, ha]
      · rw [List.getElem?_set_ne hji, hv]
        simp [added, hji]
    · exact nomatch h

theorem VecWorld.run_onlyAdds (l : List VecOp) : ∀ (w w' : VecWorld) (i : ℕ) (v : ℝ), w.run l = .ok w' → (∀ o ∈ l, OnlyAdds i o) →
    w.content[i]? = some (some v) → w'.content[i]? = some (some (v + added i l)) := by
  induction l with
  | nil =>
    intro w w' i v h _ hv
    simp only [VecWorld.run, Outcome.ok.injEq] at h
    rw [← h, hv]
    simp [added]
  | cons o l ih =>
    intro w w' i v h ho hv
    obtain ⟨w1, h1, h2⟩ := VecWorld.run_split w [o] l h
    have h1' : w.step o = .ok w1 := by
      unfold VecWorld.run at h1
      cases hs : w.step o <;> rw [hs] at h1 <;> first | exact h1 | exact nomatch h1
    have e := VecWorld.step_onlyAdds w w1 o i v h1' (ho o (List.mem_cons_self ..)) hv
    rw [ih w1 w' i _ h2 (fun p hp => ho p (List.mem_cons_of_mem _ hp)) e]
    simp only [added, List.map_cons, List.map_nil, List.sum_cons, List.sum_nil, add_zero, add_assoc]

theorem VecWorld.run_size (l : List VecOp) : ∀ w w' : VecWorld, w.run l = .ok w' → w'.size = sizeAfter w.size l := by
  induction l with
  | nil =>
    intro w w' h
    simp only [VecWorld.run, Outcome.ok.injEq] at h
    rw [← h]
    rfl
  | cons o l ih =>
    intro w w' h
    unfold VecWorld.run at h
    cases hs : w.step o with
    | ok w1 =>
      rw [hs] at h
      rw [ih w1 w' h, (VecWorld.step_size w w1 o hs).1]
      cases o <;> rfl
    | throws _ => rw [hs] at h; exact nomatch h
    | hangs => rw [hs] at h; exact nomatch h
    | undefined => rw [hs] at h; exact nomatch h

/-- **C100 (`EigenVector`, values).** After any sequence of modifications, the size is the one of the last `resize`, and an entry is the value
last written there (zero for `clear` and `resize`) plus what was added since; an entry which was never written has its initial value plus
what was added. -/
theorem C100_vector (w w' : VecWorld) (ops : List VecOp) (h : w.run ops = .ok w') :
    w'.size = sizeAfter w.size ops ∧
    (∀ i before o after v, ops = before ++ o :: after → Writes i v o → (∀ p ∈ after, OnlyAdds i p) → i < w'.size →
      w'.element i = .ok (v + added i after)) ∧
    ∀ i v, (∀ p ∈ ops, OnlyAdds i p) → w.element i = .ok v → w'.element i = .ok (v + added i ops) := by
  refine ⟨VecWorld.run_size ops w w' h, fun i before o after v hops ho ha hi => ?_, fun i v ha hv => ?_⟩
  · subst hops
    obtain ⟨w1, h1, h2⟩ := VecWorld.run_split w before (o :: after) h
    obtain ⟨w2, h3, h4⟩ := VecWorld.run_split w1 [o] after h2
    have h3' : w1.step o = .ok w2 := by
      unfold VecWorld.run at h3
      cases hs : w1.step o <;> rw [hs] at h3 <;> first | exact h3 | exact nomatch h3
    have hsz : w'.size = w2.size := by
      rw [VecWorld.run_size after w2 w' h4]
      have : ∀ l : List VecOp, (∀ p ∈ l, OnlyAdds i p) → ∀ n, sizeAfter n l = n := by
        intro l
        induction l with
        | nil => exact fun _ _ => rfl
        | cons p l ih =>
          intro hl n
          have hp := hl p (List.mem_cons_self ..)
          have hl' := ih fun q hq => hl q (List.mem_cons_of_mem _ hq)
          cases p with
          | resize _ => exact absurd hp id
          | clear => exact absurd hp id
          | set _ _ => exact hl' n
          | add _ _ => exact hl' n
      exact this after ha _
    have e := VecWorld.run_onlyAdds after w2 w' i v h4 ha (VecWorld.step_writes w1 w2 o i v h3' ho (hsz ▸ hi))
    simp only [VecWorld.element, e]
  · have hv' : w.content[i]? = some (some v) := by
      unfold VecWorld.element at hv
      split at hv
      · rename_i a ha
        simp only [Outcome.ok.injEq] at hv
        rw [ha, hv]
      · exact nomatch hv
    simp only [VecWorld.element, VecWorld.run_onlyAdds ops w w' i v h ha hv']

/-- **C100 (`EigenVector`, safety).** A vector all entries of which are initialised stays so, and the modifications succeed exactly when the
indices are in range. -/
theorem C100_defined (w : VecWorld) (ops : List VecOp) (hw : ∀ c ∈ w.content, c ≠ none) :
    (AllAllowed w.size ops ↔ ∃ w', w.run ops = .ok w') ∧
    ∀ w', w.run ops = .ok w' → ∀ i, i < w'.size → ∃ v, w'.element i = .ok v := by
  have hdef : ∀ w : VecWorld, (∀ c ∈ w.content, c ≠ none) → ∀ i, i < w.size → ∃ v, w.content[i]? = some (some v) := by
    intro w hw i hi
    have hi' : i < w.content.length := hi
    have := hw _ (List.getElem_mem hi')
    cases hc : w.content[i] with
    | none => exact absurd hc this
    | some v => exact ⟨v, by rw [List.getElem?_eq_getElem hi', hc]⟩
  have hstep : ∀ (w w' : VecWorld) o, (∀ c ∈ w.content, c ≠ none) → w.step o = .ok w' → ∀ c ∈ w'.content, c ≠ none := by
    intro w w' o hw h c hc
    cases o with
    | resize n =>
      simp only [VecWorld.step, Outcome.ok.injEq] at h
      rw [← h, VecWorld.content_write] at hc
      rw [(List.mem_replicate.1 hc).2]
      simp
    | clear =>
      simp only [VecWorld.step, Outcome.ok.injEq] at h
      rw [← h, VecWorld.content_write] at hc
      obtain ⟨_, _, rfl⟩ := List.mem_map.1 hc
      simp
    | set i v =>
      simp only [VecWorld.step] at h
      split_ifs at h
      simp only [Outcome.ok.injEq] at h
      rw [← h, VecWorld.content_write] at hc
      rcases List.mem_or_eq_of_mem_set hc with h1 | h1
      · exact hw c h1
      · simp [h1]
    | add i v =>
      simp only [VecWorld.step] at h
      split at h
      · simp only [Outcome.ok.injEq] at h
        rw [← h, VecWorld.content_write] at hc
        rcases List.mem_or_eq_of_mem_set hc with h1 | h1
        · exact hw c h1
        · simp [h1]
      · exact nomatch h
  have hok : ∀ (w : VecWorld) o, (∀ c ∈ w.content, c ≠ none) → Allowed w.size o → ∃ w', w.step o = .ok w' := by
    intro w o hw ho
    cases o with
    | resize n => exact ⟨_, rfl⟩
    | clear => exact ⟨_, rfl⟩
    | set i v => exact ⟨_, if_pos ho⟩
    | add i v =>
      obtain ⟨a, ha⟩ := hdef w hw i ho
      exact ⟨_, by simp only [VecWorld.step, ha]; rfl⟩
  induction ops generalizing w with
  | nil =>
    refine ⟨⟨fun _ => ⟨w, rfl⟩, fun _ => trivial⟩, fun w' h i hi => ?_⟩
    simp only [VecWorld.run, Outcome.ok.injEq] at h
    subst h
    obtain ⟨v, hv⟩ := hdef w hw i hi
    exact ⟨v, by simp only [VecWorld.element, hv]⟩
  | cons o l ih =>
    constructor
    · constructor
      · rintro ⟨h1, h2⟩
        obtain ⟨w1, hw1⟩ := hok w o hw h1
        rw [← (VecWorld.step_size w w1 o hw1).1] at h2
        obtain ⟨w', hw'⟩ := (ih w1 (hstep w w1 o hw hw1)).1.1 h2
        refine ⟨w', ?_⟩
        unfold VecWorld.run
        rw [hw1]
        exact hw'
      · rintro ⟨w', h⟩
        unfold VecWorld.run at h
        cases hs : w.step o with
        | ok w1 =>
          rw [hs] at h
          refine ⟨(VecWorld.step_size w w1 o hs).2, ?_⟩
          rw [← (VecWorld.step_size w w1 o hs).1]
          exact (ih w1 (hstep w w1 o hw hs)).1.2 ⟨w', h⟩
        | throws _ => rw [hs] at h; exact nomatch h
        | hangs => rw [hs] at h; exact nomatch h
        | undefined => rw [hs] at h; exact nomatch h
    · intro w' h
      unfold VecWorld.run at h
      cases hs : w.step o with
      | ok w1 =>
        rw [hs] at h
        exact (ih w1 (hstep w w1 o hw hs)).2 w' h
      | throws _ => rw [hs] at h; exact nomatch h
      | hangs => rw [hs] at h; exact nomatch h
      | undefined => rw [hs] at h; exact nomatch h

/-- What the vectors of the program become under a run. -/
theorem VecWorld.run_outside (l : List VecOp) : ∀ w w' : VecWorld, w.run l = .ok w' →
    (∀ i, w.holder = .reference i → w'.holder = .reference i ∧ ∀ j, j ≠ i → w'.outside j = w.outside j) ∧
    ((∃ c, w.holder = .owned c) → (∃ c, w'.holder = .owned c) ∧ w'.outside = w.outside) := by
  have hwrite : ∀ (w : VecWorld) c, (∀ i, w.holder = .reference i → (w.write c).holder = .reference i ∧ ∀ j, j ≠ i → (w.write c).outside j = w.outside j) ∧
      ((∃ d, w.holder = .owned d) → (∃ d, (w.write c).holder = .owned d) ∧ (w.write c).outside = w.outside) := by
    intro w c
    refine ⟨fun i h => ?_, fun ⟨d, h⟩ => ?_⟩
    · unfold VecWorld.write
      rw [h]
      exact ⟨rfl, fun j hj => if_neg hj⟩
    · unfold VecWorld.write
      rw [h]
      exact ⟨⟨c, rfl⟩, rfl⟩
  have hstep : ∀ (w w' : VecWorld) o, w.step o = .ok w' → ∃ c, w' = w.write c := by
    intro w w' o h
    cases o with
    | resize n => exact ⟨_, (by simpa only [VecWorld.step, Outcome.ok.injEq] using h.symm : w' = _)⟩
    | clear => exact ⟨_, (by simpa only [VecWorld.step, Outcome.ok.injEq] using h.symm : w' = _)⟩
    | set i v =>
      simp only [VecWorld.step] at h
      split_ifs at h
      exact ⟨_, (by simpa only [Outcome.ok.injEq] using h.symm : w' = _)⟩
    | add i v =>
      simp only [VecWorld.step] at h
      split at h
      · exact ⟨_, (by simpa only [Outcome.ok.injEq] using h.symm : w' = _)⟩
      · exact nomatch h
  induction l with
  | nil =>
    intro w w' h
    simp only [VecWorld.run, Outcome.ok.injEq] at h
    subst h
    exact ⟨fun i h => ⟨h, fun _ _ => rfl⟩, fun h => ⟨h, rfl⟩⟩
  | cons o l ih =>
    intro w w' h
    unfold VecWorld.run at h
    cases hs : w.step o with
    | ok w1 =>
      rw [hs] at h
      obtain ⟨c, rfl⟩ := hstep w w1 o hs
      obtain ⟨i1, i2⟩ := ih _ w' h
      obtain ⟨j1, j2⟩ := hwrite w c
      refine ⟨fun i hi => ?_, fun hc => ?_⟩
      · obtain ⟨a1, a2⟩ := j1 i hi
        obtain ⟨b1, b2⟩ := i1 i a1
        exact ⟨b1, fun j hj => (b2 j hj).trans (a2 j hj)⟩
      · obtain ⟨a1, a2⟩ := j2 hc
        obtain ⟨b1, b2⟩ := i2 a1
        exact ⟨b1, b2.trans a2⟩
    | throws _ => rw [hs] at h; exact nomatch h
    | hangs => rw [hs] at h; exact nomatch h
    | undefined => rw [hs] at h; exact nomatch h

/-- **C100 (`EigenVector`, sharing).** A wrapper starts with the entries of the vector it is given.  A wrapper by reference and the vector stay
the same, and no other vector changes; a wrapper by copy changes no vector of the program. -/
theorem C100_wrap (outside : ℕ → List VecCell) (i : ℕ) (byReference : Bool) (ops : List VecOp) (w' : VecWorld)
    (h : (VecWorld.wrap outside i byReference).run ops = .ok w') :
    (VecWorld.wrap outside i byReference).content = outside i ∧ (∀ j, j ≠ i → w'.outside j = outside j) ∧
    (byReference = true → w'.outside i = w'.content) ∧ (byReference = false → w'.outside i = outside i) := by
  obtain ⟨h1, h2⟩ := VecWorld.run_outside ops _ w' h
  cases byReference with
  | true =>
    obtain ⟨a, b⟩ := h1 i rfl
    refine ⟨rfl, b, fun _ => ?_, fun h => absurd h (by decide)⟩
    unfold VecWorld.content
    rw [a]
  | false =>
    obtain ⟨⟨c, a⟩, b⟩ := h2 ⟨_, rfl⟩
    exact ⟨rfl, fun j _ => congrFun b j, (fun h => absurd h (by decide)), fun _ => congrFun b i⟩

/-- The entries of a vector created with a size can be read only after they were written: `clear` makes all of them zero. -/
theorem C100_created (outside : ℕ → List VecCell) (n i : ℕ) (hi : i < n) :
    (VecWorld.create outside n).element i = .undefined ∧
    ∃ w, (VecWorld.create outside n).run [.clear] = .ok w ∧ w.size = n ∧ w.element i = .ok 0 := by
  refine ⟨by simp [VecWorld.create, VecWorld.element, VecWorld.content, hi], _, rfl, ?_, ?_⟩
  · simp [VecWorld.create, VecWorld.size, VecWorld.content, VecWorld.write]
  · simp [VecWorld.create, VecWorld.element, VecWorld.content, VecWorld.write, hi]

/-! ### Dot product -/

theorem dotLoop_eq : ∀ u v : List ℝ, u.length = v.length → dotLoop u v = .ok (List.zipWith (· * ·) u v).sum
  | [], [], _ => rfl
  | a :: u, b :: v, h => by
    simp only [List.length_cons, Nat.add_right_cancel_iff] at h
    simp only [dotLoop, dotLoop_eq u v h, List.zipWith_cons_cons, List.sum_cons]

theorem zip_comm : ∀ u v : List ℝ, (List.zipWith (· * ·) u v).sum = (List.zipWith (· * ·) v u).sum
  | [], [] => rfl
  | [], _ :: _ => rfl
  | _ :: _, [] => rfl
  | a :: u, b :: v => by simp only [List.zipWith_cons_cons, List.sum_cons, zip_comm u v, mul_comm a b]

/-- **C100 (dot product).** For vectors of the same size, the dot product is the sum of the products of the entries, whatever the types of the
vectors. -/
theorem C100_dot {n : ℕ} (t1 t2 : BaseVectorType) (u v : Fin n → ℝ) :
    baseDot ⟨t1, List.ofFn u⟩ ⟨t2, List.ofFn v⟩ = .ok (∑ i, u i * v i) := by
  have key : ∀ u v : Fin n → ℝ, dotLoop (List.ofFn u) (List.ofFn v) = .ok (∑ i, u i * v i) := by
    intro u v
    rw [dotLoop_eq _ _ (by rw [List.length_ofFn, List.length_ofFn]), ← List.sum_ofFn]
    congr 2
    apply List.ext_getElem
    · simp
    · intro i hi1 hi2
      simp
  have e2 : dotLoop (List.ofFn v) (List.ofFn u) = .ok (∑ i, u i * v i) := by
    rw [key]
    exact congrArg _ (Finset.sum_congr rfl fun i _ => mul_comm _ _)
  unfold baseDot
  split_ifs <;> first | exact key u v | exact e2

/-- The sizes have to be the same: otherwise entries are left out or memory out of range is read, depending on the types of the vectors
and on their order.  (The assertion of the function is not compiled in release builds.) -/
theorem C100_dot_sizes : baseDot ⟨.other, [1]⟩ ⟨.other, [2, 3]⟩ = .ok (1 * 2 + 0) ∧ baseDot ⟨.other, [1]⟩ ⟨.fullDouble, [2, 3]⟩ = .undefined ∧
    baseDot ⟨.other, [2, 3]⟩ ⟨.other, [1]⟩ = .undefined := by
  refine ⟨?_, ?_, ?_⟩ <;> simp [baseDot, dotLoop]

/-! ### Assignment of multi-vectors -/

/-- A node which hides its children. -/
def Silent {V : Type*} (n : MechNode V) : Prop := n.state.isSome ∧ n.mapping = some false

theorem below_root {V : Type*} (f : MechForest V) : ¬ BelowSilentMapping f [] := by
  rintro ⟨q, r, n, h, -⟩
  simp at h

theorem below_child {V : Type*} (n : MechNode V) (c r : MechForest V) (p : List Bool) :
    BelowSilentMapping (.cons n c r) (true :: p) ↔ Silent n ∨ BelowSilentMapping c p := by
  constructor
  · rintro ⟨q, t, m, h, hm, hs⟩
    rcases q with _ | ⟨b, q⟩
    · simp only [nodeAt, Option.some.injEq] at hm
      subst hm
      exact Or.inl hs
    · simp only [List.cons_append, List.cons.injEq] at h
      obtain ⟨rfl, rfl⟩ := h
      exact Or.inr ⟨q, t, m, rfl, hm, hs⟩
  · rintro (h | ⟨q, t, m, h, hm, hs⟩)
    · exact ⟨[], p, n, rfl, rfl, h⟩
    · exact ⟨true :: q, t, m, by rw [h]; rfl, hm, hs⟩

theorem below_next {V : Type*} (n : MechNode V) (c r : MechForest V) (p : List Bool) :
    BelowSilentMapping (.cons n c r) (false :: p) ↔ BelowSilentMapping r p := by
  constructor
  · rintro ⟨q, t, m, h, hm, hs⟩
    rcases q with _ | ⟨b, q⟩
    · simp at h
    · simp only [List.cons_append, List.cons.injEq] at h
      obtain ⟨rfl, rfl⟩ := h
      exact ⟨q, t, m, rfl, hm, hs⟩
  · rintro ⟨q, t, m, h, hm, hs⟩
    exact ⟨false :: q, t, m, by rw [h]; rfl, hm, hs⟩

theorem internalCopy_eq {V : Type*} {a b : List V} (h : a.length ≤ b.length) : internalCopy a b = b := by
  rw [internalCopy, List.drop_eq_nil_of_le h, List.append_nil]

theorem copy_assigned {V : Type*} (s : MultiState V) (a b : ℕ) (hs : s.supported = true) (h : (s.vectors a).length ≤ (s.vectors b).length) :
    ∃ s', s.copy a b = .ok s' ∧ Assigned a b s s' := by
  refine ⟨_, if_pos hs, rfl, ?_, fun i hi => if_neg hi⟩
  show (if a = a then _ else _) = _
  rw [if_pos rfl, internalCopy_eq h]

/-- What the visit of a node does. -/
theorem node_visit {V : Type*} (n : MechNode V) (a b : ℕ) (mapped onlyMapped : Bool)
    (h : ∀ s, n.state = some s → (n.mapping = none ∧ onlyMapped = false ∨ n.mapping ≠ none ∧ (mapped = true ∨ onlyMapped = true)) →
      s.supported = true ∧ (s.vectors a).length ≤ (s.vectors b).length) :
    ∃ n' descend, n.visit a b mapped onlyMapped = .ok (n', descend) ∧ n'.mapping = n.mapping ∧
      (descend = false ↔ Silent n ∧ mapped = false ∧ onlyMapped = false) ∧
      ((n.state.isSome ∧ (n.mapping = none ∧ onlyMapped = false ∨ n.mapping ≠ none ∧ (mapped = true ∨ onlyMapped = true))) →
        ∃ s s', n.state = some s ∧ n'.state = some s' ∧ Assigned a b s s') ∧
      (¬ (n.state.isSome ∧ (n.mapping = none ∧ onlyMapped = false ∨ n.mapping ≠ none ∧ (mapped = true ∨ onlyMapped = true))) → n' = n) := by
  obtain ⟨st, mp⟩ := n
  rcases st with _ | s
  · exact ⟨_, _, rfl, rfl, by simp [Silent], fun h => by simp at h, fun _ => rfl⟩
  · rcases mp with _ | fm
    · cases ho : onlyMapped with
      | true => exact ⟨⟨some s, none⟩, true, by simp [MechNode.visit], rfl, by simp [Silent], fun h => by simp at h, fun _ => rfl⟩
      | false =>
        obtain ⟨h1, h2⟩ := h s rfl (Or.inl ⟨rfl, ho⟩)
        obtain ⟨s', e, hs⟩ := copy_assigned s a b h1 h2
        exact ⟨⟨some s', none⟩, true, by simp [MechNode.visit, e], rfl, by simp [Silent], fun _ => ⟨s, s', rfl, rfl, hs⟩,
          fun h => absurd ⟨rfl, Or.inl ⟨rfl, rfl⟩⟩ h⟩
    · by_cases hf : mapped = true ∨ onlyMapped = true
      · obtain ⟨h1, h2⟩ := h s rfl (Or.inr ⟨by simp, hf⟩)
        obtain ⟨s', e, hs⟩ := copy_assigned s a b h1 h2
        have hf' : (mapped || onlyMapped) = true := by simpa using hf
        refine ⟨⟨some s', some fm⟩, true, by simp [MechNode.visit, e, hf'], rfl, ?_, fun _ => ⟨s, s', rfl, rfl, hs⟩,
          fun h => absurd ⟨rfl, Or.inr ⟨by simp, hf⟩⟩ h⟩
        constructor
        · exact fun h => absurd h (by decide)
        · rintro ⟨-, h1, h2⟩
          rcases hf with h | h
          · exact absurd (h1.symm.trans h) (by decide)
          · exact absurd (h2.symm.trans h) (by decide)
      · have h1 : mapped = false := by simpa using fun h => hf (Or.inl h)
        have h2 : onlyMapped = false := by simpa using fun h => hf (Or.inr h)
        subst h1 h2
        refine ⟨⟨some s, some fm⟩, fm, by cases fm <;> simp [MechNode.visit], rfl, by cases fm <;> simp [Silent], fun h => by simp at h,
          fun _ => rfl⟩

/-- **C100 (assignment of multi-vectors), partial.** `MultiVecEqualVisitor` performs `a := b` in exactly the mechanical objects selected by its
flags, when these have a supported template and `a` is not longer than `b` there; nothing else changes.  Missing: objects where `a` is
longer (`C100_copy_violated`). -/
theorem C100_copy_partial {V : Type*} (a b : ℕ) (mapped onlyMapped : Bool) (f : MechForest V)
    (h : ∀ p n s, nodeAt f p = some n → Chosen mapped onlyMapped f p n → n.state = some s →
      s.supported = true ∧ (s.vectors a).length ≤ (s.vectors b).length) :
    ∃ f', f.visit a b mapped onlyMapped = .ok f' ∧ (∀ p, nodeAt f' p = none ↔ nodeAt f p = none) ∧
      ∀ p n n', nodeAt f p = some n → nodeAt f' p = some n' → n'.mapping = n.mapping ∧
        (Chosen mapped onlyMapped f p n → ∃ s s', n.state = some s ∧ n'.state = some s' ∧ Assigned a b s s') ∧
        (¬ Chosen mapped onlyMapped f p n → n' = n) := by
  induction f with
  | nil => exact ⟨.nil, rfl, fun _ => Iff.rfl, fun p n n' h => nomatch h⟩
  | cons n c r ihc ihr =>
    have hroot : Chosen mapped onlyMapped (.cons n c r) [] n ↔
        (n.state.isSome ∧ (n.mapping = none ∧ onlyMapped = false ∨ n.mapping ≠ none ∧ (mapped = true ∨ onlyMapped = true))) := by
      have hb := below_root (MechForest.cons n c r)
      unfold Chosen
      tauto
    have hnext : ∀ p m, Chosen mapped onlyMapped (.cons n c r) (false :: p) m ↔ Chosen mapped onlyMapped r p m := by
      intro p m
      unfold Chosen
      rw [below_next]
    obtain ⟨n', descend, hv, hm, hd, hch, hnc⟩ := node_visit n a b mapped onlyMapped (fun s hs hx =>
      h [] n s rfl (hroot.2 ⟨by rw [hs]; rfl, hx⟩) hs)
    obtain ⟨r', hr1, hr2, hr3⟩ := ihr (fun p m s hp hc hs => h (false :: p) m s hp ((hnext p m).2 hc) hs)
    have fin : ∀ c', (∀ p, nodeAt c' p = none ↔ nodeAt c p = none) →
        (∀ p m m', nodeAt c p = some m → nodeAt c' p = some m' → m'.mapping = m.mapping ∧
          (Chosen mapped onlyMapped (.cons n c r) (true :: p) m → ∃ s s', m.state = some s ∧ m'.state = some s' ∧ Assigned a b s s') ∧
          (¬ Chosen mapped onlyMapped (.cons n c r) (true :: p) m → m' = m)) →
        (∀ p, nodeAt (.cons n' c' r') p = none ↔ nodeAt (.cons n c r) p = none) ∧
        ∀ p m m', nodeAt (.cons n c r) p = some m → nodeAt (.cons n' c' r') p = some m' → m'.mapping = m.mapping ∧
          (Chosen mapped onlyMapped (.cons n c r) p m → ∃ s s', m.state = some s ∧ m'.state = some s' ∧ Assigned a b s s') ∧
          (¬ Chosen mapped onlyMapped (.cons n c r) p m → m' = m) := by
      intro c' h1 h2
      constructor
      · intro p
        rcases p with _ | ⟨_ | _, p⟩
        · simp [nodeAt]
        · exact hr2 p
        · exact h1 p
      · intro p m m' hp hp'
        rcases p with _ | ⟨_ | _, p⟩
        · simp only [nodeAt, Option.some.injEq] at hp hp'
          subst hp hp'
          exact ⟨hm, fun hx => hch (hroot.1 hx), fun hx => hnc fun hy => hx (hroot.2 hy)⟩
        · obtain ⟨k1, k2, k3⟩ := hr3 p m m' hp hp'
          rw [hnext]
          exact ⟨k1, k2, k3⟩
        · exact h2 p m m' hp hp'
    cases descend with
    | false =>
      obtain ⟨hs, hm0, ho0⟩ := hd.1 rfl
      refine ⟨.cons n' c r', by simp [MechForest.visit, hv, hr1], ?_⟩
      refine fin c (fun _ => Iff.rfl) fun p m m' hp hp' => ?_
      rw [hp] at hp'
      simp only [Option.some.injEq] at hp'
      subst hp'
      refine ⟨rfl, fun hx => ?_, fun _ => rfl⟩
      rcases hx.2 with ⟨_, _, h3⟩ | ⟨_, h3⟩
      · exact absurd ((below_child n c r p).2 (Or.inl hs)) (h3 hm0)
      · rw [hm0, ho0] at h3
        simp at h3
    | true =>
      have hns : mapped = false → onlyMapped = false → ¬ Silent n := by
        intro h1 h2 h3
        have := hd.2 ⟨h3, h1, h2⟩
        simp at this
      have hchild : ∀ p m, Chosen mapped onlyMapped (.cons n c r) (true :: p) m ↔ Chosen mapped onlyMapped c p m := by
        intro p m
        unfold Chosen
        rw [below_child]
        refine and_congr_right fun _ => or_congr_left ?_
        exact ⟨fun ⟨x, y, z⟩ => ⟨x, y, fun k hb => z k (Or.inr hb)⟩, fun ⟨x, y, z⟩ => ⟨x, y, fun k hb => hb.elim (hns k y) (z k)⟩⟩
      obtain ⟨c', hc1, hc2, hc3⟩ := ihc (fun p m s hp hc hs => h (true :: p) m s hp ((hchild p m).2 hc) hs)
      refine ⟨.cons n' c' r', by simp [MechForest.visit, hv, hr1, hc1], ?_⟩
      refine fin c' hc2 fun p m m' hp hp' => ?_
      rw [hchild]
      exact hc3 p m m' hp hp'

/-- **C100, negation** (assignment of multi-vectors): when `a` is longer than `b`, its last entries are kept. -/
theorem C100_copy_violated : ∃ f : MechForest ℕ, ∃ f' : MechForest ℕ, f.visit 0 1 false false = .ok f' ∧
    ∃ n n' s s', nodeAt f [] = some n ∧ nodeAt f' [] = some n' ∧ n.state = some s ∧ n'.state = some s' ∧ s.supported = true ∧
      s.vectors 1 = [7] ∧ s'.vectors 0 = [7, 5] :=
  ⟨.cons ⟨some ⟨true, fun i => if i = 0 then [4, 5] else [7]⟩, none⟩ .nil .nil, _, rfl, _, _, _, _, rfl, rfl, rfl, rfl, rfl, rfl, rfl⟩

/-- **C100** (assignment of multi-vectors, templates): an object with another template which is selected is never skipped silently. -/
theorem C100_copy_unsupported {V : Type*} (a b : ℕ) (mapped onlyMapped : Bool) (f : MechForest V) (p : List Bool) (n : MechNode V)
    (s : MultiState V) (hp : nodeAt f p = some n) (hc : Chosen mapped onlyMapped f p n) (hs : n.state = some s) (hu : s.supported = false) :
    ∀ f', f.visit a b mapped onlyMapped ≠ .ok f' := by
  induction f generalizing p with
  | nil => exact nomatch hp
  | cons m c r ihc ihr =>
    intro f' hf
    simp only [MechForest.visit] at hf
    rcases p with _ | ⟨_ | _, p⟩
    · simp only [nodeAt, Option.some.injEq] at hp
      subst hp
      obtain ⟨_, mp⟩ := m
      simp only at hs
      subst hs
      have hcopy : s.copy a b = .throws s := if_neg (by rw [hu]; decide)
      rcases hc.2 with ⟨h1, h2, -⟩ | ⟨h1, h2⟩
      · simp only at h1
        subst h1 h2
        simp [MechNode.visit, hcopy] at hf
      · rcases mp with _ | fm
        · exact h1 rfl
        · have hf' : (mapped || onlyMapped) = true := by simpa using h2
          simp [MechNode.visit, hcopy, hf'] at hf
    · have hc' : Chosen mapped onlyMapped r p n := by
        unfold Chosen at hc ⊢
        rwa [below_next] at hc
      have := ihr p hp hc'
      split at hf
      · split at hf
        · split at hf
          · exact this _ (by assumption)
          · exact nomatch hf
          · exact nomatch hf
        · exact nomatch hf
        · exact nomatch hf
      · exact nomatch hf
      · exact nomatch hf
    · have hc' : Chosen mapped onlyMapped c p n := by
        unfold Chosen at hc ⊢
        rw [below_child] at hc
        exact ⟨hc.1, hc.2.imp_left fun ⟨x, y, z⟩ => ⟨x, y, fun k hb => z k (Or.inr hb)⟩⟩
      have := ihc p hp hc'
      split at hf
      · rename_i n' d hn
        cases d with
        | true =>
          simp only [if_true] at hf
          split at hf
          · exact this _ (by assumption)
          · exact nomatch hf
          · exact nomatch hf
        | false =>
          exfalso
          rcases m with ⟨_ | st, _ | fm⟩
          · simp [MechNode.visit] at hn
          · simp [MechNode.visit] at hn
          · cases onlyMapped <;> simp [MechNode.visit] at hn
            split at hn <;> simp at hn
          · have hsil : mapped = false ∧ onlyMapped = false ∧ fm = false := by
              cases mapped <;> cases onlyMapped <;> cases fm <;> simp [MechNode.visit] at hn ⊢ <;> split at hn <;> simp at hn
            obtain ⟨rfl, rfl, rfl⟩ := hsil
            rcases hc.2 with ⟨_, _, h3⟩ | ⟨_, h3⟩
            · exact h3 rfl ((below_child _ c r p).2 (Or.inl ⟨rfl, rfl⟩))
            · simp at h3
      · exact nomatch hf
      · exact nomatch hf

/-- Two bodies, the second one with a mapped surface and a visual model; without flags only the two bodies are assigned. -/
example : ∃ f' : MechForest ℕ, (MechForest.cons ⟨some ⟨true, fun i => if i = 1 then [1, 2] else []⟩, none⟩ .nil
      (.cons ⟨some ⟨true, fun i => if i = 1 then [3] else [0]⟩, none⟩
        (.cons ⟨some ⟨true, fun _ => [9, 9]⟩, some true⟩ .nil (.cons ⟨some ⟨false, fun _ => []⟩, some false⟩ .nil .nil)) .nil)).visit 0 1 false false =
        .ok f' ∧ ∃ n s, nodeAt f' [false] = some n ∧ n.state = some s ∧ s.vectors 0 = [3] :=
  ⟨_, rfl, _, _, rfl, rfl, rfl⟩

/-- A sequence of modifications which succeeds. -/
example (outside : ℕ → List VecCell) : ∃ w, (VecWorld.create outside 3).run [.clear, .set 1 5, .add 1 2, .add 2 1] = .ok w ∧
    w.element 1 = .ok (5 + 2) ∧ w.element 2 = .ok (0 + 1) := ⟨_, rfl, rfl, rfl⟩

end Caribou
