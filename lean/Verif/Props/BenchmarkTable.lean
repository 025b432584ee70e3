import Verif.Spec.BenchmarkTable
import Mathlib.Algebra.Order.Field.Rat
import Mathlib.Tactic.Linarith
import Mathlib.Tactic.FieldSimp
import Mathlib.Tactic.NormNum

/-!
# C157: the table of the benchmark of the stored tensors
-/

set_option autoImplicit false
set_option linter.all false

namespace Caribou

open Spec

/-- The lists in the step `i`, which began with the lists `t0`, after the values `w` of the step. -/
def TableRep (i : ℕ) (t0 : TableRows) (w : String → List ℚ) (t : TableRows) : Prop :=
  ∀ n, t n = (if w n = [] then t0 n else t0 n ++ [w n]) ∧ (w n ≠ [] → (t0 n).length = i)

theorem tableAdd_ok {i : ℕ} {t0 : TableRows} {w : String → List ℚ} {t : TableRows} (h : TableRep i t0 w t) (n : String) (v : ℚ) (hl : (t0 n).length = i) :
    ∃ t', tableAdd i n v t = some t' ∧ TableRep i t0 (Function.update w n (w n ++ [v])) t' := by
  have key : tableAdd i n v t = some (Function.update t n (t0 n ++ [w n ++ [v]])) := by
    unfold tableAdd
    rw [(h n).1]
    by_cases hw : w n = []
    · simp only [hw, if_true, hl, List.length_append, List.length_cons, List.length_nil]
      rw [if_pos (by omega)]
      congr 2
      subst hl
      simp [List.modify_eq_take_cons_drop]
    · simp only [hw, if_false, List.length_append, List.length_cons, List.length_nil, hl]
      have hne : ¬i = i + (0 + 1) := by omega
      simp only [hne, if_false]
      rw [if_pos (by simp [hl])]
      congr 2
      subst hl
      simp [List.modify_eq_take_cons_drop]
  refine ⟨_, key, fun m => ?_⟩
  by_cases hm : m = n
  · subst hm; simp [hl]
  · rw [Function.update_of_ne hm, Function.update_of_ne hm]; exact h m

theorem tableAdd_fail {i : ℕ} {t0 : TableRows} {w : String → List ℚ} {t : TableRows} (h : TableRep i t0 w t) (n : String) (v : ℚ) (hl : (t0 n).length < i) : tableAdd i n v t = none := by
  have hw : w n = [] := by by_contra hc; have := (h n).2 hc; omega
  unfold tableAdd
  rw [(h n).1, if_pos hw]
  have hne : ¬i = (t0 n).length := by omega
  simp only [hne, if_false]
  rw [if_neg (by omega)]

theorem tableMethod_ok {i : ℕ} {t0 : TableRows} (n : String) (hl : (t0 n).length = i) : ∀ (l : List ℚ) (w : String → List ℚ) (t : TableRows), TableRep i t0 w t →
    ∃ t', tableMethod i n l t = some t' ∧ TableRep i t0 (Function.update w n (w n ++ l)) t' := by
  intro l
  induction l with
  | nil => intro w t h; exact ⟨t, rfl, by simpa using h⟩
  | cons v l ih =>
    intro w t h
    obtain ⟨t1, h1, h2⟩ := tableAdd_ok h n v hl
    obtain ⟨t2, h3, h4⟩ := ih _ _ h2
    refine ⟨t2, by rw [tableMethod, h1]; exact h3, ?_⟩
    simpa using h4

theorem valuesOf_cons (n : String) (m : String × List ℚ) (s : List (String × List ℚ)) : valuesOf n (m :: s) = (if m.1 = n then m.2 else []) ++ valuesOf n s := by
  simp [valuesOf]

theorem tableStep_ok {i : ℕ} {t0 : TableRows} : ∀ (s : List (String × List ℚ)) (w : String → List ℚ) (t : TableRows), TableRep i t0 w t → (∀ n, valuesOf n s ≠ [] → (t0 n).length = i) →
    ∃ t', tableStep i s t = some t' ∧ TableRep i t0 (fun n => w n ++ valuesOf n s) t' := by
  intro s
  induction s with
  | nil => intro w t h _; exact ⟨t, rfl, by simpa [valuesOf] using h⟩
  | cons m s ih =>
    intro w t h hv
    have hv' : ∀ n, valuesOf n s ≠ [] → (t0 n).length = i := fun n hn => hv n (by rw [valuesOf_cons]; simp [hn])
    by_cases hm : m.2 = []
    · obtain ⟨t1, h1, h2⟩ := ih w t h hv'
      refine ⟨t1, by rw [tableStep, hm]; exact h1, ?_⟩
      have : (fun n => w n ++ valuesOf n (m :: s)) = fun n => w n ++ valuesOf n s := by
        funext n; rw [valuesOf_cons, hm]; simp
      rw [this]; exact h2
    · have hl := hv m.1 (by rw [valuesOf_cons]; simp [hm])
      obtain ⟨t1, h1, h2⟩ := tableMethod_ok m.1 hl m.2 w t h
      obtain ⟨t2, h3, h4⟩ := ih _ t1 h2 hv'
      refine ⟨t2, by rw [tableStep, h1]; exact h3, ?_⟩
      have : (fun n => w n ++ valuesOf n (m :: s)) = fun n => Function.update w m.1 (w m.1 ++ m.2) n ++ valuesOf n s := by
        funext n
        rw [valuesOf_cons]
        by_cases hn : m.1 = n
        · subst hn; simp
        · rw [Function.update_of_ne (Ne.symm hn), if_neg hn]; simp
      rw [this]; exact h4

theorem tableStep_fail {i : ℕ} {t0 : TableRows} (hle : ∀ n, (t0 n).length ≤ i) : ∀ (s : List (String × List ℚ)) (w : String → List ℚ) (t : TableRows), TableRep i t0 w t →
    (∃ n, valuesOf n s ≠ [] ∧ (t0 n).length < i) → tableStep i s t = none := by
  intro s
  induction s with
  | nil => rintro w t h ⟨n, hn, -⟩; exact absurd rfl hn
  | cons m s ih =>
    rintro w t h ⟨n, hn, hlt⟩
    by_cases hm : m.2 = []
    · rw [tableStep, hm]
      refine ih w t h ⟨n, ?_, hlt⟩
      rw [valuesOf_cons, hm] at hn
      simpa using hn
    · rcases Nat.lt_or_ge (t0 m.1).length i with hml | hml
      · rw [tableStep]
        cases hmm : m.2 with
        | nil => exact absurd hmm hm
        | cons v l => rw [tableMethod, tableAdd_fail h m.1 v hml]; rfl
      · have hl : (t0 m.1).length = i := le_antisymm (hle _) hml
        obtain ⟨t1, h1, h2⟩ := tableMethod_ok m.1 hl m.2 w t h
        rw [tableStep, h1]
        refine ih _ t1 h2 ⟨n, ?_, hlt⟩
        have hne : m.1 ≠ n := by rintro rfl; omega
        rw [valuesOf_cons, if_neg hne] at hn
        simpa using hn

/-- The lists after the steps `p`. -/
def TableInv (p : List (List (String × List ℚ))) (t : TableRows) : Prop :=
  ∀ n, (t n).length ≤ p.length ∧ (t n).flatten = p.flatMap (valuesOf n) ∧ ((t n).length = p.length ↔ ∀ b ∈ p, valuesOf n b ≠ [])

theorem tableSteps_spec : ∀ (d p : List (List (String × List ℚ))) (t : TableRows), TableInv p t →
    ((∃ t', tableSteps p.length d t = some t' ∧ ∀ n, (t' n).flatten = (p ++ d).flatMap (valuesOf n)) ∧ ∀ q a r n, d = q ++ a :: r → valuesOf n a ≠ [] → ∀ b ∈ p ++ q, valuesOf n b ≠ []) ∨
    (tableSteps p.length d t = none ∧ ¬∀ q a r n, d = q ++ a :: r → valuesOf n a ≠ [] → ∀ b ∈ p ++ q, valuesOf n b ≠ []) := by
  intro d
  induction d with
  | nil =>
    intro p t h
    left
    exact ⟨⟨t, rfl, fun n => by rw [List.append_nil]; exact (h n).2.1⟩, fun q a r n hq => by simp at hq⟩
  | cons s d ih =>
    intro p t h
    have hrep : TableRep p.length t (fun _ => []) t := fun n => ⟨by simp, by simp⟩
    by_cases hv : ∀ n, valuesOf n s ≠ [] → (t n).length = p.length
    · obtain ⟨t1, h1, h2⟩ := tableStep_ok s _ t hrep hv
      have hinv : TableInv (p ++ [s]) t1 := by
        intro n
        obtain ⟨e1, e2⟩ := h2 n
        obtain ⟨g1, g2, g3⟩ := h n
        simp only [List.nil_append] at e1 e2
        by_cases hn : valuesOf n s = []
        · rw [e1, if_pos hn]
          refine ⟨by simp; omega, by simp [g2, hn], ⟨fun hc => ?_, fun hc => absurd hn (hc s (by simp))⟩⟩
          simp at hc; omega
        · rw [e1, if_neg hn]
          have hlen := hv n hn
          refine ⟨by simp; omega, by simp [g2], ⟨fun _ b hb => ?_, fun _ => by simp [hlen]⟩⟩
          rcases List.mem_append.1 hb with hb | hb
          · exact g3.1 hlen b hb
          · rw [List.mem_singleton.1 hb]; exact hn
      have hlen : (p ++ [s]).length = p.length + 1 := by simp
      have happ : ∀ e : List (List (String × List ℚ)), p ++ [s] ++ e = p ++ s :: e := by simp
      have := ih (p ++ [s]) t1 hinv
      rw [hlen] at this
      have heq : tableSteps p.length (s :: d) t = tableSteps (p.length + 1) d t1 := by rw [tableSteps, h1]; rfl
      rw [heq]
      have hG : (∀ q a r n, d = q ++ a :: r → valuesOf n a ≠ [] → ∀ b ∈ p ++ [s] ++ q, valuesOf n b ≠ []) ↔
          ∀ q a r n, s :: d = q ++ a :: r → valuesOf n a ≠ [] → ∀ b ∈ p ++ q, valuesOf n b ≠ [] := by
        constructor
        · intro hg q a r n hq ha b hb
          cases q with
          | nil =>
            simp only [List.nil_append, List.cons.injEq] at hq
            rw [List.append_nil] at hb
            have hs : valuesOf n s ≠ [] := by rw [hq.1]; exact ha
            exact ((h n).2.2.1 (hv n hs)) b hb
          | cons c q =>
            simp only [List.cons_append, List.cons.injEq] at hq
            refine hg q a r n hq.2 ha b ?_
            rw [happ, hq.1]; exact hb
        · intro hg q a r n hq ha b hb
          refine hg (s :: q) a r n (by rw [hq]; rfl) ha b ?_
          rw [← happ]; exact hb
      rcases this with ⟨⟨t', k1, k2⟩, k3⟩ | ⟨k1, k2⟩
      · left
        exact ⟨⟨t', k1, fun n => by rw [k2, happ]⟩, hG.1 k3⟩
      · right
        exact ⟨k1, fun hc => k2 (hG.2 hc)⟩
    · right
      push Not at hv
      obtain ⟨n, hn, hl⟩ := hv
      have hlt : (t n).length < p.length := lt_of_le_of_ne (h n).1 hl
      refine ⟨by rw [tableSteps, tableStep_fail (fun m => (h m).1) s _ t hrep ⟨n, hn, hlt⟩]; rfl, fun hc => hl ((h n).2.2.2 fun b hb => ?_)⟩
      exact hc [] s d n rfl hn b (by simpa using hb)

/-- **C157**, the lists: the loop over the steps raises exactly if a step without values of some method comes before one with values of it; otherwise the lists of a method are all its values, in order. -/
theorem C157_lists (d : List (List (String × List ℚ))) :
    ((tableSteps 0 d fun _ => []) ≠ none ↔ NoGap d) ∧ ∀ t, (tableSteps 0 d fun _ => []) = some t → ∀ n, (t n).flatten = d.flatMap (valuesOf n) := by
  have := tableSteps_spec d [] (fun _ => []) (fun n => ⟨by simp, by simp, by simp⟩)
  simp only [List.length_nil, List.nil_append] at this
  rcases this with ⟨⟨t', h1, h2⟩, h3⟩ | ⟨h1, h2⟩
  · refine ⟨⟨fun _ => h3, fun _ => by rw [h1]; simp⟩, fun t ht => ?_⟩
    rw [h1] at ht
    cases ht
    exact h2
  · refine ⟨⟨fun h => absurd h1 h, fun h => absurd h h2⟩, fun t ht => ?_⟩
    rw [h1] at ht; cases ht

theorem mapM_some {α β : Type*} (f : α → Option β) (g : α → β) : ∀ l : List α, (∀ x ∈ l, f x = some (g x)) → l.mapM f = some (l.map g) := by
  intro l
  induction l with
  | nil => intro _; simp
  | cons a l ih =>
    intro h
    rw [List.mapM_cons, h a (by simp), ih fun x hx => h x (by simp [hx])]
    rfl

/-- The durations in a record, as they are shown. -/
def totals : SolveRecord → List ℚ
  | .absent => []
  | .rows l => l.map fun r => shown r.total

theorem extract_complete {r : SolveRecord} (h : Complete r) : extractRows r = some (totals r) ∧ totals r ≠ [] ∧ ∀ v ∈ totals r, 0 ≤ v := by
  obtain ⟨l, rfl, hl, hx⟩ := h
  match l, hl, hx with
  | a :: b :: l, _, hx =>
    refine ⟨?_, by simp [totals], ?_⟩
    · rw [extractRows, List.filter_eq_self.2 fun x hm => (hx x hm).1]
      rw [totals]
      refine mapM_some _ _ _ fun x hm => ?_
      obtain ⟨-, h2, h3⟩ := hx x hm
      rw [if_pos h2, tinyToZero, shown]
      by_cases h4 : x.total < 1 / 10000
      · rw [if_pos h4, if_pos ⟨by linarith, h4⟩]
      · rw [if_neg h4, if_neg fun h5 => h4 h5.2]
    · intro v hv
      rw [totals, List.mem_map] at hv
      obtain ⟨x, hm, rfl⟩ := hv
      have := (hx x hm).2.2
      unfold shown
      split
      · exact le_refl _
      · exact this

/-- **C157 (partial).** If the same methods are recorded in all time steps, each with at least two complete Newton iterations, then the table is printed, and the mean of a method is
the mean of the durations of all its iterations in all time steps, where very short durations count as zero.  Missing: time steps with a single iteration, or none, see `C157_violated`. -/
theorem C157_partial (steps : List (List (String × SolveRecord))) (names : List String) (hnames : ∀ s ∈ steps, s.map Prod.fst = names) (hc : ∀ s ∈ steps, ∀ m ∈ s, Complete m.2) :
    ∃ f, benchmarkMeans steps = some f ∧ ∀ n, steps.flatMap (measuredIn n) ≠ [] → ∃ x, f n = some x ∧ IsMean ((steps.flatMap (measuredIn n)).map shown) x := by
  have h1 : (steps.mapM fun (s : List (String × SolveRecord)) => s.mapM fun m => (extractRows m.2).map fun l => (m.1, l)) = some (steps.map fun s => s.map fun m => (m.1, totals m.2)) := by
    refine mapM_some _ _ _ fun s hs => mapM_some _ _ _ fun m hm => ?_
    rw [(extract_complete (hc s hs m hm)).1]; rfl
  have hval : ∀ (n : String) (s : List (String × SolveRecord)), valuesOf n (s.map fun m => (m.1, totals m.2)) = (measuredIn n s).map shown := by
    intro n s
    induction s with
    | nil => rfl
    | cons m s ih =>
      rw [List.map_cons, valuesOf_cons, ih]
      simp only [measuredIn, List.flatMap_cons, List.map_append]
      congr 1
      cases m.2 with
      | absent => simp [totals]
      | rows l => by_cases hn : m.1 = n <;> simp [totals, hn]
  have hmem : ∀ (n : String) (s : List (String × SolveRecord)), s ∈ steps → (measuredIn n s ≠ [] ↔ n ∈ names) := by
    intro n s hs
    rw [← hnames s hs]
    have hcs := hc s hs
    have hnil : measuredIn n s ≠ [] ↔ (measuredIn n s).map shown ≠ [] := by simp
    rw [hnil, ← hval]
    clear hs hnil
    induction s with
    | nil => simp [valuesOf]
    | cons m s ih =>
      have ih' : _ ↔ _ := ih (fun x hx => hcs x (by simp [hx]))
      have hne := (extract_complete (hcs m (by simp))).2.1
      rw [List.map_cons, valuesOf_cons, List.map_cons, List.mem_cons, ← ih']
      by_cases hn : m.1 = n
      · simp [hn, hne]
      · simp [hn, Ne.symm hn]
  obtain ⟨g1, g2⟩ := C157_lists (steps.map fun s => s.map fun m => (m.1, totals m.2))
  have hgap : NoGap (steps.map fun s => s.map fun m => (m.1, totals m.2)) := by
    intro q a r n hq ha b hb
    have ha' : a ∈ steps.map fun s => s.map fun m => (m.1, totals m.2) := by rw [hq]; simp
    have hb' : b ∈ steps.map fun s => s.map fun m => (m.1, totals m.2) := by rw [hq]; simp [hb]
    obtain ⟨sa, hsa, rfl⟩ := List.mem_map.1 ha'
    obtain ⟨sb, hsb, rfl⟩ := List.mem_map.1 hb'
    rw [hval] at ha ⊢
    have e := (hmem n sb hsb).2 ((hmem n sa hsa).1 (by simpa using ha))
    simpa using e
  obtain ⟨t, ht⟩ := Option.ne_none_iff_exists'.1 (g1.2 hgap)
  refine ⟨fun n => printedMean (t n), ?_, fun n hn => ?_⟩
  · unfold benchmarkMeans
    rw [h1]
    simp only [Option.bind_some]
    rw [ht]; rfl
  · have hflat : (t n).flatten = (steps.flatMap (measuredIn n)).map shown := by
      rw [g2 t ht n, List.flatMap_map, List.map_flatMap]
      congr 1
      funext s
      exact hval n s
    have hn' : (steps.flatMap (measuredIn n)).map shown ≠ [] := fun h0 => hn (List.map_eq_nil_iff.1 h0)
    have hpos : ∀ v ∈ (steps.flatMap (measuredIn n)).map shown, 0 ≤ v := by
      intro v hv
      rw [List.map_flatMap] at hv
      obtain ⟨s, hs, hv⟩ := List.mem_flatMap.1 hv
      rw [← hval, valuesOf, List.mem_flatMap] at hv
      obtain ⟨m, hm, hv⟩ := hv
      obtain ⟨m0, hm0, rfl⟩ := List.mem_map.1 hm
      simp only at hv
      split at hv
      · exact (extract_complete (hc s hs m0 hm0)).2.2 v hv
      · simp at hv
    show ∃ x, printedMean (t n) = some x ∧ _
    unfold printedMean
    rw [hflat, List.filter_eq_self.2 fun v hv => decide_eq_true (hpos v hv)]
    simp only
    rw [if_neg hn']
    refine ⟨_, rfl, hn', ?_⟩
    have : (((steps.flatMap (measuredIn n)).map shown).length : ℚ) ≠ 0 := by
      rw [Nat.cast_ne_zero]; exact fun h0 => hn' (List.length_eq_zero_iff.1 h0)
    field_simp

/-- Violation of C157: a time step with a single Newton iteration is left out of the mean, here 1 instead of 5/3; if a time step with several iterations follows, the script ends with an exception; so does it
if a time step needs no iteration. -/
theorem C157_violated :
    ((benchmarkMeans [[("StoreF", .rows [⟨true, true, 1⟩, ⟨true, true, 1⟩])], [("StoreF", .rows [⟨true, true, 3⟩])]]).bind fun f => f "StoreF") = some 1 ∧
    (benchmarkMeans [[("StoreF", .rows [⟨true, true, 1⟩, ⟨true, true, 1⟩])], [("StoreF", .rows [⟨true, true, 3⟩])], [("StoreF", .rows [⟨true, true, 1⟩, ⟨true, true, 1⟩])]]).isNone = true ∧
    (benchmarkMeans [[("StoreF", .rows [⟨true, true, 1⟩, ⟨true, true, 1⟩])], [("StoreF", .rows [])]]).isNone = true := by
  decide +kernel

/-- Two methods in two time steps, with different numbers of iterations. -/
example : ∃ x, IsMean [1, 2, 3, 4, 5] x ∧ ((benchmarkMeans [[("RecomputeF", .rows [⟨true, true, 1⟩, ⟨true, true, 2⟩]), ("StoreF", .rows [⟨true, true, 7⟩, ⟨true, true, 7⟩])],
    [("RecomputeF", .rows [⟨true, true, 3⟩, ⟨true, true, 4⟩, ⟨true, true, 5⟩]), ("StoreF", .rows [⟨true, true, 7⟩, ⟨true, true, 8⟩])]]).bind fun f => f "RecomputeF") = some x := by
  refine ⟨3, ⟨by simp, by norm_num⟩, by decide +kernel⟩

/-- A record which is complete. -/
example : Complete (.rows [⟨true, true, 1⟩, ⟨true, true, 2⟩]) := ⟨_, rfl, by simp, by simp⟩

end Caribou
