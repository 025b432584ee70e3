import Verif.Spec.Newton

set_option autoImplicit false
set_option linter.all false

namespace Caribou

open Spec

variable {σ V K : Type*} [Field K] [LinearOrder K]

theorem ltNan_iff (a b : Option K) : ltNan a b = true ↔ ∃ x y, a = some x ∧ b = some y ∧ x < y := by
  cases a <;> cases b <;> simp [ltNan]

theorem ltNan_below (a : Option K) (b : K) : ltNan a (some b) = true ↔ Below a b := by
  cases a <;> simp [ltNan, Below]

theorem ltNan_ratio (a b : Option K) (t : K) : ltNan a (mulNan (t * t) b) = true ↔ RatioBelow a b t := by
  cases a <;> cases b <;> simp [ltNan, RatioBelow, mulNan, sq]

/-- The loop state `s` stands at iterate `i`. -/
structure At (env : NewtonEnv σ V K) (i : Iterate σ V) (s : NewtonLoop σ V K) : Prop where
  world : s.world = (env.rhs i.world).1
  F : s.F = i.force
  U : s.U = i.total

/-- The status of the check of one iteration. -/
theorem newtonCheck_spec (p : NewtonParams K) (env : NewtonEnv σ V K) (s : NewtonLoop σ V K) (dx : V) (j : Iterate σ V)
    (hi : j.increment = dx) (ht : j.total = env.add s.U dx) (hR : s.R2 = env.norm2 j.force) (hc : s.converged = false)
    (hd : s.diverged = false) :
    (newtonCheck p env s dx).world = s.world ∧ (newtonCheck p env s dx).F = s.F ∧
    (newtonCheck p env s dx).U = j.total ∧ (newtonCheck p env s dx).residuals = s.residuals ++ [env.norm2 j.force] ∧
    (((newtonCheck p env s dx).diverged = true ∧ (newtonCheck p env s dx).converged = false ∧ GivesUp p env j) ∨
     ((newtonCheck p env s dx).diverged = false ∧ (newtonCheck p env s dx).converged = true ∧ ¬GivesUp p env j ∧
        Criterion p env (s.residuals ++ [env.norm2 j.force]).head?.join j) ∨
     ((newtonCheck p env s dx).diverged = false ∧ (newtonCheck p env s dx).converged = false ∧ ¬GivesUp p env j ∧
        ¬Criterion p env (s.residuals ++ [env.norm2 j.force]).head?.join j)) := by
  have hg : (s.R2.isNone || (env.norm2 dx).isNone || ltNan (env.norm2 (env.add s.U dx)) (some p.eps)) = true ↔
      GivesUp p env j := by
    simp only [Bool.or_eq_true, Option.isNone_iff_eq_none, ltNan_below, GivesUp, hR, hi, ht, or_assoc]
  have hcr : Criterion p env (s.residuals ++ [env.norm2 j.force]).head?.join j ↔
      ((0 < p.correction && ltNan (env.norm2 dx) (mulNan (p.correction * p.correction) (env.norm2 (env.add s.U dx)))) = true ∨
       (0 < p.residual && ltNan s.R2 (mulNan (p.residual * p.residual) (s.residuals ++ [s.R2]).head?.join)) = true ∨
       (0 < p.absolute && ltNan s.R2 (some (p.absolute * p.absolute))) = true) := by
    simp only [Criterion, Bool.and_eq_true, decide_eq_true_eq, ltNan_below, ltNan_ratio, hR, hi, ht, sq]
  rw [hcr, ← hg]
  unfold newtonCheck
  simp only
  split_ifs with h1 h2 h3 h4
  · exact ⟨rfl, rfl, ht.symm, by rw [← hR], Or.inl ⟨rfl, hc, h1⟩⟩
  · exact ⟨rfl, rfl, ht.symm, by rw [← hR], Or.inr (Or.inl ⟨hd, rfl, h1, Or.inl h2⟩)⟩
  · exact ⟨rfl, rfl, ht.symm, by rw [← hR], Or.inr (Or.inl ⟨hd, rfl, h1, Or.inr (Or.inl h3)⟩)⟩
  · exact ⟨rfl, rfl, ht.symm, by rw [← hR], Or.inr (Or.inl ⟨hd, rfl, h1, Or.inr (Or.inr h4)⟩)⟩
  · exact ⟨rfl, rfl, ht.symm, by rw [← hR], Or.inr (Or.inr ⟨hd, hc, h1, by tauto⟩)⟩

/-- One iteration: the linear solver fails, or the loop moves to the next iterate. -/
theorem newtonIteration_spec (p : NewtonParams K) (hp : 1 < p.iterations) (env : NewtonEnv σ V K) (s : NewtonLoop σ V K)
    (i : Iterate σ V) (hs : At env i s) (hc : s.converged = false) (hd : s.diverged = false) :
    ((newtonIteration p env s).diverged = true ∧ (newtonIteration p env s).converged = false ∧ Fails env i ∧
      (newtonIteration p env s).residuals = s.residuals) ∨
    ∃ j, Advance env i j ∧ At env j (newtonIteration p env s) ∧
      (newtonIteration p env s).residuals = s.residuals ++ [env.norm2 j.force] ∧
      (((newtonIteration p env s).diverged = true ∧ (newtonIteration p env s).converged = false ∧ GivesUp p env j) ∨
       ((newtonIteration p env s).diverged = false ∧ (newtonIteration p env s).converged = true ∧ ¬GivesUp p env j ∧
          Criterion p env (s.residuals ++ [env.norm2 j.force]).head?.join j) ∨
       ((newtonIteration p env s).diverged = false ∧ (newtonIteration p env s).converged = false ∧ ¬GivesUp p env j ∧
          ¬Criterion p env (s.residuals ++ [env.norm2 j.force]).head?.join j)) := by
  unfold newtonIteration
  simp only
  have h1 : (newtonAssemble p env s).F = s.F ∧ (newtonAssemble p env s).U = s.U ∧
      (newtonAssemble p env s).residuals = s.residuals ∧ (newtonAssemble p env s).converged = s.converged := by
    unfold newtonAssemble; simp only; split_ifs <;> exact ⟨rfl, rfl, rfl, rfl⟩
  have h2 : ((newtonAssemble p env s).diverged = true ∧ (env.analyze (env.matrix s.world)).2 = false) ∨
      ((newtonAssemble p env s).diverged = false ∧ ((newtonAssemble p env s).world = env.matrix s.world ∨
        env.analyze (env.matrix s.world) = ((newtonAssemble p env s).world, true))) := by
    unfold newtonAssemble
    simp only
    by_cases h : mustAnalyze p s.analyzed = true
    · rw [if_pos h]
      cases ha : (env.analyze (env.matrix s.world)).2
      · exact Or.inl ⟨by simp, rfl⟩
      · exact Or.inr ⟨by simp, Or.inr (Prod.ext rfl ha)⟩
    · rw [if_neg h]
      exact Or.inr ⟨hd, Or.inl rfl⟩
  generalize newtonAssemble p env s = s1 at h1 h2 ⊢
  obtain ⟨hF, hU, hres, hconv⟩ := h1
  rw [hs.world] at h2
  rcases h2 with ⟨hdv, ha⟩ | ⟨hdv, hw⟩
  · left
    rw [if_pos hdv]
    exact ⟨hdv, by rw [hconv, hc], Or.inl ha, hres⟩
  · rw [if_neg (by rw [hdv]; exact Bool.false_ne_true)]
    unfold newtonCorrect
    by_cases hf : (env.factorize s1.world).2 = true
    swap
    · left
      rw [if_neg hf]
      rw [Bool.not_eq_true] at hf
      exact ⟨rfl, hconv.trans hc, Or.inr ⟨_, hw, Or.inl hf⟩, hres⟩
    simp only [hf, if_true]
    rcases hsv : env.solve (env.factorize s1.world).1 s1.F with ⟨w, _ | dx⟩
    · left
      refine ⟨rfl, hconv.trans hc, Or.inr ⟨_, hw, Or.inr ?_⟩, hres⟩
      rw [← hs.F, ← hF, hsv]
    · right
      simp only [hp, if_true]
      have := newtonCheck_spec p env
        { s1 with world := (env.rhs (env.propagate w dx)).1, F := (env.rhs (env.propagate w dx)).2
                  R2 := env.norm2 (env.rhs (env.propagate w dx)).2
                  calls := s1.calls ++ [NewtonCall.factorize true, NewtonCall.solve true] }
        dx ⟨env.propagate w dx, (env.rhs (env.propagate w dx)).2, env.add s1.U dx, dx⟩ rfl rfl rfl
        (hconv.trans hc) hdv
      obtain ⟨c1, c2, c3, c4, c5⟩ := this
      refine ⟨⟨env.propagate w dx, (env.rhs (env.propagate w dx)).2, env.add s1.U dx, dx⟩,
        ⟨⟨w, ⟨s1.world, _, hw, Prod.ext rfl hf, ?_⟩, rfl⟩, rfl, ?_⟩, ⟨c1, c2, c3⟩, ?_, ?_⟩
      · rw [← hs.F, ← hF, hsv]
      · rw [← hs.U, ← hU]
      · rw [← hres]; exact c4
      · rw [← hres]; exact c5

/-- The last element of a path starting at `i`. -/
def lastOf (i : Iterate σ V) (path : List (Iterate σ V)) : Iterate σ V := path.getLast?.getD i

theorem lastOf_cons (i j : Iterate σ V) (path : List (Iterate σ V)) : lastOf i (j :: path) = lastOf j path := by
  cases path <;> simp [lastOf, List.getLast?_cons]

/-- The reference residual of the code: the first recorded one. -/
theorem head_append (r : List (Option K)) (j : Option K) (l : List (Option K)) :
    ((r ++ [j]) ++ l).head?.join = (r ++ [j]).head?.join := by
  cases r <;> simp

theorem newtonLoop_spec (p : NewtonParams K) (hp : 1 < p.iterations) (env : NewtonEnv σ V K) (fuel : ℕ) :
    ∀ (s : NewtonLoop σ V K) (i : Iterate σ V), At env i s → s.converged = false → s.diverged = false →
    ∃ path : List (Iterate σ V), List.IsChain (Advance env) (i :: path) ∧ path.length ≤ fuel ∧
      (newtonLoop p env fuel s).residuals = s.residuals ++ path.map (fun j => env.norm2 j.force) ∧
      (∀ j ∈ path.dropLast, ¬GivesUp p env j ∧ ¬Criterion p env (newtonLoop p env fuel s).residuals.head?.join j) ∧
      ((newtonLoop p env fuel s).converged = true ∧ (newtonLoop p env fuel s).world = (env.rhs (lastOf i path).world).1 ∧
          path ≠ [] ∧ ¬GivesUp p env (lastOf i path) ∧
          Criterion p env (newtonLoop p env fuel s).residuals.head?.join (lastOf i path) ∨
       (newtonLoop p env fuel s).converged = false ∧
          (path ≠ [] ∧ GivesUp p env (lastOf i path) ∨
            (Fails env (lastOf i path) ∨ path.length = fuel) ∧
              (path ≠ [] → ¬Criterion p env (newtonLoop p env fuel s).residuals.head?.join (lastOf i path)))) := by
  induction fuel with
  | zero =>
    intro s i hs hc hd
    exact ⟨[], List.isChain_singleton _, le_refl _, by simp [newtonLoop], by simp,
      Or.inr ⟨hc, Or.inr ⟨Or.inr rfl, by simp⟩⟩⟩
  | succ fuel ih =>
    intro s i hs hc hd
    have hl : newtonLoop p env (fuel + 1) s =
        if (newtonIteration p env s).diverged then newtonIteration p env s else newtonLoop p env fuel (newtonIteration p env s) := by
      rw [newtonLoop, if_neg (by rw [hc]; exact Bool.false_ne_true)]
    rcases newtonIteration_spec p hp env s i hs hc hd with ⟨h1, h2, h3, h4⟩ | ⟨j, hadv, hat, hres, h⟩
    · rw [hl, if_pos h1]
      exact ⟨[], List.isChain_singleton _, Nat.zero_le _, by simpa using h4, by simp, Or.inr ⟨h2, Or.inr ⟨Or.inl h3, by simp⟩⟩⟩
    · rcases h with ⟨h1, h2, h3⟩ | ⟨h1, h2, h3, h4⟩ | ⟨h1, h2, h3, h4⟩
      · rw [hl, if_pos h1]
        refine ⟨[j], by simpa using hadv, by simp, by simpa using hres, by simp,
          Or.inr ⟨h2, Or.inl ⟨by simp, by simpa [lastOf] using h3⟩⟩⟩
      · rw [hl, if_neg (by rw [h1]; exact Bool.false_ne_true)]
        have hstop : newtonLoop p env fuel (newtonIteration p env s) = newtonIteration p env s := by
          cases fuel
          · rfl
          · rw [newtonLoop, if_pos h2]
        rw [hstop]
        refine ⟨[j], by simpa using hadv, by simp, by simpa using hres, by simp,
          Or.inl ⟨h2, by simpa [lastOf] using hat.world, by simp, by simpa [lastOf] using h3, ?_⟩⟩
        rw [hres]; simpa [lastOf] using h4
      · rw [hl, if_neg (by rw [h1]; exact Bool.false_ne_true)]
        obtain ⟨path, p1, p2, p3, p4, p5⟩ := ih (newtonIteration p env s) j hat h2 h1
        have hfirst : (newtonLoop p env fuel (newtonIteration p env s)).residuals.head?.join =
            (s.residuals ++ [env.norm2 j.force]).head?.join := by
          rw [p3, hres, head_append]
        refine ⟨j :: path, List.IsChain.cons_cons hadv p1, by simpa using p2, ?_, ?_, ?_⟩
        · rw [p3, hres]; simp
        · intro k hk
          rcases path with _ | ⟨k', path⟩
          · simp at hk
          · rw [List.dropLast_cons₂, List.mem_cons] at hk
            rcases hk with rfl | hk
            · exact ⟨h3, by rw [hfirst]; exact h4⟩
            · exact p4 k hk
        · rw [lastOf_cons]
          rcases p5 with ⟨q1, q2, q3, q4, q5⟩ | ⟨q1, q2⟩
          · exact Or.inl ⟨q1, q2, by simp, q4, q5⟩
          · refine Or.inr ⟨q1, ?_⟩
            rcases q2 with ⟨q2, q3⟩ | ⟨q2, q3⟩
            · exact Or.inl ⟨by simp, q3⟩
            · refine Or.inr ⟨q2.imp_right fun h => by simpa using h, fun _ => ?_⟩
              rcases path with _ | ⟨k', path⟩
              · rw [hfirst]; exact h4
              · exact q3 (by simp)

/-! ### Calls -/

/-- A call made after the matrix is set up. -/
def IsLate : NewtonCall → Prop
  | .factorize _ => True
  | .solve _ => True
  | _ => False

theorem newtonCheck_calls (p : NewtonParams K) (env : NewtonEnv σ V K) (s : NewtonLoop σ V K) (dx : V) :
    (newtonCheck p env s dx).calls = s.calls ∧ (newtonCheck p env s dx).analyzed = s.analyzed := by
  unfold newtonCheck; simp only; split_ifs <;> exact ⟨rfl, rfl⟩

theorem newtonCorrect_calls (p : NewtonParams K) (env : NewtonEnv σ V K) (s : NewtonLoop σ V K) :
    (newtonCorrect p env s).analyzed = s.analyzed ∧
    ∃ rest, (∀ c ∈ rest, IsLate c) ∧ (newtonCorrect p env s).calls = s.calls ++ rest := by
  unfold newtonCorrect
  simp only
  split_ifs with hf hp
  · rcases env.solve (env.factorize s.world).1 s.F with ⟨w, _ | dx⟩
    · exact ⟨rfl, _, by simp [IsLate], rfl⟩
    · simp only [newtonCheck_calls]
      exact ⟨trivial, _, by simp [IsLate], rfl⟩
  · rcases env.solve (env.factorize s.world).1 s.F with ⟨w, _ | dx⟩
    · exact ⟨rfl, _, by simp [IsLate], rfl⟩
    · simp only [newtonCheck_calls]
      exact ⟨trivial, _, by simp [IsLate], rfl⟩
  · exact ⟨rfl, _, by simp [IsLate], rfl⟩

/-- The calls of one iteration. -/
theorem newtonIteration_calls (p : NewtonParams K) (env : NewtonEnv σ V K) (s : NewtonLoop σ V K) (hd : s.diverged = false) :
    (mustAnalyze p s.analyzed = false ∧ (newtonIteration p env s).analyzed = s.analyzed ∧
      ∃ rest, (∀ c ∈ rest, IsLate c) ∧ (newtonIteration p env s).calls = s.calls ++ NewtonCall.matrix :: rest) ∨
    (mustAnalyze p s.analyzed = true ∧ (newtonIteration p env s).analyzed = s.analyzed ∧ (newtonIteration p env s).diverged = true ∧
      (newtonIteration p env s).calls = s.calls ++ [NewtonCall.matrix, NewtonCall.analyze false]) ∨
    (mustAnalyze p s.analyzed = true ∧ (newtonIteration p env s).analyzed = true ∧
      ∃ rest, (∀ c ∈ rest, IsLate c) ∧
        (newtonIteration p env s).calls = s.calls ++ NewtonCall.matrix :: NewtonCall.analyze true :: rest) := by
  have hA : newtonAssemble p env s = if mustAnalyze p s.analyzed then
      { s with world := (env.analyze (env.matrix s.world)).1
               calls := s.calls ++ [NewtonCall.matrix, NewtonCall.analyze (env.analyze (env.matrix s.world)).2]
               analyzed := if (env.analyze (env.matrix s.world)).2 then true else s.analyzed
               diverged := !(env.analyze (env.matrix s.world)).2 }
      else { s with world := env.matrix s.world, calls := s.calls ++ [NewtonCall.matrix] } := rfl
  obtain ⟨i1, rest, i2, i3⟩ := newtonCorrect_calls p env (newtonAssemble p env s)
  have hS : newtonIteration p env s = if (newtonAssemble p env s).diverged then newtonAssemble p env s
    else newtonCorrect p env (newtonAssemble p env s) := rfl
  rw [hS]
  cases hm : mustAnalyze p s.analyzed
  · left
    rw [hm, if_neg Bool.false_ne_true] at hA
    have h1 : (newtonAssemble p env s).analyzed = s.analyzed := by rw [hA]
    have h2 : (newtonAssemble p env s).calls = s.calls ++ [NewtonCall.matrix] := by rw [hA]
    have h3 : (newtonAssemble p env s).diverged = false := by rw [hA]; exact hd
    rw [if_neg (by rw [h3]; exact Bool.false_ne_true)]
    exact ⟨rfl, i1.trans h1, rest, i2, by rw [i3, h2]; simp⟩
  · right
    rw [hm, if_pos rfl] at hA
    cases ha : (env.analyze (env.matrix s.world)).2
    · left
      rw [ha] at hA
      have h1 : (newtonAssemble p env s).analyzed = s.analyzed := by rw [hA]; rfl
      have h2 : (newtonAssemble p env s).calls = s.calls ++ [NewtonCall.matrix, NewtonCall.analyze false] := by rw [hA]
      have h3 : (newtonAssemble p env s).diverged = true := by rw [hA]; rfl
      rw [if_pos h3]
      exact ⟨rfl, h1, h3, h2⟩
    · right
      rw [ha] at hA
      have h1 : (newtonAssemble p env s).analyzed = true := by rw [hA]; rfl
      have h2 : (newtonAssemble p env s).calls = s.calls ++ [NewtonCall.matrix, NewtonCall.analyze true] := by rw [hA]
      have h3 : (newtonAssemble p env s).diverged = false := by rw [hA]; rfl
      rw [if_neg (by rw [h3]; exact Bool.false_ne_true)]
      exact ⟨rfl, i1.trans h1, rest, i2, by rw [i3, h2]; simp⟩

theorem late_filter {rest : List NewtonCall} (h : ∀ c ∈ rest, IsLate c) : rest.filter IsAnalysis = [] := by
  rw [List.filter_eq_nil_iff]
  intro c hc
  have := h c hc
  cases c <;> simp_all [IsLate, IsAnalysis]

theorem late_count {rest : List NewtonCall} (h : ∀ c ∈ rest, IsLate c) : rest.count .matrix = 0 := by
  rw [List.count_eq_zero]
  intro hc
  exact h _ hc

/-- Calls of the loop when no analysis is ever needed: strategy `NEVER`, or already analysed. -/
theorem loop_calls_none (p : NewtonParams K) (env : NewtonEnv σ V K) (fuel : ℕ) :
    ∀ s : NewtonLoop σ V K, s.diverged = false → mustAnalyze p s.analyzed = false →
    (newtonLoop p env fuel s).analyzed = s.analyzed ∧
    ∃ l, (newtonLoop p env fuel s).calls = s.calls ++ l ∧ (l.filter IsAnalysis) = [] ∧ (l ≠ [] → .matrix ∈ l) := by
  induction fuel with
  | zero => intro s _ _; exact ⟨rfl, [], by simp [newtonLoop], rfl, by simp⟩
  | succ fuel ih =>
    intro s hd hm
    rw [newtonLoop]
    by_cases hc : s.converged = true
    · rw [if_pos hc]; exact ⟨rfl, [], by simp, rfl, by simp⟩
    rw [if_neg hc]
    simp only
    rcases newtonIteration_calls p env s hd with ⟨-, h1, rest, h2, h3⟩ | ⟨h, -⟩ | ⟨h, -⟩
    · by_cases hd' : (newtonIteration p env s).diverged = true
      · rw [if_pos hd']
        exact ⟨h1, _, h3, by simp [List.filter_cons, IsAnalysis, late_filter h2], by simp⟩
      · rw [if_neg hd']
        obtain ⟨q1, l, q2, q3, q4⟩ := ih _ (by simpa using hd') (by rw [h1]; exact hm)
        exact ⟨q1.trans h1, NewtonCall.matrix :: (rest ++ l), by rw [q2, h3]; simp,
          by simp [List.filter_cons, IsAnalysis, late_filter h2, q3], by simp⟩
    · rw [hm] at h; exact absurd h Bool.false_ne_true
    · rw [hm] at h; exact absurd h Bool.false_ne_true

/-- Calls of the loop with the strategy `ALWAYS`. -/
theorem loop_calls_always (p : NewtonParams K) (hp : p.strategy = .always) (env : NewtonEnv σ V K) (fuel : ℕ) :
    ∀ s : NewtonLoop σ V K, s.diverged = false →
    ∃ l, (newtonLoop p env fuel s).calls = s.calls ++ l ∧ analyses l = systems l := by
  have hm : ∀ b, mustAnalyze p b = true := by intro b; simp [mustAnalyze, hp]
  induction fuel with
  | zero => intro s _; exact ⟨[], by simp [newtonLoop], rfl⟩
  | succ fuel ih =>
    intro s hd
    rw [newtonLoop]
    by_cases hc : s.converged = true
    · rw [if_pos hc]; exact ⟨[], by simp, rfl⟩
    rw [if_neg hc]
    simp only
    rcases newtonIteration_calls p env s hd with ⟨h, -⟩ | ⟨-, h1, h2, h3⟩ | ⟨-, h1, rest, h2, h3⟩
    · rw [hm] at h; exact absurd h.symm Bool.false_ne_true
    · rw [if_pos h2]
      exact ⟨_, h3, by decide⟩
    · have hone : analyses (NewtonCall.matrix :: NewtonCall.analyze true :: rest) = 1 ∧
          systems (NewtonCall.matrix :: NewtonCall.analyze true :: rest) = 1 := by
        simp [analyses, systems, List.filter_cons, IsAnalysis, late_filter h2, List.count_cons, late_count h2]
      by_cases hd' : (newtonIteration p env s).diverged = true
      · rw [if_pos hd']
        exact ⟨_, h3, hone.1.trans hone.2.symm⟩
      · rw [if_neg hd']
        obtain ⟨l, q1, q2⟩ := ih _ (by simpa using hd')
        refine ⟨(NewtonCall.matrix :: NewtonCall.analyze true :: rest) ++ l, by rw [q1, h3]; simp, ?_⟩
        have e1 : analyses ((NewtonCall.matrix :: NewtonCall.analyze true :: rest) ++ l) = 1 + analyses l := by
          rw [analyses, List.filter_append, List.length_append, ← analyses, hone.1, analyses]
        have e2 : systems ((NewtonCall.matrix :: NewtonCall.analyze true :: rest) ++ l) = 1 + systems l := by
          rw [systems, List.count_append, ← systems, hone.2, systems]
        rw [e1, e2, q2]

/-- Calls of the loop with the strategies analysing once. -/
theorem loop_calls_once (p : NewtonParams K) (hp : p.strategy = .beginningOfTimeStep ∨ p.strategy = .beginningOfSimulation)
    (env : NewtonEnv σ V K) (fuel : ℕ) (s : NewtonLoop σ V K) (hd : s.diverged = false) :
    ∃ l, (newtonLoop p env fuel s).calls = s.calls ++ l ∧
      ((l = [] ∧ (newtonLoop p env fuel s).analyzed = s.analyzed) ∨
       (s.analyzed = true ∧ (newtonLoop p env fuel s).analyzed = true ∧ .matrix ∈ l ∧ l.filter IsAnalysis = []) ∨
       (s.analyzed = false ∧ (newtonLoop p env fuel s).analyzed = false ∧ l = [.matrix, .analyze false]) ∨
       (s.analyzed = false ∧ (newtonLoop p env fuel s).analyzed = true ∧
          ∃ rest, l = .matrix :: .analyze true :: rest ∧ rest.filter IsAnalysis = [])) := by
  have hm : ∀ b, mustAnalyze p b = !b := by intro b; rcases hp with hp | hp <;> cases b <;> simp [mustAnalyze, hp]
  cases fuel with
  | zero => exact ⟨[], by simp [newtonLoop], Or.inl ⟨rfl, rfl⟩⟩
  | succ fuel =>
    cases ha : s.analyzed
    swap
    · obtain ⟨h1, l, h2, h3, h4⟩ := loop_calls_none p env (fuel + 1) s hd (by rw [hm, ha]; rfl)
      refine ⟨l, h2, ?_⟩
      by_cases hl : l = []
      · exact Or.inl ⟨hl, h1.trans ha⟩
      · exact Or.inr (Or.inl ⟨rfl, h1.trans ha, h4 hl, h3⟩)
    rw [newtonLoop]
    by_cases hc : s.converged = true
    · rw [if_pos hc]; exact ⟨[], by simp, Or.inl ⟨rfl, ha⟩⟩
    rw [if_neg hc]
    simp only
    rcases newtonIteration_calls p env s hd with ⟨h, -⟩ | ⟨-, h1, h2, h3⟩ | ⟨-, h1, rest, h2, h3⟩
    · rw [hm, ha] at h; exact absurd h.symm Bool.false_ne_true
    · rw [if_pos h2]
      exact ⟨_, h3, Or.inr (Or.inr (Or.inl ⟨trivial, h1.trans ha, rfl⟩))⟩
    · by_cases hd' : (newtonIteration p env s).diverged = true
      · rw [if_pos hd']
        exact ⟨_, h3, Or.inr (Or.inr (Or.inr ⟨trivial, h1, rest, rfl, late_filter h2⟩))⟩
      · rw [if_neg hd']
        obtain ⟨q1, l, q2, q3, -⟩ := loop_calls_none p env fuel (newtonIteration p env s) (by simpa using hd')
          (by rw [hm, h1]; rfl)
        exact ⟨_, by rw [q2, h3, List.append_assoc]; rfl,
          Or.inr (Or.inr (Or.inr ⟨trivial, q1.trans h1, rest ++ l, rfl, by rw [List.filter_append, late_filter h2, q3]; rfl⟩))⟩

end Caribou
