import Verif.Spec.LegacyStatic
import Verif.Lemmas.Newton

set_option autoImplicit false
set_option linter.all false

namespace Caribou

open Spec

variable {σ V K : Type*} [Field K] [LinearOrder K]

/-- The loop state `s` stands after the iterates `path` from `i0`. -/
structure LegacyAt (p : LegacyParams K) (env : LegacyEnv σ V K) (i0 : Iterate σ V) (path : List (Iterate σ V))
    (s : LegacyLoop σ V K) : Prop where
  world : s.world = (path.getLast?.getD i0).world
  force : s.force = (path.getLast?.getD i0).force
  U : s.U = (path.getLast?.getD i0).total
  dx : s.dx = if p.warm then (path.getLast?.getD i0).increment else env.zero
  Rn : ∀ l, path.getLast? = some l → s.Rn = env.norm2 l.force
  n : s.n = path.length
  residuals : s.residuals = path.map fun i => env.norm2 i.force
  conv : s.converged = false
  div : s.diverged = false

/-- The next iterate. -/
def legacyNext (p : LegacyParams K) (env : LegacyEnv σ V K) (i : Iterate σ V) : Iterate σ V :=
  let dx := env.solve i.world (if p.warm then i.increment else env.zero) i.force
  ⟨env.propagate i.world dx, env.force (env.propagate i.world dx), env.add i.total dx, dx⟩

theorem legacyNext_advance (p : LegacyParams K) (env : LegacyEnv σ V K) (i : Iterate σ V) :
    StaticAdvance p env i (legacyNext p env i) := ⟨rfl, rfl, rfl, rfl⟩

theorem grew_iff (env : LegacyEnv σ V K) (path : List (Iterate σ V)) (j : Iterate σ V) :
    Grew env (path ++ [j]) ↔ ∃ l, path.getLast? = some l ∧ ltNan (env.norm2 l.force) (env.norm2 j.force) = true := by
  constructor
  · rintro ⟨b, i, j', h, x, y, hx, hy, hxy⟩
    have h' : path ++ [j] = (b ++ [i]) ++ [j'] := by rw [h]; simp
    obtain ⟨h1, h2⟩ := List.append_inj' h' rfl
    simp only [List.cons.injEq, and_true] at h2
    subst h2
    exact ⟨i, by rw [h1]; simp, (ltNan_iff _ _).2 ⟨x, y, hx, hy, hxy⟩⟩
  · rintro ⟨l, hl, h⟩
    obtain ⟨x, y, hx, hy, hxy⟩ := (ltNan_iff _ _).1 h
    obtain ⟨b, hb⟩ : ∃ b, path = b ++ [l] := by
      rcases List.eq_nil_or_concat path with h0 | ⟨b, a, h0⟩
      · rw [h0] at hl; simp at hl
      · refine ⟨b, ?_⟩
        rw [h0] at hl; simp at hl
        rw [h0, hl]; simp
    exact ⟨b, l, j, by rw [hb]; simp, x, y, hx, hy, hxy⟩

theorem head_join (env : LegacyEnv σ V K) (path : List (Iterate σ V)) :
    (path.map fun i => env.norm2 i.force).head?.join = path.head?.bind fun f => env.norm2 f.force := by
  cases path <;> simp

/-- One iteration. -/
theorem legacyIteration_spec (p : LegacyParams K) (env : LegacyEnv σ V K) (i0 : Iterate σ V) (path : List (Iterate σ V))
    (s : LegacyLoop σ V K) (hs : LegacyAt p env i0 path s) :
    let j := legacyNext p env (path.getLast?.getD i0)
    let t := legacyIteration p env s
    t.world = j.world ∧ t.residuals = (path ++ [j]).map (fun i => env.norm2 i.force) ∧
    ((StaticGivesUp p env j ∧ t.converged = false ∧ t.diverged = true) ∨
     (¬StaticGivesUp p env j ∧ StaticCriterion p env (path ++ [j]) j ∧ t.converged = true) ∨
     (¬StaticGivesUp p env j ∧ ¬StaticCriterion p env (path ++ [j]) j ∧ (p.growing = true ∧ Grew env (path ++ [j])) ∧
        t.converged = false ∧ t.diverged = true) ∨
     (¬StaticStops p env (path ++ [j]) ∧ LegacyAt p env i0 (path ++ [j]) t)) := by
  intro j t
  obtain ⟨hw, hf, hU, hdx, hRn, hn, hres, hc, hd⟩ := hs
  have hjdx : env.solve s.world s.dx s.force = j.increment := by rw [hw, hf, hdx]; rfl
  have hjw : env.propagate s.world j.increment = j.world := by rw [hw]; rfl
  have hjf : env.force j.world = j.force := rfl
  have hjU : env.add s.U j.increment = j.total := by rw [hU]; rfl
  have hresj : s.residuals ++ [env.norm2 j.force] = (path ++ [j]).map (fun i => env.norm2 i.force) := by
    rw [hres]; simp
  have hg : ((env.norm2 j.force).isNone || (env.norm2 j.increment).isNone || ltNan (env.norm2 j.total) (some p.eps)) = true ↔
      StaticGivesUp p env j := by
    simp only [Bool.or_eq_true, Option.isNone_iff_eq_none, ltNan_below, StaticGivesUp, or_assoc]
  have hcr : StaticCriterion p env (path ++ [j]) j ↔
      ((0 < p.correction && ltNan (env.norm2 j.increment) (mulNan (p.correction * p.correction) (env.norm2 j.total))) = true ∨
       (0 < p.residual && ltNan (env.norm2 j.force)
          (mulNan (p.residual * p.residual) (s.residuals ++ [env.norm2 j.force]).head?.join)) = true) := by
    rw [hresj, head_join]
    simp only [StaticCriterion, Bool.and_eq_true, decide_eq_true_eq, ltNan_ratio]
  have hgr : Grew env (path ++ [j]) ↔ (ltNan s.Rn (env.norm2 j.force) && decide (1 < s.n + 1)) = true := by
    rw [grew_iff]
    rcases List.eq_nil_or_concat path with h0 | ⟨b, a, h0⟩
    · subst h0; simp [hn]
    · have ha : path.getLast? = some a := by rw [h0]; simp
      have hp : 0 < path.length := by rw [h0]; simp
      rw [hRn a ha, ha]
      simp [hn, hp]
  have hst : StaticStops p env (path ++ [j]) ↔ (StaticGivesUp p env j ∨ StaticCriterion p env (path ++ [j]) j ∨
      (p.growing = true ∧ Grew env (path ++ [j]))) := by
    unfold StaticStops
    constructor
    · rintro ⟨l, hl, h⟩
      simp at hl; subst hl; exact h
    · intro h; exact ⟨j, by simp, h⟩
  rw [hst, ← hg, hcr, hgr]
  simp only [t, legacyIteration, hjdx, hjw, hjf, hjU]
  split_ifs with h1 h2 h3 h4 h5
  · exact ⟨rfl, hresj, Or.inl ⟨h1, hc, rfl⟩⟩
  · exact ⟨rfl, hresj, Or.inr (Or.inl ⟨h1, Or.inl h2, rfl⟩)⟩
  · exact ⟨rfl, hresj, Or.inr (Or.inl ⟨h1, Or.inr h3, rfl⟩)⟩
  · rw [Bool.and_eq_true, Bool.and_eq_true] at h4
    exact ⟨rfl, hresj, Or.inr (Or.inr (Or.inl ⟨h1, not_or.2 ⟨h2, h3⟩, ⟨h4.1.1, Bool.and_eq_true_iff.2 ⟨h4.1.2, h4.2⟩⟩, hc, rfl⟩))⟩
  all_goals
    refine ⟨rfl, hresj, Or.inr (Or.inr (Or.inr ⟨?_, ?_⟩))⟩
    · rw [Bool.and_eq_true, Bool.and_eq_true] at h4
      rintro (h | (h | h) | ⟨h, h'⟩)
      · exact h1 h
      · exact h2 h
      · exact h3 h
      · rw [Bool.and_eq_true] at h'
        exact h4 ⟨⟨h, h'.1⟩, h'.2⟩
    · refine ⟨?_, ?_, ?_, ?_, ?_, ?_, hresj, hc, hd⟩
      · simp
      · simp
      · simp
      · simp [h5]
      · intro l hl; simp at hl; subst hl; rfl
      · simp [hn]

/-- The loop, started after the iterates `done`. -/
theorem legacyLoop_spec (p : LegacyParams K) (env : LegacyEnv σ V K) (i0 : Iterate σ V) (fuel : ℕ) :
    ∀ (done : List (Iterate σ V)) (s : LegacyLoop σ V K), LegacyAt p env i0 done s →
      List.IsChain (StaticAdvance p env) (i0 :: done) →
      (∀ q r, done = q ++ r → ¬StaticStops p env q) →
    ∃ path, List.IsChain (StaticAdvance p env) (i0 :: path) ∧ done <+: path ∧ path.length ≤ done.length + fuel ∧
      (∀ q r, path = q ++ r → r ≠ [] → ¬StaticStops p env q) ∧
      (legacyLoop p env fuel s).residuals = path.map (fun i => env.norm2 i.force) ∧
      (legacyLoop p env fuel s).world = (path.getLast?.getD i0).world ∧
      (((legacyLoop p env fuel s).converged = true ∧ ∃ l, path.getLast? = some l ∧ ¬StaticGivesUp p env l ∧
          StaticCriterion p env path l) ∨
       ((legacyLoop p env fuel s).converged = false ∧ ∃ l, path.getLast? = some l ∧ StaticGivesUp p env l) ∨
       ((legacyLoop p env fuel s).converged = false ∧ ∃ l, path.getLast? = some l ∧ ¬StaticGivesUp p env l ∧
          ¬StaticCriterion p env path l ∧ p.growing = true ∧ Grew env path) ∨
       ((legacyLoop p env fuel s).converged = false ∧ path.length = done.length + fuel ∧ ¬StaticStops p env path)) := by
  induction fuel with
  | zero =>
    intro done s hs hch hno
    exact ⟨done, hch, List.prefix_rfl, le_refl _, fun q r h _ => hno q r h, hs.residuals, hs.world,
      Or.inr (Or.inr (Or.inr ⟨hs.conv, rfl, hno done [] (by simp)⟩))⟩
  | succ fuel ih =>
    intro done s hs hch hno
    have hit := legacyIteration_spec p env i0 done s hs
    set j := legacyNext p env (done.getLast?.getD i0) with hj
    simp only at hit
    obtain ⟨hw, hres, hcase⟩ := hit
    have hch' : List.IsChain (StaticAdvance p env) (i0 :: (done ++ [j])) := by
      rw [← List.cons_append]
      refine List.IsChain.append hch (by simp) ?_
      intro x hx y hy
      have hy' : y = j := by simpa using hy.symm
      have hx' : x = done.getLast?.getD i0 := by
        have : (i0 :: done).getLast? = some (done.getLast?.getD i0) := by
          rw [List.getLast?_cons]
        rw [Option.mem_def, this] at hx
        exact (Option.some.inj hx).symm
      rw [hx', hy']
      exact legacyNext_advance p env _
    have hpre : ∀ q r, done ++ [j] = q ++ r → r ≠ [] → ¬StaticStops p env q := by
      intro q r h hr
      rcases List.eq_nil_or_concat r with h0 | ⟨b, a, h0⟩
      · exact absurd h0 hr
      · rw [h0, List.concat_eq_append, ← List.append_assoc] at h
        obtain ⟨h1, h2⟩ := List.append_inj' h rfl
        exact hno q b h1
    have hlen : (done ++ [j]).length ≤ done.length + (fuel + 1) := by simp
    have hunf : legacyLoop p env (fuel + 1) s =
        if (legacyIteration p env s).converged || (legacyIteration p env s).diverged then legacyIteration p env s
        else legacyLoop p env fuel (legacyIteration p env s) := by
      simp only [legacyLoop, hs.conv, Bool.false_eq_true, if_false]
    have hwl : (legacyIteration p env s).world = ((done ++ [j]).getLast?.getD i0).world := by simp [hw]
    rcases hcase with ⟨h1, h2, h3⟩ | ⟨h1, h2, h3⟩ | ⟨h1, h2, h3, h4, h5⟩ | ⟨h1, h2⟩
    · rw [hunf, h3, Bool.or_true, if_pos rfl]
      exact ⟨done ++ [j], hch', List.prefix_append _ _, hlen, hpre, hres, hwl, Or.inr (Or.inl ⟨h2, j, by simp, h1⟩)⟩
    · rw [hunf, h3, Bool.true_or, if_pos rfl]
      exact ⟨done ++ [j], hch', List.prefix_append _ _, hlen, hpre, hres, hwl, Or.inl ⟨h3, j, by simp, h1, h2⟩⟩
    · rw [hunf, h5, Bool.or_true, if_pos rfl]
      exact ⟨done ++ [j], hch', List.prefix_append _ _, hlen, hpre, hres, hwl,
        Or.inr (Or.inr (Or.inl ⟨h4, j, by simp, h1, h2, h3⟩))⟩
    · rw [hunf, h2.conv, h2.div, Bool.or_false, if_neg (by simp)]
      have hno' : ∀ q r, done ++ [j] = q ++ r → ¬StaticStops p env q := by
        intro q r h
        by_cases hr : r = []
        · rw [hr, List.append_nil] at h; rw [← h]; exact h1
        · exact hpre q r h hr
      obtain ⟨path, a1, a2, a3, a4, a5, a6, a7⟩ := ih (done ++ [j]) _ h2 hch' hno'
      refine ⟨path, a1, (List.prefix_append _ _).trans a2, ?_, a4, a5, a6, ?_⟩
      · have : (done ++ [j]).length = done.length + 1 := by simp
        omega
      · have : (done ++ [j]).length = done.length + 1 := by simp
        rcases a7 with h | h | h | ⟨h, h', h''⟩
        · exact Or.inl h
        · exact Or.inr (Or.inl h)
        · exact Or.inr (Or.inr (Or.inl h))
        · exact Or.inr (Or.inr (Or.inr ⟨h, by omega, h''⟩))

theorem legacyLoop_converged (p : LegacyParams K) (env : LegacyEnv σ V K) (fuel : ℕ) (s : LegacyLoop σ V K)
    (h : s.converged = true) : legacyLoop p env fuel s = s := by
  cases fuel <;> simp [legacyLoop, h]

end Caribou
