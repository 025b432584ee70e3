import Verif.Lemmas.GlobalSystem
import Mathlib.Analysis.Calculus.Deriv.Add
import Mathlib.Analysis.Calculus.Deriv.Mul
import Mathlib.Tactic.NormNum
import Mathlib.Data.Fin.VecNotation

/-!
# C118: the system assembled from a scene of several bodies is the one of the whole scene
-/

set_option autoImplicit false

namespace Caribou

open Finset Spec Bodies

section
variable {K : Type*} [Field K]

open scoped Classical in
/-- **C118_matrix.** The assembled matrix, as a bilinear form on the motions which leave the fixed degrees of freedom in place, adds the
contribution of every force field which is behind mappings with matrices, for the motion that the mappings give to its body. -/
theorem C118_matrix (S : BodyScene K) (top : FixedOnTop S) (c : K) (x u v : ℕ → K) (hu : AllowedMotion S u) (hv : AllowedMotion S v) :
    form (topSize S.bodies) (S.matrix c x) u v = (S.forces.map fun f =>
      if Through (fun m => m.mapsMatrices = true ∧ m.givesJ = true) S.bodies f.body then
        c * form (dofsOf S.bodies f.body) (f.stiff (positions S.bodies x f.body)) (motion S.bodies u f.body) (motion S.bodies v f.body)
      else 0).sum := by
  rw [BodyScene.matrix, ← dimension_eq, form_pullUp _ _ le_rfl, total_constrain _ _ _ _ _ _ ?_ ?_ ?_, total_assemble _ _ le_rfl]
  · have h0 : total S.bodies (dimension S.bodies) ⟨0, fun _ => none⟩ u v = 0 := by
      unfold total
      simp [form_zero]
    rw [h0, zero_add]
    congr 1
    refine List.map_congr_left fun f _ => ?_
    have e : thru active S.bodies f.body = true ↔ Through (fun m => m.mapsMatrices = true ∧ m.givesJ = true) S.bodies f.body := by
      rw [thru_iff]
      simp only [active, Bool.and_eq_true]
    by_cases h : thru active S.bodies f.body = true
    · rw [if_pos h, if_pos (e.1 h)]
      unfold form
      simp only [mul_sum]
      exact sum_congr rfl fun i _ => sum_congr rfl fun j _ => by ring
    · rw [if_neg h, if_neg (fun hc => h (e.2 hc))]
  · intro d hd
    obtain ⟨b, hb, ht, _⟩ := top d hd
    exact ⟨b, (isBody_iff _ _ _).1 hb, ht⟩
  · intro d hd i hi
    rw [offset_eq]
    exact hu d hd i hi
  · intro d hd i hi
    rw [offset_eq]
    exact hv d hd i hi

open scoped Classical in
/-- **C118_rhs.** The power of the assembled vector on a motion which leaves the fixed degrees of freedom in place is the sum of those of
the force fields which are behind mappings with forces. -/
theorem C118_rhs (S : BodyScene K) (order : InOrder S.bodies) (top : FixedOnTop S) (x u : ℕ → K) (hu : AllowedMotion S u) :
    bodyPower (topSize S.bodies) (S.rhs x) u = (S.forces.map fun f =>
      if Through (fun m => m.mapsForces = true) S.bodies f.body then
        bodyPower (dofsOf S.bodies f.body) (f.force (positions S.bodies x f.body)) (motion S.bodies u f.body)
      else 0).sum := by
  rw [BodyScene.rhs, ← dimension_eq, gather_power, topPower_project S top _ _ hu, topPower_pullForces _ order, reach_forces]
  congr 1
  refine List.map_congr_left fun f _ => ?_
  simp only [thru_iff]

/-- **C118_rhs_fixed.** The assembled vector is zero at the fixed degrees of freedom. -/
theorem C118_rhs_fixed (S : BodyScene K) (top : FixedOnTop S) (x : ℕ → K) (d : ℕ × List ℕ) (hd : d ∈ S.fixed) (i : ℕ) (hi : i ∈ d.2) :
    S.rhs x (topSize (Before S.bodies d.1) + i) = 0 := by
  obtain ⟨b, hb, ht, hs⟩ := top d hd
  rw [BodyScene.rhs, ← offset_eq, gather_at ((isBody_iff _ _ _).1 hb) ht _ i (hs i hi)]
  unfold BodyScene.project
  rw [if_pos]
  simp only [List.any_eq_true, Bool.and_eq_true, decide_eq_true_eq]
  exact ⟨d, hd, rfl, hi⟩

/-- **C118_fixed_partial.** The row and the column of a fixed degree of freedom are those of the identity, as long as no mapping with
matrices starts from the body of the constraint (the constraints are applied before the mapped matrices are added). -/
theorem C118_fixed_partial (S : BodyScene K) (top : FixedOnTop S) (c : K) (x : ℕ → K) (d : ℕ × List ℕ) (hd : d ∈ S.fixed) (i : ℕ)
    (hi : i ∈ d.2) (free : ∀ b ∈ S.bodies, ∀ m, b.link = some m → m.mapsMatrices = true → m.givesJ = true → m.parent ≠ d.1) (j : ℕ) :
    let r := topSize (Before S.bodies d.1) + i
    S.matrix c x r j = (if r = j then 1 else 0) ∧ S.matrix c x j r = if j = r then 1 else 0 := by
  obtain ⟨b, hb, ht, hs⟩ := top d hd
  have hb' := (isBody_iff _ _ _).1 hb
  intro r
  have hr : r = offset S.bodies d.1 + i := by rw [offset_eq]
  rw [hr]
  refine unitRow_pullUp hb' ht i (hs i hi) (fun a ha m hm hact => ?_) _ (unitRow_constrain _ _ _ _ (Or.inr ⟨d, hd, ⟨b, hb', ht⟩, ?_⟩)) j
  · simp only [active, Bool.and_eq_true] at hact
    exact free a ha m hm hact.1 hact.2
  · simp [fixedAt, hi]

end

/-- Two particles on a line, and one mapped in the middle; a spring to the origin on the middle one. -/
def springScene (mapsMatrices givesJ : Bool) (fixed : List (ℕ × List ℕ)) : BodyScene ℚ where
  bodies := [⟨1, some ⟨0, fun y _ => (y 0 + y 1) / 2, fun _ a => if a < 2 then 1 / 2 else 0, true, mapsMatrices, givesJ⟩⟩, ⟨2, none⟩]
  forces := [⟨1, fun y i => -4 * y i, fun _ i j => if i = j then -4 else 0⟩]
  fixed := fixed

/-- **C118_fixed_violated.** A particle is fixed and a mapping starts from its body: the diagonal entry is not one, and the other entries
of its row are not zero. -/
theorem C118_fixed_violated : ∃ S : BodyScene ℚ, FixedOnTop S ∧ InOrder S.bodies ∧ (0, [0]) ∈ S.fixed ∧
    S.matrix (-1) (fun _ => 0) 0 0 = 2 ∧ S.matrix (-1) (fun _ => 0) 0 1 = 1 := by
  refine ⟨springScene true true [(0, [0])], ?_, ?_, by simp [springScene], by decide +kernel, by decide +kernel⟩
  · intro c hc
    obtain rfl : c = (0, [0]) := by simpa [springScene] using hc
    exact ⟨⟨2, none⟩, ⟨by simp [springScene], by simp [springScene]⟩, rfl, by simp⟩
  · refine ⟨?_, ?_, trivial⟩
    · intro m hm
      obtain rfl := Option.some.inj hm
      simp
    · intro m hm
      simp at hm

/-- **C118_getJ_violated.** A mapping which maps the forces and the matrices but has no `getJ`, as `CaribouBarycentricMapping`: the forces
of its output are in the assembled vector, and the matrix has nothing of their stiffness. -/
theorem C118_getJ_violated : ∃ S : BodyScene ℚ, InOrder S.bodies ∧ AffineLinks S.bodies ∧ S.fixed = [] ∧
    (∀ b ∈ S.bodies, ∀ m, b.link = some m → m.mapsForces = true ∧ m.mapsMatrices = true) ∧
    (∀ x : ℕ → ℚ, S.rhs x 0 = -(x 0 + x 1)) ∧ ∀ x i j, S.matrix (-1) x i j = 0 := by
  refine ⟨springScene true false [], ⟨?_, ?_, trivial⟩, ⟨?_, ?_, trivial⟩, rfl, ?_, ?_, ?_⟩
  · intro m hm
    obtain rfl := Option.some.inj hm
    simp
  · intro m hm
    simp at hm
  · intro m hm y z i
    obtain rfl := Option.some.inj hm
    simp [dofsOf, sum_range_succ]
    ring
  · intro m hm
    simp at hm
  · intro b hb m hm
    simp only [springScene, List.mem_cons, List.not_mem_nil, or_false] at hb
    rcases hb with rfl | rfl
    · obtain rfl := Option.some.inj hm
      simp
    · simp at hm
  · intro x
    simp [BodyScene.rhs, springScene, gather, dimension, offset, BodyScene.project, pullForces, BodyScene.bodyForces, forceVisited, positions]
    ring
  · intro x i j
    simp [BodyScene.matrix, springScene, pullUp, constrain, assemble, visited, addTo, bodyAt]

/-- **C118_derivative.** When the mappings are affine and map the forces and the matrices (with `getJ`), and every force field knows its
own stiffness, the assembled matrix (with the factor `-1`) is the negative derivative of the assembled vector: for every degree of freedom
which is not fixed and every motion which leaves the fixed ones in place. -/
theorem C118_derivative (S : BodyScene ℝ) (order : InOrder S.bodies) (affine : AffineLinks S.bodies) (top : FixedOnTop S)
    (all : ∀ f ∈ S.forces, Through (fun m => m.mapsForces = true ∧ m.mapsMatrices = true ∧ m.givesJ = true) S.bodies f.body)
    (own : ∀ f ∈ S.forces, ∀ (y d : ℕ → ℝ) (i : ℕ), i < dofsOf S.bodies f.body →
      HasDerivAt (fun t : ℝ => f.force (fun a => y a + t * d a) i) (∑ j ∈ range (dofsOf S.bodies f.body), f.stiff y i j * d j) 0)
    (x v : ℕ → ℝ) (hv : AllowedMotion S v) (i : ℕ) (hi : i < topSize S.bodies)
    (free : ∀ c ∈ S.fixed, ∀ a ∈ c.2, topSize (Before S.bodies c.1) + a ≠ i) :
    HasDerivAt (fun t : ℝ => S.rhs (fun a => x a + t * v a) i) (-∑ j ∈ range (topSize S.bodies), S.matrix (-1) x i j * v j) 0 := by
  classical
  set w : ℕ → ℝ := fun a => if a = i then 1 else 0 with hw
  have hwA : AllowedMotion S w := fun c hc a ha => by simp [hw, free c hc a ha]
  have hF : ∀ f ∈ S.forces, Through (fun m => m.mapsForces = true) S.bodies f.body := fun f hf => by
    have := (thru_iff (fun m => m.mapsForces && (m.mapsMatrices && m.givesJ)) S.bodies f.body).2 (by simpa using all f hf)
    exact (thru_iff _ _ _).1 (thru_mono (fun m hm => by simp at hm; exact hm.1) _ _ this)
  have hM : ∀ f ∈ S.forces, Through (fun m => m.mapsMatrices = true ∧ m.givesJ = true) S.bodies f.body := fun f hf => by
    have := (thru_iff (fun m => m.mapsForces && (m.mapsMatrices && m.givesJ)) S.bodies f.body).2 (by simpa using all f hf)
    have := (thru_iff (fun m => m.mapsMatrices && m.givesJ) _ _).1 (thru_mono (fun m hm => by simp at hm; simp [hm]) _ _ this)
    simpa using this
  have hp : ∀ y : ℕ → ℝ, bodyPower (topSize S.bodies) y w = y i := fun y => by
    unfold bodyPower
    rw [sum_eq_single_of_mem i (mem_range.2 hi) (fun b _ hb => by simp [hw, hb])]
    simp [hw]
  have hform : form (topSize S.bodies) (S.matrix (-1) x) w v = ∑ j ∈ range (topSize S.bodies), S.matrix (-1) x i j * v j := by
    unfold form
    rw [sum_eq_single_of_mem i (mem_range.2 hi) (fun b _ hb => by simp [hw, hb])]
    simp [hw]
  rw [← hform, C118_matrix S top (-1) x w v hwA hv]
  have e : (fun t : ℝ => S.rhs (fun a => x a + t * v a) i) = fun t => (S.forces.map fun f =>
      bodyPower (dofsOf S.bodies f.body) (f.force (fun a => positions S.bodies x f.body a + t * motion S.bodies v f.body a))
        (motion S.bodies w f.body)).sum := by
    funext t
    rw [← hp (S.rhs _), C118_rhs S order top _ w hwA]
    congr 1
    refine List.map_congr_left fun f hf => ?_
    rw [if_pos (hF f hf), show positions S.bodies (fun a => x a + t * v a) f.body = _ from
      funext fun a => positions_affine S.bodies affine x v t f.body a]
  rw [e]
  clear e
  have step : ∀ fs : List (BodyForce ℝ), (∀ f ∈ fs, f ∈ S.forces) →
      HasDerivAt (fun t : ℝ => (fs.map fun f =>
        bodyPower (dofsOf S.bodies f.body) (f.force (fun a => positions S.bodies x f.body a + t * motion S.bodies v f.body a))
          (motion S.bodies w f.body)).sum)
        (-(fs.map fun f => if Through (fun m => m.mapsMatrices = true ∧ m.givesJ = true) S.bodies f.body then
          -1 * form (dofsOf S.bodies f.body) (f.stiff (positions S.bodies x f.body)) (motion S.bodies w f.body) (motion S.bodies v f.body)
          else 0).sum) 0 := by
    intro fs
    induction fs with
    | nil => intro _; simpa using hasDerivAt_const (0 : ℝ) (0 : ℝ)
    | cons f fs ih =>
      intro hfs
      have hf := hfs f List.mem_cons_self
      simp only [List.map_cons, List.sum_cons]
      rw [if_pos (hM f hf), neg_add]
      refine HasDerivAt.add ?_ (ih fun g hg => hfs g (List.mem_cons_of_mem _ hg))
      rw [neg_one_mul, neg_neg]
      unfold bodyPower form
      refine HasDerivAt.fun_sum fun a ha => ?_
      have := (own f hf (positions S.bodies x f.body) (motion S.bodies v f.body) a (mem_range.1 ha)).const_mul (motion S.bodies w f.body a)
      refine this.congr_deriv ?_
      rw [mul_sum]
      exact sum_congr rfl fun j _ => by ring
  exact step S.forces fun f hf => hf

/-! ## Concrete scenes -/

theorem springScene_order (a b : Bool) (l : List (ℕ × List ℕ)) : InOrder (springScene a b l).bodies := by
  refine ⟨?_, ?_, trivial⟩
  · intro m hm
    obtain rfl := Option.some.inj hm
    simp
  · intro m hm
    simp at hm

theorem springScene_top (a b : Bool) : FixedOnTop (springScene a b [(0, [0])]) := by
  intro c hc
  obtain rfl : c = (0, [0]) := by simpa [springScene] using hc
  exact ⟨⟨2, none⟩, ⟨by simp [springScene], by simp [springScene]⟩, rfl, by simp⟩

theorem springScene_through (p : BodyLink ℚ → Prop) (a b : Bool) (l : List (ℕ × List ℕ))
    (h : p ⟨0, fun y _ => (y 0 + y 1) / 2, fun _ a => if a < 2 then 1 / 2 else 0, true, a, b⟩) : Through p (springScene a b l).bodies 1 :=
  Through.mapped (l := [⟨2, none⟩]) rfl h (Through.top (l := []) rfl)

-- The first particle is fixed: the spring of the middle, seen from the motion of the second particle, has the stiffness `4 * (1/2)^2`.
example : form 2 ((springScene true true [(0, [0])]).matrix (-1) fun _ => 0) (fun i => if i = 1 then 1 else 0) (fun i => if i = 1 then 1 else 0) =
    1 := by
  have h := C118_matrix (springScene true true [(0, [0])]) (springScene_top _ _) (-1) (fun _ => 0) (fun i => if i = 1 then 1 else 0)
    (fun i => if i = 1 then 1 else 0) (by intro c hc i hi; simp [springScene] at hc; subst hc; simp at hi; subst hi; decide)
    (by intro c hc i hi; simp [springScene] at hc; subst hc; simp at hi; subst hi; decide)
  have e : topSize (springScene true true [(0, [0])]).bodies = 2 := by decide +kernel
  rw [e] at h
  rw [h]
  have ht := springScene_through (fun m => m.mapsMatrices = true ∧ m.givesJ = true) true true [(0, [0])] ⟨rfl, rfl⟩
  simp only [show (springScene true true [(0, [0])]).forces = [⟨1, fun y i => -4 * y i, fun _ i j => if i = j then -4 else 0⟩] from rfl,
    List.map_cons, List.map_nil, List.sum_cons, List.sum_nil, if_pos ht]
  decide +kernel

-- The force of the spring on the second particle.
example : bodyPower 2 ((springScene true true [(0, [0])]).rhs fun i => (i : ℚ) + 1) (fun i => if i = 1 then 1 else 0) = -3 := by
  have h := C118_rhs (springScene true true [(0, [0])]) (springScene_order _ _ _) (springScene_top _ _) (fun i => (i : ℚ) + 1)
    (fun i => if i = 1 then 1 else 0) (by intro c hc i hi; simp [springScene] at hc; subst hc; simp at hi; subst hi; decide)
  have e : topSize (springScene true true [(0, [0])]).bodies = 2 := by decide +kernel
  rw [e] at h
  rw [h]
  have ht := springScene_through (fun m => m.mapsForces = true) true true [(0, [0])] rfl
  simp only [show (springScene true true [(0, [0])]).forces = [⟨1, fun y i => -4 * y i, fun _ i j => if i = j then -4 else 0⟩] from rfl,
    List.map_cons, List.map_nil, List.sum_cons, List.sum_nil, if_pos ht]
  decide +kernel

example : (springScene true true [(0, [0])]).rhs (fun i => (i : ℚ) + 1) 0 = 0 :=
  C118_rhs_fixed (springScene true true [(0, [0])]) (springScene_top _ _) _ (0, [0]) (by simp [springScene]) 0 (by simp)

-- Without the matrices of the mapping the row of the fixed particle is the one of the identity.
example : (springScene false true [(0, [0])]).matrix (-1) (fun _ => 0) 0 0 = 1 ∧ (springScene false true [(0, [0])]).matrix (-1) (fun _ => 0) 0 1 = 0 := by
  have h := fun j => C118_fixed_partial (springScene false true [(0, [0])]) (springScene_top _ _) (-1) (fun _ => 0) (0, [0])
    (by simp [springScene]) 0 (by simp) (by
      intro b hb m hm h1 _
      simp only [springScene, List.mem_cons, List.not_mem_nil, or_false] at hb
      rcases hb with rfl | rfl
      · obtain rfl := Option.some.inj hm
        simp at h1
      · simp at hm) j
  have e : topSize (Before (springScene false true [(0, [0])]).bodies 0) = 0 := by decide +kernel
  simp only [e, Nat.add_zero] at h
  exact ⟨by simpa using (h 0).1, by simpa using (h 1).1⟩

/-- The scene of `springScene` over the reals. -/
noncomputable def realScene : BodyScene ℝ where
  bodies := [⟨1, some ⟨0, fun y _ => (y 0 + y 1) / 2, fun _ a => if a < 2 then 1 / 2 else 0, true, true, true⟩⟩, ⟨2, none⟩]
  forces := [⟨1, fun y i => -4 * y i, fun _ i j => if i = j then -4 else 0⟩]
  fixed := [(0, [0])]

example (x : ℕ → ℝ) : HasDerivAt (fun t : ℝ => realScene.rhs (fun a => x a + t * if a = 1 then 1 else 0) 1)
    (-∑ j ∈ range 2, realScene.matrix (-1) x 1 j * if j = 1 then 1 else 0) 0 := by
  have hs : topSize realScene.bodies = 2 := by simp [realScene, topSize]
  have hb : topSize (Before realScene.bodies 0) = 0 := by simp [realScene, topSize, Before]
  have h := C118_derivative realScene ⟨?_, ?_, trivial⟩ ⟨?_, ?_, trivial⟩ ?_ ?_ ?_ x (fun a => if a = 1 then 1 else 0) ?_ 1 (by rw [hs]; decide) ?_
  · rwa [hs] at h
  · intro m hm
    obtain rfl := Option.some.inj hm
    simp
  · intro m hm
    simp at hm
  · intro m hm y z i
    obtain rfl := Option.some.inj hm
    simp [dofsOf, sum_range_succ]
    ring
  · intro m hm
    simp at hm
  · intro c hc
    obtain rfl : c = (0, [0]) := by simpa [realScene] using hc
    exact ⟨⟨2, none⟩, ⟨by simp [realScene], by simp [realScene]⟩, rfl, by simp⟩
  · intro f hf
    obtain rfl : f = _ := by simpa [realScene] using hf
    exact Through.mapped (l := [⟨2, none⟩]) rfl ⟨rfl, rfl, rfl⟩ (Through.top (l := []) rfl)
  · intro f hf y d i hi
    obtain rfl : f = _ := by simpa [realScene] using hf
    have e : dofsOf realScene.bodies 1 = 1 := by simp [realScene, dofsOf]
    simp only [e] at hi ⊢
    obtain rfl : i = 0 := by omega
    have := (((hasDerivAt_id (0 : ℝ)).mul_const (d 0)).const_add (y 0)).const_mul (-4)
    simpa using this
  · intro c hc i hi
    obtain rfl : c = (0, [0]) := by simpa [realScene] using hc
    obtain rfl : i = 0 := by simpa using hi
    simp [hb]
  · intro c hc i hi
    obtain rfl : c = (0, [0]) := by simpa [realScene] using hc
    obtain rfl : i = 0 := by simpa using hi
    simp [hb]

end Caribou
