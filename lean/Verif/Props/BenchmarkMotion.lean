import Verif.Model.BenchmarkMotion
import Verif.Spec.BenchmarkMotion
import Mathlib.Algebra.Order.Floor.Ring
import Mathlib.Tactic.FieldSimp
import Mathlib.Tactic.Linarith
import Mathlib.Tactic.LinearCombination

/-!
# C154: the moving points of the benchmark of the direct solvers
-/

set_option autoImplicit false
set_option linter.all false

namespace Caribou

open Spec

variable {ι : Type*} [Fintype ι]

theorem npNorm_eq (d : ι → ℝ) : npNorm d = ‖(WithLp.toLp 2 d : EuclideanSpace ℝ ι)‖ := by
  rw [EuclideanSpace.norm_eq]
  unfold npNorm
  congr 1
  refine Finset.sum_congr rfl fun i _ => ?_
  simp [sq]

theorem npNorm_nonneg (d : ι → ℝ) : 0 ≤ npNorm d := Real.sqrt_nonneg _

theorem npNorm_pos {d : ι → ℝ} (hd : d ≠ 0) : 0 < npNorm d := by
  rw [npNorm_eq, norm_pos_iff]
  intro h
  exact hd (by simpa using congrArg WithLp.ofLp h)

theorem npNorm_smul (c : ℝ) (d : ι → ℝ) : npNorm (fun i => c * d i) = |c| * npNorm d := by
  rw [npNorm_eq, npNorm_eq]
  have : (WithLp.toLp 2 (fun i => c * d i) : EuclideanSpace ℝ ι) = c • WithLp.toLp 2 d := by ext i; simp
  rw [this, norm_smul, Real.norm_eq_abs]

theorem pointDistance_eq (a b : ι → ℝ) : pointDistance a b = npNorm (fun i => a i - b i) := by
  rw [npNorm_eq, pointDistance, dist_eq_norm]
  rfl

theorem motion_time (start goal : ι → ℝ) (dt v h : ℝ) (k : ℕ) : (motionAfter start goal dt v h k).time = k * h := by
  induction k with
  | zero => simp [motionAfter]
  | succ k ih => rw [motionAfter, motionStep, ih]; push_cast; ring

theorem motion_position (start goal : ι → ℝ) (dt v h : ℝ) (hh : 0 < h) (k : ℕ) :
    (motionAfter start goal dt v h k).position = fun i => start i + (min k ⌈motionTime start goal v / h⌉₊ : ℕ) * motionDelta start goal dt v i := by
  induction k with
  | zero => funext i; simp [motionAfter]
  | succ k ih =>
    rw [motionAfter, motionStep, motion_time, ih]
    have hiff : (k : ℝ) * h < motionTime start goal v ↔ k < ⌈motionTime start goal v / h⌉₊ := by
      rw [Nat.lt_ceil, lt_div_iff₀ hh]
    by_cases hk : k < ⌈motionTime start goal v / h⌉₊
    · rw [if_pos (hiff.2 hk), min_eq_left hk.le, min_eq_left (Nat.succ_le_of_lt hk)]
      funext i
      push_cast; ring
    · rw [if_neg (fun h => hk (hiff.1 h)), min_eq_right (not_lt.1 hk), min_eq_right (le_trans (not_lt.1 hk) (Nat.le_succ k))]

theorem motionTime_pos {start goal : ι → ℝ} (hne : goal ≠ start) {v : ℝ} (hv : 0 < v) : 0 < motionTime start goal v := by
  refine div_pos (npNorm_pos fun h => hne ?_) hv
  funext i
  have := congrFun h i
  simp only [Pi.zero_apply] at this
  linarith

theorem motionDelta_norm {start goal : ι → ℝ} (hne : goal ≠ start) {v : ℝ} (hv : 0 < v) {dt : ℝ} (hdt : 0 < dt) : npNorm (motionDelta start goal dt v) = v * dt := by
  have hT := motionTime_pos hne hv
  have : motionDelta start goal dt v = fun i => (dt / motionTime start goal v) * (goal i - start i) := by
    funext i; unfold motionDelta; ring
  rw [this, npNorm_smul, abs_of_pos (div_pos hdt hT)]
  have hn : npNorm (fun i => goal i - start i) = v * motionTime start goal v := by
    unfold motionTime; field_simp
  rw [hn]
  field_simp

theorem motion_gap {start goal : ι → ℝ} (hne : goal ≠ start) {v : ℝ} (hv : 0 < v) (dt : ℝ) (n : ℕ) (i : ι) :
    start i + (n : ℝ) * motionDelta start goal dt v i - goal i = (n * dt / motionTime start goal v - 1) * (goal i - start i) := by
  have hT := (motionTime_pos hne hv).ne'
  unfold motionDelta
  field_simp
  ring

/-- **C154 (partial).** A point which has to move, with a positive velocity and positive time steps: it goes from its start to the goal with the velocity and stays there, exactly if the time step of the
scene is the one which was given, and the duration is a multiple of it.  Missing: the other cases, see `C154_end` and `C154_violated`. -/
theorem C154_partial (start goal : ι → ℝ) (hne : goal ≠ start) (dt v h : ℝ) (hdt : 0 < dt) (hv : 0 < v) (hh : 0 < h) :
    ReachesGoal (fun k => (motionAfter start goal dt v h k).position) start goal v h ↔ dt = h ∧ ∃ n : ℕ, npNorm (fun i => goal i - start i) = n * (v * h) := by
  have hT := motionTime_pos hne hv
  have hTn : npNorm (fun i => goal i - start i) = motionTime start goal v * v := by unfold motionTime; field_simp
  have hpos := motion_position start goal dt v h hh
  have hstep : ∀ k, k < ⌈motionTime start goal v / h⌉₊ →
      pointDistance (motionAfter start goal dt v h (k + 1)).position (motionAfter start goal dt v h k).position = v * dt := by
    intro k hk
    rw [pointDistance_eq, hpos, hpos, min_eq_left hk.le, min_eq_left (Nat.succ_le_of_lt hk), ← motionDelta_norm hne hv hdt]
    congr 1
    funext i; push_cast; ring
  have hceil : 0 < ⌈motionTime start goal v / h⌉₊ := Nat.ceil_pos.2 (div_pos hT hh)
  obtain ⟨j, hj⟩ : ∃ j, goal j - start j ≠ 0 := by
    by_contra hc
    push Not at hc
    exact hne (funext fun i => by linarith [hc i])
  constructor
  · rintro ⟨_, n, hgoal, hspeed⟩
    have hend := hgoal (max n ⌈motionTime start goal v / h⌉₊) (le_max_left _ _)
    simp only at hend
    rw [hpos, min_eq_right (le_max_right _ _)] at hend
    have hgap := motion_gap hne hv dt ⌈motionTime start goal v / h⌉₊ j
    rw [congrFun hend j, sub_self] at hgap
    have hN : (⌈motionTime start goal v / h⌉₊ : ℝ) * dt = motionTime start goal v := by
      have := (mul_eq_zero.1 hgap.symm).resolve_right hj
      field_simp at this
      linarith
    have hn0 : 0 < n := by
      rcases Nat.eq_zero_or_pos n with h0 | h0
      · exfalso
        have := hgoal 0 (by omega)
        simp only [motionAfter] at this
        exact hne this.symm
      · exact h0
    have h1 := hspeed 0 hn0
    rw [hstep 0 hceil] at h1
    have hdh : dt = h := mul_left_cancel₀ hv.ne' h1
    refine ⟨hdh, ⌈motionTime start goal v / h⌉₊, ?_⟩
    rw [hTn, ← hdh]
    rw [← hdh] at hN
    linear_combination -v * hN
  · rintro ⟨rfl, n, hn⟩
    have hTd : motionTime start goal v / dt = n := by
      rw [hTn] at hn
      have : motionTime start goal v = n * dt := mul_right_cancel₀ hv.ne' (by linear_combination hn)
      rw [this]; field_simp
    rw [hTd, Nat.ceil_natCast] at hpos hstep
    have hTe : motionTime start goal v = n * dt := by field_simp at hTd; linarith
    refine ⟨rfl, n, fun k hk => ?_, fun k hk => hstep k hk⟩
    simp only
    rw [hpos, min_eq_right hk]
    funext i
    have := motion_gap hne hv dt n i
    rw [hTe, div_self (by rw [← hTe]; exact hT.ne'), sub_self, zero_mul] at this
    linarith

/-- **C154**, where the point stays: as many increments from its start as there are steps of the scene which begin before the end of the duration.  With the time step which was given this is on the line
through the goal, less than one step beyond it. -/
theorem C154_end (start goal : ι → ℝ) (hne : goal ≠ start) (dt v h : ℝ) (hdt : 0 < dt) (hv : 0 < v) (hh : 0 < h) :
    ∃ n : ℕ, (∀ k : ℕ, k < n ↔ (k : ℝ) * h < npNorm (fun i => goal i - start i) / v) ∧
      (∀ k, n ≤ k → ∀ i, (motionAfter start goal dt v h k).position i = start i + n * motionDelta start goal dt v i) ∧
      (dt = h → ∀ k, n ≤ k → pointDistance (motionAfter start goal dt v h k).position goal < v * h ∧
        npNorm (fun i => goal i - start i) ≤ pointDistance (motionAfter start goal dt v h k).position start) := by
  have hT := motionTime_pos hne hv
  have hTn : npNorm (fun i => goal i - start i) = motionTime start goal v * v := by unfold motionTime; field_simp
  refine ⟨⌈motionTime start goal v / h⌉₊, fun k => ?_, fun k hk i => ?_, fun hdh k hk => ?_⟩
  · rw [Nat.lt_ceil, lt_div_iff₀ hh]; rfl
  · rw [motion_position start goal dt v h hh, min_eq_right hk]
  · subst hdh
    have hge := Nat.le_ceil (motionTime start goal v / dt)
    have hlt := Nat.ceil_lt_add_one (div_pos hT hdt).le
    rw [div_le_iff₀ hdt] at hge
    have hlt' : (⌈motionTime start goal v / dt⌉₊ : ℝ) * dt < motionTime start goal v + dt := by
      have := mul_lt_mul_of_pos_right hlt hdt
      rwa [add_mul, one_mul, div_mul_cancel₀ _ hdt.ne'] at this
    rw [motion_position start goal dt v dt hdt, min_eq_right hk]
    generalize (⌈motionTime start goal v / dt⌉₊ : ℕ) = n at hge hlt'
    constructor
    · rw [pointDistance_eq]
      have : (fun i => start i + (n : ℝ) * motionDelta start goal dt v i - goal i) = fun i => (n * dt / motionTime start goal v - 1) * (goal i - start i) :=
        funext fun i => motion_gap hne hv dt n i
      rw [this, npNorm_smul, hTn, abs_of_nonneg (by rw [sub_nonneg, le_div_iff₀ hT]; linarith)]
      have h2 : (n * dt / motionTime start goal v - 1) * (motionTime start goal v * v) = (n * dt - motionTime start goal v) * v := by field_simp
      rw [h2]
      nlinarith
    · rw [pointDistance_eq]
      have : (fun i => start i + (n : ℝ) * motionDelta start goal dt v i - start i) = fun i => (n : ℝ) * motionDelta start goal dt v i := funext fun i => by ring
      rw [this, npNorm_smul, motionDelta_norm hne hv hdt, hTn, abs_of_nonneg (Nat.cast_nonneg n)]
      nlinarith

theorem npNorm_one (a : ℝ) (ha : 0 ≤ a) : npNorm (ι := Fin 1) (fun i => ![a] i - ![0] i) = a := by
  simp [npNorm, Real.sqrt_mul_self ha]

/-- Violation of C154: a distance of three, with a velocity of two in steps of one, ends at four.  With the time step of the scene halved, a distance of four ends at eight. -/
theorem C154_violated :
    (¬ReachesGoal (fun k => (motionAfter ![0] ![3] 1 2 1 k).position) ![0] ![3] 2 1 ∧ (motionAfter ![0] ![3] 1 2 1 2).position 0 = 4) ∧
    (¬ReachesGoal (fun k => (motionAfter ![0] ![4] 1 2 (1 / 2) k).position) ![0] ![4] 2 (1 / 2) ∧ (motionAfter ![0] ![4] 1 2 (1 / 2) 4).position 0 = 8) := by
  have n3 : (![3] : Fin 1 → ℝ) ≠ ![0] := fun h => by have := congrFun h 0; norm_num at this
  have n4 : (![4] : Fin 1 → ℝ) ≠ ![0] := fun h => by have := congrFun h 0; norm_num at this
  have t3 : motionTime ![0] ![3] 2 = 3 / 2 := by rw [motionTime, npNorm_one 3 (by norm_num)]
  have t4 : motionTime ![0] ![4] 2 = 2 := by rw [motionTime, npNorm_one 4 (by norm_num)]; norm_num
  refine ⟨⟨fun hc => ?_, ?_⟩, fun hc => ?_, ?_⟩
  · obtain ⟨_, n, hn⟩ := (C154_partial _ _ n3 1 2 1 (by norm_num) (by norm_num) (by norm_num)).1 hc
    rw [npNorm_one 3 (by norm_num)] at hn
    have h2 : ((3 : ℕ) : ℝ) = ((2 * n : ℕ) : ℝ) := by push_cast; linarith
    have := Nat.cast_injective h2
    omega
  · rw [motion_position _ _ _ _ _ (by norm_num), t3]
    have : ⌈(3 / 2 / 1 : ℝ)⌉₊ = 2 := by rw [Nat.ceil_eq_iff (by norm_num)]; norm_num
    rw [this]
    simp [motionDelta, t3]; norm_num
  · have := ((C154_partial _ _ n4 1 2 (1 / 2) (by norm_num) (by norm_num) (by norm_num)).1 hc).1
    norm_num at this
  · rw [motion_position _ _ _ _ _ (by norm_num), t4]
    have : ⌈(2 / (1 / 2) : ℝ)⌉₊ = 4 := by rw [Nat.ceil_eq_iff (by norm_num)]; norm_num
    rw [this]
    simp [motionDelta, t4]; norm_num

/-- The motion of the benchmark, 0.02 with a velocity of 0.005 in steps of one, reaches its goal in exact arithmetic. -/
example : ReachesGoal (fun k => (motionAfter ![0] ![1 / 50] 1 (1 / 200) 1 k).position) ![0] ![1 / 50] (1 / 200) 1 := by
  refine (C154_partial _ _ (fun h => by have := congrFun h 0; norm_num at this) 1 _ 1 (by norm_num) (by norm_num) (by norm_num)).2 ⟨rfl, 4, ?_⟩
  rw [npNorm_one _ (by norm_num)]; norm_num

end Caribou
