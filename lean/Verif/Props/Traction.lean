import Verif.Lemmas.Traction

/-!
# Properties C50, C51, C75: traction force field and bounding boxes
-/

set_option autoImplicit false

namespace Caribou

open Spec

namespace TractionState

variable {D N n M : ℕ}

/-- What `k` time steps do to the field: `k` times `handleEvent`. -/
noncomputable def afterSteps (d : TractionData D) : ℕ → TractionState D N n M → Outcome (TractionState D N n M)
  | 0, s => .ok s
  | k + 1, s =>
    match afterSteps d k s with
    | .ok s' => s'.handleEvent d
    | o => o

/-- `get_gauss_nodes` for a surface element type of the 3D space. -/
noncomputable abbrev nodes3 (T : SurfaceType) : (Fin T.numNodes → Fin 3 → ℝ) → List (TNode T.numNodes) :=
  getTractionNodes T.elem T.gauss areaFactor3

/-- `get_gauss_nodes` for a surface element type of the plane. -/
noncomputable abbrev nodes2 (T : SurfaceType) : (Fin T.numNodes → Fin 2 → ℝ) → List (TNode T.numNodes) :=
  getTractionNodes T.elem T.gauss areaFactor2

end TractionState

/-- Area of the surface as the quadrature of the elements sees it: the norm of the cross product of the tangents (C07),
integrated with the quadrature (C12) of each element. -/
noncomputable def surfaceArea3 (T : SurfaceType) {N M : ℕ} (idx : Fin M → Fin T.numNodes → Fin N)
    (X : Fin N → Fin 3 → ℝ) : ℝ :=
  ∑ e, (T.gauss.map fun g =>
    let J := T.elem.jacobian (fun i => X (idx e i)) g.position
    g.weight * parallelogramArea (fun a => J a 0) (fun a => J a 1)).sum

/-- The same in the plane. -/
noncomputable def surfaceArea2 (T : SurfaceType) {N M : ℕ} (idx : Fin M → Fin T.numNodes → Fin N)
    (X : Fin N → Fin 2 → ℝ) : ℝ :=
  ∑ e, (T.gauss.map fun g => g.weight * |(T.elem.jacobian (fun i => X (idx e i)) g.position).det|).sum

/-- Starting from a new force field, initialisation and `k` time steps succeed, and what `addForce` then adds sums up to
`c • t` times the area; the field's record of the load is the norm of that sum. -/
def TotalForce {D N n M : ℕ} (idx : Fin M → Fin n → Fin N) (nodesOf : (Fin n → Fin D → ℝ) → List (TNode n))
    (X0 : Fin N → Fin D → ℝ) (eps : ℝ) (d : TractionData D) (k : ℕ) (area c : ℝ) : Prop :=
  ∃ s0 s, (TractionState.fresh D idx).init d eps nodesOf X0 = .ok s0 ∧ s0.afterSteps d k = .ok s ∧
    s.totalLoad = norm2 ((area * c) • d.traction) ∧
    ∀ f, ∃ f', s.addForce f = .ok f' ∧ ∑ p, (f' p - f p) = (area * c) • d.traction

/-- The same, node by node: `addForce` adds `share p` times `c • t` to node `p`. -/
def NodalForce {D N n M : ℕ} (idx : Fin M → Fin n → Fin N) (nodesOf : (Fin n → Fin D → ℝ) → List (TNode n))
    (X0 : Fin N → Fin D → ℝ) (eps : ℝ) (d : TractionData D) (k : ℕ) (share : Fin N → ℝ) (c : ℝ) : Prop :=
  ∃ s0 s, (TractionState.fresh D idx).init d eps nodesOf X0 = .ok s0 ∧ s0.afterSteps d k = .ok s ∧
    ∀ f, s.addForce f = .ok fun p => f p + (share p * c) • d.traction

theorem SurfaceType.sum_L (T : SurfaceType) (ξ : Fin 2 → ℝ) : ∑ i, T.elem.L ξ i = 1 := by
  cases T
  · exact triangle1_sum ξ
  · exact triangle2_sum ξ
  · exact quad1_sum ξ
  · exact quad2_sum ξ

namespace TractionState

variable {D N n M : ℕ}

theorem Carries.addForce {s : TractionState D N n M} {c : ℝ} {T : Fin D → ℝ} (h : s.Carries c T)
    (f : Fin N → Fin D → ℝ) : s.addForce f = .ok fun p => f p + s.share p • (c • T) := by
  simp only [TractionState.addForce, h.nodal]

theorem Carries.total {s : TractionState D N n M} {c : ℝ} {T : Fin D → ℝ} (h : s.Carries c T)
    (hN : ∀ e, ∀ g ∈ s.qnodes e, ∑ i, g.N i = 1) (f : Fin N → Fin D → ℝ) :
    ∃ f', s.addForce f = .ok f' ∧ ∑ p, (f' p - f p) = (s.area * c) • T := by
  refine ⟨_, h.addForce f, ?_⟩
  simp only [add_sub_cancel_left]
  rw [← Finset.sum_smul, sum_share s hN, smul_smul]

/-- Facts that no time step changes. -/
structure Same (s s' : TractionState D N n M) : Prop where
  idx : s'.idx = s.idx
  qnodes : s'.qnodes = s.qnodes
  constant : s'.constant = s.constant

theorem Same.area {s s' : TractionState D N n M} (h : Same s s') : s'.area = s.area := by
  simp only [TractionState.area, h.qnodes]

theorem Same.share {s s' : TractionState D N n M} (h : Same s s') : s'.share = s.share := by
  funext p; simp only [TractionState.share, h.qnodes, h.idx]

theorem constant_steps {s : TractionState D N n M} (hc : s.constant = true) (d : TractionData D) (k : ℕ) :
    s.afterSteps d k = .ok s := by
  induction k with
  | zero => rfl
  | succ k ih => simp only [afterSteps, ih, handleEvent, hc, if_true]

theorem norm2_smul_add {m : ℕ} (a : ℝ) {c b : ℝ} (hc : 0 ≤ c) (hb : 0 ≤ b) (T : Fin m → ℝ) :
    norm2 (a • c • T) + norm2 (a • b • T) = norm2 (a • (c + b) • T) := by
  have h : ∀ x : ℝ, 0 ≤ x → norm2 (a • x • T) = x * norm2 (a • T) := fun x hx => by
    rw [smul_comm a x T, norm2_smul hx]
  rw [h c hc, h b hb, h (c + b) (add_nonneg hc hb)]; ring

/-- One increment. -/
theorem increment_carries {s : TractionState D N n M} {c b : ℝ} {T : Fin D → ℝ} (h : s.Carries c T)
    (hN : ∀ e, ∀ g ∈ s.qnodes e, ∑ i, g.N i = 1) (hc : 0 ≤ c) (hb : 0 ≤ b) (k : ℕ) (v : Fin D → ℝ) :
    ∃ s', { s with counter := k, current := v }.incrementLoad (b • T) = .ok s' ∧ Same s s' ∧ s'.Carries (c + b) T ∧
      s'.counter = k ∧ s'.current = v := by
  have hN' : ∀ e, ∀ g ∈ ({ s with counter := k, current := v } : TractionState D N n M).qnodes e, ∑ i, g.N i = 1 := hN
  refine ⟨_, incrementLoad_some _ hN' _ h.nodal _, ⟨rfl, rfl, rfl⟩, ⟨?_, ?_⟩, rfl, rfl⟩
  · refine congrArg some (funext fun p => ?_)
    change s.share p • c • T + s.share p • b • T = s.share p • (c + b) • T
    module
  · change s.totalLoad + norm2 (s.area • b • T) = norm2 (s.area • (c + b) • T)
    rw [h.load, norm2_smul_add _ hc hb]

theorem steps_carries {s : TractionState D N n M} (d : TractionData D) (h : s.Carries 0 d.traction)
    (hN : ∀ e, ∀ g ∈ s.qnodes e, ∑ i, g.N i = 1) (hcur : s.current = 0) (hcount : s.counter = d.steps)
    (hconst : s.constant = false) (hslope : 0 < d.slope) (k : ℕ) :
    ∃ s', s.afterSteps d k = .ok s' ∧ Same s s' ∧ s'.Carries (min (incrementsDue d.steps k * d.slope) 1) d.traction ∧
      s'.current = min (incrementsDue d.steps k * d.slope) 1 • d.traction ∧
      (norm2 s'.current < norm2 d.traction → (incrementsDue d.steps k * d.slope) < 1 ∧
        s'.counter = if k = 0 then d.steps else (k - 1) % max d.steps 1) := by
  induction k with
  | zero =>
    refine ⟨s, rfl, ⟨rfl, rfl, rfl⟩, by simpa [incrementsDue] using h, by simp [incrementsDue, hcur], fun _ => ?_⟩
    simp [incrementsDue, hcount]
  | succ k ih =>
    obtain ⟨s', h1, h2, h3, h4, h5⟩ := ih
    set m := max d.steps 1 with hm
    have hmpos : 0 < m := by omega
    have hmono : incrementsDue d.steps k ≤ incrementsDue d.steps (k + 1) := by
      rcases Nat.eq_zero_or_pos k with rfl | hk
      · simp [incrementsDue]
      · simp only [incrementsDue, Nat.pos_iff_ne_zero.mp hk, if_false, Nat.succ_ne_zero]
        have := Nat.div_le_div_right (c := max d.steps 1) (show k - 1 ≤ k + 1 - 1 by omega)
        omega
    have hnn : (0:ℝ) ≤ incrementsDue d.steps k * d.slope := by positivity
    have hstep : s.afterSteps d (k + 1) = s'.handleEvent d := by simp only [afterSteps, h1]
    have hc' : s'.constant = false := by rw [h2.constant, hconst]
    by_cases hsat : norm2 s'.current ≥ norm2 d.traction
    · have heq : min (incrementsDue d.steps (k + 1) * d.slope) 1 • d.traction =
          min (incrementsDue d.steps k * d.slope) 1 • d.traction := by
        by_cases hT : d.traction = 0
        · simp [hT]
        · have hpos := norm2_pos (sq_pos_of_ne hT)
          rw [h4, norm2_smul (le_min hnn zero_le_one)] at hsat
          have h1' : 1 ≤ min (incrementsDue d.steps k * d.slope) 1 := by
            by_contra hlt
            push Not at hlt
            nlinarith
          have h2' : (1:ℝ) ≤ incrementsDue d.steps k * d.slope := le_trans h1' (min_le_left _ _)
          have h3' : (1:ℝ) ≤ incrementsDue d.steps (k + 1) * d.slope :=
            le_trans h2' (mul_le_mul_of_nonneg_right (by exact_mod_cast hmono) hslope.le)
          rw [min_eq_right h2', min_eq_right h3']
      refine ⟨s', ?_, h2, ⟨?_, ?_⟩, ?_, fun hlt => absurd hsat (not_le.mpr hlt)⟩
      · rw [hstep, handleEvent, if_neg (by simp [hc']), if_pos hsat]
      · rw [h3.nodal, heq]
      · rw [h3.load, heq]
      · rw [h4, heq]
    · obtain ⟨h6, h7⟩ := h5 (not_le.mp hsat)
      have hT : norm2 d.traction ≠ 0 := fun h0 => hsat (by rw [h0]; exact norm2_nonneg _)
      have hTpos : 0 < norm2 d.traction := lt_of_le_of_ne (norm2_nonneg _) (Ne.symm hT)
      rw [min_eq_left h6.le] at h3 h4
      by_cases hcnt : s'.counter + 1 < d.steps
      · have hk : k ≠ 0 := by rintro rfl; simp at h7; omega
        rw [if_neg hk] at h7
        have hms : m = d.steps := by omega
        have hnow : (k - 1) % m + 1 < m := by omega
        have hdiv : (k + 1 - 1) / m = (k - 1) / m ∧ (k + 1 - 1) % m = (k - 1) % m + 1 := by
          have := Nat.div_add_mod (k - 1) m
          have hk1 : k + 1 - 1 = m * ((k - 1) / m) + ((k - 1) % m + 1) := by omega
          rw [hk1]
          refine ⟨?_, ?_⟩
          · rw [Nat.mul_add_div hmpos, Nat.div_eq_of_lt hnow, add_zero]
          · rw [Nat.mul_add_mod, Nat.mod_eq_of_lt hnow]
        have hinc : incrementsDue d.steps (k + 1) = incrementsDue d.steps k := by
          simp only [incrementsDue, hk, if_false, Nat.succ_ne_zero, ← hm, hdiv.1]
        refine ⟨{ s' with counter := s'.counter + 1 }, ?_, ⟨h2.idx, h2.qnodes, h2.constant⟩, ?_, ?_, fun _ => ⟨by rw [hinc]; exact h6, ?_⟩⟩
        · rw [hstep, handleEvent, if_neg (by simp [hc']), if_neg hsat]
          simp only [hcnt, if_true]
        · rw [hinc, min_eq_left h6.le]; exact ⟨h3.nodal, h3.load⟩
        · rw [hinc, min_eq_left h6.le]; exact h4
        · simp only [Nat.succ_ne_zero, if_false]; rw [hdiv.2, h7]
      · have hinc : incrementsDue d.steps (k + 1) = incrementsDue d.steps k + 1 ∧ (k + 1 - 1) % m = 0 := by
          rcases Nat.eq_zero_or_pos k with rfl | hk
          · simp [incrementsDue]
          · have hk0 : k ≠ 0 := hk.ne'
            rw [if_neg hk0] at h7
            have hlt := Nat.mod_lt (k - 1) hmpos
            have hnow : (k - 1) % m + 1 = m := by omega
            have := Nat.div_add_mod (k - 1) m
            have hk1 : k + 1 - 1 = m * ((k - 1) / m + 1) := by rw [Nat.mul_add, Nat.mul_one]; omega
            refine ⟨?_, ?_⟩
            · simp only [incrementsDue, hk0, if_false, Nat.succ_ne_zero, ← hm]
              rw [hk1, Nat.mul_div_cancel_left _ hmpos]; omega
            · rw [hk1, Nat.mul_mod_right]
        have hcur2 : s'.current + d.slope • d.traction = (incrementsDue d.steps (k + 1) * d.slope) • d.traction := by
          rw [h4, hinc.1, ← add_smul]; congr 1; push_cast; ring
        have hcut : norm2 (s'.current + d.slope • d.traction) > norm2 d.traction ↔
            1 < incrementsDue d.steps (k + 1) * d.slope := by
          rw [hcur2, norm2_smul (by positivity)]
          constructor <;> intro hh <;> nlinarith
        obtain ⟨b, hb0, hb, hbc⟩ : ∃ b : ℝ, 0 ≤ b ∧
            (if norm2 (s'.current + d.slope • d.traction) > norm2 d.traction then d.traction - s'.current
              else d.slope • d.traction) = b • d.traction ∧
            incrementsDue d.steps k * d.slope + b = min (incrementsDue d.steps (k + 1) * d.slope) 1 := by
          by_cases hgt : 1 < incrementsDue d.steps (k + 1) * d.slope
          · refine ⟨1 - incrementsDue d.steps k * d.slope, by linarith, ?_, ?_⟩
            · rw [if_pos (hcut.mpr hgt), h4, sub_smul, one_smul]
            · rw [min_eq_right hgt.le]; ring
          · refine ⟨d.slope, hslope.le, by rw [if_neg (fun hh => hgt (hcut.mp hh))], ?_⟩
            rw [min_eq_left (not_lt.mp hgt), hinc.1]; push_cast; ring
        obtain ⟨s'', g1, g2, g3, g4, g5⟩ := increment_carries h3 (fun e g hg => hN e g (by rw [← h2.qnodes]; exact hg)) hnn hb0 0
          (s'.current + b • d.traction)
        have hcur : s''.current = min (incrementsDue d.steps (k + 1) * d.slope) 1 • d.traction := by
          rw [g5, h4, ← add_smul, hbc]
        refine ⟨s'', ?_, ⟨g2.idx.trans h2.idx, g2.qnodes.trans h2.qnodes, g2.constant.trans h2.constant⟩, ?_, hcur, fun hlt => ⟨?_, ?_⟩⟩
        · rw [hstep, handleEvent, if_neg (by simp [hc']), if_neg hsat]
          simp only [hcnt, if_false]
          rw [hb, g1]
        · rw [← hbc]; exact g3
        · by_contra hge
          push Not at hge
          rw [hcur, min_eq_right hge, one_smul] at hlt
          exact lt_irrefl _ hlt
        · simp only [Nat.succ_ne_zero, if_false]; rw [g4, hinc.2]

variable (idx : Fin M → Fin n → Fin N) (nodesOf : (Fin n → Fin D → ℝ) → List (TNode n)) (X0 : Fin N → Fin D → ℝ)

theorem init_constant (hN : ∀ X, ∀ g ∈ nodesOf X, ∑ i, g.N i = 1) (eps : ℝ) (d : TractionData D)
    (h1 : -eps < d.slope) (h2 : d.slope < eps) :
    ∃ s, (fresh D idx).init d eps nodesOf X0 = .ok s ∧ s.constant = true ∧ s.Carries 1 d.traction ∧ s.idx = idx ∧
      s.qnodes = fun e => nodesOf fun i => X0 (idx e i) := by
  have hq : ∀ e, ∀ g ∈ (fun e => nodesOf fun i => X0 (idx e i)) e, ∑ i, g.N i = 1 := fun e g hg => hN _ g hg
  let s0 : TractionState D N n M :=
    { fresh D idx with constant := true, nodal := some 0, counter := d.steps, qnodes := fun e => nodesOf fun i => X0 (idx e i) }
  have h0 : (fresh D idx).init d eps nodesOf X0 = s0.incrementLoad d.traction := by
    rw [init]
    simp only [gt_iff_lt, h1, h2, and_self, if_true]
    rfl
  refine ⟨_, h0.trans (incrementLoad_some s0 hq 0 rfl _), rfl, ⟨?_, ?_⟩, rfl, rfl⟩
  · refine congrArg some (funext fun p => ?_)
    rw [one_smul]
    exact zero_add _
  · rw [one_smul]
    exact zero_add _

theorem init_incremental (eps : ℝ) (heps : 0 < eps) (d : TractionData D) (h : eps ≤ d.slope) :
    ∃ s, (fresh D idx).init d eps nodesOf X0 = .ok s ∧ s.constant = false ∧ s.Carries 0 d.traction ∧ s.idx = idx ∧
      s.qnodes = (fun e => nodesOf fun i => X0 (idx e i)) ∧ s.current = 0 ∧ s.counter = d.steps := by
  let s0 : TractionState D N n M :=
    { fresh D idx with nodal := some 0, counter := d.steps, qnodes := fun e => nodesOf fun i => X0 (idx e i) }
  have h0 : (fresh D idx).init d eps nodesOf X0 = .ok s0 := by
    rw [init]
    simp only [not_lt.mpr h, and_false, if_false]
    rfl
  refine ⟨s0, h0, rfl, ⟨?_, ?_⟩, rfl, rfl, rfl, rfl⟩
  · refine congrArg some (funext fun p => ?_)
    simp
  · rw [zero_smul, smul_zero, norm2_zero]
    rfl

theorem total_constant (hN : ∀ X, ∀ g ∈ nodesOf X, ∑ i, g.N i = 1) (eps : ℝ) (d : TractionData D)
    (h1 : -eps < d.slope) (h2 : d.slope < eps) (k : ℕ) :
    TotalForce idx nodesOf X0 eps d k (∑ e, ((nodesOf fun i => X0 (idx e i)).map fun g => g.weight * g.detJ).sum) 1 := by
  obtain ⟨s, g1, g2, g3, g4, g5⟩ := init_constant idx nodesOf X0 hN eps d h1 h2
  have ha : s.area = ∑ e, ((nodesOf fun i => X0 (idx e i)).map fun g => g.weight * g.detJ).sum := by rw [area, g5]
  rw [← ha]
  refine ⟨s, s, g1, constant_steps g2 d k, by rw [g3.load, smul_smul], fun f => ?_⟩
  exact g3.total (by rw [g5]; exact fun e g hg => hN _ g hg) f

theorem total_incremental (hN : ∀ X, ∀ g ∈ nodesOf X, ∑ i, g.N i = 1) (eps : ℝ) (heps : 0 < eps) (d : TractionData D)
    (h : eps ≤ d.slope) (k : ℕ) :
    TotalForce idx nodesOf X0 eps d k (∑ e, ((nodesOf fun i => X0 (idx e i)).map fun g => g.weight * g.detJ).sum)
      (min (incrementsDue d.steps k * d.slope) 1) := by
  obtain ⟨s, g1, g2, g3, g4, g5, g6, g7⟩ := init_incremental idx nodesOf X0 eps heps d h
  have hq : ∀ e, ∀ g ∈ s.qnodes e, ∑ i, g.N i = 1 := by rw [g5]; exact fun e g hg => hN _ g hg
  have ha : s.area = ∑ e, ((nodesOf fun i => X0 (idx e i)).map fun g => g.weight * g.detJ).sum := by rw [area, g5]
  rw [← ha]
  obtain ⟨s', k1, k2, k3, k4, -⟩ := steps_carries d g3 hq g6 g7 g2 (lt_of_lt_of_le heps h) k
  rw [← k2.area]
  refine ⟨s, s', g1, k1, by rw [k3.load, smul_smul], fun f => ?_⟩
  exact k3.total (by rw [k2.qnodes]; exact hq) f

theorem nodal_constant (hN : ∀ X, ∀ g ∈ nodesOf X, ∑ i, g.N i = 1) (eps : ℝ) (d : TractionData D)
    (h1 : -eps < d.slope) (h2 : d.slope < eps) (k : ℕ) :
    NodalForce idx nodesOf X0 eps d k (fun p => ∑ e, ((nodesOf fun i => X0 (idx e i)).map fun g =>
      ∑ i, if idx e i = p then g.N i * (g.weight * g.detJ) else 0).sum) 1 := by
  obtain ⟨s, g1, g2, g3, g4, g5⟩ := init_constant idx nodesOf X0 hN eps d h1 h2
  refine ⟨s, s, g1, constant_steps g2 d k, fun f => ?_⟩
  rw [g3.addForce]
  simp only [share, g5, g4, smul_smul]

theorem nodal_incremental (hN : ∀ X, ∀ g ∈ nodesOf X, ∑ i, g.N i = 1) (eps : ℝ) (heps : 0 < eps) (d : TractionData D)
    (h : eps ≤ d.slope) (k : ℕ) :
    NodalForce idx nodesOf X0 eps d k (fun p => ∑ e, ((nodesOf fun i => X0 (idx e i)).map fun g =>
      ∑ i, if idx e i = p then g.N i * (g.weight * g.detJ) else 0).sum) (min (incrementsDue d.steps k * d.slope) 1) := by
  obtain ⟨s, g1, g2, g3, g4, g5, g6, g7⟩ := init_incremental idx nodesOf X0 eps heps d h
  have hq : ∀ e, ∀ g ∈ s.qnodes e, ∑ i, g.N i = 1 := by rw [g5]; exact fun e g hg => hN _ g hg
  obtain ⟨s', k1, k2, k3, k4, -⟩ := steps_carries d g3 hq g6 g7 g2 (lt_of_lt_of_le heps h) k
  refine ⟨s, s', g1, k1, fun f => ?_⟩
  rw [k3.addForce]
  simp only [share, k2.qnodes, k2.idx, g5, g4, smul_smul]

end TractionState

theorem nodes_sum_one {D : ℕ} (T : SurfaceType) (af : Matrix (Fin D) (Fin 2) ℝ → ℝ) (X : Fin T.numNodes → Fin D → ℝ) :
    ∀ g ∈ getTractionNodes T.elem T.gauss af X, ∑ i, g.N i = 1 := by
  intro g hg
  obtain ⟨q, _, rfl⟩ := List.mem_map.mp hg
  exact T.sum_L q.position

theorem norm2_eq (v : Fin 3 → ℝ) : norm2 v = Real.sqrt (∑ k, v k ^ 2) := by
  simp only [norm2, sq]

theorem areaFactor3_eq (J : Matrix (Fin 3) (Fin 2) ℝ) :
    areaFactor3 J = parallelogramArea (fun a => J a 0) (fun a => J a 1) := by
  rw [areaFactor3, abs_of_nonneg (norm2_nonneg _), norm2_eq, parallelogramArea]

theorem surfaceArea3_eq (T : SurfaceType) {N M : ℕ} (idx : Fin M → Fin T.numNodes → Fin N) (X : Fin N → Fin 3 → ℝ) :
    (∑ e, ((TractionState.nodes3 T fun i => X (idx e i)).map fun g => g.weight * g.detJ).sum) = surfaceArea3 T idx X := by
  simp only [surfaceArea3, TractionState.nodes3, getTractionNodes, List.map_map, Function.comp_def, areaFactor3_eq]

theorem surfaceArea2_eq (T : SurfaceType) {N M : ℕ} (idx : Fin M → Fin T.numNodes → Fin N) (X : Fin N → Fin 2 → ℝ) :
    (∑ e, ((TractionState.nodes2 T fun i => X (idx e i)).map fun g => g.weight * g.detJ).sum) = surfaceArea2 T idx X := by
  simp only [surfaceArea2, TractionState.nodes2, getTractionNodes, List.map_map, Function.comp_def, areaFactor2]

/-- **C50** (constant traction, 3D): for every surface, `addForce` applies the traction times the area, after any number
of time steps. -/
theorem C50_constant (T : SurfaceType) {N M : ℕ} (idx : Fin M → Fin T.numNodes → Fin N) (X0 : Fin N → Fin 3 → ℝ)
    (eps : ℝ) (d : TractionData 3) (h1 : -eps < d.slope) (h2 : d.slope < eps) (k : ℕ) :
    TotalForce idx (TractionState.nodes3 T) X0 eps d k (surfaceArea3 T idx X0) 1 := by
  rw [← surfaceArea3_eq]
  exact TractionState.total_constant idx _ X0 (nodes_sum_one T _) eps d h1 h2 k

/-- **C50** (incremental load, 3D): after `k` time steps the traction applied is `min (n * slope) 1` times the prescribed
one, with `n` the number of increments due in `k` time steps. -/
theorem C50_incremental (T : SurfaceType) {N M : ℕ} (idx : Fin M → Fin T.numNodes → Fin N) (X0 : Fin N → Fin 3 → ℝ)
    (eps : ℝ) (heps : 0 < eps) (d : TractionData 3) (h : eps ≤ d.slope) (k : ℕ) :
    TotalForce idx (TractionState.nodes3 T) X0 eps d k (surfaceArea3 T idx X0)
      (min (incrementsDue d.steps k * d.slope) 1) := by
  rw [← surfaceArea3_eq]
  exact TractionState.total_incremental idx _ X0 (nodes_sum_one T _) eps heps d h k

/-- **C50** in the plane. -/
theorem C50_plane (T : SurfaceType) {N M : ℕ} (idx : Fin M → Fin T.numNodes → Fin N) (X0 : Fin N → Fin 2 → ℝ)
    (eps : ℝ) (heps : 0 < eps) (d : TractionData 2) (k : ℕ) :
    (-eps < d.slope → d.slope < eps → TotalForce idx (TractionState.nodes2 T) X0 eps d k (surfaceArea2 T idx X0) 1) ∧
    (eps ≤ d.slope → TotalForce idx (TractionState.nodes2 T) X0 eps d k (surfaceArea2 T idx X0)
      (min (incrementsDue d.steps k * d.slope) 1)) := by
  rw [← surfaceArea2_eq]
  exact ⟨fun h1 h2 => TractionState.total_constant idx _ X0 (nodes_sum_one T _) eps d h1 h2 k,
    fun h => TractionState.total_incremental idx _ X0 (nodes_sum_one T _) eps heps d h k⟩

theorem triangle1_col (X : Fin 3 → Fin 3 → ℝ) (ξ : Fin 2 → ℝ) :
    (fun a => triangle1.jacobian X ξ a 0) = X 1 - X 0 ∧ (fun a => triangle1.jacobian X ξ a 1) = X 2 - X 0 := by
  constructor <;> funext a <;> simp only [Elem.jacobian, triangle1, sum_fin3, Matrix.cons_val, Pi.sub_apply] <;> ring

theorem quad1_col (X : Fin 4 → Fin 3 → ℝ) (hX : X 2 = X 1 + X 3 - X 0) (ξ : Fin 2 → ℝ) :
    (fun a => quad1.jacobian X ξ a 0) = (1 / 2 : ℝ) • (X 1 - X 0) ∧
      (fun a => quad1.jacobian X ξ a 1) = (1 / 2 : ℝ) • (X 3 - X 0) := by
  constructor <;> funext a <;> simp only [Elem.jacobian, quad1, sum_fin4, Matrix.cons_val, Pi.sub_apply, Pi.smul_apply, smul_eq_mul, hX, Pi.add_apply] <;> ring

/-- **C50** (areas): on linear triangles the area used is the exact area of the triangles. -/
theorem C50_triangles {N M : ℕ} (idx : Fin M → Fin 3 → Fin N) (X : Fin N → Fin 3 → ℝ) :
    surfaceArea3 .triangle1 idx X = ∑ e, triangleArea (X (idx e 0)) (X (idx e 1)) (X (idx e 2)) := by
  refine Finset.sum_congr rfl fun e _ => ?_
  change (gaussTriangle1.map fun g => g.weight * parallelogramArea
    (fun a => triangle1.jacobian (fun i => X (idx e i)) g.position a 0)
    (fun a => triangle1.jacobian (fun i => X (idx e i)) g.position a 1)).sum = _
  simp only [(triangle1_col _ _).1, (triangle1_col _ _).2, gaussTriangle1, List.map_cons, List.map_nil, List.sum_cons,
    List.sum_nil, triangleArea, parallelogramArea]
  ring

/-- **C50** (areas): on parallelograms the area used is the exact area. -/
theorem C50_parallelograms {N M : ℕ} (idx : Fin M → Fin 4 → Fin N) (X : Fin N → Fin 3 → ℝ)
    (h : ∀ e, X (idx e 2) = X (idx e 1) + X (idx e 3) - X (idx e 0)) :
    surfaceArea3 .quad1 idx X = ∑ e, parallelogramArea (X (idx e 1) - X (idx e 0)) (X (idx e 3) - X (idx e 0)) := by
  refine Finset.sum_congr rfl fun e _ => ?_
  change (gaussQuad.map fun g => g.weight * parallelogramArea
    (fun a => quad1.jacobian (fun i => X (idx e i)) g.position a 0)
    (fun a => quad1.jacobian (fun i => X (idx e i)) g.position a 1)).sum = _
  have hp : ∀ u v : Fin 3 → ℝ, parallelogramArea ((1 / 2 : ℝ) • u) ((1 / 2 : ℝ) • v) = 1 / 4 * parallelogramArea u v := by
    intro u v
    have : crossProduct ((1 / 2 : ℝ) • u) ((1 / 2 : ℝ) • v) = (1 / 4 : ℝ) • crossProduct u v := by
      funext k
      fin_cases k <;> simp [cross_apply] <;> ring
    rw [parallelogramArea, ← norm2_eq, this, norm2_smul (by norm_num), norm2_eq, parallelogramArea]
  simp only [(quad1_col (fun i => X (idx e i)) (h e) _).1, (quad1_col (fun i => X (idx e i)) (h e) _).2, hp, gaussQuad, List.map_cons, List.map_nil, List.sum_cons,
    List.sum_nil]
  ring

theorem triangle1_share {N M : ℕ} (idx : Fin M → Fin 3 → Fin N) (X : Fin N → Fin 3 → ℝ) (p : Fin N) :
    (∑ e, ((TractionState.nodes3 .triangle1 fun i => X (idx e i)).map fun g =>
      ∑ i, if idx e i = p then g.N i * (g.weight * g.detJ) else 0).sum) =
    ∑ e, ∑ i, if idx e i = p then triangleArea (X (idx e 0)) (X (idx e 1)) (X (idx e 2)) / 3 else 0 := by
  refine Finset.sum_congr rfl fun e _ => ?_
  change (gaussTriangle1.map fun g => ∑ i : Fin 3, if idx e i = p then
    triangle1.L g.position i * (g.weight * areaFactor3 (triangle1.jacobian (fun i => X (idx e i)) g.position)) else 0).sum = _
  simp only [areaFactor3_eq, (triangle1_col _ _).1, (triangle1_col _ _).2, gaussTriangle1, List.map_cons, List.map_nil,
    List.sum_cons, List.sum_nil, add_zero]
  refine Finset.sum_congr rfl fun i _ => ?_
  refine if_congr Iff.rfl ?_ rfl
  have : triangle1.L (![1 / 3, 1 / 3] : Fin 2 → ℝ) i = 1 / 3 := by
    fin_cases i <;> simp only [triangle1, Matrix.cons_val, Fin.isValue, Fin.reduceFinMk, Fin.zero_eta, Fin.mk_one] <;> norm_num
  rw [this, triangleArea, parallelogramArea]
  ring

/-- **C50** (distribution): on linear triangles every node receives a third of the load of each of its triangles. -/
theorem C50_nodes {N M : ℕ} (idx : Fin M → Fin 3 → Fin N) (X0 : Fin N → Fin 3 → ℝ) (eps : ℝ) (heps : 0 < eps)
    (d : TractionData 3) (k : ℕ) :
    (-eps < d.slope → d.slope < eps → NodalForce idx (TractionState.nodes3 .triangle1) X0 eps d k
      (fun p => ∑ e, ∑ i, if idx e i = p then triangleArea (X0 (idx e 0)) (X0 (idx e 1)) (X0 (idx e 2)) / 3 else 0) 1) ∧
    (eps ≤ d.slope → NodalForce idx (TractionState.nodes3 .triangle1) X0 eps d k
      (fun p => ∑ e, ∑ i, if idx e i = p then triangleArea (X0 (idx e 0)) (X0 (idx e 1)) (X0 (idx e 2)) / 3 else 0)
      (min (incrementsDue d.steps k * d.slope) 1)) := by
  simp only [← triangle1_share]
  exact ⟨fun h1 h2 => TractionState.nodal_constant (n := 3) idx _ X0 (nodes_sum_one .triangle1 _) eps d h1 h2 k,
    fun h => TractionState.nodal_incremental (n := 3) idx _ X0 (nodes_sum_one .triangle1 _) eps heps d h k⟩

/-- One right triangle with legs of length one, pulled upwards with slope 3/10 every other time step: after five time
steps three increments were made. -/
example : TotalForce (fun _ : Fin 1 => ![0, 1, 2]) (TractionState.nodes3 .triangle1)
    ![![0, 0, 0], ![1, 0, 0], ![0, 1, 0]] (1 / 10 ^ 15) ⟨![0, 0, 2], 3 / 10, 2⟩ 5
    (surfaceArea3 .triangle1 (fun _ : Fin 1 => ![0, 1, 2]) ![![0, 0, 0], ![1, 0, 0], ![0, 1, 0]]) (9 / 10) := by
  have h := C50_incremental .triangle1 (N := 3) (fun _ : Fin 1 => ![0, 1, 2]) ![![0, 0, 0], ![1, 0, 0], ![0, 1, 0]]
    (1 / 10 ^ 15) (by norm_num) ⟨![0, 0, 2], 3 / 10, 2⟩ (by norm_num) 5
  have h2 : min ((incrementsDue 2 5 : ℕ) * (3 / 10 : ℝ)) 1 = 9 / 10 := by
    have : incrementsDue 2 5 = 3 := by decide
    rw [this]; norm_num
  rw [h2] at h
  exact h

/-- The triangle of the previous example has area 1/2. -/
example : surfaceArea3 .triangle1 (fun _ : Fin 1 => ![0, 1, 2]) ![![0, 0, 0], ![1, 0, 0], ![0, 1, 0]] = 1 / 2 := by
  rw [C50_triangles (N := 3)]
  simp [triangleArea, cross_apply, Fin.sum_univ_three]

/-- The unit square is a parallelogram. -/
example : surfaceArea3 .quad1 (fun _ : Fin 1 => ![0, 1, 2, 3]) ![![0, 0, 0], ![1, 0, 0], ![1, 1, 0], ![0, 1, 0]] = 1 := by
  rw [C50_parallelograms (N := 4) _ _ (fun e => by funext a; fin_cases a <;> simp)]
  simp [parallelogramArea, cross_apply, Fin.sum_univ_three]

/-! ## C75: `reset` -/

/-- **C75, negation**: a constant traction field with at least one node has undefined behaviour at the first `addForce`
after a `reset`. -/
theorem C75_violated (T : SurfaceType) {N M : ℕ} (hN : 0 < N) (idx : Fin M → Fin T.numNodes → Fin N)
    (X0 : Fin N → Fin 3 → ℝ) (eps : ℝ) (d : TractionData 3) (h1 : -eps < d.slope) (h2 : d.slope < eps) :
    ∃ s, (TractionState.fresh 3 idx).init d eps (TractionState.nodes3 T) X0 = .ok s ∧
      ∀ k f, ∃ s', (s.reset d).afterSteps d k = .ok s' ∧ s'.addForce f = .undefined := by
  obtain ⟨s, g1, g2, -⟩ := TractionState.init_constant idx (TractionState.nodes3 T) X0 (nodes_sum_one T _) eps d h1 h2
  refine ⟨s, g1, fun k f => ⟨s.reset d, ?_, ?_⟩⟩
  · exact TractionState.constant_steps (s := s.reset d) g2 d k
  · simp only [TractionState.addForce, TractionState.reset, hN.ne', if_false]

/-- **C75, negation**: an incremental field on a surface with at least one element has undefined behaviour at the first
time step after a `reset`. -/
theorem C75_incremental_violated (T : SurfaceType) {N M : ℕ} (hM : 0 < M) (idx : Fin M → Fin T.numNodes → Fin N)
    (X0 : Fin N → Fin 3 → ℝ) (eps : ℝ) (heps : 0 < eps) (d : TractionData 3) (h : eps ≤ d.slope) (hT : d.traction ≠ 0) :
    ∃ s, (TractionState.fresh 3 idx).init d eps (TractionState.nodes3 T) X0 = .ok s ∧
      ∀ k, (s.reset d).afterSteps d (k + 1) = .undefined := by
  obtain ⟨s, g1, g2, -⟩ := TractionState.init_incremental idx (TractionState.nodes3 T) X0 eps heps d h
  refine ⟨s, g1, fun k => ?_⟩
  induction k with
  | zero =>
    have h1 : ¬norm2 (0 : Fin 3 → ℝ) ≥ norm2 d.traction := by
      rw [norm2_zero]; exact not_le.mpr (norm2_pos (sq_pos_of_ne hT))
    simp only [TractionState.afterSteps, TractionState.handleEvent, TractionState.reset, g2, h1, if_false, Bool.false_eq_true,
      not_lt.mpr (Nat.le_succ d.steps), TractionState.incrementLoad, hM.ne']
  | succ k ih => rw [TractionState.afterSteps, ih]

/-- **C75, negation**: initialising a constant traction field a second time applies the load twice. -/
theorem C75_init_twice_violated (T : SurfaceType) {N M : ℕ} (idx : Fin M → Fin T.numNodes → Fin N)
    (X0 : Fin N → Fin 3 → ℝ) (eps : ℝ) (d : TractionData 3) (h1 : -eps < d.slope) (h2 : d.slope < eps) :
    ∃ s s', (TractionState.fresh 3 idx).init d eps (TractionState.nodes3 T) X0 = .ok s ∧
      s.init d eps (TractionState.nodes3 T) X0 = .ok s' ∧
      ∀ f, ∃ f', s'.addForce f = .ok f' ∧ ∑ p, (f' p - f p) = (surfaceArea3 T idx X0 * 2) • d.traction := by
  obtain ⟨s, g1, g2, g3, g4, g5⟩ := TractionState.init_constant idx (TractionState.nodes3 T) X0 (nodes_sum_one T _) eps d h1 h2
  have hq : ∀ e, ∀ g ∈ s.qnodes e, ∑ i, g.N i = 1 := by rw [g5]; exact fun e g hg => nodes_sum_one T _ _ g hg
  obtain ⟨s', k1, k2, k3, -⟩ := TractionState.increment_carries (b := 1) g3 hq zero_le_one zero_le_one d.steps s.current
  refine ⟨s, s', g1, ?_, fun f => ?_⟩
  · rw [TractionState.init]
    simp only [gt_iff_lt, h1, h2, and_self, if_true, g4, ← g5]
    rw [one_smul] at k1
    rw [← k1, g3.nodal, g2, g4]
  · obtain ⟨f', m1, m2⟩ := k3.total (by rw [k2.qnodes]; exact hq) f
    have ha : s'.area = surfaceArea3 T idx X0 := by
      rw [k2.area, ← surfaceArea3_eq, TractionState.area, g5]
    exact ⟨f', m1, by rw [m2, ha]; norm_num⟩

/-- **C75** (partial): a `reset` followed by a new initialisation (with the same data) brings back the state reached after
the first initialisation.  Missing: the same without the second initialisation, which is undefined behaviour. -/
theorem C75_partial {D N n M : ℕ} (idx : Fin M → Fin n → Fin N) (nodesOf : (Fin n → Fin D → ℝ) → List (TNode n))
    (X0 : Fin N → Fin D → ℝ) (hN : ∀ X, ∀ g ∈ nodesOf X, ∑ i, g.N i = 1) (eps : ℝ) (heps : 0 < eps) (d : TractionData D)
    (h : -eps < d.slope) (k : ℕ) :
    ∃ s s', (TractionState.fresh D idx).init d eps nodesOf X0 = .ok s ∧ s.afterSteps d k = .ok s' ∧
      (s'.reset d).init d eps nodesOf X0 = .ok s := by
  by_cases h2 : d.slope < eps
  · obtain ⟨s, g1, g2, g3, g4, g5⟩ := TractionState.init_constant idx nodesOf X0 hN eps d h h2
    refine ⟨s, s, g1, TractionState.constant_steps g2 d k, ?_⟩
    rw [← g1, TractionState.init, TractionState.init]
    simp only [gt_iff_lt, h, h2, and_self, if_true, TractionState.reset, TractionState.fresh, g4]
  · obtain ⟨s, g1, g2, g3, g4, g5, g6, g7⟩ := TractionState.init_incremental idx nodesOf X0 eps heps d (not_lt.mp h2)
    have hq : ∀ e, ∀ g ∈ s.qnodes e, ∑ i, g.N i = 1 := by rw [g5]; exact fun e g hg => hN _ g hg
    obtain ⟨s', k1, k2, k3, k4, -⟩ := TractionState.steps_carries d g3 hq g6 g7 g2 (lt_of_lt_of_le heps (not_lt.mp h2)) k
    refine ⟨s, s', g1, k1, ?_⟩
    rw [← g1, TractionState.init, TractionState.init]
    simp only [h2, and_false, if_false, TractionState.reset, TractionState.fresh, k2.idx, g4, k2.constant, g2]

/-- The hypotheses hold for a triangle under a constant unit pressure. -/
example : ∃ s, (TractionState.fresh 3 (N := 3) (fun _ : Fin 1 => ![0, 1, 2])).init ⟨![0, 0, 1], 0, 1⟩ (1 / 10 ^ 15)
    (TractionState.nodes3 .triangle1) ![![0, 0, 0], ![1, 0, 0], ![0, 1, 0]] = .ok s ∧
      ∀ k f, ∃ s', (s.reset ⟨![0, 0, 1], 0, 1⟩).afterSteps ⟨![0, 0, 1], 0, 1⟩ k = .ok s' ∧ s'.addForce f = .undefined :=
  C75_violated .triangle1 (by norm_num) _ _ _ _ (by norm_num) (by norm_num)

/-! ## C51: bounding box -/

/-- **C51, negation**: the box of the two points `(0, 0, 0)` and `(1, 1, 1)`, in this order, has the highest number as its
lower corner. -/
theorem C51_violated (lowest highest : ℚ) (h : lowest < 0) :
    computeBBox lowest highest [(fun _ => 0 : Fin 3 → ℚ), fun _ => 1] = .ok fun _ => (highest, 1) := by
  have h1 : bboxStep (bboxStep (highest, lowest) (0 : ℚ)) 1 = (highest, 1) := by simp [bboxStep, h]
  simp only [computeBBox, le_refl, dite_true, List.map_cons, List.map_nil, List.foldl_cons, List.foldl_nil, h1]

/-- **C51, negation**: with positions of the plane the third coordinate is read out of bounds. -/
theorem C51_plane_violated {K : Type*} [LinearOrder K] (lowest highest : K) (x : List (Fin 2 → K)) (h : x ≠ []) :
    computeBBox lowest highest x = .undefined := by
  simp [computeBBox, h]

/-- **C51** (partial): in 3D the upper corner is right; the lower corner is right along an axis exactly when the smallest
coordinate is reached by a point other than the first one, and otherwise it is larger than the coordinate of the first
point.  Missing: the lower corner when the first point alone is the lowest. -/
theorem C51_partial {K : Type*} [LinearOrder K] (lowest highest : K) (p : Fin 3 → K) (x : List (Fin 3 → K))
    (hx : ∀ q ∈ p :: x, ∀ c, lowest < q c ∧ q c < highest) :
    ∃ b, computeBBox lowest highest (p :: x) = .ok b ∧ ∀ c,
      ((∃ q ∈ p :: x, (b c).2 = q c) ∧ ∀ q ∈ p :: x, q c ≤ (b c).2) ∧
      (IsRange ((p :: x).map fun q => q c) (b c).1 (b c).2 ↔ ∃ q ∈ x, ∀ q' ∈ p :: x, q c ≤ q' c) ∧
      ((∀ q ∈ x, p c < q c) → p c < (b c).1) := by
  have hb : computeBBox lowest highest (p :: x) = .ok fun c =>
      (((p :: x).map fun q => q c).foldl bboxStep (highest, lowest)) := by
    simp only [computeBBox, le_refl, dite_true]
    rfl
  refine ⟨_, hb, fun c => ?_⟩
  set l := (p :: x).map fun q => q c with hl
  have hl' : l = p c :: x.map fun q => q c := rfl
  have hfirst : l.foldl bboxStep (highest, lowest) = (x.map fun q => q c).foldl bboxStep (highest, p c) := by
    have : bboxStep (highest, lowest) (p c) = (highest, p c) := by simp [bboxStep, (hx p (by simp) c).1]
    rw [hl', List.foldl_cons, this]
  obtain ⟨m1, m2⟩ := bbox_max (x.map fun q => q c) (highest, p c)
  obtain ⟨n1, n2, n3⟩ := bbox_min (x.map fun q => q c) (highest, p c)
  rw [← hfirst] at m1 m2 n1 n2 n3
  set b := l.foldl bboxStep (highest, lowest)
  have hmem : ∀ y, y ∈ l ↔ ∃ q ∈ p :: x, y = q c := fun y => by simp [hl, eq_comm]
  have hxmem : ∀ y, y ∈ x.map (fun q => q c) ↔ ∃ q ∈ x, y = q c := fun y => by simp [eq_comm]
  have hmax : (∃ q ∈ p :: x, b.2 = q c) ∧ ∀ q ∈ p :: x, q c ≤ b.2 :=
    ⟨(hmem _).mp m1, fun q hq => m2 (q c) ((hmem _).mpr ⟨q, hq, rfl⟩)⟩
  refine ⟨hmax, ⟨fun hr => ?_, ?_⟩, fun hlt => ?_⟩
  · rcases n2 with h | ⟨h, -⟩
    · obtain ⟨q, hq, he⟩ := (hmem _).mp hr.lo_mem
      exact absurd (hx q hq c).2 (by rw [← he, h]; exact lt_irrefl _)
    · obtain ⟨q, hq, he⟩ := (hxmem _).mp h
      exact ⟨q, hq, fun q' hq' => by rw [← he]; exact hr.lo_le _ ((hmem _).mpr ⟨q', hq', rfl⟩)⟩
  · rintro ⟨q, hq, hmin⟩
    have hle : b.1 ≤ q c := n3 _ ((hxmem _).mpr ⟨q, hq, rfl⟩) (hmin p (by simp))
    rcases n2 with h | ⟨h, -⟩
    · have h' : b.1 = highest := h
      exact absurd (hx q (by simp [hq]) c).2 (not_lt.mpr (by rw [← h']; exact hle))
    · obtain ⟨q2, hq2, he⟩ := (hxmem _).mp h
      have heq : b.1 = q c := le_antisymm hle (by rw [he]; exact hmin q2 (by simp [hq2]))
      refine ⟨?_, m1, ?_, fun y hy => m2 y hy⟩
      · rw [heq]; exact (hmem _).mpr ⟨q, by simp [hq], rfl⟩
      · intro y hy
        obtain ⟨q', hq', rfl⟩ := (hmem _).mp hy
        rw [heq]; exact hmin q' hq'
  · rcases n2 with h | ⟨h, -⟩
    · rw [h]; exact (hx p (by simp) c).2
    · obtain ⟨q, hq, he⟩ := (hxmem _).mp h
      rw [he]; exact hlt q hq

/-- Three points for which the box is right. -/
example : ∃ b, computeBBox (-100 : ℚ) 100 [(![2, 1, 1] : Fin 3 → ℚ), ![1, 1, 0], ![3, 0, 5]] = .ok b ∧
    b 0 = (1, 3) ∧ b 1 = (0, 1) ∧ b 2 = (0, 5) := by
  refine ⟨_, rfl, ?_, ?_, ?_⟩ <;> decide +kernel

end Caribou
