import Verif.Lemmas.HeldBody

set_option autoImplicit false
set_option linter.all false

namespace Caribou

open Spec Matrix

/-! ### A corner of a hexahedron and its three neighbours -/

def crossV (a b : Fin 3 → ℝ) : Fin 3 → ℝ := ![a 1 * b 2 - a 2 * b 1, a 2 * b 0 - a 0 * b 2, a 0 * b 1 - a 1 * b 0]

def tripleV (a b c : Fin 3 → ℝ) : ℝ :=
  a 0 * (b 1 * c 2 - b 2 * c 1) + a 1 * (b 2 * c 0 - b 0 * c 2) + a 2 * (b 0 * c 1 - b 1 * c 0)

theorem crossV_zero {a b : Fin 3 → ℝ} (h : crossV a b = 0) :
    a 1 * b 2 = a 2 * b 1 ∧ a 2 * b 0 = a 0 * b 2 ∧ a 0 * b 1 = a 1 * b 0 := by
  have h0 := congrFun h 0
  have h1 := congrFun h 1
  have h2 := congrFun h 2
  simp only [crossV, Matrix.cons_val, Pi.zero_apply] at h0 h1 h2
  exact ⟨by linarith, by linarith, by linarith⟩

theorem crossV_parallel {v d : Fin 3 → ℝ} (h : crossV v d = 0) (hv : v ≠ 0) : ∃ t : ℝ, d = t • v := by
  obtain ⟨h0, h1, h2⟩ := crossV_zero h
  have : v 0 ≠ 0 ∨ v 1 ≠ 0 ∨ v 2 ≠ 0 := by
    by_contra hc
    push Not at hc
    exact hv (funext fun a => by fin_cases a <;> [exact hc.1; exact hc.2.1; exact hc.2.2])
  rcases this with hv | hv | hv
  · refine ⟨d 0 / v 0, funext fun a => ?_⟩
    simp only [Pi.smul_apply, smul_eq_mul]
    fin_cases a <;> simp only [Fin.zero_eta, Fin.mk_one, Fin.reduceFinMk] <;> field_simp <;> linarith
  · refine ⟨d 1 / v 1, funext fun a => ?_⟩
    simp only [Pi.smul_apply, smul_eq_mul]
    fin_cases a <;> simp only [Fin.zero_eta, Fin.mk_one, Fin.reduceFinMk] <;> field_simp <;> linarith
  · refine ⟨d 2 / v 2, funext fun a => ?_⟩
    simp only [Pi.smul_apply, smul_eq_mul]
    fin_cases a <;> simp only [Fin.zero_eta, Fin.mk_one, Fin.reduceFinMk] <;> field_simp <;> linarith

theorem tripleV_combination {x y z : Fin 3 → ℝ} (h : tripleV x y z ≠ 0) {a b c : ℝ} (e : a • x + b • y + c • z = 0) :
    a = 0 ∧ b = 0 ∧ c = 0 := by
  have e0 := congrFun e 0
  have e1 := congrFun e 1
  have e2 := congrFun e 2
  simp only [Pi.add_apply, Pi.smul_apply, smul_eq_mul, Pi.zero_apply] at e0 e1 e2
  unfold tripleV at h
  refine ⟨(mul_eq_zero.1 (?_ : a * _ = 0)).resolve_right h, (mul_eq_zero.1 (?_ : b * _ = 0)).resolve_right h,
    (mul_eq_zero.1 (?_ : c * _ = 0)).resolve_right h⟩
  · linear_combination (y 1 * z 2 - y 2 * z 1) * e0 + (y 2 * z 0 - y 0 * z 2) * e1 + (y 0 * z 1 - y 1 * z 0) * e2
  · linear_combination (z 1 * x 2 - z 2 * x 1) * e0 + (z 2 * x 0 - z 0 * x 2) * e1 + (z 0 * x 1 - z 1 * x 0) * e2
  · linear_combination (x 1 * y 2 - x 2 * y 1) * e0 + (x 2 * y 0 - x 0 * y 2) * e1 + (x 0 * y 1 - x 1 * y 0) * e2

/-- The closure of the displacement around the three faces at a corner leaves no relative rotation along its edges, as long as the
corner and its neighbours have the same orientation: `dab` is the diagonal from the corner in the face of the edges `x` and `y`. -/
theorem corner_closed {x y z dab dbc dca : Fin 3 → ℝ} {la lb lc : ℝ}
    (hab : crossV (la • x - lb • y) dab = 0) (hbc : crossV (lb • y - lc • z) dbc = 0) (hca : crossV (lc • z - la • x) dca = 0)
    (h0 : tripleV x y z ≠ 0) (hA : 0 < tripleV x y z * tripleV x dab dca) (hB : 0 < tripleV x y z * tripleV dab y dbc)
    (hC : 0 < tripleV x y z * tripleV dca dbc z) : la = 0 ∧ lb = 0 ∧ lc = 0 := by
  by_contra hne
  have nz : ∀ {a b c : ℝ}, (a ≠ 0 ∨ b ≠ 0 ∨ c ≠ 0) → a • x + b • y + c • z ≠ 0 := fun {a b c} h e => by
    obtain ⟨h1, h2, h3⟩ := tripleV_combination h0 e
    rcases h with h | h | h <;> contradiction
  have eab : la • x - lb • y = la • x + (-lb) • y + (0 : ℝ) • z := by module
  have ebc : lb • y - lc • z = (0 : ℝ) • x + lb • y + (-lc) • z := by module
  have eca : lc • z - la • x = (-la) • x + (0 : ℝ) • y + lc • z := by module
  have par : ∀ {v d : Fin 3 → ℝ}, crossV v d = 0 → v ≠ 0 → ∃ t : ℝ, ∀ a, d a = t * v a := fun h hv => by
    obtain ⟨t, rfl⟩ := crossV_parallel h hv
    exact ⟨t, fun _ => rfl⟩
  have hcase : (la = 0 ∧ lb = 0) ∨ ∃ t : ℝ, ∀ a, dab a = t * (la * x a - lb * y a) := by
    by_cases h : la = 0 ∧ lb = 0
    · exact .inl h
    · refine .inr (par hab ?_)
      show la • x - lb • y ≠ 0
      rw [eab]
      refine nz ?_
      by_contra hc
      push Not at hc
      exact h ⟨hc.1, neg_eq_zero.1 hc.2.1⟩
  have hcase2 : (lb = 0 ∧ lc = 0) ∨ ∃ t : ℝ, ∀ a, dbc a = t * (lb * y a - lc * z a) := by
    by_cases h : lb = 0 ∧ lc = 0
    · exact .inl h
    · refine .inr (par hbc ?_)
      show lb • y - lc • z ≠ 0
      rw [ebc]
      refine nz ?_
      by_contra hc
      push Not at hc
      exact h ⟨hc.2.1, neg_eq_zero.1 hc.2.2⟩
  have hcase3 : (lc = 0 ∧ la = 0) ∨ ∃ t : ℝ, ∀ a, dca a = t * (lc * z a - la * x a) := by
    by_cases h : lc = 0 ∧ la = 0
    · exact .inl h
    · refine .inr (par hca ?_)
      show lc • z - la • x ≠ 0
      rw [eca]
      refine nz ?_
      by_contra hc
      push Not at hc
      exact h ⟨hc.2.2, neg_eq_zero.1 hc.1⟩
  have fA : ∀ {s t : ℝ}, (∀ a, dab a = s * (la * x a - lb * y a)) → (∀ a, dca a = t * (lc * z a - la * x a)) →
      tripleV x dab dca = -(s * t * (lb * lc)) * tripleV x y z := fun h1 h2 => by simp only [tripleV, h1, h2]; ring
  have fB : ∀ {s t : ℝ}, (∀ a, dab a = s * (la * x a - lb * y a)) → (∀ a, dbc a = t * (lb * y a - lc * z a)) →
      tripleV dab y dbc = -(s * t * (la * lc)) * tripleV x y z := fun h1 h2 => by simp only [tripleV, h1, h2]; ring
  have fC : ∀ {s t : ℝ}, (∀ a, dca a = s * (lc * z a - la * x a)) → (∀ a, dbc a = t * (lb * y a - lc * z a)) →
      tripleV dca dbc z = -(s * t * (la * lb)) * tripleV x y z := fun h1 h2 => by simp only [tripleV, h1, h2]; ring
  -- one edge without relative rotation: the next ones have none either
  have zero1 : ∀ {s : ℝ}, (∀ a, dab a = s * (la * x a - lb * y a)) → la = 0 → False := fun {s} h e => by
    have : tripleV dab y dbc = 0 := by simp only [tripleV, h, e]; ring
    rw [this, mul_zero] at hB
    exact lt_irrefl _ hB
  have zero1' : ∀ {s : ℝ}, (∀ a, dab a = s * (la * x a - lb * y a)) → lb = 0 → False := fun {s} h e => by
    have : tripleV x dab dca = 0 := by simp only [tripleV, h, e]; ring
    rw [this, mul_zero] at hA
    exact lt_irrefl _ hA
  have zero2 : ∀ {s : ℝ}, (∀ a, dbc a = s * (lb * y a - lc * z a)) → lb = 0 → False := fun {s} h e => by
    have : tripleV dca dbc z = 0 := by simp only [tripleV, h, e]; ring
    rw [this, mul_zero] at hC
    exact lt_irrefl _ hC
  have zero2' : ∀ {s : ℝ}, (∀ a, dbc a = s * (lb * y a - lc * z a)) → lc = 0 → False := fun {s} h e => by
    have : tripleV dab y dbc = 0 := by simp only [tripleV, h, e]; ring
    rw [this, mul_zero] at hB
    exact lt_irrefl _ hB
  have zero3 : ∀ {s : ℝ}, (∀ a, dca a = s * (lc * z a - la * x a)) → la = 0 → False := fun {s} h e => by
    have : tripleV dca dbc z = 0 := by simp only [tripleV, h, e]; ring
    rw [this, mul_zero] at hC
    exact lt_irrefl _ hC
  have zero3' : ∀ {s : ℝ}, (∀ a, dca a = s * (lc * z a - la * x a)) → lc = 0 → False := fun {s} h e => by
    have : tripleV x dab dca = 0 := by simp only [tripleV, h, e]; ring
    rw [this, mul_zero] at hA
    exact lt_irrefl _ hA
  rcases hcase with ⟨h1, h2⟩ | ⟨r, hr⟩
  · rcases hcase2 with ⟨_, h3⟩ | ⟨s, hs⟩
    · exact hne ⟨h1, h2, h3⟩
    · exact zero2 hs h2
  · rcases hcase2 with ⟨h2, _⟩ | ⟨s, hs⟩
    · exact zero1' hr h2
    · rcases hcase3 with ⟨_, h1⟩ | ⟨t, ht⟩
      · exact zero1 hr h1
      · rw [fA hr ht] at hA
        rw [fB hr hs] at hB
        rw [fC ht hs] at hC
        have hp := mul_pos (mul_pos hA hB) hC
        have e : tripleV x y z * (-(r * t * (lb * lc)) * tripleV x y z) * (tripleV x y z * (-(r * s * (la * lc)) * tripleV x y z)) *
            (tripleV x y z * (-(t * s * (la * lb)) * tripleV x y z)) =
            -(tripleV x y z ^ 3 * (r * s * t) * (la * lb * lc)) ^ 2 := by ring
        rw [e] at hp
        have := sq_nonneg (tripleV x y z ^ 3 * (r * s * t) * (la * lb * lc))
        linarith

/-! ### The eight integration points -/

/-- The other end of the edge in direction `a`. -/
def flipC (q : Fin 3 → Bool) (a : Fin 3) : Fin 3 → Bool := Function.update q a (!q a)

theorem flipC_flipC (q : Fin 3 → Bool) (a : Fin 3) : flipC (flipC q a) a = q := by
  unfold flipC
  simp

theorem flipC_comm (q : Fin 3 → Bool) {a b : Fin 3} (h : a ≠ b) : flipC (flipC q a) b = flipC (flipC q b) a := by
  unfold flipC
  rw [Function.update_of_ne h.symm, Function.update_of_ne h, Function.update_comm h]

/-- Displacements of the corners of a hexahedron given by a rotation at every corner: all the rotations are the same. -/
theorem corners_rotation {p u w : (Fin 3 → Bool) → Fin 3 → ℝ}
    (hu : ∀ q a, u (flipC q a) - u q = crossV (w q) (p (flipC q a) - p q))
    (hn : ∀ q, tripleV (p (flipC q 0) - p q) (p (flipC q 1) - p q) (p (flipC q 2) - p q) ≠ 0)
    (hs : ∀ q a, tripleV (p (flipC q 0) - p q) (p (flipC q 1) - p q) (p (flipC q 2) - p q) *
      tripleV (p (flipC (flipC q a) 0) - p (flipC q a)) (p (flipC (flipC q a) 1) - p (flipC q a))
        (p (flipC (flipC q a) 2) - p (flipC q a)) < 0) (q : Fin 3 → Bool) (a : Fin 3) : w (flipC q a) = w q := by
  have hne : ∀ a, p (flipC q a) - p q ≠ 0 := by
    intro a h0
    refine hn q ?_
    fin_cases a <;> simp only [Fin.zero_eta, Fin.mk_one, Fin.reduceFinMk] at h0 <;> rw [h0] <;> simp [tripleV]
  -- the rotations at the two ends of an edge differ by a rotation around the edge
  have hl : ∀ a, ∃ l : ℝ, w (flipC q a) - w q = l • (p (flipC q a) - p q) := by
    intro a
    refine crossV_parallel ?_ (hne a)
    have h1 := hu q a
    have h2 := hu (flipC q a) a
    rw [flipC_flipC] at h2
    funext k
    have h1k := congrFun h1 k
    have h2k := congrFun h2 k
    fin_cases k <;> simp [crossV] at h1k h2k ⊢ <;> linarith
  choose l hl using hl
  have hw : ∀ a k, w (flipC q a) k = w q k + l a * (p (flipC q a) k - p q k) := by
    intro a k
    have := congrFun (hl a) k
    simp only [Pi.sub_apply, Pi.smul_apply, smul_eq_mul] at this
    linarith
  have hclose : ∀ a b, a ≠ b → crossV (l a • (p (flipC q a) - p q) - l b • (p (flipC q b) - p q)) (p (flipC (flipC q a) b) - p q) = 0 := by
    intro a b hab
    have h1 := hu q a
    have h2 := hu q b
    have h3 := hu (flipC q a) b
    have h4 := hu (flipC q b) a
    rw [flipC_comm q hab.symm] at h4
    funext k
    have h1k := congrFun h1 k
    have h2k := congrFun h2 k
    have h3k := congrFun h3 k
    have h4k := congrFun h4 k
    simp only [Pi.sub_apply] at h1k h2k h3k h4k
    fin_cases k <;> simp [crossV, hw] at h1k h2k h3k h4k ⊢ <;> linarith
  obtain ⟨h0, h1, h2⟩ := corner_closed (x := p (flipC q 0) - p q) (y := p (flipC q 1) - p q) (z := p (flipC q 2) - p q)
    (hclose 0 1 (by decide)) (hclose 1 2 (by decide)) (hclose 2 0 (by decide)) (hn q)
    (by
      have h := hs q 0
      rw [flipC_flipC] at h
      rw [flipC_comm q (show (2 : Fin 3) ≠ 0 by decide)]
      have e : tripleV (p (flipC q 0) - p q) (p (flipC (flipC q 0) 1) - p q) (p (flipC (flipC q 0) 2) - p q) =
          -tripleV (p q - p (flipC q 0)) (p (flipC (flipC q 0) 1) - p (flipC q 0)) (p (flipC (flipC q 0) 2) - p (flipC q 0)) := by
        simp only [tripleV, Pi.sub_apply]; ring
      rw [e]
      linarith)
    (by
      have h := hs q 1
      rw [flipC_flipC] at h
      rw [flipC_comm q (show (0 : Fin 3) ≠ 1 by decide)]
      have e : tripleV (p (flipC (flipC q 1) 0) - p q) (p (flipC q 1) - p q) (p (flipC (flipC q 1) 2) - p q) =
          -tripleV (p (flipC (flipC q 1) 0) - p (flipC q 1)) (p q - p (flipC q 1)) (p (flipC (flipC q 1) 2) - p (flipC q 1)) := by
        simp only [tripleV, Pi.sub_apply]; ring
      rw [e]
      linarith)
    (by
      have h := hs q 2
      rw [flipC_flipC] at h
      rw [flipC_comm q (show (1 : Fin 3) ≠ 2 by decide)]
      have e : tripleV (p (flipC (flipC q 2) 0) - p q) (p (flipC (flipC q 2) 1) - p q) (p (flipC q 2) - p q) =
          -tripleV (p (flipC (flipC q 2) 0) - p (flipC q 2)) (p (flipC (flipC q 2) 1) - p (flipC q 2)) (p q - p (flipC q 2)) := by
        simp only [tripleV, Pi.sub_apply]; ring
      rw [e]
      linarith)
  have hz : l a = 0 := by fin_cases a <;> assumption
  funext k
  rw [hw, hz, zero_mul, add_zero]

theorem corners_constant {α : Type*} {w : (Fin 3 → Bool) → α} (h : ∀ q a, w (flipC q a) = w q) (q r : Fin 3 → Bool) : w q = w r := by
  have set : ∀ q a b, w (Function.update q a b) = w q := by
    intro q a b
    by_cases hb : b = q a
    · rw [hb, Function.update_eq_self]
    · rw [← h q a, flipC, show b = !q a by cases b <;> cases hq : q a <;> simp_all]
  have e : ∀ q : Fin 3 → Bool, q = Function.update (Function.update (Function.update r 0 (q 0)) 1 (q 1)) 2 (q 2) := by
    intro q
    funext a
    fin_cases a <;> simp
  rw [e q, set, set, set]

/-! ### Trilinear fields -/

/-- The integration point of a corner. -/
noncomputable def cornerGauss (q : Fin 3 → Bool) : Fin 3 → ℝ := fun a => if q a then g3 else -g3

theorem cornerGauss_mem (q : Fin 3 → Bool) : (⟨cornerGauss q, 1⟩ : GaussNode 3) ∈ gaussHexa := by
  have e : cornerGauss q = ![if q 0 then g3 else -g3, if q 1 then g3 else -g3, if q 2 then g3 else -g3] := by
    funext a
    fin_cases a <;> rfl
  rw [e]
  unfold gaussHexa
  cases q 0 <;> cases q 1 <;> cases q 2 <;> simp

theorem cornerGauss_flip (q : Fin 3 → Bool) (a : Fin 3) :
    cornerGauss (flipC q a) = Function.update (cornerGauss q) a (-cornerGauss q a) := by
  funext b
  unfold cornerGauss flipC
  by_cases h : b = a
  · subst h
    cases hq : q b <;> simp [hq]
  · rw [Function.update_of_ne h, Function.update_of_ne h]

theorem hexa_axis (ξ : Fin 3 → ℝ) (a : Fin 3) (t : ℝ) (i : Fin 8) :
    (hexa1 : Elem ℝ 3 8).L (Function.update ξ a t) i = (hexa1 : Elem ℝ 3 8).L ξ i + (t - ξ a) * (hexa1 : Elem ℝ 3 8).dL ξ i a := by
  fin_cases a <;> fin_cases i <;>
    simp [hexa1] <;> ring

theorem hexa_field_axis (v : Fin 8 → ℝ) (ξ : Fin 3 → ℝ) (a : Fin 3) (t : ℝ) :
    ∑ i, v i * (hexa1 : Elem ℝ 3 8).L (Function.update ξ a t) i =
      ∑ i, v i * (hexa1 : Elem ℝ 3 8).L ξ i + (t - ξ a) * ∑ i, v i * (hexa1 : Elem ℝ 3 8).dL ξ i a := by
  rw [Finset.mul_sum, ← Finset.sum_add_distrib]
  exact Finset.sum_congr rfl fun i _ => by rw [hexa_axis]; ring

/-- A trilinear field which vanishes at the integration points vanishes. -/
theorem hexa_field_zero {v : Fin 8 → ℝ} (h : ∀ q, ∑ i, v i * (hexa1 : Elem ℝ 3 8).L (cornerGauss q) i = 0) (ξ : Fin 3 → ℝ) :
    ∑ i, v i * (hexa1 : Elem ℝ 3 8).L ξ i = 0 := by
  have axis : ∀ (ξ : Fin 3 → ℝ) (a : Fin 3), ∑ i, v i * (hexa1 : Elem ℝ 3 8).L (Function.update ξ a g3) i = 0 →
      ∑ i, v i * (hexa1 : Elem ℝ 3 8).L (Function.update ξ a (-g3)) i = 0 → ∑ i, v i * (hexa1 : Elem ℝ 3 8).L ξ i = 0 := by
    intro ξ a h1 h2
    rw [hexa_field_axis] at h1 h2
    have hd : ∑ i, v i * (hexa1 : Elem ℝ 3 8).dL ξ i a = 0 := by
      refine (mul_eq_zero.1 (?_ : g3 * _ = 0)).resolve_left g3_ne
      linarith
    rw [hd] at h1
    linarith
  have sel : ∀ b0 b1 b2 : Bool, ∀ ξ : Fin 3 → ℝ, Function.update (Function.update (Function.update ξ 0 (if b0 then g3 else -g3)) 1
      (if b1 then g3 else -g3)) 2 (if b2 then g3 else -g3) = cornerGauss ![b0, b1, b2] := by
    intro b0 b1 b2 ξ
    funext a
    unfold cornerGauss
    fin_cases a <;> simp <;> rfl
  have s2 : ∀ b0 b1 : Bool, ∀ ξ : Fin 3 → ℝ, ∑ i, v i * (hexa1 : Elem ℝ 3 8).L (Function.update (Function.update ξ 0
      (if b0 then g3 else -g3)) 1 (if b1 then g3 else -g3)) i = 0 := by
    intro b0 b1 ξ
    refine axis _ 2 ?_ ?_
    · have := h ![b0, b1, true]
      rwa [← sel b0 b1 true ξ] at this
    · have := h ![b0, b1, false]
      rwa [← sel b0 b1 false ξ] at this
  have s1 : ∀ b0 : Bool, ∀ ξ : Fin 3 → ℝ, ∑ i, v i * (hexa1 : Elem ℝ 3 8).L (Function.update ξ 0 (if b0 then g3 else -g3)) i = 0 :=
    fun b0 ξ => axis _ 1 (s2 b0 true ξ) (s2 b0 false ξ)
  exact axis _ 0 (s1 true ξ) (s1 false ξ)

theorem hexa_kronecker (i j : Fin 8) : (hexa1 : Elem ℝ 3 8).L ((hexa1 : Elem ℝ 3 8).node i) j = if j = i then 1 else 0 := by
  rw [hexa1_nodal]

theorem tripleV_det (M : Mat3) : tripleV (fun k => M k 0) (fun k => M k 1) (fun k => M k 2) = M.det := by
  rw [Matrix.det_fin_three]
  simp only [tripleV]
  ring

set_option maxHeartbeats 1000000 in
/-- A hexahedron which has the same orientation at its integration points and is strained at none of them moves rigidly. -/
theorem hexa_rigid {X v : Fin 8 → Fin 3 → ℝ}
    (hJ : (∀ g ∈ gaussHexa, 0 < (hexa1.jacobian X g.position : Mat3).det) ∨ ∀ g ∈ gaussHexa, (hexa1.jacobian X g.position : Mat3).det < 0)
    (hv : ∀ g ∈ gaussHexa, symPart (deformationGradient (gaussNodeOf hexa1 X g).dN v) = 0) :
    ∃ c W, SkewM W ∧ ∀ i, v i = c + W *ᵥ X i := by
  have hg := g3_ne
  -- gradient of the displacement
  obtain ⟨G, hG⟩ : ∃ G : (Fin 3 → Bool) → Mat3, ∀ q, G q = deformationGradient (gaussNodeOf hexa1 X ⟨cornerGauss q, 1⟩).dN v := ⟨_, fun _ => rfl⟩
  have hskew : ∀ q, SkewM (G q) := by
    intro q a b
    have := hv _ (cornerGauss_mem q)
    rw [symPart, smul_eq_zero, ← hG] at this
    have := congrFun (congrFun (this.resolve_left (by norm_num)) a) b
    simp only [Matrix.add_apply, Matrix.transpose_apply, Matrix.zero_apply] at this
    linarith
  have hJn : ∀ q, (hexa1.jacobian X (cornerGauss q) : Mat3).det ≠ 0 := by
    intro q
    rcases hJ with h | h
    · exact (h _ (cornerGauss_mem q)).ne'
    · exact (h _ (cornerGauss_mem q)).ne
  have hGJ : ∀ q a k, ∑ i, v i a * (hexa1 : Elem ℝ 3 8).dL (cornerGauss q) i k =
      ∑ b, G q a b * (hexa1.jacobian X (cornerGauss q) : Mat3) b k := by
    intro q a k
    obtain ⟨U, hU⟩ : ∃ U : Mat3, U = Matrix.of fun a k => ∑ i, v i a * (hexa1 : Elem ℝ 3 8).dL (cornerGauss q) i k := ⟨_, rfl⟩
    have e1 : G q = U * (hexa1.jacobian X (cornerGauss q) : Mat3)⁻¹ := by
      ext a k
      rw [hG, defGrad_apply]
      simp only [gaussNodeOf_dN, Matrix.mul_apply, hU, Matrix.of_apply, Finset.mul_sum, Finset.sum_mul]
      rw [Finset.sum_comm]
      exact Finset.sum_congr rfl fun j _ => Finset.sum_congr rfl fun i _ => by ring
    have e2 : G q * (hexa1.jacobian X (cornerGauss q) : Mat3) = U := by
      rw [e1, Matrix.mul_assoc, Matrix.nonsing_inv_mul _ (isUnit_iff_ne_zero.2 (hJn q)), Matrix.mul_one]
    have := congrFun (congrFun e2 a) k
    rw [Matrix.mul_apply] at this
    rw [this, hU, Matrix.of_apply]
  obtain ⟨p, hp⟩ : ∃ p : (Fin 3 → Bool) → Fin 3 → ℝ, ∀ q k, p q k = ∑ i, X i k * (hexa1 : Elem ℝ 3 8).L (cornerGauss q) i := ⟨_, fun _ _ => rfl⟩
  obtain ⟨u, hu⟩ : ∃ u : (Fin 3 → Bool) → Fin 3 → ℝ, ∀ q k, u q k = ∑ i, v i k * (hexa1 : Elem ℝ 3 8).L (cornerGauss q) i := ⟨_, fun _ _ => rfl⟩
  have hpe : ∀ q a k, p (flipC q a) k - p q k = -2 * cornerGauss q a * (hexa1.jacobian X (cornerGauss q) : Mat3) k a := by
    intro q a k
    rw [hp, hp, cornerGauss_flip, hexa_field_axis]
    simp only [Elem.jacobian]
    ring
  have hue : ∀ q a k, u (flipC q a) k - u q k = -2 * cornerGauss q a * ∑ i, v i k * (hexa1 : Elem ℝ 3 8).dL (cornerGauss q) i a := by
    intro q a k
    rw [hu, hu, cornerGauss_flip, hexa_field_axis]
    ring
  have hue2 : ∀ q a k, u (flipC q a) k - u q k = ∑ b, G q k b * (p (flipC q a) b - p q b) := by
    intro q a k
    rw [hue, hGJ, Finset.mul_sum]
    exact Finset.sum_congr rfl fun b _ => by rw [hpe]; ring
  obtain ⟨D, hD⟩ : ∃ D : (Fin 3 → Bool) → ℝ, ∀ q, D q = (hexa1.jacobian X (cornerGauss q) : Mat3).det := ⟨_, fun _ => rfl⟩
  have hDn : ∀ q, D q ≠ 0 := fun q => by rw [hD]; exact hJn q
  have hDs : ∀ q r, 0 < D q * D r := by
    intro q r
    rw [hD, hD]
    rcases hJ with h | h
    · exact mul_pos (h ⟨cornerGauss q, 1⟩ (cornerGauss_mem q)) (h ⟨cornerGauss r, 1⟩ (cornerGauss_mem r))
    · exact mul_pos_of_neg_of_neg (h ⟨cornerGauss q, 1⟩ (cornerGauss_mem q)) (h ⟨cornerGauss r, 1⟩ (cornerGauss_mem r))
  have htriple : ∀ q, tripleV (p (flipC q 0) - p q) (p (flipC q 1) - p q) (p (flipC q 2) - p q) =
      -8 * (cornerGauss q 0 * cornerGauss q 1 * cornerGauss q 2) * D q := by
    intro q
    rw [hD, ← tripleV_det]
    simp only [tripleV, Pi.sub_apply, hpe]
    ring
  have hcg : ∀ q a, cornerGauss q a ≠ 0 := by
    intro q a
    unfold cornerGauss
    split_ifs
    · exact hg
    · exact neg_ne_zero.2 hg
  have hrot : ∀ q a, u (flipC q a) - u q = crossV ![G q 2 1, G q 0 2, G q 1 0] (p (flipC q a) - p q) := by
    intro q a
    funext k
    rw [Pi.sub_apply, hue2, Fin.sum_univ_three]
    have d0 := (hskew q).diag 0
    have d1 := (hskew q).diag 1
    have d2 := (hskew q).diag 2
    have s1 := hskew q 0 1
    have s2 := hskew q 1 2
    have s3 := hskew q 2 0
    fin_cases k <;> simp [crossV, d0, d1, d2, s1, s2, s3] <;> ring
  have hflip : ∀ q a, cornerGauss (flipC q a) 0 * cornerGauss (flipC q a) 1 * cornerGauss (flipC q a) 2 =
      -(cornerGauss q 0 * cornerGauss q 1 * cornerGauss q 2) := by
    intro q a
    rw [cornerGauss_flip]
    fin_cases a <;> simp
  have hcp : ∀ q, cornerGauss q 0 * cornerGauss q 1 * cornerGauss q 2 ≠ 0 :=
    fun q => mul_ne_zero (mul_ne_zero (hcg q 0) (hcg q 1)) (hcg q 2)
  have hn : ∀ q, tripleV (p (flipC q 0) - p q) (p (flipC q 1) - p q) (p (flipC q 2) - p q) ≠ 0 := by
    intro q
    rw [htriple]
    exact mul_ne_zero (mul_ne_zero (by norm_num) (hcp q)) (hDn q)
  have hw := corners_rotation (p := p) (u := u) (w := fun q => ![G q 2 1, G q 0 2, G q 1 0]) hrot hn (by
    intro q a
    rw [htriple, htriple, hflip]
    have := mul_pos (sq_pos_of_ne_zero (hcp q)) (hDs q (flipC q a))
    nlinarith)
  have hGc : ∀ q r, G q = G r := by
    intro q r
    have h := corners_constant (w := fun q => ![G q 2 1, G q 0 2, G q 1 0]) hw q r
    have h0 : G q 2 1 = G r 2 1 := by have := congrFun h 0; simpa using this
    have h1 : G q 0 2 = G r 0 2 := by have := congrFun h 1; simpa using this
    have h2 : G q 1 0 = G r 1 0 := by have := congrFun h 2; simpa using this
    have := ((hskew q).sub (hskew r)).ext (by simp [h2]) (by
      have e1 := hskew q 2 0
      have e2 := hskew r 2 0
      simp only [Matrix.sub_apply]
      linarith) (by simp [h0])
    exact sub_eq_zero.1 this
  obtain ⟨o, ho⟩ : ∃ o : Fin 3 → Bool, o = fun _ => false := ⟨_, rfl⟩
  refine ⟨u o - G o *ᵥ p o, G o, hskew o, fun i => ?_⟩
  have hall : ∀ q k, u q k - ∑ b, G o k b * p q b = u o k - ∑ b, G o k b * p o b := by
    intro q k
    refine corners_constant (w := fun q => u q k - ∑ b, G o k b * p q b) (fun q a => ?_) q o
    have := hue2 q a k
    rw [hGc q o] at this
    simp only [mul_sub, Finset.sum_sub_distrib] at this
    linarith
  funext k
  have hz := hexa_field_zero (v := fun j => v j k - ∑ b, G o k b * X j b - (u o k - ∑ b, G o k b * p o b)) (by
    intro q
    have h1 := hall q k
    rw [hu q k] at h1
    simp only [hp q] at h1
    have hsum : ∑ j, (hexa1 : Elem ℝ 3 8).L (cornerGauss q) j = 1 := by
      simp only [sum_fin8, hexa1, Matrix.cons_val]
      ring
    have e : ∑ j, (v j k - ∑ b, G o k b * X j b - (u o k - ∑ b, G o k b * p o b)) * (hexa1 : Elem ℝ 3 8).L (cornerGauss q) j =
        ∑ j, v j k * (hexa1 : Elem ℝ 3 8).L (cornerGauss q) j -
          ∑ b, G o k b * ∑ j, X j b * (hexa1 : Elem ℝ 3 8).L (cornerGauss q) j -
          (u o k - ∑ b, G o k b * p o b) * ∑ j, (hexa1 : Elem ℝ 3 8).L (cornerGauss q) j := by
      simp only [sub_mul, Finset.sum_sub_distrib, Finset.sum_mul, Finset.mul_sum]
      congr 1
      congr 1
      rw [Finset.sum_comm]
      exact Finset.sum_congr rfl fun b _ => Finset.sum_congr rfl fun j _ => by ring
    rw [e, hsum, mul_one]
    linarith) ((hexa1 : Elem ℝ 3 8).node i)
  simp only [hexa_kronecker, mul_ite, mul_one, mul_zero, Finset.sum_ite_eq', Finset.mem_univ, if_true] at hz
  simp only [Pi.add_apply, Pi.sub_apply, mulVec, dotProduct]
  linarith

end Caribou
