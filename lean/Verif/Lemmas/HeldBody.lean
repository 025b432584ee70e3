import Verif.Spec.HeldBody
import Verif.Spec.ConjugateGradient
import Verif.Props.StaticPatch

set_option autoImplicit false
set_option linter.all false

namespace Caribou

open Spec Matrix

/-! ### Rigid displacements -/

/-- An infinitesimal rigid displacement of the points `X i`. -/
def RigidOn {ι : Type*} (X v : ι → Fin 3 → ℝ) (c : Fin 3 → ℝ) (W : Mat3) : Prop := ∀ i, v i = c + W *ᵥ X i

def SkewM (W : Mat3) : Prop := ∀ a b, W a b = -W b a

theorem SkewM.diag {W : Mat3} (h : SkewM W) (a : Fin 3) : W a a = 0 := by have := h a a; linarith

theorem SkewM.sub {W V : Mat3} (h : SkewM W) (k : SkewM V) : SkewM (W - V) := by
  intro a b
  rw [Matrix.sub_apply, Matrix.sub_apply, h a b, k a b]; ring

theorem SkewM.ext {W : Mat3} (h : SkewM W) (h1 : W 1 0 = 0) (h2 : W 2 0 = 0) (h3 : W 2 1 = 0) : W = 0 := by
  have a1 := h.diag 0
  have a2 := h.diag 1
  have a3 := h.diag 2
  have b1 := h 0 1
  have b2 := h 0 2
  have b3 := h 1 2
  rw [h1, neg_zero] at b1
  rw [h2, neg_zero] at b2
  rw [h3, neg_zero] at b3
  ext a b
  fin_cases a <;> fin_cases b <;> first | exact a1 | exact a2 | exact a3 | exact b1 | exact b2 | exact b3 | exact h1 | exact h2 | exact h3

/-- A vector on which an antisymmetric matrix vanishes is along its axis. -/
theorem skew_kernel {W : Mat3} (h : SkewM W) (hW : W ≠ 0) (d : Fin 3 → ℝ) (hd : W *ᵥ d = 0) :
    ∃ r : ℝ, d = r • ![W 2 1, -W 2 0, W 1 0] := by
  have e0 := congrFun hd 0
  have e1 := congrFun hd 1
  have e2 := congrFun hd 2
  simp only [mulVec, dotProduct, sum_fin3, h.diag, h 0 1, h 0 2, h 1 2, Pi.zero_apply] at e0 e1 e2
  have hn : W 2 1 ^ 2 + W 2 0 ^ 2 + W 1 0 ^ 2 ≠ 0 := by
    intro hz
    have p1 := sq_nonneg (W 2 1)
    have p2 := sq_nonneg (W 2 0)
    have p3 := sq_nonneg (W 1 0)
    exact hW (h.ext (pow_eq_zero_iff two_ne_zero |>.1 (by linarith)) (pow_eq_zero_iff two_ne_zero |>.1 (by linarith))
      (pow_eq_zero_iff two_ne_zero |>.1 (by linarith)))
  refine ⟨(W 2 1 * d 0 - W 2 0 * d 1 + W 1 0 * d 2) / (W 2 1 ^ 2 + W 2 0 ^ 2 + W 1 0 ^ 2), ?_⟩
  generalize W 2 1 = x at *
  generalize W 2 0 = y at *
  generalize W 1 0 = z at *
  funext a
  rw [Pi.smul_apply, smul_eq_mul, div_mul_eq_mul_div, eq_div_iff hn]
  fin_cases a <;> simp only [Fin.zero_eta, Fin.mk_one, Fin.reduceFinMk, Matrix.cons_val]
  · linear_combination z * e1 + y * e2
  · linear_combination (-z) * e0 + x * e2
  · linear_combination (-y) * e0 + (-x) * e1

theorem skew_zero_of_three {W : Mat3} (h : SkewM W) (c p q r : Fin 3 → ℝ) (hp : c + W *ᵥ p = 0) (hq : c + W *ᵥ q = 0)
    (hr : c + W *ᵥ r = 0) (hc : ¬Collinear ℝ {p, q, r}) : W = 0 ∧ c = 0 := by
  have hW : W = 0 := by
    by_contra hW
    refine hc ((collinear_iff_of_mem (p₀ := p) (by simp)).2 ⟨![W 2 1, -W 2 0, W 1 0], ?_⟩)
    have key : ∀ s, c + W *ᵥ s = 0 → ∃ t : ℝ, s = t • ![W 2 1, -W 2 0, W 1 0] +ᵥ p := by
      intro s hs
      obtain ⟨t, ht⟩ := skew_kernel h hW (s - p) (by
        rw [mulVec_sub]
        have : W *ᵥ s = W *ᵥ p := add_left_cancel (hs.trans hp.symm)
        rw [this, sub_self])
      exact ⟨t, by rw [← ht, vadd_eq_add, sub_add_cancel]⟩
    intro s hs
    rcases hs with rfl | rfl | rfl
    · exact key s hp
    · exact key s hq
    · exact key s hr
  refine ⟨hW, ?_⟩
  rwa [hW, zero_mulVec, add_zero] at hp

theorem rigid_unique {N : ℕ} (X v : Fin N → Fin 3 → ℝ) {c c' : Fin 3 → ℝ} {W W' : Mat3} (hW : SkewM W) (hW' : SkewM W')
    (p q r : Fin N) (h : ∀ s ∈ [p, q, r], v s = c + W *ᵥ X s) (h' : ∀ s ∈ [p, q, r], v s = c' + W' *ᵥ X s)
    (hc : ¬Collinear ℝ {X p, X q, X r}) : W = W' ∧ c = c' := by
  have key : ∀ s ∈ [p, q, r], (c - c') + (W - W') *ᵥ X s = 0 := by
    intro s hs
    rw [sub_mulVec]
    have := (h s hs).symm.trans (h' s hs)
    have e : c - c' + (W *ᵥ X s - W' *ᵥ X s) = (c + W *ᵥ X s) - (c' + W' *ᵥ X s) := by abel
    rw [e, this, sub_self]
  obtain ⟨h1, h2⟩ := skew_zero_of_three (hW.sub hW') _ _ _ _ (key p (by simp)) (key q (by simp)) (key r (by simp)) hc
  exact ⟨sub_eq_zero.1 h1, sub_eq_zero.1 h2⟩

/-- A displacement which is rigid on every element and vanishes at the fixed nodes of a well held body is zero. -/
theorem wellHeld_zero {N n M : ℕ} (idx : Fin M → Fin n → Fin N) (X v : Fin N → Fin 3 → ℝ) (fixed : Fin N → Bool)
    (hheld : WellHeld idx X fixed) (hv : ∀ p, fixed p = true → v p = 0)
    (hr : ∀ e, ∃ c W, SkewM W ∧ ∀ i, v (idx e i) = c + W *ᵥ X (idx e i)) : v = 0 := by
  have piece : ∀ {e e'}, SamePiece idx X e e' → ∀ c W, SkewM W → (∀ i, v (idx e i) = c + W *ᵥ X (idx e i)) →
      ∀ i, v (idx e' i) = c + W *ᵥ X (idx e' i) := by
    intro e e' h c W hW he
    induction h with
    | refl => exact he
    | tail _ hg ih =>
      obtain ⟨p, q, r, hs, hc⟩ := hg
      rename_i b d _
      obtain ⟨c', W', hW', he'⟩ := hr d
      obtain ⟨rfl, rfl⟩ := rigid_unique X v hW hW' p q r
        (fun s hs' => by obtain ⟨⟨i, rfl⟩, _⟩ := hs s hs'; exact ih i)
        (fun s hs' => by obtain ⟨_, ⟨i, rfl⟩⟩ := hs s hs'; exact he' i) hc
      exact he'
  funext s
  rcases hheld s with h | ⟨e, ⟨i, rfl⟩, p, q, r, ht, hc⟩
  · rw [hv s h]; rfl
  · obtain ⟨c, W, hW, he⟩ := hr e
    have hz : ∀ t ∈ [p, q, r], c + W *ᵥ X t = 0 := by
      intro t hm
      obtain ⟨⟨e', hp, ⟨j, rfl⟩⟩, hf⟩ := ht t hm
      rw [← piece hp c W hW he j]
      exact hv _ hf
    obtain ⟨h1, h2⟩ := skew_zero_of_three hW c _ _ _ (hz p (by simp)) (hz q (by simp)) (hz r (by simp)) hc
    rw [he i, h1, h2, zero_mulVec, add_zero]; rfl

/-! ### The constrained matrix -/

theorem constrained_spd {ι : Type*} [Fintype ι] [DecidableEq ι] (fixed : ι → Bool) (A : Matrix ι ι ℝ) (hs : ∀ i j, A i j = A j i)
    (hp : ∀ v : ι → ℝ, 0 ≤ ∑ i, v i * ∑ j, A i j * v j)
    (h0 : ∀ v : ι → ℝ, (∀ i, fixed i = true → v i = 0) → ∑ i, v i * ∑ j, A i j * v j = 0 → v = 0) :
    IsSPD (constrainMatrix fixed A) := by
  refine ⟨fun i j => ?_, fun v hv => ?_⟩
  · unfold constrainMatrix
    rw [Bool.or_comm, hs i j]
    by_cases h : i = j
    · rw [h]
    · rw [if_neg h, if_neg (Ne.symm h)]
  · obtain ⟨w, hw⟩ : ∃ w : ι → ℝ, ∀ i, w i = if fixed i then 0 else v i := ⟨_, fun _ => rfl⟩
    have e : ∑ i, v i * ∑ j, constrainMatrix fixed A i j * v j =
        (∑ i, if fixed i then v i ^ 2 else 0) + ∑ i, w i * ∑ j, A i j * w j := by
      rw [← Finset.sum_add_distrib]
      refine Finset.sum_congr rfl fun i _ => ?_
      by_cases hi : fixed i = true
      · rw [if_pos hi, hw i, if_pos hi, zero_mul, add_zero]
        have : ∑ j, constrainMatrix fixed A i j * v j = v i := by
          rw [Finset.sum_eq_single i]
          · simp [constrainMatrix, hi]
          · intro j _ hj
            simp [constrainMatrix, hi, Ne.symm hj]
          · simp
        rw [this]; ring
      · rw [if_neg hi, hw i, if_neg hi, zero_add]
        congr 1
        refine Finset.sum_congr rfl fun j _ => ?_
        rw [hw j]
        by_cases hj : fixed j = true
        · have : i ≠ j := fun h => hi (h ▸ hj)
          simp [constrainMatrix, hj, this]
        · simp [constrainMatrix, hi, hj]
    rw [e]
    have p1 : 0 ≤ ∑ i, if fixed i then v i ^ 2 else 0 :=
      Finset.sum_nonneg fun i _ => by split_ifs; exacts [sq_nonneg _, le_rfl]
    by_contra hneg
    have p2 := hp w
    have z1 : ∑ i, (if fixed i then v i ^ 2 else 0) = 0 := by linarith
    have z2 : ∑ i, w i * ∑ j, A i j * w j = 0 := by linarith
    have hw0 := h0 w (fun i hi => by rw [hw i, if_pos hi]) z2
    refine hv (funext fun i => ?_)
    by_cases hi : fixed i = true
    · have := (Finset.sum_eq_zero_iff_of_nonneg (fun i _ => by split_ifs; exacts [sq_nonneg _, le_rfl])).1 z1 i (Finset.mem_univ i)
      rw [if_pos hi] at this
      exact (pow_eq_zero_iff two_ne_zero).1 this
    · have := congrFun hw0 i
      rwa [hw i, if_neg hi] at this

/-! ### Elements strained nowhere -/

/-- The displacements of the canonical element with an antisymmetric gradient at all quadrature points are rigid. -/
def CanonicalRigid {n : ℕ} (E : Elem ℝ 3 n) (gauss : List (GaussNode 3)) : Prop :=
  ∀ w : Fin n → Fin 3 → ℝ, (∀ g ∈ gauss, ∀ a b, ∑ i, w i a * E.dL g.position i b = -∑ i, w i b * E.dL g.position i a) →
    ∃ c W, SkewM W ∧ ∀ i, w i = c + W *ᵥ E.node i

theorem canonicalRigid_tetra1 : CanonicalRigid (tetra1 : Elem ℝ 3 4) gaussTetra1 := by
  intro w h
  have h := h ⟨![1/4, 1/4, 1/4], 1/6⟩ (List.mem_singleton.2 rfl)
  refine ⟨w 0, Matrix.of fun a b => ∑ i, w i a * (tetra1 : Elem ℝ 3 4).dL ![1/4, 1/4, 1/4] i b, fun a b => h a b, ?_⟩
  intro i
  funext a
  simp only [tetra1, sum_fin4, mulVec, dotProduct, Matrix.of_apply, Pi.add_apply, sum_fin3]
  fin_cases i <;> simp only [Fin.zero_eta, Fin.mk_one, Fin.reduceFinMk, Matrix.cons_val] <;> ring

/-- A bilinear function which vanishes at the four points `(±t, ±t)` is zero. -/
theorem bilinear_zero {t p q r s : ℝ} (ht : t ≠ 0) (h1 : p + q * t + r * t + s * (t * t) = 0)
    (h2 : p - q * t + r * t - s * (t * t) = 0) (h3 : p + q * t - r * t - s * (t * t) = 0)
    (h4 : p - q * t - r * t + s * (t * t) = 0) : p = 0 ∧ q = 0 ∧ r = 0 ∧ s = 0 := by
  refine ⟨by linarith, ?_, ?_, ?_⟩
  · refine (mul_eq_zero.1 (?_ : q * t = 0)).resolve_right ht; linarith
  · refine (mul_eq_zero.1 (?_ : r * t = 0)).resolve_right ht; linarith
  · refine (mul_eq_zero.1 (?_ : s * (t * t) = 0)).resolve_right (mul_ne_zero ht ht); linarith

theorem g3_ne : g3 ≠ 0 := by
  unfold g3
  positivity

theorem canonicalRigid_hexa1 : CanonicalRigid (hexa1 : Elem ℝ 3 8) gaussHexa := by
  intro w h
  -- coefficients of the monomials
  obtain ⟨c0, hc0⟩ : ∃ f : Fin 3 → ℝ, ∀ a, f a = 1/8 * (w 0 a + w 1 a + w 2 a + w 3 a + w 4 a + w 5 a + w 6 a + w 7 a) := ⟨_, fun _ => rfl⟩
  obtain ⟨cu, hcu⟩ : ∃ f : Fin 3 → ℝ, ∀ a, f a = 1/8 * (-w 0 a + w 1 a + w 2 a - w 3 a - w 4 a + w 5 a + w 6 a - w 7 a) := ⟨_, fun _ => rfl⟩
  obtain ⟨cv, hcv⟩ : ∃ f : Fin 3 → ℝ, ∀ a, f a = 1/8 * (-w 0 a - w 1 a + w 2 a + w 3 a - w 4 a - w 5 a + w 6 a + w 7 a) := ⟨_, fun _ => rfl⟩
  obtain ⟨cw, hcw⟩ : ∃ f : Fin 3 → ℝ, ∀ a, f a = 1/8 * (-w 0 a - w 1 a - w 2 a - w 3 a + w 4 a + w 5 a + w 6 a + w 7 a) := ⟨_, fun _ => rfl⟩
  obtain ⟨cuv, hcuv⟩ : ∃ f : Fin 3 → ℝ, ∀ a, f a = 1/8 * (w 0 a - w 1 a + w 2 a - w 3 a + w 4 a - w 5 a + w 6 a - w 7 a) := ⟨_, fun _ => rfl⟩
  obtain ⟨cuw, hcuw⟩ : ∃ f : Fin 3 → ℝ, ∀ a, f a = 1/8 * (w 0 a - w 1 a - w 2 a + w 3 a - w 4 a + w 5 a + w 6 a - w 7 a) := ⟨_, fun _ => rfl⟩
  obtain ⟨cvw, hcvw⟩ : ∃ f : Fin 3 → ℝ, ∀ a, f a = 1/8 * (w 0 a + w 1 a - w 2 a - w 3 a - w 4 a - w 5 a + w 6 a + w 7 a) := ⟨_, fun _ => rfl⟩
  obtain ⟨cc, hcc⟩ : ∃ f : Fin 3 → ℝ, ∀ a, f a = 1/8 * (-w 0 a + w 1 a - w 2 a + w 3 a + w 4 a - w 5 a + w 6 a - w 7 a) := ⟨_, fun _ => rfl⟩
  have du : ∀ (x y z : ℝ) a, ∑ i, w i a * (hexa1 : Elem ℝ 3 8).dL ![x, y, z] i 0 = cu a + cuv a * y + cuw a * z + cc a * (y * z) := by
    intro x y z a
    rw [hcu, hcuv, hcuw, hcc]
    simp only [hexa1, sum_fin8, Matrix.cons_val]
    ring
  have dv : ∀ (x y z : ℝ) a, ∑ i, w i a * (hexa1 : Elem ℝ 3 8).dL ![x, y, z] i 1 = cv a + cuv a * x + cvw a * z + cc a * (x * z) := by
    intro x y z a
    rw [hcv, hcuv, hcvw, hcc]
    simp only [hexa1, sum_fin8, Matrix.cons_val]
    ring
  have dw : ∀ (x y z : ℝ) a, ∑ i, w i a * (hexa1 : Elem ℝ 3 8).dL ![x, y, z] i 2 = cw a + cuw a * x + cvw a * y + cc a * (x * y) := by
    intro x y z a
    rw [hcw, hcuw, hcvw, hcc]
    simp only [hexa1, sum_fin8, Matrix.cons_val]
    ring
  have ht := g3_ne
  have hg : ∀ x y z : ℝ, (x = g3 ∨ x = -g3) → (y = g3 ∨ y = -g3) → (z = g3 ∨ z = -g3) → ∀ a b,
      ∑ i, w i a * (hexa1 : Elem ℝ 3 8).dL ![x, y, z] i b = -∑ i, w i b * (hexa1 : Elem ℝ 3 8).dL ![x, y, z] i a := by
    intro x y z hx hy hz
    refine h ⟨![x, y, z], 1⟩ ?_
    rcases hx with rfl | rfl <;> rcases hy with rfl | rfl <;> rcases hz with rfl | rfl <;> simp [gaussHexa]
  generalize g3 = t at ht hg
  have P : t = t ∨ t = -t := Or.inl rfl
  have Q : -t = t ∨ -t = -t := Or.inr rfl
  -- normal strains
  have n0 : cu 0 = 0 ∧ cuv 0 = 0 ∧ cuw 0 = 0 ∧ cc 0 = 0 := by
    have k := fun y z hy hz => hg t y z P hy hz 0 0
    simp only [du] at k
    have k1 := k t t P P
    have k2 := k (-t) t Q P
    have k3 := k t (-t) P Q
    have k4 := k (-t) (-t) Q Q
    exact bilinear_zero ht (by linarith) (by linarith) (by linarith) (by linarith)
  have n1 : cv 1 = 0 ∧ cuv 1 = 0 ∧ cvw 1 = 0 ∧ cc 1 = 0 := by
    have k := fun x z hx hz => hg x t z hx P hz 1 1
    simp only [dv] at k
    have k1 := k t t P P
    have k2 := k (-t) t Q P
    have k3 := k t (-t) P Q
    have k4 := k (-t) (-t) Q Q
    exact bilinear_zero ht (by linarith) (by linarith) (by linarith) (by linarith)
  have n2 : cw 2 = 0 ∧ cuw 2 = 0 ∧ cvw 2 = 0 ∧ cc 2 = 0 := by
    have k := fun x y hx hy => hg x y t hx hy P 2 2
    simp only [dw] at k
    have k1 := k t t P P
    have k2 := k (-t) t Q P
    have k3 := k t (-t) P Q
    have k4 := k (-t) (-t) Q Q
    exact bilinear_zero ht (by linarith) (by linarith) (by linarith) (by linarith)
  obtain ⟨a1, a2, a3, a4⟩ := n0
  obtain ⟨b1, b2, b3, b4⟩ := n1
  obtain ⟨d1, d2, d3, d4⟩ := n2
  -- shear strains
  have s01 : cv 0 + cu 1 = 0 ∧ cvw 0 + cuw 1 = 0 := by
    have k := fun z hz => hg t t z P P hz 0 1
    simp only [du, dv, a2, a4, b2, b4] at k
    have k1 := k t P
    have k2 := k (-t) Q
    refine ⟨by linarith, (mul_eq_zero.1 (?_ : (cvw 0 + cuw 1) * t = 0)).resolve_right ht⟩
    linarith
  have s02 : cw 0 + cu 2 = 0 ∧ cvw 0 + cuv 2 = 0 := by
    have k := fun y hy => hg t y t P hy P 0 2
    simp only [du, dw, a3, a4, d2, d4] at k
    have k1 := k t P
    have k2 := k (-t) Q
    refine ⟨by linarith, (mul_eq_zero.1 (?_ : (cvw 0 + cuv 2) * t = 0)).resolve_right ht⟩
    linarith
  have s12 : cw 1 + cv 2 = 0 ∧ cuw 1 + cuv 2 = 0 := by
    have k := fun x hx => hg x t t hx P P 1 2
    simp only [dv, dw, b3, b4, d3, d4] at k
    have k1 := k t P
    have k2 := k (-t) Q
    refine ⟨by linarith, (mul_eq_zero.1 (?_ : (cuw 1 + cuv 2) * t = 0)).resolve_right ht⟩
    linarith
  have z1 : cvw 0 = 0 := by linarith [s01.2, s02.2, s12.2]
  have z2 : cuw 1 = 0 := by linarith [s01.2, s02.2, s12.2]
  have z3 : cuv 2 = 0 := by linarith [s01.2, s02.2, s12.2]
  have hq : ∀ a, cuv a = 0 ∧ cuw a = 0 ∧ cvw a = 0 ∧ cc a = 0 := by
    intro a
    fin_cases a
    exacts [⟨a2, a3, z1, a4⟩, ⟨b2, z2, b3, b4⟩, ⟨z3, d2, d3, d4⟩]
  have hval : ∀ i a, w i a = c0 a + (cu a * (hexa1 : Elem ℝ 3 8).node i 0 + cv a * (hexa1 : Elem ℝ 3 8).node i 1 +
      cw a * (hexa1 : Elem ℝ 3 8).node i 2) := by
    intro i a
    obtain ⟨q1, q2, q3, q4⟩ := hq a
    rw [hcuv] at q1
    rw [hcuw] at q2
    rw [hcvw] at q3
    rw [hcc] at q4
    rw [hc0, hcu, hcv, hcw]
    fin_cases i <;> simp only [hexa1, Fin.zero_eta, Fin.mk_one, Fin.reduceFinMk, Matrix.cons_val] <;> linarith
  refine ⟨c0, Matrix.of fun a b => ![cu a, cv a, cw a] b, ?_, ?_⟩
  · intro a b
    fin_cases a <;> fin_cases b <;> simp only [Matrix.of_apply, Fin.zero_eta, Fin.mk_one, Fin.reduceFinMk, Matrix.cons_val] <;>
      linarith [s01.1, s02.1, s12.1]
  · intro i
    funext a
    rw [hval]
    simp only [mulVec, dotProduct, Matrix.of_apply, Pi.add_apply, sum_fin3, Matrix.cons_val]

theorem canonicalRigid_tetra2 : CanonicalRigid (tetra2 : Elem ℝ 3 10) gaussTetra2 := by
  intro w h
  obtain ⟨l0, hl0⟩ : ∃ f : Fin 3 → ℝ, ∀ a, f a = 4 * w 4 a - 3 * w 0 a - w 1 a := ⟨_, fun _ => rfl⟩
  obtain ⟨l1, hl1⟩ : ∃ f : Fin 3 → ℝ, ∀ a, f a = 4 * w 6 a - 3 * w 0 a - w 2 a := ⟨_, fun _ => rfl⟩
  obtain ⟨l2, hl2⟩ : ∃ f : Fin 3 → ℝ, ∀ a, f a = 4 * w 7 a - 3 * w 0 a - w 3 a := ⟨_, fun _ => rfl⟩
  obtain ⟨q00, h00⟩ : ∃ f : Fin 3 → ℝ, ∀ a, f a = 4 * (w 0 a + w 1 a - 2 * w 4 a) := ⟨_, fun _ => rfl⟩
  obtain ⟨q11, h11⟩ : ∃ f : Fin 3 → ℝ, ∀ a, f a = 4 * (w 0 a + w 2 a - 2 * w 6 a) := ⟨_, fun _ => rfl⟩
  obtain ⟨q22, h22⟩ : ∃ f : Fin 3 → ℝ, ∀ a, f a = 4 * (w 0 a + w 3 a - 2 * w 7 a) := ⟨_, fun _ => rfl⟩
  obtain ⟨q01, h01⟩ : ∃ f : Fin 3 → ℝ, ∀ a, f a = 4 * (w 0 a + w 5 a - w 4 a - w 6 a) := ⟨_, fun _ => rfl⟩
  obtain ⟨q02, h02⟩ : ∃ f : Fin 3 → ℝ, ∀ a, f a = 4 * (w 0 a + w 8 a - w 4 a - w 7 a) := ⟨_, fun _ => rfl⟩
  obtain ⟨q12, h12⟩ : ∃ f : Fin 3 → ℝ, ∀ a, f a = 4 * (w 0 a + w 9 a - w 6 a - w 7 a) := ⟨_, fun _ => rfl⟩
  have du : ∀ (x y z : ℝ) a, ∑ i, w i a * (tetra2 : Elem ℝ 3 10).dL ![x, y, z] i 0 = l0 a + q00 a * x + q01 a * y + q02 a * z := by
    intro x y z a
    rw [hl0, h00, h01, h02]
    simp only [tetra2, sum_fin10, Matrix.cons_val]
    ring
  have dv : ∀ (x y z : ℝ) a, ∑ i, w i a * (tetra2 : Elem ℝ 3 10).dL ![x, y, z] i 1 = l1 a + q01 a * x + q11 a * y + q12 a * z := by
    intro x y z a
    rw [hl1, h01, h11, h12]
    simp only [tetra2, sum_fin10, Matrix.cons_val]
    ring
  have dw : ∀ (x y z : ℝ) a, ∑ i, w i a * (tetra2 : Elem ℝ 3 10).dL ![x, y, z] i 2 = l2 a + q02 a * x + q12 a * y + q22 a * z := by
    intro x y z a
    rw [hl2, h02, h12, h22]
    simp only [tetra2, sum_fin10, Matrix.cons_val]
    ring
  have hab : tetraB - tetraA ≠ 0 := by unfold tetraA tetraB; norm_num
  have hg : ∀ x y z : ℝ, (![x, y, z] ∈ [![tetraA, tetraA, tetraA], ![tetraA, tetraA, tetraB], ![tetraA, tetraB, tetraA],
      ![tetraB, tetraA, tetraA]]) → ∀ a b,
      ∑ i, w i a * (tetra2 : Elem ℝ 3 10).dL ![x, y, z] i b = -∑ i, w i b * (tetra2 : Elem ℝ 3 10).dL ![x, y, z] i a := by
    intro x y z hm
    refine h ⟨![x, y, z], 1 / 24⟩ ?_
    simp only [List.mem_cons, List.not_mem_nil, or_false] at hm
    rcases hm with e | e | e | e <;> rw [e] <;> simp [gaussTetra2]
  have g0 := hg tetraA tetraA tetraA (by simp)
  have g1 := hg tetraB tetraA tetraA (by simp)
  have g2 := hg tetraA tetraB tetraA (by simp)
  have g3 := hg tetraA tetraA tetraB (by simp)
  clear hg h
  generalize tetraA = s at *
  generalize tetraB = t at *
  have lin : ∀ {p q r k : ℝ}, p + q * s + r * s + k * s = 0 → p + q * t + r * s + k * s = 0 → p + q * s + r * t + k * s = 0 →
      p + q * s + r * s + k * t = 0 → p = 0 ∧ q = 0 ∧ r = 0 ∧ k = 0 := by
    intro p q r k e0 e1 e2 e3
    have a1 : q = 0 := (mul_eq_zero.1 (by linarith : q * (t - s) = 0)).resolve_right hab
    have a2 : r = 0 := (mul_eq_zero.1 (by linarith : r * (t - s) = 0)).resolve_right hab
    have a3 : k = 0 := (mul_eq_zero.1 (by linarith : k * (t - s) = 0)).resolve_right hab
    subst a1 a2 a3
    exact ⟨by linarith, rfl, rfl, rfl⟩
  have n0 := lin (p := l0 0) (q := q00 0) (r := q01 0) (k := q02 0)
    (by have := g0 0 0; simp only [du] at this; linarith) (by have := g1 0 0; simp only [du] at this; linarith)
    (by have := g2 0 0; simp only [du] at this; linarith) (by have := g3 0 0; simp only [du] at this; linarith)
  have n1 := lin (p := l1 1) (q := q01 1) (r := q11 1) (k := q12 1)
    (by have := g0 1 1; simp only [dv] at this; linarith) (by have := g1 1 1; simp only [dv] at this; linarith)
    (by have := g2 1 1; simp only [dv] at this; linarith) (by have := g3 1 1; simp only [dv] at this; linarith)
  have n2 := lin (p := l2 2) (q := q02 2) (r := q12 2) (k := q22 2)
    (by have := g0 2 2; simp only [dw] at this; linarith) (by have := g1 2 2; simp only [dw] at this; linarith)
    (by have := g2 2 2; simp only [dw] at this; linarith) (by have := g3 2 2; simp only [dw] at this; linarith)
  have s01 := lin (p := l1 0 + l0 1) (q := q01 0 + q00 1) (r := q11 0 + q01 1) (k := q12 0 + q02 1)
    (by have := g0 0 1; simp only [du, dv] at this; linarith) (by have := g1 0 1; simp only [du, dv] at this; linarith)
    (by have := g2 0 1; simp only [du, dv] at this; linarith) (by have := g3 0 1; simp only [du, dv] at this; linarith)
  have s02 := lin (p := l2 0 + l0 2) (q := q02 0 + q00 2) (r := q12 0 + q01 2) (k := q22 0 + q02 2)
    (by have := g0 0 2; simp only [du, dw] at this; linarith) (by have := g1 0 2; simp only [du, dw] at this; linarith)
    (by have := g2 0 2; simp only [du, dw] at this; linarith) (by have := g3 0 2; simp only [du, dw] at this; linarith)
  have s12 := lin (p := l2 1 + l1 2) (q := q02 1 + q01 2) (r := q12 1 + q11 2) (k := q22 1 + q12 2)
    (by have := g0 1 2; simp only [dv, dw] at this; linarith) (by have := g1 1 2; simp only [dv, dw] at this; linarith)
    (by have := g2 1 2; simp only [dv, dw] at this; linarith) (by have := g3 1 2; simp only [dv, dw] at this; linarith)
  obtain ⟨a1, a2, a3, a4⟩ := n0
  obtain ⟨b1, b2, b3, b4⟩ := n1
  obtain ⟨d1, d2, d3, d4⟩ := n2
  obtain ⟨x1, x2, x3, x4⟩ := s01
  obtain ⟨y1, y2, y3, y4⟩ := s02
  obtain ⟨z1, z2, z3, z4⟩ := s12
  have hq : ∀ a, q00 a = 0 ∧ q11 a = 0 ∧ q22 a = 0 ∧ q01 a = 0 ∧ q02 a = 0 ∧ q12 a = 0 := by
    intro a
    fin_cases a <;> simp only [Fin.zero_eta, Fin.mk_one, Fin.reduceFinMk]
    · exact ⟨a2, by linarith, by linarith, a3, a4, by linarith⟩
    · exact ⟨by linarith, b3, by linarith, b2, by linarith, b4⟩
    · exact ⟨by linarith, by linarith, d4, by linarith, d2, d3⟩
  have hval : ∀ i a, w i a = w 0 a + (l0 a * (tetra2 : Elem ℝ 3 10).node i 0 + l1 a * (tetra2 : Elem ℝ 3 10).node i 1 +
      l2 a * (tetra2 : Elem ℝ 3 10).node i 2) := by
    intro i a
    obtain ⟨p1, p2, p3, p4, p5, p6⟩ := hq a
    rw [h00] at p1
    rw [h11] at p2
    rw [h22] at p3
    rw [h01] at p4
    rw [h02] at p5
    rw [h12] at p6
    rw [hl0, hl1, hl2]
    fin_cases i <;> simp only [tetra2, Fin.zero_eta, Fin.mk_one, Fin.reduceFinMk, Matrix.cons_val] <;> linarith
  refine ⟨w 0, Matrix.of fun a b => ![l0 a, l1 a, l2 a] b, ?_, ?_⟩
  · intro a b
    fin_cases a <;> fin_cases b <;> simp only [Matrix.of_apply, Fin.zero_eta, Fin.mk_one, Fin.reduceFinMk, Matrix.cons_val] <;>
      linarith
  · intro i
    funext a
    rw [hval]
    simp only [mulVec, dotProduct, Matrix.of_apply, Pi.add_apply, sum_fin3, Matrix.cons_val]

end Caribou
