import Verif.Lemmas.Gauss

/-!
# Properties C12 – C14: Gauss rules and `contains_local`
-/

set_option autoImplicit false

namespace Caribou

open Spec

/-- The family the canonical element of each class belongs to. -/
def ElementType.shape : ElementType → Shape
  | .triangle1 | .triangle2 | .tetra1 | .tetra2 => .simplex
  | _ => .cube

/-- The integral over the canonical element of each class. -/
noncomputable def ElementType.integral : (T : ElementType) → ((Fin T.dim → ℝ) → ℝ) → ℝ
  | .segment1 => intCube1 | .segment2 => intCube1
  | .triangle1 => intSimplex2 | .triangle2 => intSimplex2
  | .quad1 => intCube2 | .quad2 => intCube2 | .rectQuad1 => intCube2 | .rectQuad2 => intCube2
  | .tetra1 => intSimplex3 | .tetra2 => intSimplex3
  | .hexa1 => intCube3 | .hexa2 => intCube3 | .rectHexa1 => intCube3 | .rectHexa2 => intCube3

/-- What a user computes with `gauss_nodes()`: the sum of weight times value. -/
noncomputable def gaussSum {d : ℕ} (nodes : List (GaussNode d)) (f : (Fin d → ℝ) → ℝ) : ℝ :=
  (nodes.map fun g => g.weight * f g.position).sum

/-! ### C12 -/

private theorem inside_cube {d : ℕ} (x : Fin d → ℝ) (w : ℝ) (hw : 0 < w) (h : ∀ j, x j = g3 ∨ x j = -g3 ∨ x j = 0) :
    Shape.cube.Mem x ∧ 0 < w := by
  refine ⟨fun j => ?_, hw⟩
  have h0 := g3_pos
  have h1 := g3_le_one
  rcases h j with h | h | h <;> rw [h] <;> constructor <;> linarith

/-- **C12 (inside, positive).** Every Gauss node lies in the canonical element and has a positive weight. -/
theorem C12_inside_positive (T : ElementType) : ∀ g ∈ T.gauss, T.shape.Mem g.position ∧ 0 < g.weight := by
  have s1 : ∀ g ∈ gaussSegment1, Shape.cube.Mem g.position ∧ 0 < g.weight := by
    simp only [gaussSegment1, List.forall_mem_cons, List.not_mem_nil, IsEmpty.forall_iff, implies_true, and_true]
    (apply inside_cube; norm_num; intro j; fin_cases j; simp)
  have s2 : ∀ g ∈ gaussSegment2, Shape.cube.Mem g.position ∧ 0 < g.weight := by
    simp only [gaussSegment2, List.forall_mem_cons, List.not_mem_nil, IsEmpty.forall_iff, implies_true, and_true]
    refine ⟨?_, ?_⟩ <;> (apply inside_cube; norm_num; intro j; fin_cases j; simp)
  have q : ∀ g ∈ gaussQuad, Shape.cube.Mem g.position ∧ 0 < g.weight := by
    simp only [gaussQuad, List.forall_mem_cons, List.not_mem_nil, IsEmpty.forall_iff, implies_true, and_true]
    refine ⟨?_, ?_, ?_, ?_⟩ <;> (apply inside_cube; norm_num; intro j; fin_cases j <;> simp)
  have h : ∀ g ∈ gaussHexa, Shape.cube.Mem g.position ∧ 0 < g.weight := by
    simp only [gaussHexa, List.forall_mem_cons, List.not_mem_nil, IsEmpty.forall_iff, implies_true, and_true]
    refine ⟨?_, ?_, ?_, ?_, ?_, ?_, ?_, ?_⟩ <;>
      (apply inside_cube; norm_num; intro j; fin_cases j <;> simp)
  have t1 : ∀ g ∈ gaussTriangle1, Shape.simplex.Mem g.position ∧ 0 < g.weight := by
    simp only [gaussTriangle1, List.forall_mem_cons, List.not_mem_nil, IsEmpty.forall_iff, implies_true, and_true, Shape.Mem, Fin.forall_fin_two,
      sum_fin2, Matrix.cons_val]
    norm_num
  have t2 : ∀ g ∈ gaussTriangle2, Shape.simplex.Mem g.position ∧ 0 < g.weight := by
    simp only [gaussTriangle2, List.forall_mem_cons, List.not_mem_nil, IsEmpty.forall_iff, implies_true, and_true, Shape.Mem, Fin.forall_fin_two,
      sum_fin2, Matrix.cons_val]
    norm_num
  have e1 : ∀ g ∈ gaussTetra1, Shape.simplex.Mem g.position ∧ 0 < g.weight := by
    simp only [gaussTetra1, List.forall_mem_cons, List.not_mem_nil, IsEmpty.forall_iff, implies_true, and_true, Shape.Mem, forall_fin3,
      sum_fin3, Matrix.cons_val]
    norm_num
  have e2 : ∀ g ∈ gaussTetra2, Shape.simplex.Mem g.position ∧ 0 < g.weight := by
    simp only [gaussTetra2, List.forall_mem_cons, List.not_mem_nil, IsEmpty.forall_iff, implies_true, and_true, Shape.Mem, forall_fin3,
      sum_fin3, Matrix.cons_val, tetraA, tetraB]
    norm_num
  cases T <;> assumption

/-- **C12 (segments, quads, hexahedra).** The two-point tensor rules integrate exactly every polynomial of degree at
most three in each variable, and the one-point segment rule every affine function. -/
theorem C12_tensor_exact :
    (∀ (c : ℝ) (g : Fin 1 → ℝ), gaussSum (d := 1) ElementType.segment1.gauss (affineFn c g) = intCube1 (affineFn c g)) ∧
    (∀ c, gaussSum (d := 1) ElementType.segment2.gauss (cubic1 c) = intCube1 (cubic1 c)) ∧
    (∀ c, gaussSum (d := 2) ElementType.quad1.gauss (cubic2 c) = intCube2 (cubic2 c)) ∧
    (∀ c, gaussSum (d := 2) ElementType.quad2.gauss (cubic2 c) = intCube2 (cubic2 c)) ∧
    (∀ c, gaussSum (d := 2) ElementType.rectQuad1.gauss (cubic2 c) = intCube2 (cubic2 c)) ∧
    (∀ c, gaussSum (d := 2) ElementType.rectQuad2.gauss (cubic2 c) = intCube2 (cubic2 c)) ∧
    (∀ c, gaussSum (d := 3) ElementType.hexa1.gauss (cubic3 c) = intCube3 (cubic3 c)) ∧
    (∀ c, gaussSum (d := 3) ElementType.hexa2.gauss (cubic3 c) = intCube3 (cubic3 c)) ∧
    (∀ c, gaussSum (d := 3) ElementType.rectHexa1.gauss (cubic3 c) = intCube3 (cubic3 c)) ∧
    (∀ c, gaussSum (d := 3) ElementType.rectHexa2.gauss (cubic3 c) = intCube3 (cubic3 c)) := by
  have hquad : ∀ c, gaussSum gaussQuad (cubic2 c) = intCube2 (cubic2 c) := by
    intro c
    rw [int_cubic2]
    simp only [gaussSum, ← mom_two_point, gaussQuad, List.map_cons, List.map_nil, List.sum_cons, List.sum_nil, cubic2,
      Matrix.cons_val, one_mul, add_zero, ← Finset.sum_add_distrib]
    refine Finset.sum_congr rfl fun i _ => Finset.sum_congr rfl fun j _ => ?_
    ring
  have hhexa : ∀ c, gaussSum gaussHexa (cubic3 c) = intCube3 (cubic3 c) := by
    intro c
    rw [int_cubic3]
    simp only [gaussSum, ← mom_two_point, gaussHexa, List.map_cons, List.map_nil, List.sum_cons, List.sum_nil, cubic3,
      Matrix.cons_val, one_mul, add_zero, ← Finset.sum_add_distrib]
    refine Finset.sum_congr rfl fun i _ => Finset.sum_congr rfl fun j _ => Finset.sum_congr rfl fun k _ => ?_
    ring
  refine ⟨fun c g => ?_, fun c => ?_, hquad, hquad, hquad, hquad, hhexa, hhexa, hhexa, hhexa⟩
  · have h : ∀ u : ℝ, affineFn c g ![u] = c + g 0 * u + 0 * u ^ 2 + 0 * u ^ 3 + 0 * u ^ 4 := by
      intro u; simp [affineFn]
    change gaussSum gaussSegment1 (affineFn c g) = intCube1 (affineFn c g)
    simp only [gaussSum, intCube1, gaussSegment1, List.map_cons, List.map_nil, List.sum_cons, List.sum_nil, h, int_poly4]
    ring
  · change gaussSum gaussSegment2 (cubic1 c) = intCube1 (cubic1 c)
    rw [int_cubic1]
    simp only [gaussSum, ← mom_two_point, gaussSegment2, List.map_cons, List.map_nil, List.sum_cons, List.sum_nil,
      cubic1, Matrix.cons_val, one_mul, add_zero, ← Finset.sum_add_distrib]
    refine Finset.sum_congr rfl fun i _ => ?_
    ring

/-- **C12 (triangles).** The one-point rule is exact for every affine function and the three-point rule for every
polynomial of total degree at most two. -/
theorem C12_triangle_exact :
    (∀ (c : ℝ) (g : Fin 2 → ℝ), gaussSum (d := 2) ElementType.triangle1.gauss (affineFn c g) = intSimplex2 (affineFn c g)) ∧
    (∀ (c : ℝ) (g : Fin 2 → ℝ) (H : Fin 2 → Fin 2 → ℝ),
      gaussSum (d := 2) ElementType.triangle2.gauss (quadraticFn c g H) = intSimplex2 (quadraticFn c g H)) := by
  refine ⟨fun c g => ?_, fun c g H => ?_⟩
  · have h : affineFn c g = quadraticFn c g (fun _ _ => 0) := by
      funext ξ; simp [affineFn, quadraticFn]
    change gaussSum gaussTriangle1 (affineFn c g) = intSimplex2 (affineFn c g)
    rw [h, int_quadratic2]
    simp only [gaussSum, gaussTriangle1, List.map_cons, List.map_nil, List.sum_cons, List.sum_nil, quadraticFn, sum_fin2,
      Matrix.cons_val]
    ring
  · change gaussSum gaussTriangle2 (quadraticFn c g H) = intSimplex2 (quadraticFn c g H)
    rw [int_quadratic2]
    simp only [gaussSum, gaussTriangle2, List.map_cons, List.map_nil, List.sum_cons, List.sum_nil, quadraticFn, sum_fin2,
      Matrix.cons_val]
    ring

/-- **C12 (tetrahedra).** Both rules are exact for every affine function; the four-point rule, whose points are
sixteen-digit decimals, integrates every polynomial of total degree at most two up to `10⁻¹⁶` times the size of its
second-order coefficients. -/
theorem C12_tetra :
    (∀ (c : ℝ) (g : Fin 3 → ℝ), gaussSum (d := 3) ElementType.tetra1.gauss (affineFn c g) = intSimplex3 (affineFn c g)) ∧
    (∀ (c : ℝ) (g : Fin 3 → ℝ), gaussSum (d := 3) ElementType.tetra2.gauss (affineFn c g) = intSimplex3 (affineFn c g)) ∧
    (∀ (c : ℝ) (g : Fin 3 → ℝ) (H : Fin 3 → Fin 3 → ℝ),
      |gaussSum (d := 3) ElementType.tetra2.gauss (quadraticFn c g H) - intSimplex3 (quadraticFn c g H)|
      ≤ (∑ i, ∑ j, |H i j|) / 10 ^ 16) := by
  have h : ∀ (c : ℝ) (g : Fin 3 → ℝ), affineFn c g = quadraticFn c g (fun _ _ => 0) := by
    intro c g; funext ξ; simp [affineFn, quadraticFn]
  refine ⟨fun c g => ?_, fun c g => ?_, fun c g H => ?_⟩
  · change gaussSum gaussTetra1 (affineFn c g) = intSimplex3 (affineFn c g)
    rw [h, int_quadratic3]
    simp only [gaussSum, gaussTetra1, List.map_cons, List.map_nil, List.sum_cons, List.sum_nil, quadraticFn, sum_fin3,
      Matrix.cons_val]
    ring
  · change gaussSum gaussTetra2 (affineFn c g) = intSimplex3 (affineFn c g)
    rw [h, int_quadratic3]
    simp only [gaussSum, gaussTetra2, List.map_cons, List.map_nil, List.sum_cons, List.sum_nil, quadraticFn, sum_fin3,
      Matrix.cons_val, tetraA, tetraB]
    ring
  · change |gaussSum gaussTetra2 (quadraticFn c g H)
        - intSimplex3 (quadraticFn c g H)| ≤ (∑ i : Fin 3, ∑ j : Fin 3, |H i j|) / 10 ^ 16
    obtain ⟨p, hp⟩ : ∃ p : ℝ, p = (3 * tetraA ^ 2 + tetraB ^ 2) / 24 - 1 / 60 := ⟨_, rfl⟩
    obtain ⟨q, hq⟩ : ∃ q : ℝ, q = (2 * tetraA ^ 2 + 2 * tetraA * tetraB) / 24 - 1 / 120 := ⟨_, rfl⟩
    have hp' : |p| ≤ 1 / 10 ^ 16 := by rw [hp, abs_le]; constructor <;> norm_num [tetraA, tetraB]
    have hq' : |q| ≤ 1 / 10 ^ 16 := by rw [hq, abs_le]; constructor <;> norm_num [tetraA, tetraB]
    have hs : 3 * tetraA + tetraB = 1 := by norm_num [tetraA, tetraB]
    have key : gaussSum gaussTetra2 (quadraticFn c g H) - intSimplex3 (quadraticFn c g H)
        = (H 0 0 + H 1 1 + H 2 2) * p + (H 0 1 + H 0 2 + H 1 0 + H 1 2 + H 2 0 + H 2 1) * q := by
      rw [int_quadratic3, hp, hq]
      simp only [gaussSum, gaussTetra2, List.map_cons, List.map_nil, List.sum_cons, List.sum_nil, quadraticFn, sum_fin3,
        Matrix.cons_val]
      linear_combination (g 0 + g 1 + g 2) / 24 * hs
    rw [key]
    have e : (H 0 0 + H 1 1 + H 2 2) * p + (H 0 1 + H 0 2 + H 1 0 + H 1 2 + H 2 0 + H 2 1) * q
        = ∑ i : Fin 3, ∑ j : Fin 3, H i j * (if i = j then p else q) := by
      simp only [sum_fin3]
      simp
      ring
    rw [e, Finset.sum_div]
    refine (Finset.abs_sum_le_sum_abs _ _).trans (Finset.sum_le_sum fun i _ => ?_)
    rw [Finset.sum_div]
    refine (Finset.abs_sum_le_sum_abs _ _).trans (Finset.sum_le_sum fun j _ => ?_)
    rw [abs_mul, div_eq_mul_one_div]
    refine mul_le_mul_of_nonneg_left ?_ (abs_nonneg _)
    split <;> assumption

/-- **C12 (total weight).** The weights add up to the measure of the canonical element. -/
theorem C12_weights (T : ElementType) :
    (T.gauss.map GaussNode.weight).sum = T.integral (fun _ => 1) ∧
    T.integral (fun _ => 1) = match T.shape, T.dim with
      | .cube, d => 2 ^ d
      | .simplex, d => 1 / (Nat.factorial d : ℝ) := by
  have h2 : intSimplex2 (fun _ => 1) = 1 / 2 := by
    have h : (fun _ => 1) = quadraticFn (d := 2) (1 : ℝ) (fun _ => 0) (fun _ _ => 0) := by
      funext ξ; simp [quadraticFn]
    rw [h, int_quadratic2]
    norm_num
  have h3 : intSimplex3 (fun _ => 1) = 1 / 6 := by
    have h : (fun _ => 1) = quadraticFn (d := 3) (1 : ℝ) (fun _ => 0) (fun _ _ => 0) := by
      funext ξ; simp [quadraticFn]
    rw [h, int_quadratic3]
    norm_num
  have k1 : intCube1 (fun _ => 1) = 2 := by norm_num [intCube1]
  have k2 : intCube2 (fun _ => 1) = 4 := by norm_num [intCube2]
  have k3 : intCube3 (fun _ => 1) = 8 := by norm_num [intCube3]
  cases T <;>
    simp only [ElementType.integral, ElementType.shape, ElementType.dim, ElementType.gauss, h2, h3, k1, k2, k3,
      gaussSegment1, gaussSegment2, gaussTriangle1, gaussTriangle2, gaussQuad, gaussTetra1,
      gaussTetra2, gaussHexa, List.map_cons, List.map_nil, List.sum_cons, List.sum_nil, Nat.factorial] <;>
    norm_num

/-- Non-triviality for C12: the degree is sharp, the three-point triangle rule gives `11/216` instead of `1/20` on the
cubic `u³`. -/
example : gaussSum (d := 2) ElementType.triangle2.gauss (fun ξ => ξ (0 : Fin 2) ^ 3) = (11 : ℝ) / 216 := by
  change gaussSum gaussTriangle2 (fun ξ => ξ (0 : Fin 2) ^ 3) = _
  simp only [gaussSum, gaussTriangle2, List.map_cons, List.map_nil, List.sum_cons, List.sum_nil, Matrix.cons_val]
  norm_num

/-! ### C13 -/

/-- **C13 is violated by the code** for the two quadratic rectangular classes. -/
theorem C13_violated :
    ElementType.rectQuad2.numGauss ≠ ElementType.rectQuad2.gauss.length ∧
    ElementType.rectHexa2.numGauss ≠ ElementType.rectHexa2.gauss.length := by
  exact ⟨fun h => absurd (show 8 = 4 from h) (by decide), fun h => absurd (show 4 = 8 from h) (by decide)⟩

/-- **C13 (partial).** For the twelve other classes the declared number of Gauss nodes is the size of the table.
Missing: `RectangularQuad<_, Quadratic>` and `RectangularHexahedron<Quadratic>`, where it is false. -/
theorem C13_gauss_count_partial (T : ElementType) (h1 : T ≠ .rectQuad2) (h2 : T ≠ .rectHexa2) :
    T.gauss.length = T.numGauss := by
  cases T <;> first | rfl | exact absurd rfl h1 | exact absurd rfl h2

/-! ### C14 -/

section

variable {K : Type*} [Field K] [LinearOrder K] [IsStrictOrderedRing K]

theorem inClosedInterval_iff {a x b : K} (h : a ≤ b) : inClosedInterval a x b = true ↔ a ≤ x ∧ x ≤ b := by
  simp only [inClosedInterval, decide_eq_true_eq]
  constructor
  · intro hx
    constructor
    · by_contra hc
      push Not at hc
      nlinarith [mul_pos_of_neg_of_neg (sub_neg.2 hc) (sub_neg.2 (lt_of_lt_of_le hc h))]
    · by_contra hc
      push Not at hc
      nlinarith [mul_pos (sub_pos.2 (lt_of_le_of_lt h hc)) (sub_pos.2 hc)]
  · rintro ⟨h1, h2⟩
    exact mul_nonpos_of_nonneg_of_nonpos (sub_nonneg.2 h1) (sub_nonpos.2 h2)

/-- The class has a `contains_local`. -/
def ElementType.HasContains (T : ElementType) : Prop := T ≠ .rectQuad1 ∧ T ≠ .rectQuad2

/-- **C14.** For every class that has `contains_local`, every point and every `eps ≥ -1`: the answer is true exactly
when the point is in the canonical element enlarged by `eps`. -/
theorem C14_contains_iff (T : ElementType) (hT : T.HasContains) (ξ : Fin T.dim → K) (eps : K) (he : -1 ≤ eps) :
    T.containsLocal ξ eps = some true ↔ T.shape.MemEps ξ eps := by
  have hab : -1 - eps ≤ 1 + eps := by linarith
  have f1 : ∀ ξ : Fin 1 → K, containsSegment ξ eps = true ↔ Shape.cube.MemEps ξ eps := fun ξ => by
    simp [containsSegment, Shape.MemEps, inClosedInterval_iff hab]
  have f2 : ∀ ξ : Fin 2 → K, containsQuad ξ eps = true ↔ Shape.cube.MemEps ξ eps := fun ξ => by
    simp [containsQuad, Shape.MemEps, inClosedInterval_iff hab, Fin.forall_fin_two]
  have f3 : ∀ ξ : Fin 3 → K, containsHexa ξ eps = true ↔ Shape.cube.MemEps ξ eps := fun ξ => by
    simp only [containsHexa, Shape.MemEps, Bool.and_eq_true, inClosedInterval_iff hab]
    rw [forall_fin3]
    tauto
  have t2 : ∀ ξ : Fin 2 → K, containsTriangle ξ eps = true ↔ Shape.simplex.MemEps ξ eps := fun ξ => by
    simp only [containsTriangle, Shape.MemEps, Bool.and_eq_true, decide_eq_true_eq, Fin.forall_fin_two, sum_fin2]
    have : 1 - ξ 0 - ξ 1 > -eps ↔ ξ 0 + ξ 1 < 1 + eps := by constructor <;> intro h <;> linarith
    rw [this]
  have t3 : ∀ ξ : Fin 3 → K, containsTetra ξ eps = true ↔ Shape.simplex.MemEps ξ eps := fun ξ => by
    simp only [containsTetra, Shape.MemEps, Bool.and_eq_true, decide_eq_true_eq, sum_fin3]
    have : 1 - ξ 0 - ξ 1 - ξ 2 > -eps ↔ ξ 0 + ξ 1 + ξ 2 < 1 + eps := by constructor <;> intro h <;> linarith
    rw [this, forall_fin3]
    tauto
  obtain ⟨hT1, hT2⟩ := hT
  cases T <;> simp only [ElementType.containsLocal, ElementType.shape, Option.some.injEq]
  · exact f1 ξ
  · exact f1 ξ
  · exact t2 ξ
  · exact t2 ξ
  · exact f2 ξ
  · exact f2 ξ
  · exact t3 ξ
  · exact t3 ξ
  · exact f3 ξ
  · exact f3 ξ
  · exact absurd rfl hT1
  · exact absurd rfl hT2
  · exact f3 ξ
  · exact f3 ξ

/-- **C14 (monotone).** A larger tolerance never rejects an accepted point. -/
theorem C14_monotone (T : ElementType) (hT : T.HasContains) (ξ : Fin T.dim → K) (eps eps' : K) (he : -1 ≤ eps)
    (hle : eps ≤ eps') (h : T.containsLocal ξ eps = some true) : T.containsLocal ξ eps' = some true := by
  rw [C14_contains_iff T hT ξ _ (he.trans hle)]
  rw [C14_contains_iff T hT ξ _ he] at h
  cases hs : T.shape <;> rw [hs] at h <;> simp only [Shape.MemEps] at h ⊢
  · exact fun j => ⟨by linarith [(h j).1], by linarith [(h j).2]⟩
  · exact ⟨fun j => by linarith [h.1 j], by linarith [h.2]⟩

/-- **C14 (no false negatives).** Every point of the closed canonical element is accepted for every `eps > 0`, and even
for `eps = 0` on segments, quads and hexahedra. -/
theorem C14_accepts (T : ElementType) (hT : T.HasContains) (ξ : Fin T.dim → K) (eps : K)
    (he : 0 < eps ∨ (T.shape = .cube ∧ 0 ≤ eps)) (h : T.shape.Mem ξ) : T.containsLocal ξ eps = some true := by
  have he0 : 0 ≤ eps := by rcases he with h | h; exacts [h.le, h.2]
  rw [C14_contains_iff T hT ξ _ (by linarith)]
  cases hs : T.shape <;> rw [hs] at h he <;> simp only [Shape.Mem, Shape.MemEps] at h ⊢
  · exact fun j => ⟨by linarith [(h j).1], by linarith [(h j).2]⟩
  · have he1 : 0 < eps := by rcases he with h | h; exacts [h, absurd h.1 (by decide)]
    exact ⟨fun j => by linarith [h.1 j], by linarith [h.2]⟩

/-- **C14 (negative tolerance below -1).** On segments the interval then turns inside out instead of becoming empty:
exactly the points between `1 + eps` and `-1 - eps` are accepted. -/
theorem C14_inverted (ξ : Fin 1 → K) (eps : K) (he : eps < -1) :
    ElementType.segment1.containsLocal (K := K) ξ eps = some true ↔ 1 + eps ≤ ξ 0 ∧ ξ 0 ≤ -1 - eps := by
  simp only [ElementType.containsLocal, containsSegment, Option.some.injEq]
  rw [← inClosedInterval_iff (by linarith)]
  simp only [inClosedInterval]
  rw [mul_comm]

end

/-- C14 on concrete points: a vertex of the tetrahedron is rejected for `eps = 0` and accepted for `eps = 1/10`. -/
example : ElementType.tetra1.containsLocal (K := ℚ) ![0, 0, 0] 0 = some false ∧
    ElementType.tetra1.containsLocal (K := ℚ) ![0, 0, 0] (1/10) = some true ∧
    ElementType.quad1.containsLocal (K := ℚ) ![1, -1] 0 = some true := by
  decide +kernel

end Caribou
