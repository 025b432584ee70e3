import Mathlib.Analysis.Convex.Combination
import Mathlib.Analysis.Convex.Topology
import Mathlib.LinearAlgebra.Matrix.NonsingularInverse
import Mathlib.Topology.Instances.Matrix
import Verif.Model.SurfaceDrawing
import Verif.Spec.SurfaceDrawing
import Verif.Props.Shape

/-!
# Property C107, surface force fields: the drawn elements are the elements moved apart
-/

set_option autoImplicit false

namespace Caribou

open Spec Matrix

/-- The corners around an element; a triangle repeats its last corner. -/
def SurfaceType.around : (T : SurfaceType) → Fin 4 → Fin T.numNodes
  | .triangle1 => (![0, 1, 2, 2] : Fin 4 → Fin 3) | .triangle2 => (![0, 1, 2, 2] : Fin 4 → Fin 6)
  | .quad1 => (![0, 1, 2, 3] : Fin 4 → Fin 4) | .quad2 => (![0, 1, 2, 3] : Fin 4 → Fin 8)

/-- **C107 (surfaces, order).** The triangles of the elements are drawn one element after the other. -/
theorem C107_surface_order (T : SurfaceType) (s : ℝ) {N M : ℕ} (idx : Fin M → Fin T.numNodes → Fin N) (x : Fin N → Fin 3 → ℝ) :
    T.draw s idx x = (List.finRange M).flatMap fun e => T.drawElement s fun i => x (idx e i) := by
  have key : ∀ (l : List (Fin M)) (g : List (Fin 3 → Fin 3 → ℝ)),
      l.foldl (fun group e => group ++ T.drawElement s fun i => x (idx e i)) g =
        g ++ l.flatMap fun e => T.drawElement s fun i => x (idx e i) := by
    intro l
    induction l with
    | nil => intro g; simp
    | cons e l ih => intro g; rw [List.foldl_cons, ih, List.flatMap_cons, List.append_assoc]
  exact (key _ _).trans (List.nil_append _)

theorem inSpace_plane (p : Fin 2 → ℝ) : inSpace p = ![p 0, p 1, 0] := by
  funext a
  fin_cases a <;> simp [inSpace]

theorem shrunk_plane (T : SurfaceType) (s : ℝ) (X : Fin T.numNodes → Fin 2 → ℝ) (i : Fin T.numNodes) :
    T.shrunk s (fun j => inSpace (X j)) i = inSpace (T.shrunk s X i) := by
  funext a
  simp only [SurfaceType.shrunk, Elem.worldCoordinates, Elem.interpolate, inSpace_plane, Pi.add_apply, Pi.smul_apply, Pi.sub_apply, smul_eq_mul]
  fin_cases a <;> simp

/-- **C107 (surfaces, plane).** The force fields of the plane draw what those of the space draw of the same elements at height zero. -/
theorem C107_surface_plane (T : SurfaceType) (s : ℝ) {N M : ℕ} (idx : Fin M → Fin T.numNodes → Fin N) (x : Fin N → Fin 2 → ℝ) :
    T.draw2 s idx x = T.draw s idx fun i => inSpace (x i) := by
  have h : ∀ X : Fin T.numNodes → Fin 2 → ℝ, T.drawElement2 s X = T.drawElement s fun i => inSpace (X i) := by
    intro X
    refine List.map_congr_left fun t _ => ?_
    funext k
    exact (inSpace_plane _).symm.trans (shrunk_plane T s X (t k)).symm
  unfold SurfaceType.draw2 SurfaceType.draw
  simp only [h]

/-! ### What is covered -/

/-- A planar convex quadrilateral is covered by the two triangles on the sides of a diagonal. -/
theorem hull_of_quad (q : Fin 4 → Fin 3 → ℝ) (h : DiagonalsMeet q) (p : Fin 3 → ℝ) :
    p ∈ convexHull ℝ (Set.range q) ↔ InTriangle (q 0) (q 1) (q 2) p ∨ InTriangle (q 2) (q 3) (q 0) p := by
  have hmem : p ∈ convexHull ℝ (Set.range q) ↔ ∃ w : Fin 4 → ℝ, (∀ i, 0 ≤ w i) ∧ w 0 + w 1 + w 2 + w 3 = 1 ∧
      ∀ j, p j = w 0 * q 0 j + w 1 * q 1 j + w 2 * q 2 j + w 3 * q 3 j := by
    constructor
    · intro hp
      refine convexHull_min (t := {p | ∃ w : Fin 4 → ℝ, (∀ i, 0 ≤ w i) ∧ w 0 + w 1 + w 2 + w 3 = 1 ∧
        ∀ j, p j = w 0 * q 0 j + w 1 * q 1 j + w 2 * q 2 j + w 3 * q 3 j}) ?_ ?_ hp
      · rintro _ ⟨i, rfl⟩
        refine ⟨fun k => if k = i then 1 else 0, fun k => by dsimp only; split_ifs <;> norm_num, ?_, fun j => ?_⟩ <;> fin_cases i <;> simp
      · rintro x ⟨v, v0, v1, hx⟩ y ⟨w, w0, w1, hy⟩ a b ha hb hab
        refine ⟨fun i => a * v i + b * w i, fun i => add_nonneg (mul_nonneg ha (v0 i)) (mul_nonneg hb (w0 i)), ?_, fun j => ?_⟩
        · linear_combination a * v1 + b * w1 + hab
        · simp only [Pi.add_apply, Pi.smul_apply, smul_eq_mul, hx j, hy j]; ring
    · rintro ⟨w, w0, w1, hp⟩
      have := (convex_convexHull ℝ (Set.range q)).sum_mem (t := Finset.univ) (w := w) (z := q) (fun i _ => w0 i)
        (by rw [sum_fin4]; exact w1) fun i _ => subset_convexHull ℝ _ ⟨i, rfl⟩
      convert this using 1
      funext j
      rw [Finset.sum_apply, sum_fin4, hp j]
      rfl
  rw [hmem]
  constructor
  · rintro ⟨w, h0, h1, hp⟩
    obtain ⟨m, ⟨a, b, ha, hb, hab, rfl⟩, ⟨c, d, hc, hd, hcd, e⟩⟩ := h
    have e' : ∀ j, c * q 1 j + d * q 3 j = a * q 0 j + b * q 2 j := fun j => by
      have := congrFun e j
      simpa [Pi.add_apply, Pi.smul_apply, smul_eq_mul] using this
    -- take away the same part of the diagonal `1 3` until one of the two weights is zero
    by_cases hc0 : w 1 * d ≤ w 3 * c
    · -- the weight of the corner 1 goes
      by_cases hz : c = 0
      · -- then the corner 3 is on the diagonal `0 2`
        have hd1 : d = 1 := by linarith
        have hw1 : w 1 = 0 := by
          rw [hz, hd1] at hc0
          nlinarith [h0 1]
        refine Or.inr ⟨w 2, w 3, w 0, h0 2, h0 3, h0 0, by linarith, fun j => ?_⟩
        rw [hp j, hw1]; ring
      · have hcp : 0 < c := lt_of_le_of_ne hc (Ne.symm hz)
        obtain ⟨t, ht⟩ : ∃ t, t = w 1 / c := ⟨_, rfl⟩
        have ht0 : 0 ≤ t := ht ▸ div_nonneg (h0 1) hc
        have htc : t * c = w 1 := by rw [ht]; field_simp
        refine Or.inr ⟨w 2 + t * b, w 3 - t * d, w 0 + t * a, add_nonneg (h0 2) (mul_nonneg ht0 hb), ?_,
          add_nonneg (h0 0) (mul_nonneg ht0 ha), ?_, fun j => ?_⟩
        · have : t * d * c ≤ w 3 * c := by rw [mul_right_comm, htc]; exact hc0
          have := le_of_mul_le_mul_right this hcp
          linarith
        · linear_combination h1 + t * hab - t * hcd + htc
        · rw [hp j]
          linear_combination (- q 1 j) * htc + t * e' j
    · rw [not_le] at hc0
      by_cases hz : d = 0
      · rw [hz] at hc0
        nlinarith [mul_nonneg (h0 3) hc]
      · have hdp : 0 < d := lt_of_le_of_ne hd (Ne.symm hz)
        obtain ⟨t, ht⟩ : ∃ t, t = w 3 / d := ⟨_, rfl⟩
        have ht0 : 0 ≤ t := ht ▸ div_nonneg (h0 3) hd
        have htd : t * d = w 3 := by rw [ht]; field_simp
        refine Or.inl ⟨w 0 + t * a, w 1 - t * c, w 2 + t * b, add_nonneg (h0 0) (mul_nonneg ht0 ha), ?_,
          add_nonneg (h0 2) (mul_nonneg ht0 hb), ?_, fun j => ?_⟩
        · have : t * c * d ≤ w 1 * d := by rw [mul_right_comm, htd]; exact hc0.le
          have := le_of_mul_le_mul_right this hdp
          linarith
        · linear_combination h1 + t * hab - t * hcd + htd
        · rw [hp j]
          linear_combination (- q 3 j) * htd + t * e' j
  · rintro (⟨α, β, γ, h1, h2, h3, h4, h5⟩ | ⟨α, β, γ, h1, h2, h3, h4, h5⟩)
    · refine ⟨![α, β, γ, 0], fun i => ?_, ?_, fun j => ?_⟩
      · fin_cases i <;> simp [h1, h2, h3]
      · simpa using h4
      · rw [h5 j]; simp
    · refine ⟨![γ, 0, α, β], fun i => ?_, ?_, fun j => ?_⟩
      · fin_cases i <;> simp [h1, h2, h3]
      · simp; linarith
      · rw [h5 j]; simp; ring

theorem in_shrunk (a b d c p : Fin 3 → ℝ) (s : ℝ) :
    InTriangle (c + s • (a - c)) (c + s • (b - c)) (c + s • (d - c)) p ↔ ∃ y, InTriangle a b d y ∧ p = c + s • (y - c) := by
  constructor
  · rintro ⟨α, β, γ, h1, h2, h3, h4, h5⟩
    refine ⟨fun j => α * a j + β * b j + γ * d j, ⟨α, β, γ, h1, h2, h3, h4, fun j => rfl⟩, ?_⟩
    funext j
    rw [h5 j]
    simp only [Pi.add_apply, Pi.smul_apply, Pi.sub_apply, smul_eq_mul]
    linear_combination (c j * (1 - s)) * h4
  · rintro ⟨y, ⟨α, β, γ, h1, h2, h3, h4, h5⟩, rfl⟩
    refine ⟨α, β, γ, h1, h2, h3, h4, fun j => ?_⟩
    simp only [Pi.add_apply, Pi.smul_apply, Pi.sub_apply, smul_eq_mul, h5 j]
    linear_combination (-c j * (1 - s)) * h4

theorem degenerate (a b d p : Fin 3 → ℝ) (h : InTriangle d d a p) : InTriangle a b d p := by
  obtain ⟨α, β, γ, h1, h2, h3, h4, h5⟩ := h
  exact ⟨γ, 0, α + β, h3, le_refl _, add_nonneg h1 h2, by linarith, fun j => by rw [h5 j]; ring⟩

/-- What is drawn, by triangles around the corners. -/
theorem surface_drawn (T : SurfaceType) (X : Fin T.numNodes → Fin 3 → ℝ) (s : ℝ) (p : Fin 3 → ℝ) :
    p ∈ surfaceOf (T.drawElement s X) ↔
      InTriangle (T.shrunk s X (T.around 0)) (T.shrunk s X (T.around 1)) (T.shrunk s X (T.around 2)) p ∨
        InTriangle (T.shrunk s X (T.around 2)) (T.shrunk s X (T.around 3)) (T.shrunk s X (T.around 0)) p := by
  have tri : ∀ a b d : Fin 3 → ℝ, InTriangle a b d p ↔ InTriangle a b d p ∨ InTriangle d d a p := fun a b d =>
    ⟨Or.inl, fun h => h.elim id (degenerate a b d p)⟩
  have one : ∀ t : Fin 3 → Fin 3 → ℝ, p ∈ surfaceOf [t] ↔ InTriangle (t 0) (t 1) (t 2) p := fun t => by simp [surfaceOf]
  have two : ∀ t u : Fin 3 → Fin 3 → ℝ, p ∈ surfaceOf [t, u] ↔ InTriangle (t 0) (t 1) (t 2) p ∨ InTriangle (u 0) (u 1) (u 2) p :=
    fun t u => by simp [surfaceOf]
  cases T
  · exact (one _).trans (tri _ _ _)
  · exact (one _).trans (tri _ _ _)
  · exact two _ _
  · exact two _ _

/-- **C107 (surfaces, what is covered).** What is drawn of a triangle or of a planar convex quad is the element spanned by its corners, reduced
by the scale around the centre: nothing is left out and nothing is added. -/
theorem C107_surface_covers (T : SurfaceType) (X : Fin T.numNodes → Fin 3 → ℝ) (h : DiagonalsMeet fun k => X (T.around k)) (s : ℝ) :
    surfaceOf (T.drawElement s X) =
      (fun p => T.elem.worldCoordinates X T.centre + s • (p - T.elem.worldCoordinates X T.centre)) ''
        convexHull ℝ (Set.range fun k => X (T.around k)) := by
  ext p
  rw [surface_drawn]
  simp only [Set.mem_image, hull_of_quad _ h, SurfaceType.shrunk, in_shrunk]
  constructor
  · rintro (⟨y, hy, rfl⟩ | ⟨y, hy, rfl⟩)
    · exact ⟨y, Or.inl hy, rfl⟩
    · exact ⟨y, Or.inr hy, rfl⟩
  · rintro ⟨y, hy | hy, rfl⟩
    · exact Or.inl ⟨y, hy, rfl⟩
    · exact Or.inr ⟨y, hy, rfl⟩

/-- The diagonals of a triangle, seen as a quad with a repeated corner, meet. -/
theorem triangle_diagonals (T : SurfaceType) (hT : T = .triangle1 ∨ T = .triangle2) (X : Fin T.numNodes → Fin 3 → ℝ) :
    DiagonalsMeet fun k => X (T.around k) := by
  rcases hT with rfl | rfl
  · exact ⟨_, right_mem_segment ℝ _ _, right_mem_segment ℝ _ _⟩
  · exact ⟨_, right_mem_segment ℝ _ _, right_mem_segment ℝ _ _⟩

/-! ### Inside -/

/-- The elements of which this is shown: linear ones, and quadratic ones which are straight. -/
def PlainSurface (T : SurfaceType) {m : ℕ} (X : Fin T.numNodes → Fin m → ℝ) : Prop := (T = .triangle1 ∨ T = .quad1) ∨ FlatShape T.elem.node X

/-- The weights of the corners at the centre. -/
noncomputable def centreWeights : SurfaceType → Fin 4 → ℝ
  | .triangle1 | .triangle2 => ![1/3, 1/3, 1/6, 1/6]
  | .quad1 | .quad2 => ![1/4, 1/4, 1/4, 1/4]

theorem centre_corners (T : SurfaceType) {m : ℕ} (X : Fin T.numNodes → Fin m → ℝ) (h : PlainSurface T X) (a : Fin m) :
    T.elem.worldCoordinates X T.centre a = ∑ k, centreWeights T k * X (T.around k) a := by
  rcases h with (rfl | rfl) | ⟨A, b, hX⟩
  · show triangle1.worldCoordinates X ![1/3, 1/3] a = _
    change Fin 3 → Fin m → ℝ at X
    simp only [Elem.worldCoordinates, Elem.interpolate, triangle1, sum_fin3, sum_fin4, centreWeights, SurfaceType.around, Matrix.cons_val]
    ring
  · show quad1.worldCoordinates X ![0, 0] a = _
    change Fin 4 → Fin m → ℝ at X
    simp only [Elem.worldCoordinates, Elem.interpolate, quad1, sum_fin4, centreWeights, SurfaceType.around, Matrix.cons_val]
    ring
  · cases T
    · change Fin 3 → Fin m → ℝ at X
      show triangle1.worldCoordinates X ![1/3, 1/3] a = _
      simp only [Elem.worldCoordinates, Elem.interpolate, triangle1, sum_fin3, sum_fin4, centreWeights, SurfaceType.around, Matrix.cons_val]
      ring
    · change Fin 6 → Fin m → ℝ at X
      show triangle2.worldCoordinates X ![1/3, 1/3] a = _
      have hX' : ∀ (i : Fin 6) (a : Fin m), X i a = A a 0 * triangle2.node i 0 + A a 1 * triangle2.node i 1 + b a := hX
      simp only [Elem.worldCoordinates, Elem.interpolate, hX', triangle2, sum_fin6, sum_fin4, centreWeights, SurfaceType.around, Matrix.cons_val]
      ring
    · change Fin 4 → Fin m → ℝ at X
      show quad1.worldCoordinates X ![0, 0] a = _
      simp only [Elem.worldCoordinates, Elem.interpolate, quad1, sum_fin4, centreWeights, SurfaceType.around, Matrix.cons_val]
      ring
    · change Fin 8 → Fin m → ℝ at X
      show quad2.worldCoordinates X ![0, 0] a = _
      have hX' : ∀ (i : Fin 8) (a : Fin m), X i a = A a 0 * quad2.node i 0 + A a 1 * quad2.node i 1 + b a := hX
      simp only [Elem.worldCoordinates, Elem.interpolate, hX', quad2, sum_fin8, sum_fin4, centreWeights, SurfaceType.around, Matrix.cons_val]
      ring

theorem centreWeights_pos (T : SurfaceType) (k : Fin 4) : 0 < centreWeights T k := by
  cases T <;> fin_cases k <;> simp [centreWeights]

theorem centreWeights_sum (T : SurfaceType) : ∑ k, centreWeights T k = 1 := by
  cases T <;> simp only [centreWeights, sum_fin4, Matrix.cons_val] <;> norm_num

theorem centre_in_hull (T : SurfaceType) {m : ℕ} (X : Fin T.numNodes → Fin m → ℝ) (h : PlainSurface T X) :
    T.elem.worldCoordinates X T.centre ∈ convexHull ℝ (Set.range fun k => X (T.around k)) := by
  have := (convex_convexHull ℝ (Set.range fun k => X (T.around k))).sum_mem (t := Finset.univ) (w := centreWeights T)
    (z := fun k => X (T.around k)) (fun k _ => (centreWeights_pos T k).le) (centreWeights_sum T) fun k _ => subset_convexHull ℝ _ ⟨k, rfl⟩
  convert this using 1
  funext a
  rw [centre_corners T X h a, Finset.sum_apply]
  rfl

theorem inTriangle_hull {a b d p : Fin 3 → ℝ} {S : Set (Fin 3 → ℝ)} (hS : Convex ℝ S) (ha : a ∈ S) (hb : b ∈ S) (hd : d ∈ S)
    (h : InTriangle a b d p) : p ∈ S := by
  obtain ⟨α, β, γ, h1, h2, h3, h4, h5⟩ := h
  have := hS.sum_mem (t := Finset.univ) (w := ![α, β, γ]) (z := ![a, b, d]) (fun i _ => by fin_cases i <;> simp [h1, h2, h3])
    (by simp [Fin.sum_univ_three, h4]) (fun i _ => by fin_cases i <;> simp [ha, hb, hd])
  convert this using 1
  funext j
  rw [Finset.sum_apply, sum_fin3, h5 j]
  simp

/-- **C107 (surfaces, inside).** For a scale in `[0, 1]` what is drawn of a linear or straight element stays in the convex hull of its corners. -/
theorem C107_surface_inside (T : SurfaceType) (X : Fin T.numNodes → Fin 3 → ℝ) (h : PlainSurface T X) (s : ℝ) (h0 : 0 ≤ s) (h1 : s ≤ 1) :
    surfaceOf (T.drawElement s X) ⊆ convexHull ℝ (Set.range fun k => X (T.around k)) := by
  have hs : ∀ k, T.shrunk s X (T.around k) ∈ convexHull ℝ (Set.range fun k => X (T.around k)) := by
    intro k
    have hk : X (T.around k) ∈ convexHull ℝ (Set.range fun k => X (T.around k)) := subset_convexHull ℝ _ ⟨k, rfl⟩
    have := convex_convexHull ℝ (Set.range fun k => X (T.around k)) (centre_in_hull T X h) hk (sub_nonneg.2 h1) h0 (sub_add_cancel 1 s)
    convert this using 1
    unfold SurfaceType.shrunk
    module
  intro p hp
  rcases (surface_drawn T X s p).1 hp with hp | hp
  · exact inTriangle_hull (convex_convexHull ℝ _) (hs 0) (hs 1) (hs 2) hp
  · exact inTriangle_hull (convex_convexHull ℝ _) (hs 2) (hs 3) (hs 0) hp

/-! ### Area -/

/-- **C107 (surfaces, area and orientation).** The vector area of what is drawn of a linear or straight element is the one of the element, the
integral of the normal `∂x/∂u × ∂x/∂v` with the quadrature of the element, multiplied by the square of the scale.  In particular the triangles
turn in the direction of the element. -/
theorem C107_surface_area (T : SurfaceType) (X : Fin T.numNodes → Fin 3 → ℝ) (h : PlainSurface T X) (s : ℝ) :
    totalVectorArea (T.drawElement s X) = s ^ 2 • (T.gauss.map fun g => g.weight •
      crossProduct (fun a => T.elem.jacobian X g.position a 0) (fun a => T.elem.jacobian X g.position a 1)).sum := by
  have one : ∀ t : Fin 3 → Fin 3 → ℝ, totalVectorArea [t] = triangleVectorArea t := fun t => by simp [totalVectorArea]
  have two : ∀ t u : Fin 3 → Fin 3 → ℝ, totalVectorArea [t, u] = triangleVectorArea t + triangleVectorArea u :=
    fun t u => by simp [totalVectorArea]
  have tri1 : ∀ X : Fin 3 → Fin 3 → ℝ, ∀ c : Fin 3 → ℝ, triangleVectorArea (fun k => c + s • (X ((![0, 1, 2] : Fin 3 → Fin 3) k) - c)) =
      s ^ 2 • (gaussTriangle1.map fun g => g.weight •
        crossProduct (fun a => triangle1.jacobian X g.position a 0) (fun a => triangle1.jacobian X g.position a 1)).sum := by
    intro X c
    funext a
    simp only [gaussTriangle1, List.map_cons, List.map_nil, List.sum_cons, List.sum_nil, add_zero, triangleVectorArea, cross_apply, triangle1,
      Elem.jacobian, sum_fin3, Pi.smul_apply, Pi.sub_apply, Pi.add_apply, smul_eq_mul, Matrix.of_apply]
    fin_cases a <;> simp only [Matrix.cons_val, Fin.isValue, Fin.reduceFinMk, Fin.zero_eta, Fin.mk_one] <;> ring
  have quad1' : ∀ X : Fin 4 → Fin 3 → ℝ, ∀ c : Fin 3 → ℝ, triangleVectorArea (fun k => c + s • (X ((![0, 1, 2] : Fin 3 → Fin 4) k) - c)) +
      triangleVectorArea (fun k => c + s • (X ((![2, 3, 0] : Fin 3 → Fin 4) k) - c)) =
      s ^ 2 • (gaussQuad.map fun g => g.weight •
        crossProduct (fun a => quad1.jacobian X g.position a 0) (fun a => quad1.jacobian X g.position a 1)).sum := by
    intro X c
    funext a
    simp only [gaussQuad, List.map_cons, List.map_nil, List.sum_cons, List.sum_nil, add_zero, triangleVectorArea, cross_apply, quad1,
      Elem.jacobian, sum_fin4, Pi.smul_apply, Pi.sub_apply, Pi.add_apply, smul_eq_mul, Matrix.of_apply]
    fin_cases a <;> simp only [Matrix.cons_val, Fin.isValue, Fin.reduceFinMk, Fin.zero_eta, Fin.mk_one] <;> ring
  have key : T = .triangle1 ∨ T = .quad1 ∨ (FlatShape T.elem.node X ∧ (T = .triangle2 ∨ T = .quad2)) := by
    rcases h with (h | h) | h
    · exact Or.inl h
    · exact Or.inr (Or.inl h)
    · cases T <;> simp [h]
  rcases key with rfl | rfl | ⟨⟨A, b, hX⟩, rfl | rfl⟩
  · exact (one _).trans (tri1 X _)
  · exact (two _ _).trans (quad1' X _)
  · refine (one _).trans ?_
    change Fin 6 → Fin 3 → ℝ at X
    have hX' : ∀ (i : Fin 6) (a : Fin 3), X i a = A a 0 * triangle2.node i 0 + A a 1 * triangle2.node i 1 + b a := hX
    have : ∀ c : Fin 3 → ℝ, triangleVectorArea (fun k => c + s • (X ((![0, 1, 2] : Fin 3 → Fin 6) k) - c)) =
        s ^ 2 • (gaussTriangle2.map fun g => g.weight •
          crossProduct (fun a => triangle2.jacobian X g.position a 0) (fun a => triangle2.jacobian X g.position a 1)).sum := by
      intro c
      funext a
      simp only [gaussTriangle2, List.map_cons, List.map_nil, List.sum_cons, List.sum_nil, add_zero, triangleVectorArea, cross_apply,
        Elem.jacobian, sum_fin6, Pi.smul_apply, Pi.sub_apply, Pi.add_apply, smul_eq_mul, Matrix.of_apply, hX', triangle2]
      fin_cases a <;> simp only [Matrix.cons_val, Fin.isValue, Fin.reduceFinMk, Fin.zero_eta, Fin.mk_one] <;> ring
    exact this _
  · refine (two _ _).trans ?_
    change Fin 8 → Fin 3 → ℝ at X
    have hX' : ∀ (i : Fin 8) (a : Fin 3), X i a = A a 0 * quad2.node i 0 + A a 1 * quad2.node i 1 + b a := hX
    have hJ : ∀ ξ a k, quad2.jacobian X ξ a k = A a k := by
      intro ξ a k
      fin_cases k <;>
      · simp only [Elem.jacobian, sum_fin8, Matrix.of_apply, hX', quad2, Matrix.cons_val, Fin.isValue, Fin.reduceFinMk, Fin.zero_eta, Fin.mk_one]
        ring
    have : ∀ c : Fin 3 → ℝ, triangleVectorArea (fun k => c + s • (X ((![0, 1, 2] : Fin 3 → Fin 8) k) - c)) +
        triangleVectorArea (fun k => c + s • (X ((![2, 3, 0] : Fin 3 → Fin 8) k) - c)) =
        s ^ 2 • (gaussQuad.map fun g => g.weight •
          crossProduct (fun a => quad2.jacobian X g.position a 0) (fun a => quad2.jacobian X g.position a 1)).sum := by
      intro c
      simp only [hJ]
      funext a
      simp only [gaussQuad, List.map_cons, List.map_nil, List.sum_cons, List.sum_nil, add_zero, triangleVectorArea, cross_apply,
        Pi.smul_apply, Pi.sub_apply, Pi.add_apply, smul_eq_mul, hX', quad2]
      fin_cases a <;> simp only [Matrix.cons_val, Fin.isValue, Fin.reduceFinMk, Fin.zero_eta, Fin.mk_one] <;> ring
    exact this _

/-! ### Elements of the plane do not overlap -/

theorem combination_mem_plane {n : ℕ} (X : Fin n → Fin 2 → ℝ) (w : Fin n → ℝ) (h0 : ∀ i, 0 ≤ w i) (h1 : ∑ i, w i = 1) :
    (fun a => ∑ i, X i a * w i) ∈ convexHull ℝ (Set.range X) := by
  have := (convex_convexHull ℝ (Set.range X)).sum_mem (t := Finset.univ) (w := w) (z := X) (fun i _ => h0 i) h1
    fun i _ => subset_convexHull ℝ _ ⟨i, rfl⟩
  convert this using 1
  funext a
  rw [Finset.sum_apply]
  exact Finset.sum_congr rfl fun i _ => by rw [Pi.smul_apply, smul_eq_mul, mul_comm]

/-- A combination with positive weights is inside when the nodes can be moved in all directions. -/
theorem positive_interior_plane {n : ℕ} (X : Fin n → Fin 2 → ℝ) (w : Fin n → ℝ) (h0 : ∀ i, 0 < w i) (h1 : ∑ i, w i = 1)
    (D : Fin n → Fin 2 → ℝ) (hD : ∀ k, ∑ i, D i k = 0) (hdet : (Matrix.of fun a k => ∑ i, X i a * D i k : Matrix (Fin 2) (Fin 2) ℝ).det ≠ 0) :
    (fun a => ∑ i, X i a * w i) ∈ interior (convexHull ℝ (Set.range X)) := by
  obtain ⟨J, hJ⟩ : ∃ J : Matrix (Fin 2) (Fin 2) ℝ, J = Matrix.of fun a k => ∑ i, X i a * D i k := ⟨_, rfl⟩
  rw [← hJ] at hdet
  -- the weights of a point near the combination
  have hcont : Continuous fun y : Fin 2 → ℝ => fun i => w i + ∑ k, D i k * (J⁻¹ *ᵥ (y - fun a => ∑ i, X i a * w i)) k := by
    refine continuous_pi fun i => continuous_const.add (continuous_finsetSum _ fun k _ => continuous_const.mul ?_)
    exact (continuous_apply k).comp (Continuous.matrix_mulVec continuous_const (continuous_id.sub continuous_const))
  have hopen : IsOpen {v : Fin n → ℝ | ∀ i, 0 < v i} := by
    have : {v : Fin n → ℝ | ∀ i, 0 < v i} = Set.pi Set.univ fun _ => Set.Ioi 0 := by ext v; simp
    rw [this]
    exact isOpen_set_pi Set.finite_univ fun _ _ => isOpen_Ioi
  refine mem_interior.2 ⟨_, ?_, hopen.preimage hcont, ?_⟩
  · intro y hy
    obtain ⟨η, hη⟩ : ∃ η, η = J⁻¹ *ᵥ (y - fun a => ∑ i, X i a * w i) := ⟨_, rfl⟩
    have hy' : ∀ i, 0 < w i + ∑ k, D i k * η k := by
      intro i
      rw [hη]
      exact hy i
    have e : y = fun a => ∑ i, X i a * (w i + ∑ k, D i k * η k) := by
      have h2 : J *ᵥ η = y - fun a => ∑ i, X i a * w i := by
        rw [hη, mulVec_mulVec, Matrix.mul_nonsing_inv _ (isUnit_iff_ne_zero.2 hdet), one_mulVec]
      funext a
      have h3 := congrFun h2 a
      simp only [mulVec, dotProduct, hJ, Matrix.of_apply, Pi.sub_apply] at h3
      simp only [mul_add, Finset.sum_add_distrib]
      have : ∑ i, X i a * ∑ k, D i k * η k = ∑ k, (∑ i, X i a * D i k) * η k := by
        simp only [Finset.mul_sum, Finset.sum_mul]
        rw [Finset.sum_comm]
        exact Finset.sum_congr rfl fun k _ => Finset.sum_congr rfl fun i _ => by ring
      rw [this, h3]
      ring
    rw [e]
    refine combination_mem_plane X _ (fun i => (hy' i).le) ?_
    rw [Finset.sum_add_distrib, h1, Finset.sum_comm]
    simp only [← Finset.sum_mul, hD, zero_mul, Finset.sum_const_zero, add_zero]
  · show ∀ i, 0 < _
    intro i
    simp only [sub_self, mulVec_zero, Pi.zero_apply, mul_zero, Finset.sum_const_zero, add_zero]
    exact h0 i

/-- The derivatives of the weights of the corners at the centre. -/
noncomputable def centreSlopes : SurfaceType → Fin 4 → Fin 2 → ℝ
  | .triangle1 | .triangle2 => ![![-1, -1], ![1, 0], ![0, 1/2], ![0, 1/2]]
  | .quad1 | .quad2 => ![![-1/4, -1/4], ![1/4, -1/4], ![1/4, 1/4], ![-1/4, 1/4]]

theorem centreSlopes_sum (T : SurfaceType) (b : Fin 2) : ∑ k, centreSlopes T k b = 0 := by
  cases T <;> fin_cases b <;>
    simp only [centreSlopes, sum_fin4, Matrix.cons_val, Fin.isValue, Fin.reduceFinMk, Fin.zero_eta, Fin.mk_one] <;> norm_num

theorem centre_jacobian (T : SurfaceType) (X : Fin T.numNodes → Fin 2 → ℝ) (h : PlainSurface T X) (a b : Fin 2) :
    T.elem.jacobian X T.centre a b = ∑ k, X (T.around k) a * centreSlopes T k b := by
  have tri : ∀ X : Fin 3 → Fin 2 → ℝ, triangle1.jacobian X ![1/3, 1/3] a b =
      ∑ k, X ((![0, 1, 2, 2] : Fin 4 → Fin 3) k) a * centreSlopes .triangle1 k b := by
    intro X
    fin_cases b <;>
    · simp only [Elem.jacobian, triangle1, sum_fin3, sum_fin4, centreSlopes, Matrix.of_apply, Matrix.cons_val, Fin.isValue, Fin.reduceFinMk,
        Fin.zero_eta, Fin.mk_one]
      ring
  have quad : ∀ X : Fin 4 → Fin 2 → ℝ, quad1.jacobian X ![0, 0] a b =
      ∑ k, X ((![0, 1, 2, 3] : Fin 4 → Fin 4) k) a * centreSlopes .quad1 k b := by
    intro X
    fin_cases b <;>
    · simp only [Elem.jacobian, quad1, sum_fin4, centreSlopes, Matrix.of_apply, Matrix.cons_val, Fin.isValue, Fin.reduceFinMk,
        Fin.zero_eta, Fin.mk_one]
      ring
  rcases h with (rfl | rfl) | ⟨A, v, hX⟩
  · exact tri X
  · exact quad X
  · cases T
    · exact tri X
    · change Fin 6 → Fin 2 → ℝ at X
      have hX' : ∀ (i : Fin 6) (a : Fin 2), X i a = A a 0 * triangle2.node i 0 + A a 1 * triangle2.node i 1 + v a := hX
      show triangle2.jacobian X ![1/3, 1/3] a b = ∑ k, X ((![0, 1, 2, 2] : Fin 4 → Fin 6) k) a * centreSlopes .triangle2 k b
      fin_cases b <;>
      · simp only [Elem.jacobian, hX', triangle2, sum_fin6, sum_fin4, centreSlopes, Matrix.of_apply, Matrix.cons_val, Fin.isValue,
          Fin.reduceFinMk, Fin.zero_eta, Fin.mk_one]
        ring
    · exact quad X
    · change Fin 8 → Fin 2 → ℝ at X
      have hX' : ∀ (i : Fin 8) (a : Fin 2), X i a = A a 0 * quad2.node i 0 + A a 1 * quad2.node i 1 + v a := hX
      show quad2.jacobian X ![0, 0] a b = ∑ k, X ((![0, 1, 2, 3] : Fin 4 → Fin 8) k) a * centreSlopes .quad2 k b
      fin_cases b <;>
      · simp only [Elem.jacobian, hX', quad2, sum_fin8, sum_fin4, centreSlopes, Matrix.of_apply, Matrix.cons_val, Fin.isValue,
          Fin.reduceFinMk, Fin.zero_eta, Fin.mk_one]
        ring

theorem shrunk_interior_plane (T : SurfaceType) (X : Fin T.numNodes → Fin 2 → ℝ) (h : PlainSurface T X)
    (hJ : Matrix.det (T.elem.jacobian X T.centre) ≠ 0) (s : ℝ) (h0 : 0 ≤ s) (h1 : s < 1) (k : Fin 4) :
    T.shrunk s X (T.around k) ∈ interior (convexHull ℝ (Set.range fun k => X (T.around k))) := by
  have hc : T.elem.worldCoordinates X T.centre ∈ interior (convexHull ℝ (Set.range fun k => X (T.around k))) := by
    have e : T.elem.jacobian X T.centre = Matrix.of fun a b => ∑ k, X (T.around k) a * centreSlopes T k b := by
      ext a b; exact centre_jacobian T X h a b
    have := positive_interior_plane (fun k => X (T.around k)) (centreWeights T) (centreWeights_pos T) (centreWeights_sum T) (centreSlopes T)
      (centreSlopes_sum T) (by rw [← e]; exact hJ)
    convert this using 1
    funext a
    rw [centre_corners T X h a]
    exact Finset.sum_congr rfl fun k _ => mul_comm _ _
  have := (convex_convexHull ℝ (Set.range fun k => X (T.around k))).combo_interior_self_mem_interior hc
    (subset_convexHull ℝ _ ⟨k, rfl⟩) (sub_pos.2 h1) h0 (sub_add_cancel 1 s)
  convert this using 1
  unfold SurfaceType.shrunk
  module

theorem drawn_interior_plane (T : SurfaceType) (X : Fin T.numNodes → Fin 2 → ℝ) (h : PlainSurface T X)
    (hJ : Matrix.det (T.elem.jacobian X T.centre) ≠ 0) (s : ℝ) (h0 : 0 ≤ s) (h1 : s < 1) {p : Fin 3 → ℝ}
    (hp : p ∈ surfaceOf (T.drawElement2 s X)) :
    ![p 0, p 1] ∈ interior (convexHull ℝ (Set.range fun k => X (T.around k))) := by
  have hd : T.drawElement2 s X = T.drawElement s fun i => inSpace (X i) := by
    refine List.map_congr_left fun t _ => ?_
    funext k
    exact (inSpace_plane _).symm.trans (shrunk_plane T s X (t k)).symm
  rw [hd, surface_drawn] at hp
  simp only [shrunk_plane] at hp
  have key : ∀ a b d : Fin 2 → ℝ, a ∈ interior (convexHull ℝ (Set.range fun k => X (T.around k))) →
      b ∈ interior (convexHull ℝ (Set.range fun k => X (T.around k))) → d ∈ interior (convexHull ℝ (Set.range fun k => X (T.around k))) →
      InTriangle (inSpace a) (inSpace b) (inSpace d) p → ![p 0, p 1] ∈ interior (convexHull ℝ (Set.range fun k => X (T.around k))) := by
    rintro a b d ha hb hd ⟨α, β, γ, g1, g2, g3, g4, g5⟩
    have := (convex_convexHull ℝ (Set.range fun k => X (T.around k))).interior.sum_mem (t := Finset.univ) (w := ![α, β, γ]) (z := ![a, b, d])
      (fun i _ => by fin_cases i <;> simp [g1, g2, g3]) (by simp [Fin.sum_univ_three, g4]) (fun i _ => by fin_cases i <;> simp [ha, hb, hd])
    convert this using 1
    funext j
    rw [Finset.sum_apply, sum_fin3]
    fin_cases j
    · simpa [inSpace_plane] using g5 0
    · simpa [inSpace_plane] using g5 1
  have hs := shrunk_interior_plane T X h hJ s h0 h1
  rcases hp with hp | hp
  · exact key _ _ _ (hs 0) (hs 1) (hs 2) hp
  · exact key _ _ _ (hs 2) (hs 3) (hs 0) hp

/-- **C107 (surfaces, apart).** For a scale below 1 the drawings of two elements of the plane which do not overlap have no point in common. -/
theorem C107_surface_apart (T U : SurfaceType) (X : Fin T.numNodes → Fin 2 → ℝ) (Y : Fin U.numNodes → Fin 2 → ℝ) (hX : PlainSurface T X)
    (hY : PlainSurface U Y) (hJX : Matrix.det (T.elem.jacobian X T.centre) ≠ 0) (hJY : Matrix.det (U.elem.jacobian Y U.centre) ≠ 0)
    (s : ℝ) (h0 : 0 ≤ s) (h1 : s < 1)
    (hd : Disjoint (interior (convexHull ℝ (Set.range fun k => X (T.around k)))) (interior (convexHull ℝ (Set.range fun k => Y (U.around k))))) :
    Disjoint (surfaceOf (T.drawElement2 s X)) (surfaceOf (U.drawElement2 s Y)) :=
  Set.disjoint_left.2 fun _ h h' => Set.disjoint_left.1 hd (drawn_interior_plane T X hX hJX s h0 h1 h) (drawn_interior_plane U Y hY hJY s h0 h1 h')

/-! ### Instances -/

/-- A square of the plane `z = 1` in space: its diagonals meet, it is linear, and with the scale 1/2 its drawing has the quarter of its area. -/
example : totalVectorArea (SurfaceType.quad1.drawElement (1/2)
    (![![0, 0, 1], ![2, 0, 1], ![2, 2, 1], ![0, 2, 1]] : Fin 4 → Fin 3 → ℝ)) = ![0, 0, 1] := by
  refine (C107_surface_area .quad1 _ (Or.inl (Or.inr rfl)) (1/2)).trans ?_
  funext a
  show ((1 / 2 : ℝ) ^ 2 • (gaussQuad.map fun g => g.weight • crossProduct
    (fun a => quad1.jacobian (![![0, 0, 1], ![2, 0, 1], ![2, 2, 1], ![0, 2, 1]] : Fin 4 → Fin 3 → ℝ) g.position a 0)
    (fun a => quad1.jacobian (![![0, 0, 1], ![2, 0, 1], ![2, 2, 1], ![0, 2, 1]] : Fin 4 → Fin 3 → ℝ) g.position a 1)).sum) a = _
  simp only [gaussQuad, List.map_cons, List.map_nil, List.sum_cons, List.sum_nil, add_zero, cross_apply, quad1, Elem.jacobian, sum_fin4,
    Pi.smul_apply, Pi.add_apply, smul_eq_mul, Matrix.of_apply]
  fin_cases a <;> simp only [Matrix.cons_val, Fin.isValue, Fin.reduceFinMk, Fin.zero_eta, Fin.mk_one] <;> ring

/-- The diagonals of this square meet. -/
example : DiagonalsMeet fun k => (![![0, 0, 1], ![2, 0, 1], ![2, 2, 1], ![0, 2, 1]] : Fin 4 → Fin 3 → ℝ) (SurfaceType.quad1.around k) := by
  refine ⟨![1, 1, 1], ⟨1/2, 1/2, by norm_num, by norm_num, by norm_num, ?_⟩, ⟨1/2, 1/2, by norm_num, by norm_num, by norm_num, ?_⟩⟩
  · funext a
    show (1/2 : ℝ) * (![0, 0, 1] : Fin 3 → ℝ) a + (1/2 : ℝ) * (![2, 2, 1] : Fin 3 → ℝ) a = (![1, 1, 1] : Fin 3 → ℝ) a
    fin_cases a <;> norm_num
  · funext a
    show (1/2 : ℝ) * (![2, 0, 1] : Fin 3 → ℝ) a + (1/2 : ℝ) * (![0, 2, 1] : Fin 3 → ℝ) a = (![1, 1, 1] : Fin 3 → ℝ) a
    fin_cases a <;> norm_num

/-- Two triangles on the sides of the diagonal of a square: not flat, they do not overlap, their drawings have no common point. -/
example : Disjoint (surfaceOf (SurfaceType.triangle1.drawElement2 (3/4) (![![0, 0], ![1, 0], ![0, 1]] : Fin 3 → Fin 2 → ℝ)))
    (surfaceOf (SurfaceType.triangle1.drawElement2 (3/4) (![![1, 0], ![1, 1], ![0, 1]] : Fin 3 → Fin 2 → ℝ))) := by
  refine C107_surface_apart .triangle1 .triangle1 _ _ (Or.inl (Or.inl rfl)) (Or.inl (Or.inl rfl)) ?_ ?_ (3/4) (by norm_num) (by norm_num) ?_
  · show Matrix.det (triangle1.jacobian (![![0, 0], ![1, 0], ![0, 1]] : Fin 3 → Fin 2 → ℝ) ![1/3, 1/3]) ≠ 0
    simp [Elem.jacobian, triangle1, sum_fin3, Matrix.det_fin_two]
  · show Matrix.det (triangle1.jacobian (![![1, 0], ![1, 1], ![0, 1]] : Fin 3 → Fin 2 → ℝ) ![1/3, 1/3]) ≠ 0
    simp [Elem.jacobian, triangle1, sum_fin3, Matrix.det_fin_two]
  · have h1 : convexHull ℝ (Set.range fun k => (![![0, 0], ![1, 0], ![0, 1]] : Fin 3 → Fin 2 → ℝ) (SurfaceType.triangle1.around k)) ⊆
        {p | p 0 + p 1 ≤ 1} := by
      refine convexHull_min ?_ ?_
      · rintro _ ⟨k, rfl⟩
        have : ∀ k : Fin 4, (![![0, 0], ![1, 0], ![0, 1]] : Fin 3 → Fin 2 → ℝ) ((![0, 1, 2, 2] : Fin 4 → Fin 3) k) 0 + (![![0, 0], ![1, 0], ![0, 1]] : Fin 3 → Fin 2 → ℝ) ((![0, 1, 2, 2] : Fin 4 → Fin 3) k) 1 ≤ 1 := by
          intro k
          fin_cases k <;> simp
        exact this k
      · intro x hx y hy a b ha hb hab
        simp only [Set.mem_setOf_eq, Pi.add_apply, Pi.smul_apply, smul_eq_mul] at *
        nlinarith
    have h2 : convexHull ℝ (Set.range fun k => (![![1, 0], ![1, 1], ![0, 1]] : Fin 3 → Fin 2 → ℝ) (SurfaceType.triangle1.around k)) ⊆
        {p | 1 ≤ p 0 + p 1} := by
      refine convexHull_min ?_ ?_
      · rintro _ ⟨k, rfl⟩
        have : ∀ k : Fin 4, 1 ≤ (![![1, 0], ![1, 1], ![0, 1]] : Fin 3 → Fin 2 → ℝ) ((![0, 1, 2, 2] : Fin 4 → Fin 3) k) 0 + (![![1, 0], ![1, 1], ![0, 1]] : Fin 3 → Fin 2 → ℝ) ((![0, 1, 2, 2] : Fin 4 → Fin 3) k) 1 := by
          intro k
          fin_cases k <;> simp
        exact this k
      · intro x hx y hy a b ha hb hab
        simp only [Set.mem_setOf_eq, Pi.add_apply, Pi.smul_apply, smul_eq_mul] at *
        nlinarith
    rw [Set.disjoint_left]
    intro p hp hp'
    have hn := (isOpen_interior.inter isOpen_interior).mem_nhds ⟨hp, hp'⟩
    have ht : Filter.Tendsto (fun t : ℝ => p + t • (![1, 0] : Fin 2 → ℝ)) (nhds 0) (nhds p) := by
      have : Continuous fun t : ℝ => p + t • (![1, 0] : Fin 2 → ℝ) := by fun_prop
      simpa using this.tendsto 0
    obtain ⟨ε, hε, hb⟩ := Metric.eventually_nhds_iff.1 (ht.eventually hn)
    have hq := hb (y := ε / 2) (by rw [Real.dist_eq, sub_zero, abs_of_pos (by linarith)]; linarith)
    have g1 := h1 (interior_subset hq.1)
    have g2 := h2 (interior_subset hp')
    simp only [Set.mem_setOf_eq, Pi.add_apply, Pi.smul_apply, smul_eq_mul, Matrix.cons_val] at g1 g2
    linarith

end Caribou
