import Verif.Props.Convergence
import Verif.Props.Grid

/-!
# C122: the cells of a grid are a mesh of its box
-/

set_option autoImplicit false

namespace Caribou

open Spec MeasureTheory Manufactured

theorem cells_mesh (T : ElementType) (hs : T.shape = .cube) (o H : Fin T.dim → ℝ) (hH : ∀ a, 0 < H a) (n : Fin T.dim → ℕ) (hn : ∀ a, 0 < n a) {N M : ℕ}
    (idx : Fin M → Fin T.numNodes → Fin N) (X : Fin N → Fin T.dim → ℝ) (c : Fin M → Fin T.dim → ℤ) (hc : ∀ e, IsCell n (c e)) (hinj : Function.Injective c)
    (hsurj : ∀ k, IsCell n k → ∃ e, c e = k) (hX : ∀ e i a, X (idx e i) a = gridPoint o H (fun a => (c e a : ℝ) + (1 + T.elem.node i a) / 2) a)
    (h : ℝ) (h0 : 0 ≤ h) (hh : ∀ a, H a ≤ h) (b : Fin T.dim → ℝ) (hb : b = fun a => o a + n a * H a) : MeshOf T idx X (Set.Icc o b) h := by
  subst hb
  have haff : ∀ e i, X (idx e i) = (fun a => o a + (c e a + 1 / 2) * H a) + (Matrix.diagonal fun a => H a / 2).mulVec (T.elem.node i) := by
    intro e i
    funext a
    rw [hX, Pi.add_apply, Matrix.mulVec_diagonal]
    simp only [gridPoint]
    ring
  have hworld : ∀ e ξ, T.elem.worldCoordinates (fun i => X (idx e i)) ξ = fun a => o a + (c e a + (1 + ξ a) / 2) * H a := by
    intro e ξ
    rw [affImage_world T _ _ _ (haff e)]
    funext a
    rw [Pi.add_apply, Matrix.mulVec_diagonal]
    ring
  have hregion : ∀ e, elementRegion T (fun i => X (idx e i)) = Set.Icc (fun a => o a + c e a * H a) fun a => o a + (c e a + 1) * H a := by
    intro e
    ext x
    rw [elementRegion, hs, canonicalSet_cube, Set.mem_image]
    constructor
    · rintro ⟨ξ, hξ, rfl⟩
      rw [hworld]
      refine ⟨fun a => ?_, fun a => ?_⟩
      · have := hξ.1 a
        have := hH a
        simp only
        nlinarith
      · have := hξ.2 a
        have := hH a
        simp only
        nlinarith
    · rintro ⟨h1, h2⟩
      refine ⟨fun a => 2 * ((x a - o a) / H a - c e a) - 1, ⟨fun a => ?_, fun a => ?_⟩, ?_⟩
      · have h1a := h1 a
        have := hH a
        simp only at h1a ⊢
        have : (c e a : ℝ) ≤ (x a - o a) / H a := by rw [le_div_iff₀ (hH a)]; linarith
        linarith
      · have h2a := h2 a
        simp only at h2a ⊢
        have : (x a - o a) / H a ≤ c e a + 1 := by rw [div_le_iff₀ (hH a)]; linarith
        linarith
      · rw [hworld]
        funext a
        have := (hH a).ne'
        field_simp
        ring
  refine ⟨fun e => ⟨?_, Or.inl fun ξ _ => ?_⟩, fun e => Or.inr ⟨_, _, haff e⟩, ?_, ?_, ?_⟩
  · intro ξ _ η _ hξη
    rw [hworld, hworld] at hξη
    funext a
    have := congrFun hξη a
    simp only [add_right_inj, mul_eq_mul_right_iff, (hH a).ne', or_false] at this
    linarith
  · rw [affImage_jacobian T _ _ _ (haff e), Matrix.det_diagonal]
    exact Finset.prod_nonneg fun a _ => (half_pos (hH a)).le
  · ext x
    simp only [hregion, Set.mem_iUnion]
    constructor
    · rintro ⟨e, h1, h2⟩
      refine ⟨fun a => ?_, fun a => ?_⟩
      · have h3 : (0 : ℝ) ≤ c e a := by exact_mod_cast (hc e a).1
        have := mul_nonneg h3 (hH a).le
        have h1a := h1 a
        simp only at h1a
        linarith
      · have h3 : (c e a : ℝ) + 1 ≤ n a := by exact_mod_cast (hc e a).2
        have := mul_le_mul_of_nonneg_right h3 (hH a).le
        have h2a := h2 a
        simp only at h2a ⊢
        linarith
    · rintro ⟨h1, h2⟩
      have ht0 : ∀ a, 0 ≤ (x a - o a) / H a := fun a => div_nonneg (sub_nonneg.mpr (h1 a)) (hH a).le
      have htn : ∀ a, (x a - o a) / H a ≤ n a := fun a => by
        rw [div_le_iff₀ (hH a)]
        have := h2 a
        simp only at this
        linarith
      obtain ⟨e, he⟩ := hsurj (fun a => min ⌊(x a - o a) / H a⌋ (n a - 1)) fun a => by
        have := Int.floor_nonneg.mpr (ht0 a)
        have := hn a
        constructor
        · simp only [le_min_iff]
          omega
        · exact lt_of_le_of_lt (min_le_right _ _) (by omega)
      refine ⟨e, fun a => ?_, fun a => ?_⟩
      · have h3 : (c e a : ℝ) ≤ (x a - o a) / H a := by
          rw [he]
          refine le_trans ?_ (Int.floor_le _)
          exact_mod_cast min_le_left _ _
        rw [le_div_iff₀ (hH a)] at h3
        simp only
        linarith
      · have h3 : (x a - o a) / H a ≤ c e a + 1 := by
          rw [he]
          simp only
          rcases le_total ⌊(x a - o a) / H a⌋ ((n a : ℤ) - 1) with h | h
          · rw [min_eq_left h]
            exact (Int.lt_floor_add_one _).le
          · rw [min_eq_right h]
            push_cast
            have := htn a
            linarith
        rw [div_le_iff₀ (hH a)] at h3
        simp only
        linarith
  · intro e e' hee
    rw [hregion, hregion, Set.Icc_inter_Icc]
    obtain ⟨a, ha⟩ : ∃ a, c e a ≠ c e' a := by
      by_contra hcon
      push_neg at hcon
      exact hee (hinj (funext hcon))
    rw [Real.volume_Icc_pi, Finset.prod_eq_zero (Finset.mem_univ a)]
    rw [ENNReal.ofReal_eq_zero, Pi.sup_apply, Pi.inf_apply, sub_nonpos]
    rcases lt_or_gt_of_ne ha with h | h
    · have h3 : (c e a : ℝ) + 1 ≤ c e' a := by exact_mod_cast h
      have := mul_le_mul_of_nonneg_right h3 (hH a).le
      exact (inf_le_left).trans (le_trans (by linarith) le_sup_right)
    · have h3 : (c e' a : ℝ) + 1 ≤ c e a := by exact_mod_cast h
      have := mul_le_mul_of_nonneg_right h3 (hH a).le
      exact (inf_le_right).trans (le_trans (by linarith) le_sup_left)
  · intro e x hx y hy
    rw [hregion] at hx hy
    rw [pi_norm_le_iff_of_nonneg h0]
    intro a
    rw [Real.norm_eq_abs, Pi.sub_apply, abs_le]
    have h1 := hx.1 a
    have h2 := hx.2 a
    have h3 := hy.1 a
    have h4 := hy.2 a
    have h5 := hh a
    simp only at h1 h2 h3 h4
    constructor <;> linarith

/-- The cells of a grid, listed by their nodes: `node_indices_of` for each cell index. -/
noncomputable def Grid.cellNodes (g : Grid 3 ℝ) (hf : Fits g.n) (e : Fin g.numberOfCells.toNat) (i : Fin 8) : Fin g.numberOfNodes.toNat :=
  ⟨(g.nodeIndicesOf3 (g.cellCoordinatesAt e) i).toNat, by
    have h := (C25_3d g hf e (by omega) (by omega)).1 i
    omega⟩

/-- The cells of a plane grid, listed by their nodes. -/
noncomputable def Grid.cellNodesPlane (g : Grid 2 ℝ) (hf : Fits g.n) (e : Fin g.numberOfCells.toNat) (i : Fin 4) : Fin g.numberOfNodes.toNat :=
  ⟨(g.nodeIndicesOf2 (g.cellCoordinatesAt e) i).toNat, by
    have h := (C25_2d g hf e (by omega) (by omega)).1 i
    omega⟩

theorem cells_enumerated {d : ℕ} (hd : IsDim d) (g : Grid d ℝ) (hf : Fits g.n) :
    (∀ e : Fin g.numberOfCells.toNat, IsCell g.n (g.cellCoordinatesAt e)) ∧
    (Function.Injective fun e : Fin g.numberOfCells.toNat => g.cellCoordinatesAt e) ∧
    ∀ k, IsCell g.n k → ∃ e : Fin g.numberOfCells.toNat, g.cellCoordinatesAt e = k := by
  refine ⟨fun e => (C24_index hd g hf e (by omega) (by omega)).1, fun e e' h => ?_, fun k hk => ?_⟩
  · have h1 := (C24_index hd g hf e (by omega) (by omega)).2
    have h2 := (C24_index hd g hf e' (by omega) (by omega)).2
    simp only at h
    rw [h, h2] at h1
    exact Fin.ext (by exact_mod_cast h1.symm)
  · obtain ⟨h0, h1, h2⟩ := C24_coordinates hd g hf k hk
    refine ⟨⟨(g.cellIndexAt k).toNat, by omega⟩, ?_⟩
    refine Eq.trans (congrArg g.cellCoordinatesAt ?_) h2
    exact Int.toNat_of_nonneg h0

/-- **C122 (grids).** The cells of a grid of at least one cell along each axis are a mesh of its box, whose mesh size is the largest side of a cell. -/
theorem C122_grid (g : Grid 3 ℝ) (hf : Fits g.n) (hn : ∀ a, 0 < g.n a) (hs : ∀ a, 0 < g.size a) (h : ℝ) (h0 : 0 ≤ h) (hh : ∀ a, g.H a ≤ h) :
    MeshOf .rectHexa1 (g.cellNodes hf) (fun p => g.node p) (Set.Icc g.anchor fun a => g.anchor a + g.size a) h := by
  obtain ⟨hc, hi, hsur⟩ := cells_enumerated (Or.inr (Or.inr rfl)) g hf
  have hH : ∀ a, 0 < g.H a := fun a => div_pos (hs a) (by exact_mod_cast hn a)
  have e : (fun a => g.anchor a + g.size a) = fun a => g.anchor a + g.n a * g.H a := by
    funext a
    have : (g.n a : ℝ) ≠ 0 := by exact_mod_cast (hn a).ne'
    rw [Grid.H, mul_div_cancel₀ _ this]
  refine cells_mesh .rectHexa1 rfl g.anchor g.H hH g.n hn _ _ _ hc hi hsur (fun e i a => ?_) h h0 hh _ e
  obtain ⟨h1, _, _, h4⟩ := C25_3d g hf e (by omega) (by omega)
  exact Eq.trans (congrArg (fun z => g.node z a) (Int.toNat_of_nonneg (h1 i).1)) (h4 i a)

/-- **C122 (plane grids).** -/
theorem C122_grid_plane (g : Grid 2 ℝ) (hf : Fits g.n) (hn : ∀ a, 0 < g.n a) (hs : ∀ a, 0 < g.size a) (h : ℝ) (h0 : 0 ≤ h) (hh : ∀ a, g.H a ≤ h) :
    MeshOf .rectQuad1 (g.cellNodesPlane hf) (fun p => g.node p) (Set.Icc g.anchor fun a => g.anchor a + g.size a) h := by
  obtain ⟨hc, hi, hsur⟩ := cells_enumerated (Or.inr (Or.inl rfl)) g hf
  have hH : ∀ a, 0 < g.H a := fun a => div_pos (hs a) (by exact_mod_cast hn a)
  have e : (fun a => g.anchor a + g.size a) = fun a => g.anchor a + g.n a * g.H a := by
    funext a
    have : (g.n a : ℝ) ≠ 0 := by exact_mod_cast (hn a).ne'
    rw [Grid.H, mul_div_cancel₀ _ this]
  refine cells_mesh .rectQuad1 rfl g.anchor g.H hH g.n hn _ _ _ hc hi hsur (fun e i a => ?_) h h0 hh _ e
  obtain ⟨h1, _, _, h4⟩ := C25_2d g hf e (by omega) (by omega)
  exact Eq.trans (congrArg (fun z => g.node z a) (Int.toNat_of_nonneg (h1 i).1)) (h4 i a)

/-- **C122 (grids, convergence).** The integral computed on the cells of a grid of a box is as close as wanted to the integral over the box, as soon as the
sides of the cells are short enough. -/
theorem C122_grid_converges (o s : Fin 3 → ℝ) (hs : ∀ a, 0 < s a) (f : (Fin 3 → ℝ) → ℝ) (hf : ContinuousOn f (Set.Icc o fun a => o a + s a)) (ε : ℝ) (hε : 0 < ε) :
    ∃ h > 0, ∀ (n : Fin 3 → ℕ) (hfit : Fits n), (∀ a, 0 < n a) → (∀ a, s a / n a ≤ h) →
      ∀ u : Fin (Grid.mk o n s).numberOfNodes.toNat → Fin 3 → ℝ,
      |(integrateOver ElementType.rectHexa1.elem ElementType.rectHexa1.gauss ((Grid.mk o n s).cellNodes hfit) (fun p => (Grid.mk o n s).node p) u
        fun _ x _ => f x).getD 0 - ∫ x in Set.Icc o fun a => o a + s a, f x| ≤ ε := by
  obtain ⟨h, h0, hh⟩ := C122_converges .rectHexa1 (Set.Icc o fun a => o a + s a) isCompact_Icc f hf ε hε
  exact ⟨h, h0, fun n hfit hn hsn u => hh _ _ u (C122_grid ⟨o, n, s⟩ hfit hn hs h h0.le hsn)⟩

/-- A grid of `2 × 3` cells of a plate. -/
example : ∃ hfit : Fits (![2, 3] : Fin 2 → ℕ), MeshOf .rectQuad1 ((Grid.mk (![1, 1] : Fin 2 → ℝ) ![2, 3] ![4, 3]).cellNodesPlane hfit)
    (fun p => (Grid.mk (![1, 1] : Fin 2 → ℝ) ![2, 3] ![4, 3]).node p) (Set.Icc ![1, 1] fun a => ![1, 1] a + ![4, 3] a) 2 := by
  have hfit : Fits (![2, 3] : Fin 2 → ℕ) := by norm_num [Fits, Fin.prod_univ_two]
  refine ⟨hfit, C122_grid_plane (Grid.mk ![1, 1] ![2, 3] ![4, 3]) hfit ?_ ?_ 2 (by norm_num) ?_⟩
  · intro a; fin_cases a <;> simp
  · intro a; fin_cases a <;> simp
  · intro a; fin_cases a <;> norm_num [Grid.H]

end Caribou
