import Verif.Props.Refinement
import Verif.Props.HeldBody
import Verif.Props.CorotLife

/-!
# C135: the static solutions which are compared exist and are unique
-/

set_option autoImplicit false
set_option linter.all false

namespace Caribou

open Spec Matrix

section

variable {N M : ℕ} {C : CorotClass} {d : CorotData} {idx : Fin M → Fin C.nodes → Fin N} {X : Fin N → Fin 3 → ℝ} {σ h : ℝ}

theorem straight_spd (hc : d.corotated = false) (hm : d.method = .regular) (h1 : 0 < d.young) (h2 : -1 < d.poisson) (h3 : d.poisson < 1 / 2)
    (hS : Straight C.elem idx X σ h) (fixed : Fin N → Bool) (hheld : WellHeld idx X fixed) :
    IsSPD (constrainMatrix (fun d : Dof N => fixed d.1) (Matrix.of (CorotClass.reinitState d X C (CorotState.fresh idx)).stiffnessOf)) := by
  have hj : ∀ e ξ, 0 < (C.elem.jacobian (fun i => X (idx e i)) ξ : Mat3).det := by
    intro e ξ
    obtain ⟨c, A, hdet, -, hX⟩ := hS e
    rw [C.good.affine c A _ hX]
    exact hdet
  obtain ⟨corotated, young, poisson, method⟩ := d
  simp only at hc hm h1 h2 h3
  subst hc hm
  cases C
  · exact C101_tetra idx X (fun e g _ => hj e g.position) young poisson h1 h2 h3 fixed hheld
  · exact C101_hexa idx X (fun e g _ => hj e g.position) young poisson h1 h2 h3 fixed hheld

theorem netForce_stiffness (hc : d.corotated = false) (hm : d.method = .regular) (U F : Fin N → Fin 3 → ℝ) (p : Fin N) (a : Fin 3) :
    netForce C d idx X U F p a = F p a - ∑ q : Dof N, (CorotClass.reinitState d X C (CorotState.fresh idx)).stiffnessOf (p, a) q * U q.1 q.2 := by
  obtain ⟨r1, r2, r3, r4⟩ := class_ready C d hm idx X
  have r5 := class_initial C d hc idx X
  unfold netForce
  rw [hc, linear_force _ r1 r4 r5 C.frame X U F, CorotState.addDForce_factor r1]
  simp only [one_mul]

/-- **C135 (one solution).** A linear elastic body three nodes of which are held in every piece has exactly one static solution under every load. -/
theorem C135_unique (hc : d.corotated = false) (hm : d.method = .regular) (h1 : 0 < d.young) (h2 : -1 < d.poisson) (h3 : d.poisson < 1 / 2)
    (hS : Straight C.elem idx X σ h) (fixed : Fin N → Bool) (hheld : WellHeld idx X fixed) (F : Fin N → Fin 3 → ℝ) :
    ∃! U : Fin N → Fin 3 → ℝ, (∀ p, fixed p = true → U p = 0) ∧ ∀ p, fixed p = false → netForce C d idx X U F p = 0 := by
  classical
  have hu := (C101_solvable (straight_spd hc hm h1 h2 h3 hS fixed hheld)).1
  have hnet := netForce_stiffness (C := C) (d := d) (idx := idx) (X := X) hc hm
  generalize (CorotClass.reinitState d X C (CorotState.fresh idx)).stiffnessOf = K at hu hnet
  set A := constrainMatrix (fun d : Dof N => fixed d.1) (Matrix.of K) with hA
  have hrow : ∀ (u : Dof N → ℝ), (∀ q, fixed q.1 = true → u q = 0) → ∀ q, fixed q.1 = false → (A *ᵥ u) q = ∑ q', K q q' * u q' := by
    intro u hu0 q hq
    refine Finset.sum_congr rfl fun q' _ => ?_
    show A q q' * u q' = _
    rw [hA, constrainMatrix]
    by_cases hq' : fixed q'.1 = true
    · rw [hu0 q' hq', mul_zero, mul_zero]
    · simp [hq, hq']
  have hfixrow : ∀ (u : Dof N → ℝ) q, fixed q.1 = true → (A *ᵥ u) q = u q := by
    intro u q hq
    have : ∀ q', A q q' * u q' = if q' = q then u q else 0 := by
      intro q'
      rw [hA, constrainMatrix]
      by_cases h : q' = q
      · subst h
        simp [hq]
      · have h' : ¬q = q' := fun k => h k.symm
        simp [hq, h, h']
    show ∑ q', A q q' * u q' = u q
    simp only [this, Finset.sum_ite_eq', Finset.mem_univ, if_true]
  have hdet := (Matrix.isUnit_iff_isUnit_det A).1 hu
  refine ⟨fun p a => (A⁻¹ *ᵥ fun q : Dof N => if fixed q.1 then 0 else F q.1 q.2) (p, a), ⟨fun p hp => ?_, fun p hp => ?_⟩, fun V hV => ?_⟩
  · funext a
    have := hfixrow (A⁻¹ *ᵥ fun q : Dof N => if fixed q.1 then 0 else F q.1 q.2) (p, a) hp
    rw [Matrix.mulVec_mulVec, Matrix.mul_nonsing_inv _ hdet, Matrix.one_mulVec] at this
    refine this.symm.trans ?_
    simp [hp]
  · funext a
    rw [hnet]
    have h0 : ∀ q : Dof N, fixed q.1 = true → (A⁻¹ *ᵥ fun q : Dof N => if fixed q.1 then 0 else F q.1 q.2) q = 0 := by
      intro q hq
      have := hfixrow (A⁻¹ *ᵥ fun q : Dof N => if fixed q.1 then 0 else F q.1 q.2) q hq
      rw [Matrix.mulVec_mulVec, Matrix.mul_nonsing_inv _ hdet, Matrix.one_mulVec] at this
      rw [← this]
      simp [hq]
    have := hrow _ h0 (p, a) hp
    rw [Matrix.mulVec_mulVec, Matrix.mul_nonsing_inv _ hdet, Matrix.one_mulVec] at this
    have h2 : (∑ q : Dof N, K (p, a) q * (A⁻¹ *ᵥ fun q : Dof N => if fixed q.1 then 0 else F q.1 q.2) (q.1, q.2)) = F p a := by
      refine this.symm.trans ?_
      simp [hp]
    rw [h2]
    simp
  · have hv : A *ᵥ (fun q : Dof N => V q.1 q.2) = fun q : Dof N => if fixed q.1 then 0 else F q.1 q.2 := by
      funext q
      by_cases hq : fixed q.1 = true
      · rw [hfixrow _ q hq, if_pos hq, hV.1 q.1 hq]
        rfl
      · have hq' : fixed q.1 = false := by simpa using hq
        rw [hrow _ (fun q hq => by rw [hV.1 q.1 hq]; rfl) q hq', if_neg hq]
        have := congrFun (hV.2 q.1 hq') q.2
        rw [hnet] at this
        have h2 : F q.1 q.2 - (∑ q' : Dof N, K (q.1, q.2) q' * V q'.1 q'.2) = 0 := this
        linarith
    funext p a
    rw [← hv, Matrix.mulVec_mulVec, Matrix.nonsing_inv_mul _ hdet, Matrix.one_mulVec]

end

/-! ### Boxes -/

section

variable (g : Grid 3 ℝ) (hf : Fits g.n)

/-- The node with the coordinates `m`. -/
noncomputable def Grid.nodeOf (m : Fin 3 → ℤ) (hm : IsNode g.n m) : Fin g.numberOfNodes.toNat :=
  ⟨(g.nodeIndexAt m).toNat, by
    obtain ⟨h1, h2, -⟩ := C23_coordinates (Or.inr (Or.inr rfl)) g hf m hm
    omega⟩

theorem nodeOf_position (m : Fin 3 → ℤ) (hm : IsNode g.n m) (a : Fin 3) : g.node (g.nodeOf hf m hm) a = g.anchor a + m a * g.H a := by
  obtain ⟨h1, h2, h3⟩ := C23_coordinates (Or.inr (Or.inr rfl)) g hf m hm
  have e : ((g.nodeOf hf m hm : ℕ) : ℤ) = g.nodeIndexAt m := Int.toNat_of_nonneg h1
  rw [e]
  show g.anchor a + g.nodeCoordinatesAt (g.nodeIndexAt m) a * g.H a = _
  rw [h3]

theorem nodeOf_mem (e : Fin g.numberOfCells.toNat) (m : Fin 3 → ℤ) (hm : IsNode g.n m) (h : ∀ a, m a = g.cellCoordinatesAt e a ∨ m a = g.cellCoordinatesAt e a + 1) :
    g.nodeOf hf m hm ∈ Set.range (g.cellNodes hf e) := by
  have hd : ∀ a, ∃ x : Fin 2, m a - g.cellCoordinatesAt e a = (x : ℕ) := by
    intro a
    rcases h a with h | h
    · exact ⟨0, by rw [h]; simp⟩
    · exact ⟨1, by rw [h]; simp⟩
  obtain ⟨x, hx⟩ := hd 0
  obtain ⟨y, hy⟩ := hd 1
  obtain ⟨z, hz⟩ := hd 2
  obtain ⟨i, hi0, hi1, hi2⟩ := offset_exists x y z
  refine ⟨i, Fin.ext ?_⟩
  have hc : g.cellCoordinatesAt e + offset3 i = m := by
    funext a
    simp only [Pi.add_apply]
    fin_cases a <;> simp only [Fin.zero_eta, Fin.mk_one, Fin.reduceFinMk] <;> omega
  rw [cellNodes_val, nodeIndicesOf3_eq, hc]
  rfl

/-- The point next to `m` along the axis `a`. -/
def stepAlong (a : Fin 3) (m : Fin 3 → ℤ) : Fin 3 → ℤ := fun b => if b = a then m b + 1 else m b

theorem three_not_collinear (hH : ∀ a, 0 < g.H a) (m : Fin 3 → ℤ) (b c : Fin 3) (hbc : b ≠ c) (h0 : IsNode g.n m) (h1 : IsNode g.n (stepAlong b m)) (h2 : IsNode g.n (stepAlong c m)) :
    ¬Collinear ℝ {g.node (g.nodeOf hf m h0), g.node (g.nodeOf hf _ h1), g.node (g.nodeOf hf _ h2)} := by
  refine not_collinear_of_cross b c ?_
  simp only [nodeOf_position, stepAlong, if_true, if_neg hbc, if_neg hbc.symm]
  push_cast
  have := mul_pos (hH b) (hH c)
  ring_nf
  exact (mul_pos (hH b) (hH c)).ne'

theorem others (a : Fin 3) : ∃ b c : Fin 3, b ≠ c ∧ b ≠ a ∧ c ≠ a := by
  revert a
  decide

theorem cells_glued (hH : ∀ a, 0 < g.H a) (e e' : Fin g.numberOfCells.toNat) (a : Fin 3) (h : g.cellCoordinatesAt e = stepAlong a (g.cellCoordinatesAt e')) :
    Glued (g.cellNodes hf) (fun p => g.node p) e e' ∧ Glued (g.cellNodes hf) (fun p => g.node p) e' e := by
  obtain ⟨hc, -, -⟩ := cells_enumerated (Or.inr (Or.inr rfl)) g hf
  obtain ⟨b, c, hbc, hba, hca⟩ := others a
  have k := hc e
  have h0 : IsNode g.n (g.cellCoordinatesAt e) := fun x => ⟨(k x).1, (k x).2.le⟩
  have hs : ∀ b, IsNode g.n (stepAlong b (g.cellCoordinatesAt e)) := by
    intro b x
    have := k x
    unfold stepAlong
    split_ifs <;> constructor <;> omega
  have hmem : ∀ m hm, (∀ x, m x = g.cellCoordinatesAt e x ∨ m x = g.cellCoordinatesAt e x + 1) → m a = g.cellCoordinatesAt e a →
      g.nodeOf hf m hm ∈ Set.range (g.cellNodes hf e) ∧ g.nodeOf hf m hm ∈ Set.range (g.cellNodes hf e') := by
    intro m hm h1 h2
    refine ⟨nodeOf_mem g hf e m hm h1, nodeOf_mem g hf e' m hm fun x => ?_⟩
    have hx := congrFun h x
    unfold stepAlong at hx
    by_cases hxa : x = a
    · subst hxa
      rw [if_pos rfl] at hx
      right
      omega
    · rw [if_neg hxa] at hx
      rw [← hx]
      exact h1 x
  have hstep : ∀ b, b ≠ a → ∀ x, stepAlong b (g.cellCoordinatesAt e) x = g.cellCoordinatesAt e x ∨ stepAlong b (g.cellCoordinatesAt e) x = g.cellCoordinatesAt e x + 1 := by
    intro b _ x
    unfold stepAlong
    split_ifs
    · exact Or.inr rfl
    · exact Or.inl rfl
  have m0 := hmem _ h0 (fun x => Or.inl rfl) rfl
  have m1 := hmem _ (hs b) (hstep b hba) (if_neg hba.symm)
  have m2 := hmem _ (hs c) (hstep c hca) (if_neg hca.symm)
  have hn := three_not_collinear g hf hH _ b c hbc h0 (hs b) (hs c)
  refine ⟨⟨_, _, _, fun s hs => ?_, hn⟩, ⟨_, _, _, fun s hs => ?_, hn⟩⟩
  · simp only [List.mem_cons, List.not_mem_nil, or_false] at hs
    rcases hs with rfl | rfl | rfl
    exacts [m0, m1, m2]
  · simp only [List.mem_cons, List.not_mem_nil, or_false] at hs
    rcases hs with rfl | rfl | rfl
    exacts [m0.symm, m1.symm, m2.symm]

/-- The cells of a grid are one piece. -/
theorem cells_one_piece (hn : ∀ a, 0 < g.n a) (hH : ∀ a, 0 < g.H a) (e e' : Fin g.numberOfCells.toNat) : SamePiece (g.cellNodes hf) (fun p => g.node p) e e' := by
  obtain ⟨hc, hi, hsur⟩ := cells_enumerated (Or.inr (Or.inr rfl)) g hf
  obtain ⟨o, ho⟩ := hsur (fun _ => 0) fun a => ⟨le_refl _, Int.natCast_pos.2 (hn a)⟩
  have key : ∀ (k : ℕ) (e : Fin g.numberOfCells.toNat), (∑ a, g.cellCoordinatesAt e a) = k →
      SamePiece (g.cellNodes hf) (fun p => g.node p) e o ∧ SamePiece (g.cellNodes hf) (fun p => g.node p) o e := by
    intro k
    induction k with
    | zero =>
      intro e he
      have h0 := (Finset.sum_eq_zero_iff_of_nonneg fun a _ => (hc e a).1).1 (by exact_mod_cast he)
      have : e = o := hi (by
        simp only [ho]
        funext a
        exact h0 a (Finset.mem_univ a))
      subst this
      exact ⟨Relation.ReflTransGen.refl, Relation.ReflTransGen.refl⟩
    | succ k ih =>
      intro e he
      have hex : ∃ a, 0 < g.cellCoordinatesAt e a := by
        by_contra hno
        push Not at hno
        have : (∑ a, g.cellCoordinatesAt e a) ≤ 0 := Finset.sum_nonpos fun a _ => hno a
        rw [he] at this
        push_cast at this
        omega
      obtain ⟨a, ha⟩ := hex
      obtain ⟨e', he'⟩ := hsur (fun b => if b = a then g.cellCoordinatesAt e b - 1 else g.cellCoordinatesAt e b) fun b => by
        have := hc e b
        by_cases hb : b = a
        · subst hb
          simp only [if_true]
          omega
        · simp only [if_neg hb]
          exact this
      have hst : g.cellCoordinatesAt e = stepAlong a (g.cellCoordinatesAt e') := by
        rw [he']
        funext b
        unfold stepAlong
        by_cases hb : b = a
        · simp [hb]
        · simp [hb]
      obtain ⟨g1, g2⟩ := cells_glued g hf hH e e' a hst
      obtain ⟨i1, i2⟩ := ih e' (by
        have : (∑ b, g.cellCoordinatesAt e b) = (∑ b, g.cellCoordinatesAt e' b) + 1 := by
          rw [hst]
          have h2 : ∀ b, stepAlong a (g.cellCoordinatesAt e') b = g.cellCoordinatesAt e' b + if b = a then 1 else 0 := by
            intro b
            unfold stepAlong
            split_ifs <;> simp
          simp only [h2, Finset.sum_add_distrib, Finset.sum_ite_eq', Finset.mem_univ, if_true]
        rw [this] at he
        push_cast at he
        linarith)
      exact ⟨Relation.ReflTransGen.head g1 i1, Relation.ReflTransGen.tail i2 g2⟩
  have hk : ∀ e : Fin g.numberOfCells.toNat, ∃ k : ℕ, (∑ a, g.cellCoordinatesAt e a) = k := fun e =>
    ⟨_, (Int.toNat_of_nonneg (Finset.sum_nonneg fun a _ => (hc e a).1)).symm⟩
  obtain ⟨k, hk1⟩ := hk e
  obtain ⟨k', hk2⟩ := hk e'
  exact (key k e hk1).1.trans (key k' e' hk2).2

open Classical in
/-- A box held at one of its sides is well held. -/
theorem box_held (hn : ∀ a, 0 < g.n a) (hs : ∀ a, 0 < g.size a) (B : Set (Fin 3 × Bool)) (b : Fin 3 × Bool) (hb : b ∈ B) :
    WellHeld (g.cellNodes hf) (fun p => g.node p) fun p => decide (p ∈ g.sideNodesOf B) := by
  have hH : ∀ a, 0 < g.H a := fun a => div_pos (hs a) (by exact_mod_cast hn a)
  obtain ⟨hc, hi, hsur⟩ := cells_enumerated (Or.inr (Or.inr rfl)) g hf
  intro s
  right
  obtain ⟨e, i, hei⟩ := grid_covered g hf hn s
  refine ⟨e, ⟨i, hei⟩, ?_⟩
  obtain ⟨x, y, hxy, hxb, hyb⟩ := others b.1
  set m : Fin 3 → ℤ := fun a => if a = b.1 then (if b.2 then g.n a else 0) else 0 with hm
  have h0 : IsNode g.n m := by
    intro a
    simp only [hm]
    split_ifs <;> constructor <;> simp
  have h1 : ∀ x, x ≠ b.1 → IsNode g.n (stepAlong x m) := by
    intro x hx a
    have := hn a
    unfold stepAlong
    by_cases ha : a = x
    · subst ha
      simp only [if_true, hm, if_neg hx]
      constructor <;> omega
    · rw [if_neg ha]
      exact h0 a
  obtain ⟨o, ho⟩ := hsur (fun a => if a = b.1 then (if b.2 then (g.n a : ℤ) - 1 else 0) else 0) fun a => by
    have := hn a
    simp only []
    split_ifs <;> constructor <;> omega
  have hmem : ∀ k hk, (∀ a, k a = m a ∨ (a ≠ b.1 ∧ k a = m a + 1)) → InPiece (g.cellNodes hf) (fun p => g.node p) e (g.nodeOf hf k hk) ∧
      (decide (g.nodeOf hf k hk ∈ g.sideNodesOf B)) = true := by
    intro k hk h
    refine ⟨⟨o, cells_one_piece g hf hn hH e o, nodeOf_mem g hf o k hk fun a => ?_⟩, ?_⟩
    · rw [ho]
      have := h a
      simp only [hm] at this ⊢
      by_cases ha : a = b.1
      · simp only [ha, if_true, ne_eq, not_true_eq_false, false_and, or_false] at this ⊢
        rw [this]
        split_ifs
        · right
          ring
        · left
          rfl
      · simp only [if_neg ha] at this ⊢
        rcases this with h | ⟨-, h⟩
        · exact Or.inl h
        · exact Or.inr h
    · rw [decide_eq_true_eq]
      refine ⟨b, hb, ?_⟩
      rw [nodeOf_position]
      have := (h b.1).resolve_right fun h => h.1 rfl
      rw [this]
      simp only [hm, if_true, Grid.sidePosition]
      split_ifs
      · have : (g.n b.1 : ℝ) ≠ 0 := by exact_mod_cast (hn b.1).ne'
        rw [Grid.H]
        push_cast
        rw [mul_div_cancel₀ _ this]
      · simp
  have hst : ∀ x, x ≠ b.1 → ∀ a, stepAlong x m a = m a ∨ (a ≠ b.1 ∧ stepAlong x m a = m a + 1) := by
    intro x hx a
    unfold stepAlong
    by_cases ha : a = x
    · subst ha
      rw [if_pos rfl]
      exact Or.inr ⟨hx, rfl⟩
    · rw [if_neg ha]
      exact Or.inl rfl
  refine ⟨_, _, _, fun t ht => ?_, three_not_collinear g hf hH m x y hxy h0 (h1 x hxb) (h1 y hyb)⟩
  simp only [List.mem_cons, List.not_mem_nil, or_false] at ht
  rcases ht with rfl | rfl | rfl
  · exact hmem _ _ fun a => Or.inl rfl
  · exact hmem _ _ (hst x hxb)
  · exact hmem _ _ (hst y hyb)

end

/-- **C135 (boxes, one solution).** A box of linear elastic hexahedra held at one of its sides at least has exactly one static solution under every load. -/
theorem C135_box_unique {d : CorotData} (hc : d.corotated = false) (hm : d.method = .regular) (h1 : 0 < d.young) (h2 : -1 < d.poisson) (h3 : d.poisson < 1 / 2)
    (g : Grid 3 ℝ) (hf : Fits g.n) (hn : ∀ a, 0 < g.n a) (hs : ∀ a, 0 < g.size a) (B : Set (Fin 3 × Bool)) (hB : B.Nonempty) (F : Fin g.numberOfNodes.toNat → Fin 3 → ℝ) :
    ∃! U : Fin g.numberOfNodes.toNat → Fin 3 → ℝ, (∀ q ∈ g.sideNodesOf B, U q = 0) ∧
      ∀ q, q ∉ g.sideNodesOf B → netForce .hexa d (g.cellNodes hf) (fun q => g.node q) U F q = 0 := by
  classical
  obtain ⟨b, hb⟩ := hB
  have := C135_unique (C := .hexa) hc hm h1 h2 h3 (grid_straight g hf fun a => div_pos (hs a) (by exact_mod_cast hn a)) _ (box_held g hf hn hs B b hb) F
  simpa only [decide_eq_true_eq, decide_eq_false_iff_not] using this

/-- A unit cube held at one side and pushed at the opposite corner, with one hexahedron and with eight. -/
example : ∃ (hf : Fits (![1, 1, 1] : Fin 3 → ℕ)) (hf' : Fits (![2, 2, 2] : Fin 3 → ℕ)),
    let g : Grid 3 ℝ := ⟨0, ![1, 1, 1], 1⟩
    let g' : Grid 3 ℝ := ⟨0, ![2, 2, 2], 1⟩
    let d : CorotData := ⟨false, 1000, 1 / 4, .regular⟩
    let B : Set (Fin 3 × Bool) := {(0, false)}
    ∃ (p : Fin g.numberOfNodes.toNat) (p' : Fin g'.numberOfNodes.toNat), g.node p = (1 : Fin 3 → ℝ) ∧ g'.node p' = (1 : Fin 3 → ℝ) ∧ ∀ f : Fin 3 → ℝ, ∃ U U',
      (∀ q ∈ g.sideNodesOf B, U q = 0) ∧ (∀ q, q ∉ g.sideNodesOf B → netForce .hexa d (g.cellNodes hf) (fun q => g.node q) U (Pi.single p f) q = 0) ∧
      (∀ q ∈ g'.sideNodesOf B, U' q = 0) ∧ (∀ q, q ∉ g'.sideNodesOf B → netForce .hexa d (g'.cellNodes hf') (fun q => g'.node q) U' (Pi.single p' f) q = 0) ∧
      f ⬝ᵥ U p ≤ f ⬝ᵥ U' p' := by
  have hf : Fits (![1, 1, 1] : Fin 3 → ℕ) := by
    unfold Fits
    decide
  have hf' : Fits (![2, 2, 2] : Fin 3 → ℕ) := by
    unfold Fits
    decide
  refine ⟨hf, hf', ?_⟩
  intro g g' d B
  have hn : ∀ a, 0 < g.n a := by decide
  have hn' : ∀ a, 0 < g'.n a := by decide
  have hs : ∀ a, 0 < g.size a := fun a => one_pos
  have k : IsNode g.n 1 := by decide
  have k' : IsNode g'.n 2 := by decide
  have e1 : g.node (g.nodeOf hf 1 k) = (1 : Fin 3 → ℝ) := by
    funext a
    rw [nodeOf_position]
    fin_cases a <;> simp [g, Grid.H]
  have e2 : g'.node (g'.nodeOf hf' 2 k') = (1 : Fin 3 → ℝ) := by
    funext a
    rw [nodeOf_position]
    fin_cases a <;> simp [g', Grid.H]
  refine ⟨g.nodeOf hf 1 k, g'.nodeOf hf' 2 k', e1, e2, fun f => ?_⟩
  obtain ⟨U, ⟨hU, hU2⟩, -⟩ := C135_box_unique (d := d) rfl rfl (by norm_num) (by norm_num) (by norm_num) g hf hn hs B ⟨_, rfl⟩ (Pi.single (g.nodeOf hf 1 k) f)
  obtain ⟨U', ⟨hU', hU2'⟩, -⟩ := C135_box_unique (d := d) rfl rfl (by norm_num) (by norm_num) (by norm_num) g' hf' hn' hs B ⟨_, rfl⟩ (Pi.single (g'.nodeOf hf' 2 k') f)
  exact ⟨U, U', hU, hU2, hU', hU2', C135_box (d := d) rfl rfl (by norm_num) (by norm_num) (by norm_num) g g' hf hf' hn hs rfl rfl (fun _ => 2) (by simp)
    (fun a => by fin_cases a <;> rfl) B _ _ (e2.trans e1.symm) f U hU hU2 U' hU' hU2'⟩

/-- The stretched unit cube, with one hexahedron and with eight. -/
example : ∃ (hf : Fits (![1, 1, 1] : Fin 3 → ℕ)) (hf' : Fits (![2, 2, 2] : Fin 3 → ℕ)),
    let g : Grid 3 ℝ := ⟨0, ![1, 1, 1], 1⟩
    let g' : Grid 3 ℝ := ⟨0, ![2, 2, 2], 1⟩
    let d : CorotData := ⟨false, 1000, 1 / 4, .regular⟩
    let B : Set (Fin 3 × Bool) := {(0, false)}
    let G : Mat3 := Matrix.diagonal ![1, 0, 0]
    ∃ F' U', WeakSolution (lameL d.young d.poisson) (lameMu d.young d.poisson) hexa1 (CorotClass.canonical .hexa) (g'.cellNodes hf') (fun p => g'.node p) (g'.sideNodesOf B) F' (fun _ => G) ∧
      (∀ q ∈ g'.sideNodesOf B, U' q = 0) ∧ (∀ q, q ∉ g'.sideNodesOf B → netForce .hexa d (g'.cellNodes hf') (fun q => g'.node q) U' F' q = 0) ∧
      power F' U' ≤ ∫ x in Set.Icc (0 : Fin 3 → ℝ) (fun a => (0 : Fin 3 → ℝ) a + (1 : Fin 3 → ℝ) a), strainWork (lameL d.young d.poisson) (lameMu d.young d.poisson) G G ∧
      ∀ GU', FieldGradient hexa1 (CorotClass.canonical .hexa) (g'.cellNodes hf') (fun p => g'.node p) U' GU' →
        energyError (lameL d.young d.poisson) (lameMu d.young d.poisson) hexa1 (CorotClass.canonical .hexa) (g'.cellNodes hf') (fun p => g'.node p) (fun _ => G) GU' ≤
        energyError (lameL d.young d.poisson) (lameMu d.young d.poisson) hexa1 (CorotClass.canonical .hexa) (g.cellNodes hf) (fun p => g.node p) (fun _ => G) (fun _ _ => 0) := by
  have hf : Fits (![1, 1, 1] : Fin 3 → ℕ) := by
    unfold Fits
    decide
  have hf' : Fits (![2, 2, 2] : Fin 3 → ℕ) := by
    unfold Fits
    decide
  refine ⟨hf, hf', ?_⟩
  intro g g' d B G
  have hn : ∀ a, 0 < g.n a := by decide
  have hn' : ∀ a, 0 < g'.n a := by decide
  have hs : ∀ a, 0 < g.size a := fun a => one_pos
  have hs' : ∀ a, 0 < g'.size a := fun a => one_pos
  have S' := grid_straight g' hf' fun a => div_pos (hs' a) (by exact_mod_cast hn' a)
  set U' : Fin g'.numberOfNodes.toNat → Fin 3 → ℝ := fun p => G.mulVec (g'.node p) with hU'
  set F' : Fin g'.numberOfNodes.toNat → Fin 3 → ℝ := -netForce .hexa d (g'.cellNodes hf') (fun q => g'.node q) U' 0 with hF'
  have hGU' : FieldGradient hexa1 (CorotClass.canonical .hexa) (g'.cellNodes hf') (fun p => g'.node p) U' fun _ _ => G := by
    intro e ξ _
    rw [hexa_good.affine _ _ _ (grid_affine g' hf' e)]
    refine hexa_good.affine (G.mulVec (fun a => g'.anchor a + (g'.cellCoordinatesAt e a + 1 / 2) * g'.H a)) (G * Matrix.diagonal fun a => g'.H a / 2) _ (fun i => ?_) ξ
    show G.mulVec (g'.node (g'.cellNodes hf' e i)) = _
    rw [grid_affine g' hf' e i, Matrix.mulVec_add, Matrix.mulVec_mulVec]
  have hw : WeakSolution (lameL d.young d.poisson) (lameMu d.young d.poisson) hexa1 (CorotClass.canonical .hexa) (g'.cellNodes hf') (fun p => g'.node p) (g'.sideNodesOf B) F' (fun _ => G) := by
    intro V GV hV hGV
    have := C124_virtual .hexa (d := d) rfl rfl S' U' 0 V _ _ hGU' hGV
    have e1 : power F' V = -power (netForce .hexa d (g'.cellNodes hf') (fun q => g'.node q) U' 0) V := by
      simp only [power, hF', Pi.neg_apply, neg_dotProduct, Finset.sum_neg_distrib]
    have e2 : power (0 : Fin g'.numberOfNodes.toNat → Fin 3 → ℝ) V = 0 := by simp [power]
    rw [e1, this, e2, zero_sub, neg_neg]
    rfl
  have hfix : ∀ q ∈ g'.sideNodesOf B, U' q = 0 := by
    intro q hq
    obtain ⟨b, hb, hq⟩ := hq
    have hb' : b = (0, false) := hb
    subst hb'
    have h0 : g'.node q 0 = 0 := by
      simpa [Grid.sidePosition, g'] using hq
    funext a
    simp only [hU', G, Matrix.mulVec_diagonal]
    fin_cases a <;> simp [h0]
  have heq : ∀ q, q ∉ g'.sideNodesOf B → netForce .hexa d (g'.cellNodes hf') (fun q => g'.node q) U' F' q = 0 := by
    intro q _
    funext a
    have n1 := netForce_stiffness (C := .hexa) (d := d) (idx := g'.cellNodes hf') (X := fun q => g'.node q) rfl rfl U' F' q a
    have n2 := netForce_stiffness (C := .hexa) (d := d) (idx := g'.cellNodes hf') (X := fun q => g'.node q) rfl rfl U' 0 q a
    have n3 : F' q a = -netForce .hexa d (g'.cellNodes hf') (fun q => g'.node q) U' 0 q a := rfl
    have n4 : (0 : Fin g'.numberOfNodes.toNat → Fin 3 → ℝ) q a = 0 := rfl
    show _ = (0 : ℝ)
    rw [n4] at n2
    linarith
  refine ⟨F', U', hw, hfix, heq, ?_, fun GU' hG => ?_⟩
  · exact C135_body (C := .hexa) (d := d) rfl rfl (by norm_num) (by norm_num) (by norm_num) (grid_fine g' hf' hn' hs') S' (fun _ => G) (fun a b => continuousOn_const) F' hw U' hfix heq
  · refine C135_error (C := .hexa) (C' := .hexa) (d := d) rfl rfl (by norm_num) (by norm_num) (by norm_num) (grid_fine g hf hn hs) (grid_fine g' hf' hn' hs')
      (grid_straight g hf fun a => div_pos (hs a) (by exact_mod_cast hn a)) S' (C135_grids g g' hf hf' hn hn' hs rfl rfl (fun _ => 2) (fun a => by fin_cases a <;> rfl) B)
      (fun _ => G) (fun a b => continuousOn_const) F' hw U' hfix heq 0 (fun _ _ => rfl) _ (fun e ξ _ => ?_) GU' hG
    rw [zero_mul]
    ext a b
    simp [Elem.jacobian]

end Caribou
