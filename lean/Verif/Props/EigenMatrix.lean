import Verif.Lemmas.EigenMatrix
import Mathlib.Tactic.NormNum
import Mathlib.Tactic.IntervalCases

/-!
# Matrix wrappers

C57: a wrapper behaves like a plain matrix.  C58: a wrapper of an existing matrix presents that matrix.
-/

set_option autoImplicit false

namespace Caribou

variable {K : Type*} [Ring K]

/-- C57 (partial): any history of calls that clears rows or columns across the storage order only when no entry was created
since the last compression (and uses the symmetric flag truthfully) leaves, after `compress`, the coefficients of the plain
matrix; without `compress`, also as soon as the assembly is over.  Missing: clearing across the storage order after the
creation of an entry, see `C57_violated`. -/
theorem C57_partial (rowMajor : Bool) (r c : ℕ) (ops : List (MatOp K))
    (h : Spec.Careful rowMajor (Spec.Dense.zero r c) Spec.Usage.fresh ops) (i j : ℕ)
    (hi : i < (ops.foldl Spec.Dense.step (Spec.Dense.zero r c : Spec.Dense K)).rows)
    (hj : j < (ops.foldl Spec.Dense.step (Spec.Dense.zero r c : Spec.Dense K)).cols) :
    let s := ops.foldl SparseWrapper.step (SparseWrapper.ofDims rowMajor r c)
    let d := ops.foldl Spec.Dense.step (Spec.Dense.zero r c : Spec.Dense K)
    s.mat.rows = d.rows ∧ s.mat.cols = d.cols ∧ s.compress.element i j = d.val i j ∧
    ((ops.foldl Spec.Usage.step Spec.Usage.fresh).assembling = false → s.element i j = d.val i j) := by
  have h0 : Rel (SparseWrapper.ofDims rowMajor r c : SparseWrapper K) (Spec.Dense.zero r c) Spec.Usage.fresh :=
    rel_fresh rowMajor r c false Spec.Usage.fresh rfl (fun _ _ => id) rfl
  have hr := rel_run ops h0 rfl h
  simp only []
  refine ⟨hr.rows, hr.cols, ?_, fun ha => ?_⟩
  · have hc := rel_compress hr
    have hinit : (ops.foldl SparseWrapper.step (SparseWrapper.ofDims rowMajor r c)).compress.initialized = true := hc.init
    have := hc.val i j hi hj
    rw [hc.flushed hinit, tripSum_nil, add_zero] at this
    exact this
  · have hinit : (ops.foldl SparseWrapper.step (SparseWrapper.ofDims rowMajor r c)).initialized = true := by
      rw [hr.init, ha]; rfl
    have := hr.val i j hi hj
    rw [hr.flushed hinit, tripSum_nil, add_zero] at this
    exact this

/-- A history with an assembly, a fixed degree of freedom and a second assembly meets the hypotheses. -/
example : Spec.Careful true (Spec.Dense.zero 2 2 : Spec.Dense ℤ) Spec.Usage.fresh
    [.add 0 0 1 (fun _ => []), .add 1 0 2 (fun _ => []), .add 0 1 2 (fun _ => []), .setSymmetric true, .clearRowCol 0,
      .set 0 0 5 (fun _ => [(7, 3)]), .clearCol 1, .clear, .addBlock 0 0 2 2 (fun _ _ => 1) (fun _ _ _ => []), .clearRow 1] := by
  refine ⟨by simp [Spec.Dense.InRange, Spec.Dense.step, Spec.Dense.zero], by simp [Spec.Crosses], by simp, ?_⟩
  refine ⟨by simp [Spec.Dense.InRange, Spec.Dense.step, Spec.Dense.zero], by simp [Spec.Crosses], by simp, ?_⟩
  refine ⟨by simp [Spec.Dense.InRange, Spec.Dense.step, Spec.Dense.zero], by simp [Spec.Crosses], by simp, ?_⟩
  refine ⟨trivial, by simp [Spec.Crosses], by simp, ?_⟩
  refine ⟨by simp [Spec.Dense.InRange, Spec.Dense.step, Spec.Dense.zero], fun _ => by simp [Spec.Usage.step, Spec.Usage.fresh], fun _ _ _ _ => ⟨rfl, ?_⟩, ?_⟩
  · intro i j hi hj
    have hi : i < 2 := hi
    have hj : j < 2 := hj
    interval_cases i <;> interval_cases j <;> decide
  refine ⟨by simp [Spec.Dense.InRange, Spec.Dense.step, Spec.Dense.zero], by simp [Spec.Crosses], by simp, ?_⟩
  refine ⟨by simp [Spec.Dense.InRange, Spec.Dense.step, Spec.Dense.zero], fun _ => by simp [Spec.Usage.step, Spec.Usage.fresh], by simp, ?_⟩
  refine ⟨trivial, by simp [Spec.Crosses], by simp, ?_⟩
  refine ⟨by simp [Spec.Dense.InRange, Spec.Dense.step, Spec.Dense.zero], by simp [Spec.Crosses], by simp, ?_⟩
  exact ⟨by simp [Spec.Dense.InRange, Spec.Dense.step, Spec.Dense.zero], by simp [Spec.Crosses], by simp, trivial⟩

/-- The history of `C57_violated`: two rows with four entries each, two entries created in the first row after `compress`,
and the column of the last one cleared.  The reserved slots hold what was stored there before Eigen moved the second row. -/
def staleHistory : List (MatOp ℤ) :=
  [.add 0 0 1 (fun _ => []), .add 0 1 1 (fun _ => []), .add 0 2 1 (fun _ => []), .add 0 3 1 (fun _ => []),
   .add 1 0 1 (fun _ => []), .add 1 1 1 (fun _ => []), .add 1 2 1 (fun _ => []), .add 1 3 1 (fun _ => []),
   .compress,
   .add 0 4 1 (fun o => if o = 0 then [(1, 1), (2, 1), (3, 1)] else []),
   .add 0 5 1 (fun o => if o = 0 then [(2, 1), (3, 1)] else []),
   .clearCol 5]

/-- C57 (violated): clearing a column of a row-major matrix after entries were created misses an entry: the binary search
also looks at the reserved slots, which are not sorted. -/
theorem C57_violated :
    Spec.Valid (Spec.Dense.zero 2 6 : Spec.Dense ℤ) staleHistory ∧
    (staleHistory.foldl Spec.Dense.step (Spec.Dense.zero 2 6)).val 0 5 = 0 ∧
    (staleHistory.foldl SparseWrapper.step (SparseWrapper.ofDims true 2 6)).compress.element 0 5 = 1 := by
  refine ⟨?_, by decide +kernel, by decide +kernel⟩
  simp only [staleHistory, Spec.Valid]
  refine ⟨?_, ?_, ?_, ?_, ?_, ?_, ?_, ?_, trivial, ?_, ?_, ?_, trivial⟩ <;> simp [Spec.Dense.InRange, Spec.Dense.step, Spec.Dense.zero]

/-- The symmetric flag on a matrix that is not symmetric: clearing row and column 0 misses an entry of the column.  The flag is
a promise of the user, so this is not a violation; it shows the hypothesis of `C57_partial` is needed. -/
theorem C57_flag_matters :
    let ops : List (MatOp ℤ) := [.add 1 0 3 (fun _ => []), .setSymmetric true, .clearRowCol 0]
    (ops.foldl Spec.Dense.step (Spec.Dense.zero 2 2)).val 1 0 = 0 ∧
    (ops.foldl SparseWrapper.step (SparseWrapper.ofDims true 2 2)).compress.element 1 0 = 3 := by
  refine ⟨by decide +kernel, by decide +kernel⟩

theorem DenseWrapper.addBlock_spec (w : DenseWrapper K) (i j N C : ℕ) (m : ℕ → ℕ → K) :
    w.addBlock i j N C m = { w with coeff := fun a b =>
      if i ≤ a ∧ a < i + N ∧ j ≤ b ∧ b < j + C then w.coeff a b + m (a - i) (b - j) else w.coeff a b } := by
  have row : ∀ (w : DenseWrapper K) (k : ℕ) (C : ℕ),
      (List.range C).foldl (fun w l => w.write (i + k) (j + l) (· + m k l)) w =
        ⟨w.rows, w.cols, fun a b => (if a = i + k ∧ j ≤ b ∧ b < j + C then (w.coeff a b + m k (b - j)) else (w.coeff a b))⟩ := by
    intro w k C
    induction C with
    | zero =>
      obtain ⟨r, c, f⟩ := w
      simp only [List.range_zero, List.foldl_nil]
      congr 1
      funext a b
      rw [if_neg (by omega)]
    | succ C ih =>
      rw [List.range_succ, List.foldl_append, ih, List.foldl_cons, List.foldl_nil]
      unfold DenseWrapper.write
      simp only []
      congr 1
      funext a b
      by_cases h : a = i + k ∧ b = j + C
      · rw [if_pos h, if_neg (by omega), if_pos (by omega), show b - j = C by omega]
      · rw [if_neg h]
        exact if_congr (by omega) rfl rfl
  unfold DenseWrapper.addBlock
  induction N with
  | zero =>
    obtain ⟨r, c, f⟩ := w
    simp only [List.range_zero, List.foldl_nil]
    congr 1
    funext a b
    rw [if_neg (by omega)]
  | succ N ih =>
    rw [List.range_succ, List.foldl_append, ih, List.foldl_cons, List.foldl_nil, row]
    simp only []
    congr 1
    funext a b
    by_cases h : a = i + N ∧ j ≤ b ∧ b < j + C
    · rw [if_pos h, if_neg (by omega), if_pos (by omega), show a - i = N by omega]
    · rw [if_neg h]
      exact if_congr (by omega) rfl rfl

/-- C57, dense wrapper: any history of calls with ordered ranges leaves the coefficients of the plain matrix. -/
theorem C57_dense (r c : ℕ) (m : ℕ → ℕ → K) (ops : List (MatOp K)) (h : Spec.Valid ⟨r, c, m⟩ ops) :
    (ops.foldl DenseWrapper.step ⟨r, c, m⟩).rows = (ops.foldl Spec.Dense.step ⟨r, c, m⟩).rows ∧
    (ops.foldl DenseWrapper.step ⟨r, c, m⟩).cols = (ops.foldl Spec.Dense.step ⟨r, c, m⟩).cols ∧
    (ops.foldl DenseWrapper.step ⟨r, c, m⟩).coeff = (ops.foldl Spec.Dense.step ⟨r, c, m⟩).val := by
  induction ops generalizing r c m with
  | nil => exact ⟨rfl, rfl, rfl⟩
  | cons op ops ih =>
    have hstep : DenseWrapper.step ⟨r, c, m⟩ op =
        ⟨(Spec.Dense.step ⟨r, c, m⟩ op).rows, (Spec.Dense.step ⟨r, c, m⟩ op).cols, (Spec.Dense.step ⟨r, c, m⟩ op).val⟩ := by
      have hin := h.1
      cases op with
      | addBlock i j N C m' g => exact DenseWrapper.addBlock_spec _ i j N C m'
      | clearRow i =>
        simp only [DenseWrapper.step, DenseWrapper.zeroRows, Spec.Dense.step]
        congr 1; funext a b; exact if_congr (by omega) rfl rfl
      | clearCol i =>
        simp only [DenseWrapper.step, DenseWrapper.zeroCols, Spec.Dense.step]
        congr 1; funext a b; exact if_congr (by omega) rfl rfl
      | clearRows lo hi =>
        simp only [Spec.Dense.InRange] at hin
        simp only [DenseWrapper.step, DenseWrapper.zeroRows, Spec.Dense.step]
        congr 1; funext a b; exact if_congr (by omega) rfl rfl
      | clearCols lo hi =>
        simp only [Spec.Dense.InRange] at hin
        simp only [DenseWrapper.step, DenseWrapper.zeroCols, Spec.Dense.step]
        congr 1; funext a b; exact if_congr (by omega) rfl rfl
      | clearRowCol i =>
        simp only [DenseWrapper.step, DenseWrapper.zeroRows, DenseWrapper.zeroCols, Spec.Dense.step]
        congr 1; funext a b
        by_cases hb : b = i
        · rw [if_pos (by omega), if_pos (Or.inr hb)]
        · rw [if_neg (by omega)]; exact if_congr (by omega) rfl rfl
      | _ => rfl
    rw [List.foldl_cons, List.foldl_cons, hstep]
    exact ih _ _ _ h.2

/-- Two rows cleared and a block added. -/
example : Spec.Valid (⟨3, 3, fun _ _ => 1⟩ : Spec.Dense ℤ)
    [.clearRows 0 1, .addBlock 1 1 2 2 (fun a b => a + b) (fun _ _ _ => []), .clearRowCol 2] :=
  ⟨by simp [Spec.Dense.InRange, Spec.Dense.step, Spec.Dense.zero], by simp [Spec.Dense.InRange, Spec.Dense.step, Spec.Dense.zero], by simp [Spec.Dense.InRange, Spec.Dense.step, Spec.Dense.zero], trivial⟩

/-- C58 (violated): whatever the matrix given to the constructor, its coefficients are all lost at the first `compress`; the
same happens to all other coefficients at the first `set`, and to those not added when entries are added first. -/
theorem C58_violated (m : SMatrix K) (i j : ℕ) (hi : i < m.rows) (hj : j < m.cols) :
    (SparseWrapper.ofMatrix m).element i j = m.coeff i j ∧
    (SparseWrapper.ofMatrix m).compress.element i j = 0 ∧
    (∀ a b v g, ((SparseWrapper.ofMatrix m).set a b v g).element i j = if i = a ∧ j = b then v else 0) ∧
    (∀ a b v g, (((SparseWrapper.ofMatrix m).add a b v g).compress).element i j = if i = a ∧ j = b then v else 0) := by
  refine ⟨rfl, ?_, fun a b v g => ?_, fun a b v g => ?_⟩
  · show (m.setFromTriplets []).coeff i j = 0
    rw [sft_coeff m [] hi hj]; rfl
  · show ((m.setFromTriplets []).modify a b (fun _ => v) g).coeff i j = _
    rw [modify_coeff]
    refine if_congr Iff.rfl rfl ?_
    rw [sft_coeff m [] hi hj]; rfl
  · show (m.setFromTriplets [(a, b, v)]).coeff i j = _
    rw [sft_coeff m _ hi hj, tripSum_single]

/-- A concrete loss: the coefficient 7 of a wrapped matrix reads 0 after `compress`. -/
example : let m : SMatrix ℤ := ⟨true, 1, 1, fun o => if o = 0 then ⟨[(0, 7)], []⟩ else ⟨[], []⟩⟩
    (SparseWrapper.ofMatrix m).element 0 0 = 7 ∧ (SparseWrapper.ofMatrix m).compress.element 0 0 = 0 := by
  refine ⟨by decide, by decide⟩

/-- C58 (a matrix which is cleared first): clearing a wrapped matrix, or giving it other dimensions, before anything else makes it a new matrix, which any careful history fills as a plain matrix. -/
theorem C58_cleared (m : SMatrix K) (r c : ℕ) (first : MatOp K) (hfirst : first = .resize r c ∨ (first = .clear ∧ r = m.rows ∧ c = m.cols)) (ops : List (MatOp K))
    (h : Spec.Careful m.rowMajor (Spec.Dense.zero r c) Spec.Usage.fresh ops) (i j : ℕ)
    (hi : i < (ops.foldl Spec.Dense.step (Spec.Dense.zero r c : Spec.Dense K)).rows)
    (hj : j < (ops.foldl Spec.Dense.step (Spec.Dense.zero r c : Spec.Dense K)).cols) :
    (ops.foldl SparseWrapper.step ((SparseWrapper.ofMatrix m).step first)).compress.element i j = (ops.foldl Spec.Dense.step (Spec.Dense.zero r c : Spec.Dense K)).val i j := by
  have e : (SparseWrapper.ofMatrix m).step first = SparseWrapper.ofDims m.rowMajor r c := by
    rcases hfirst with rfl | ⟨rfl, rfl, rfl⟩ <;> rfl
  rw [e]
  exact (C57_partial m.rowMajor r c ops h i j hi hj).2.2.1

/-- A wrapped matrix which is cleared and filled by a block. -/
example : Spec.Careful true (Spec.Dense.zero 2 2 : Spec.Dense ℤ) Spec.Usage.fresh [.addBlock 0 0 2 2 (fun a b => a + 2 * b) (fun _ _ _ => []), .clearRowCol 0] := by
  refine ⟨by simp [Spec.Dense.InRange, Spec.Dense.step, Spec.Dense.zero], by simp [Spec.Crosses], by simp, ?_⟩
  exact ⟨by simp [Spec.Dense.InRange, Spec.Dense.step, Spec.Dense.zero], fun _ => by simp [Spec.Usage.step, Spec.Usage.fresh], fun _ _ h => absurd h (by simp [Spec.Usage.step, Spec.Usage.fresh]), trivial⟩

/-- C58 (partial): a wrapped matrix is presented faithfully as long as the wrapper is only read or entries are only added
(these additions are not visible before `compress`).  Missing: the first call to any other method, see `C58_violated`. -/
theorem C58_partial (m : SMatrix K) (adds : List (ℕ × ℕ × K × Garbage K)) (i j : ℕ) :
    (adds.foldl (fun s e => s.add e.1 e.2.1 e.2.2.1 e.2.2.2) (SparseWrapper.ofMatrix m)).element i j = m.coeff i j := by
  have : ∀ s : SparseWrapper K, s.initialized = false →
      (adds.foldl (fun s e => s.add e.1 e.2.1 e.2.2.1 e.2.2.2) s).mat = s.mat := by
    induction adds with
    | nil => intro s _; rfl
    | cons e L ih =>
      intro s hs
      rw [List.foldl_cons]
      have h1 : s.add e.1 e.2.1 e.2.2.1 e.2.2.2 = { s with triplets := s.triplets ++ [(e.1, e.2.1, e.2.2.1)] } := by
        unfold SparseWrapper.add; rw [if_neg (by simp [hs])]
      rw [h1]
      exact ih { s with triplets := s.triplets ++ [(e.1, e.2.1, e.2.2.1)] } hs
  unfold SparseWrapper.element
  rw [this _ rfl]
  rfl

/-- C58, dense wrapper: an existing matrix is presented faithfully, and writing one coefficient keeps the others. -/
theorem C58_dense (r c : ℕ) (m : ℕ → ℕ → K) (a b : ℕ) (v : K) (g : Garbage K) (i j : ℕ) (h : ¬ (i = a ∧ j = b)) :
    (DenseWrapper.step ⟨r, c, m⟩ (.set a b v g)).coeff i j = m i j ∧
    (DenseWrapper.step ⟨r, c, m⟩ (.add a b v g)).coeff i j = m i j ∧
    (DenseWrapper.step ⟨r, c, m⟩ .compress).coeff i j = m i j :=
  ⟨if_neg h, if_neg h, rfl⟩

example : (DenseWrapper.step ⟨2, 2, fun a b => (a : ℤ) + b⟩ (.set 0 0 9 fun _ => [])).coeff 1 1 = 2 := by decide

end Caribou
