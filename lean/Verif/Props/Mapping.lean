import Verif.Model.Mapping
import Verif.Lemmas.EigenMatrix
import Verif.Props.Barycentric
import Verif.Props.Shape

/-!
# Barycentric mapping (C59)
-/

set_option autoImplicit false

namespace Caribou

open BarycentricMapping

variable {K : Type*} [Field K] {m d n : ℕ}

private theorem tripSum_cons (e : ℕ × ℕ × K) (t : List (ℕ × ℕ × K)) (a b : ℕ) :
    tripSum (e :: t) a b = (if a = e.1 ∧ b = e.2.1 then e.2.2 else 0) + tripSum t a b := by
  have := tripSum_append [e] t a b
  rw [List.singleton_append] at this
  rw [this, show ([e] : List (ℕ × ℕ × K)) = [(e.1, e.2.1, e.2.2)] from rfl, tripSum_single]

private theorem tripSum_flatMap_zipIdx {α : Type*} (f : α → ℕ → List (ℕ × ℕ × K)) (hf : ∀ x i e, e ∈ f x i → e.1 = i)
    (l : List α) (s i b : ℕ) :
    tripSum ((l.zipIdx s).flatMap fun p => f p.1 p.2) i b =
      if h : s ≤ i ∧ i - s < l.length then tripSum (f (l[i - s]'h.2) i) i b else 0 := by
  have zero : ∀ x j, j ≠ i → tripSum (f x j) i b = 0 := by
    intro x j hj
    have : ∀ t : List (ℕ × ℕ × K), (∀ e ∈ t, e.1 = j) → tripSum t i b = 0 := by
      intro t
      induction t with
      | nil => intro _; rfl
      | cons e t ih =>
        intro h
        rw [tripSum_cons, ih fun e he => h e (by simp [he]), if_neg, add_zero]
        intro hc
        exact hj ((h e (by simp)).symm.trans hc.1.symm)
    exact this _ (hf x j)
  induction l generalizing s with
  | nil => simp
  | cons x l ih =>
    rw [List.zipIdx_cons, List.flatMap_cons, tripSum_append, ih]
    by_cases hs : i = s
    · subst hs
      rw [dif_neg (by omega), dif_pos (by simp), add_zero]
      simp
    · rw [zero x s fun e => hs e.symm, zero_add]
      by_cases h : s + 1 ≤ i ∧ i - (s + 1) < l.length
      · rw [dif_pos h, dif_pos ⟨by omega, by simp only [List.length_cons]; omega⟩]
        congr 2
        rw [List.getElem_cons, dif_neg (by omega)]
        congr 1
      · rw [dif_neg h, dif_neg]
        simp only [List.length_cons]
        omega

private theorem tripSum_finRange {N : ℕ} (i : ℕ) (idx : Fin n → Fin N) (w : Fin n → K) (b : ℕ) :
    tripSum ((List.finRange n).map fun j => (i, (idx j).val, w j)) i b = ∑ j, if (idx j).val = b then w j else 0 := by
  have : ∀ l : List (Fin n), tripSum (l.map fun j => (i, (idx j).val, w j)) i b =
      (l.map fun j => if (idx j).val = b then w j else 0).sum := by
    intro l
    induction l with
    | nil => rfl
    | cons x l ih =>
      rw [List.map_cons, tripSum_cons, ih, List.map_cons, List.sum_cons]
      congr 1
      exact if_congr ⟨fun h => h.2.symm, fun h => ⟨rfl, h.symm⟩⟩ rfl rfl
  rw [this, ← List.ofFn_eq_map, List.sum_ofFn]

variable [LinearOrder K] [IsStrictOrderedRing K] [FloorRing K]

/-- The mapping matrix after a successful initialisation. -/
private theorem matrix_coeff (rowMajor : Bool) (ops : ElementOps K m d n) (D : MeshDomain K m n) (rest : List (Fin m → K))
    (M M' : BarycentricMapping K d D.numElements) (h : BarycentricMapping.init rowMajor ops D rest M = some M')
    (hn : D.numNodes ≠ 0) (hr : rest.length ≠ 0) (s : MeshDomain.Embedded K d D.numElements) (hs : M'.ready = some s) :
    s.points.length = rest.length ∧ M'.J.rows = rest.length ∧ M'.J.cols = D.numNodes ∧ M'.J.rowMajor = rowMajor ∧
    (∀ o, SortedSlots (M'.J.vec o).used) ∧ M'.J.Compressed ∧
    (∀ (i : ℕ) (hi : i < s.points.length), ∃ e, s.points[i].elementIndex = some e ∧ ∀ b, b < D.numNodes →
      M'.J.coeff i b = ∑ j, if (D.indices e j).val = b then ops.L s.points[i].localCoordinates j else 0) := by
  unfold BarycentricMapping.init at h
  rw [if_neg hn, if_neg hr] at h
  rw [Option.map_eq_some_iff] at h
  obtain ⟨s', hs', h⟩ := h
  obtain ⟨hlen, hpt, hout, -⟩ := (C35_bookkeeping ops D rest).2 s' hs'
  unfold BarycentricMapping.ready at hs
  rw [Option.filter_eq_some_iff] at hs
  obtain ⟨hs1, hs2⟩ := hs
  by_cases ho : s'.outside.isEmpty = true
  · rw [if_pos ho] at h
    subst h
    simp only [Option.some.injEq] at hs1
    subst hs1
    refine ⟨hlen, rfl, rfl, rfl, fun o => sft_sorted _ _ o, fun o => rfl, fun i hi => ?_⟩
    have hi' : i < rest.length := hlen ▸ hi
    have hp : s'.points[i] = D.barycentricPoint ops rest[i] := by
      have := hpt i hi'
      rw [List.getElem?_eq_getElem hi] at this
      simpa using this
    have hsome : s'.points[i].elementIndex ≠ none := by
      intro hc
      have := (hout i).mpr ⟨hi', by rw [← hp]; exact hc⟩
      rw [List.isEmpty_iff.mp ho] at this
      simp at this
    obtain ⟨e, he⟩ := Option.ne_none_iff_exists'.mp hsome
    refine ⟨e, he, fun b hb => ?_⟩
    show ((SMatrix.empty rowMajor rest.length D.numNodes).setFromTriplets (entries ops D s')).coeff i b = _
    rw [sft_coeff _ _ (show i < (SMatrix.empty rowMajor rest.length D.numNodes : SMatrix K).rows from hi') hb]
    unfold entries
    rw [tripSum_flatMap_zipIdx (pointEntries ops D)]
    · rw [dif_pos ⟨Nat.zero_le _, by simpa using hi⟩]
      simp only [Nat.sub_zero, pointEntries, he]
      rw [tripSum_finRange]
    · intro x i e he
      unfold pointEntries at he
      cases hx : x.elementIndex with
      | none => simp [hx] at he
      | some e' =>
        simp only [hx, List.mem_map] at he
        obtain ⟨j, -, rfl⟩ := he
        rfl
  · rw [if_neg ho] at h
    subst h
    simp only [Option.some.injEq] at hs1
    subst hs1
    exact absurd hs2 ho

private theorem sum_spread {N : ℕ} (idx : Fin n → Fin N) (w : Fin n → K) (g : ℕ → K) :
    ∑ b ∈ Finset.range N, (∑ j, if (idx j).val = b then w j else 0) * g b = ∑ j, w j * g (idx j).val := by
  simp only [Finset.sum_mul]
  rw [Finset.sum_comm]
  refine Finset.sum_congr rfl fun j _ => ?_
  rw [Finset.sum_eq_single (idx j).val]
  · rw [if_pos rfl]
  · intro b _ hb
    rw [if_neg fun e => hb e.symm, zero_mul]
  · intro hb
    exact absurd (Finset.mem_range.mpr (idx j).isLt) hb

/-- **C59**, rows: after a successful initialisation for any kind of element whose shape functions sum to one (all of them, see
`C01`), each row of the mapping matrix sums to one. -/
theorem C59_rows (rowMajor : Bool) (T : ElementType) (D : MeshDomain K m T.numNodes) (rest : List (Fin m → K))
    (M M' : BarycentricMapping K T.dim D.numElements)
    (h : BarycentricMapping.init rowMajor (T.ops m) D rest M = some M') (hn : D.numNodes ≠ 0) (hr : rest.length ≠ 0)
    (s : MeshDomain.Embedded K T.dim D.numElements) (hs : M'.ready = some s) (i : ℕ) (hi : i < rest.length) :
    ∑ b ∈ Finset.range D.numNodes, M'.J.coeff i b = 1 := by
  obtain ⟨hl, -, -, -, -, -, hJ⟩ := matrix_coeff rowMajor (T.ops m) D rest M M' h hn hr s hs
  obtain ⟨e, -, hc⟩ := hJ i (hl ▸ hi)
  have : ∑ b ∈ Finset.range D.numNodes, M'.J.coeff i b = ∑ b ∈ Finset.range D.numNodes,
      (∑ j, if (D.indices e j).val = b then (T.ops m).L s.points[i].localCoordinates j else 0) * (1 : K) :=
    Finset.sum_congr rfl fun b hb => by rw [hc b (Finset.mem_range.mp hb), mul_one]
  rw [this, sum_spread (fun j => D.indices e j) _ fun _ => 1]
  simp only [mul_one]
  exact C01_partition_of_unity T _

/-- **C59**, interpolation: `apply` and `applyJ` multiply by the mapping matrix: every row is written. -/
theorem C59_applyJ (rowMajor : Bool) (ops : ElementOps K m d n) (D : MeshDomain K m n) (rest : List (Fin m → K))
    (M M' : BarycentricMapping K d D.numElements) (h : BarycentricMapping.init rowMajor ops D rest M = some M')
    (hn : D.numNodes ≠ 0) (hr : rest.length ≠ 0) (s : MeshDomain.Embedded K d D.numElements) (hs : M'.ready = some s) {k : ℕ}
    (v : ℕ → Fin k → K) :
    applyJ ops D M' (fun x => v x) = (List.range rest.length).map fun i => some fun a =>
      ∑ b ∈ Finset.range D.numNodes, M'.J.coeff i b * v b a := by
  obtain ⟨hl, -, -, -, -, -, hJ⟩ := matrix_coeff rowMajor ops D rest M M' h hn hr s hs
  unfold applyJ
  rw [hs]
  simp only []
  refine List.ext_getElem (by simp [hl]) fun i hi hi' => ?_
  simp only [List.length_map] at hi
  rw [List.getElem_map, List.getElem_map, List.getElem_range]
  obtain ⟨e, he, hc⟩ := hJ i hi
  rw [he]
  simp only [Option.map_some]
  congr 1
  funext a
  have : ∑ b ∈ Finset.range D.numNodes, M'.J.coeff i b * v b a = ∑ b ∈ Finset.range D.numNodes,
      (∑ j, if (D.indices e j).val = b then ops.L s.points[i].localCoordinates j else 0) * v b a :=
    Finset.sum_congr rfl fun b hb => by rw [hc b (Finset.mem_range.mp hb)]
  rw [this, sum_spread (fun j => D.indices e j) _ fun b => v b a]
  exact Finset.sum_congr rfl fun j _ => mul_comm _ _

/-- **C59**, virtual power: the power of the mapped forces on the mapped velocities is the power of the forces that `applyJT`
adds on the parent velocities. -/
theorem C59_power (rowMajor : Bool) (ops : ElementOps K m d n) (D : MeshDomain K m n) (rest : List (Fin m → K))
    (M M' : BarycentricMapping K d D.numElements) (h : BarycentricMapping.init rowMajor ops D rest M = some M')
    (hn : D.numNodes ≠ 0) (hr : rest.length ≠ 0) (s : MeshDomain.Embedded K d D.numElements) (hs : M'.ready = some s) {k : ℕ}
    (v f out : ℕ → Fin k → K) :
    ∃ w : ℕ → Fin k → K, applyJ ops D M' (fun x => v x) = (List.range rest.length).map (fun i => some (w i)) ∧
      ∑ b ∈ Finset.range D.numNodes, ∑ a, (applyJT M' out f b a - out b a) * v b a =
        ∑ i ∈ Finset.range rest.length, ∑ a, f i a * w i a := by
  refine ⟨_, C59_applyJ rowMajor ops D rest M M' h hn hr s hs v, ?_⟩
  obtain ⟨-, hrows, -⟩ := matrix_coeff rowMajor ops D rest M M' h hn hr s hs
  unfold applyJT
  rw [hs]
  simp only [add_sub_cancel_left, hrows]
  calc ∑ b ∈ Finset.range D.numNodes, ∑ a, (∑ i ∈ Finset.range rest.length, M'.J.coeff i b * f i a) * v b a
      = ∑ b ∈ Finset.range D.numNodes, ∑ a, ∑ i ∈ Finset.range rest.length, M'.J.coeff i b * f i a * v b a := by
        simp only [Finset.sum_mul]
    _ = ∑ b ∈ Finset.range D.numNodes, ∑ i ∈ Finset.range rest.length, ∑ a, M'.J.coeff i b * f i a * v b a :=
        Finset.sum_congr rfl fun b _ => Finset.sum_comm
    _ = ∑ i ∈ Finset.range rest.length, ∑ b ∈ Finset.range D.numNodes, ∑ a, M'.J.coeff i b * f i a * v b a := Finset.sum_comm
    _ = ∑ i ∈ Finset.range rest.length, ∑ a, ∑ b ∈ Finset.range D.numNodes, M'.J.coeff i b * f i a * v b a :=
        Finset.sum_congr rfl fun i _ => Finset.sum_comm
    _ = _ := by
        refine Finset.sum_congr rfl fun i _ => Finset.sum_congr rfl fun a _ => ?_
        rw [Finset.mul_sum]
        exact Finset.sum_congr rfl fun b _ => by ring

/-- **C59**, resultant: the total force added to the parent is the total mapped force. -/
theorem C59_resultant (rowMajor : Bool) (T : ElementType) (D : MeshDomain K m T.numNodes) (rest : List (Fin m → K))
    (M M' : BarycentricMapping K T.dim D.numElements)
    (h : BarycentricMapping.init rowMajor (T.ops m) D rest M = some M') (hn : D.numNodes ≠ 0) (hr : rest.length ≠ 0)
    (s : MeshDomain.Embedded K T.dim D.numElements) (hs : M'.ready = some s) {k : ℕ} (out f : ℕ → Fin k → K) (a : Fin k) :
    ∑ b ∈ Finset.range D.numNodes, (applyJT M' out f b a - out b a) = ∑ i ∈ Finset.range rest.length, f i a := by
  obtain ⟨-, hrows, -⟩ := matrix_coeff rowMajor (T.ops m) D rest M M' h hn hr s hs
  unfold applyJT
  rw [hs]
  simp only [add_sub_cancel_left, hrows]
  rw [Finset.sum_comm]
  refine Finset.sum_congr rfl fun i hi => ?_
  rw [← Finset.sum_mul, C59_rows rowMajor T D rest M M' h hn hr s hs i (Finset.mem_range.mp hi), one_mul]

/-- **C59**, rigid and affine motions: moving every parent node by an affine map moves the mapped nodes by the same map. -/
theorem C59_affine (rowMajor : Bool) (T : ElementType) (D : MeshDomain K m T.numNodes) (rest : List (Fin m → K))
    (M M' : BarycentricMapping K T.dim D.numElements)
    (h : BarycentricMapping.init rowMajor (T.ops m) D rest M = some M') (hn : D.numNodes ≠ 0) (hr : rest.length ≠ 0)
    (s : MeshDomain.Embedded K T.dim D.numElements) (hs : M'.ready = some s) {k : ℕ} (x : ℕ → Fin k → K)
    (A : Fin k → Fin k → K) (c : Fin k → K) :
    applyJ (T.ops m) D M' (fun b a => ∑ l, A a l * x b l + c a) =
      (applyJ (T.ops m) D M' fun b => x b).map fun row => row.map fun y a => ∑ l, A a l * y l + c a := by
  rw [C59_applyJ rowMajor (T.ops m) D rest M M' h hn hr s hs x,
    C59_applyJ rowMajor (T.ops m) D rest M M' h hn hr s hs fun b a => ∑ l, A a l * x b l + c a, List.map_map]
  refine List.map_congr_left fun i hi => ?_
  simp only [Function.comp, Option.map_some]
  congr 1
  funext a
  simp only [mul_add, Finset.sum_add_distrib, ← Finset.sum_mul,
    C59_rows rowMajor T D rest M M' h hn hr s hs i (List.mem_range.mp hi), one_mul]
  congr 1
  simp only [Finset.mul_sum]
  rw [Finset.sum_comm]
  exact Finset.sum_congr rfl fun l _ => Finset.sum_congr rfl fun b _ => by ring

private theorem searchValue_eq {l : List (Slot K)} (hs : SortedSlots l) (k : ℕ) : (searchValue l k).getD 0 = slotValue l k := by
  obtain ⟨-, h2, h3, h4⟩ := searchLower_spec hs k l.length 0 l.length (Nat.zero_le _) (le_refl _) (by omega)
  unfold searchValue
  generalize searchLower l k l.length 0 l.length = id at *
  have split : l = l.take id ++ l.drop id := (List.take_append_drop id l).symm
  have hpre : ∀ e ∈ l.take id, e.1 ≠ k := by
    intro e he
    obtain ⟨i, hi, rfl⟩ := List.mem_iff_getElem.mp he
    rw [List.length_take] at hi
    have := h3 i (Nat.zero_le _) (by omega)
    unfold keyAt at this
    rw [List.getElem?_eq_getElem (by omega)] at this
    rw [List.getElem_take]
    simp only [Option.map_some, Option.getD_some] at this
    omega
  have key : slotValue l k = slotValue (l.drop id) k := by
    conv_lhs => rw [split]
    generalize l.drop id = r
    generalize l.take id = p at hpre
    induction p with
    | nil => rfl
    | cons e p ih =>
      rw [List.cons_append, slotValue_cons, if_neg (hpre e (by simp)), ih fun e' he' => hpre e' (by simp [he'])]
  rw [key]
  by_cases hlt : id < l.length
  · rw [List.getElem?_eq_getElem hlt, List.drop_eq_getElem_cons hlt, slotValue_cons]
    simp only [Option.bind_some]
    by_cases he : l[id].1 = k
    · rw [if_pos he, if_pos he]; rfl
    · rw [if_neg he, if_neg he, slotValue_not_mem]
      · rfl
      · intro e he'
        obtain ⟨i, hi, rfl⟩ := List.mem_iff_getElem.mp he'
        rw [List.length_drop] at hi
        rw [List.getElem_drop]
        have a1 := h4 id (le_refl _) hlt
        have a2 := keyAt_mono hs (show id < id + 1 + i by omega) (by omega)
        unfold keyAt at a1 a2
        rw [List.getElem?_eq_getElem hlt] at a1 a2
        rw [List.getElem?_eq_getElem (by omega)] at a2
        simp only [Option.map_some, Option.getD_some] at a1 a2
        omega
  · rw [List.getElem?_eq_none (by omega), List.drop_eq_nil_of_le (by omega)]
    rfl

private theorem foldl_addCol {k : ℕ} {l : List (Slot K)} (hs : SortedSlots l) (v : Fin k → K) (row : ℕ → Fin k → K) (b : ℕ)
    (a : Fin k) :
    l.foldl (fun row s => addCol row s.1 fun a => v a * s.2) row b a = row b a + v a * slotValue l b := by
  induction l generalizing row with
  | nil => simp
  | cons s l ih =>
    have hs' := List.pairwise_cons.mp hs
    rw [List.foldl_cons, ih hs'.2, slotValue_cons]
    unfold addCol
    by_cases hb : b = s.1
    · rw [if_pos hb, if_pos hb.symm, slotValue_not_mem]
      · simp
      · intro t ht e
        have := hs'.1 t ht
        omega
    · rw [if_neg hb, if_neg fun e => hb e.symm]

private theorem foldl_columns {k : ℕ} (x : ℕ → Option K) (v : Fin k → K) (row : ℕ → Fin k → K) (N b : ℕ) (a : Fin k) :
    (List.range N).foldl (fun row j => match x j with
      | none => row
      | some y => addCol row j fun a => v a * y) row b a = row b a + if b < N then v a * (x b).getD 0 else 0 := by
  induction N with
  | zero => simp
  | succ N ih =>
    rw [List.range_succ, List.foldl_append, List.foldl_cons, List.foldl_nil]
    by_cases hb : b = N
    · subst hb
      rw [if_neg (lt_irrefl _), add_zero] at ih
      rw [if_pos (Nat.lt_succ_self _)]
      cases hx : x b with
      | none => simp only []; rw [ih]; simp
      | some y =>
        simp only [addCol]
        rw [if_pos trivial, Pi.add_apply, ih]; simp
    · have e1 : (b < N + 1) ↔ b < N := by omega
      rw [if_congr e1 rfl rfl]
      cases hx : x N with
      | none => exact ih
      | some y =>
        simp only [addCol]
        rw [if_neg hb]
        exact ih

private theorem addEntry_eq {k : ℕ} {J : SMatrix K} (hs : ∀ o, SortedSlots (J.vec o).used) (hc : J.Compressed)
    (row : ℕ → Fin k → K) (i : ℕ) (v : Fin k → K) (b : ℕ) (hb : b < J.cols) (a : Fin k) :
    addEntry J row i v b a = row b a + J.coeff i b * v a := by
  unfold addEntry SMatrix.coeff SMatrix.outer SMatrix.inner
  cases hm : J.rowMajor
  · rw [if_neg (by simp), if_neg (by simp), if_neg (by simp)]
    refine (foldl_columns (fun j => searchValue (J.vec j).slots i) v row J.outerSize b a).trans ?_
    have : J.outerSize = J.cols := by unfold SMatrix.outerSize; rw [hm]; simp
    rw [this, if_pos hb]
    have hsl : (J.vec b).slots = (J.vec b).used := by unfold OuterVec.slots; rw [hc b, List.append_nil]
    rw [hsl, searchValue_eq (hs b)]
    ring
  · rw [if_pos rfl, if_pos rfl, if_pos rfl, foldl_addCol (hs i)]
    ring

/-- **C59**, constraints: whatever the storage order of the mapping matrix, a line of the mapped constraint matrix adds to the
same line of the parent, at each node, the values of its entries multiplied by the coefficients of the mapping matrix: the
constraint lines are mapped by the same transpose as the forces. -/
theorem C59_constraints (rowMajor : Bool) (ops : ElementOps K m d n) (D : MeshDomain K m n) (rest : List (Fin m → K))
    (M M' : BarycentricMapping K d D.numElements) (h : BarycentricMapping.init rowMajor ops D rest M = some M')
    (hn : D.numNodes ≠ 0) (hr : rest.length ≠ 0) (s : MeshDomain.Embedded K d D.numElements) (hs : M'.ready = some s) {k : ℕ}
    (out : ℕ → ℕ → Fin k → K) (lines : List (ℕ × List (ℕ × (Fin k → K)))) (r b : ℕ) (hb : b < D.numNodes) (a : Fin k) :
    applyJTConstraint M' out lines r b a = out r b a +
      ((lines.filter fun l => l.1 = r).map fun l => (l.2.map fun e => M'.J.coeff e.1 b * e.2 a).sum).sum := by
  obtain ⟨-, -, hcols, -, hsort, hcomp, -⟩ := matrix_coeff rowMajor ops D rest M M' h hn hr s hs
  have hb' : b < M'.J.cols := hcols.symm ▸ hb
  have inner : ∀ (l : List (ℕ × (Fin k → K))) (row : ℕ → Fin k → K),
      l.foldl (fun row e => addEntry M'.J row e.1 e.2) row b a = row b a + (l.map fun e => M'.J.coeff e.1 b * e.2 a).sum := by
    intro l
    induction l with
    | nil => intro row; simp
    | cons e l ih =>
      intro row
      rw [List.foldl_cons, ih, addEntry_eq hsort hcomp _ _ _ _ hb', List.map_cons, List.sum_cons, add_assoc]
  unfold applyJTConstraint
  rw [hs]
  simp only []
  induction lines generalizing out with
  | nil => simp
  | cons l lines ih =>
    rw [List.foldl_cons, ih]
    by_cases hl : l.1 = r
    · rw [List.filter_cons_of_pos (by simpa using hl), List.map_cons, List.sum_cons, if_pos hl.symm, inner, add_assoc]
    · rw [List.filter_cons_of_neg (by simpa using hl), if_neg fun e => hl e.symm]

omit [LinearOrder K] [IsStrictOrderedRing K] [FloorRing K] in
/-- Before a successful initialisation, or when a mapped node is outside of the domain, nothing is written. -/
theorem C59_not_ready (ops : ElementOps K m d n) (D : MeshDomain K m n) (M : BarycentricMapping K d D.numElements)
    (h : M.ready = none) {k : ℕ} (v : Fin D.numNodes → Fin k → K) (out f : ℕ → Fin k → K) (out' : ℕ → ℕ → Fin k → K)
    (lines : List (ℕ × List (ℕ × (Fin k → K)))) :
    applyJ ops D M v = [] ∧ applyJT M out f = out ∧ applyJTConstraint M out' lines = out' := by
  unfold applyJ applyJT applyJTConstraint
  rw [h]
  exact ⟨rfl, rfl, rfl⟩

/-- The initialisation of a mapping of one point in one triangle succeeds: the hypotheses of the theorems above can be met. -/
theorem C59_example (rowMajor : Bool) (M : BarycentricMapping ℚ 2 smallTriangle.numElements) :
    ∃ M' s, BarycentricMapping.init rowMajor (ElementType.triangle1.ops 2) smallTriangle
      [![9 / 10000000, 9 / 10000000]] M = some M' ∧ M'.ready = some s ∧ smallTriangle.numNodes ≠ 0 := by
  have hc : smallTriangle.container (ElementType.triangle1.ops 2) [![9 / 10000000, 9 / 10000000]] = some ⟨[⟨some 0, 0⟩], []⟩ := 
    container_single _ _ _ (by decide) _ smallTriangle_located rfl
  have hi := congrArg (Option.map fun s : MeshDomain.Embedded ℚ 2 smallTriangle.numElements =>
    if s.outside.isEmpty then (⟨some s, (SMatrix.empty rowMajor 1 smallTriangle.numNodes).setFromTriplets
      (entries (ElementType.triangle1.ops 2) smallTriangle s)⟩ : BarycentricMapping ℚ 2 smallTriangle.numElements)
    else ⟨some s, M.J⟩) hc
  refine ⟨⟨some ⟨[⟨some 0, 0⟩], []⟩, (SMatrix.empty rowMajor 1 smallTriangle.numNodes).setFromTriplets
    (entries (ElementType.triangle1.ops 2) smallTriangle ⟨[⟨some 0, 0⟩], []⟩)⟩, ⟨[⟨some 0, 0⟩], []⟩, ?_, rfl, by decide⟩
  unfold BarycentricMapping.init
  rw [if_neg (by decide), if_neg (by simp)]
  exact hi

end Caribou
