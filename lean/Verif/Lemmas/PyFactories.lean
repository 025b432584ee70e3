import Verif.Spec.PyFactories

set_option autoImplicit false
set_option linter.all false

namespace Caribou

theorem bind_points (k e : ℕ) (vs : List (List ℝ)) :
    bindArgs (List.replicate k (.column e)) (vs.map .vector) =
      if vs.length = k ∧ ∀ v ∈ vs, v.length = e then some (vs.map .vector) else none := by
  induction k generalizing vs with
  | zero => cases vs <;> simp [bindArgs]
  | succ k ih =>
    cases vs with
    | nil => simp [bindArgs, List.replicate_succ]
    | cons v vs =>
      by_cases h : v.length = e
      · simp only [List.replicate_succ, List.map_cons, bindArgs, PyParam.convert, h, if_true, ih]
        by_cases h2 : vs.length = k ∧ ∀ v ∈ vs, v.length = e
        · rw [if_pos h2, if_pos]; rfl
          exact ⟨by simp [h2.1], by simpa [h] using h2.2⟩
        · rw [if_neg h2, if_neg]; rfl
          intro h3; apply h2
          exact ⟨by simpa using h3.1, fun w hw => h3.2 w (List.mem_cons_of_mem _ hw)⟩
      · simp [List.replicate_succ, bindArgs, PyParam.convert, h]

theorem bind_points_default (k e : ℕ) (vs : List (List ℝ)) :
    bindArgs (List.replicate k (.column e) ++ [.orderDefault]) (vs.map .vector) =
      if vs.length = k ∧ ∀ v ∈ vs, v.length = e then some (vs.map .vector ++ [.order .linear]) else none := by
  induction k generalizing vs with
  | zero => cases vs <;> simp [bindArgs, PyParam.convert]
  | succ k ih =>
    cases vs with
    | nil => simp [bindArgs, List.replicate_succ]
    | cons v vs =>
      by_cases h : v.length = e
      · simp only [List.replicate_succ, List.map_cons, List.cons_append, bindArgs, PyParam.convert, h, if_true, ih]
        by_cases h2 : vs.length = k ∧ ∀ v ∈ vs, v.length = e
        · rw [if_pos h2, if_pos]; rfl
          exact ⟨by simp [h2.1], by simpa [h] using h2.2⟩
        · rw [if_neg h2, if_neg]; rfl
          intro h3; apply h2
          exact ⟨by simpa using h3.1, fun w hw => h3.2 w (List.mem_cons_of_mem _ hw)⟩
      · simp [List.replicate_succ, bindArgs, PyParam.convert, h]

theorem bind_points_order (k e : ℕ) (vs : List (List ℝ)) (o : Order) :
    bindArgs (List.replicate k (.column e) ++ [.orderDefault]) (vs.map .vector ++ [.order o]) =
      if vs.length = k ∧ ∀ v ∈ vs, v.length = e then some (vs.map .vector ++ [.order o]) else none := by
  induction k generalizing vs with
  | zero => cases vs <;> simp [bindArgs, PyParam.convert]
  | succ k ih =>
    cases vs with
    | nil => simp [bindArgs, List.replicate_succ, PyParam.convert]
    | cons v vs =>
      by_cases h : v.length = e
      · simp only [List.replicate_succ, List.map_cons, List.cons_append, bindArgs, PyParam.convert, h, if_true, ih]
        by_cases h2 : vs.length = k ∧ ∀ v ∈ vs, v.length = e
        · rw [if_pos h2, if_pos]; rfl
          exact ⟨by simp [h2.1], by simpa [h] using h2.2⟩
        · rw [if_neg h2, if_neg]; rfl
          intro h3; apply h2
          exact ⟨by simpa using h3.1, fun w hw => h3.2 w (List.mem_cons_of_mem _ hw)⟩
      · simp [List.replicate_succ, bindArgs, PyParam.convert, h]

theorem bind_points_none (k e : ℕ) (vs : List (List ℝ)) (o : Order) :
    bindArgs (List.replicate k (.column e)) (vs.map .vector ++ [.order o]) = none := by
  induction k generalizing vs with
  | zero => cases vs <;> simp [bindArgs]
  | succ k ih =>
    cases vs with
    | nil => simp [bindArgs, List.replicate_succ, PyParam.convert]
    | cons v vs =>
      simp only [List.replicate_succ, List.map_cons, List.cons_append, bindArgs, PyParam.convert, ih]
      split_ifs <;> rfl

theorem bind_points_table (k e : ℕ) (m : ℕ) (rows : List (List ℝ)) (l : List PyArg) (hm : m ≠ 1) :
    bindArgs (List.replicate (k + 1) (.column e)) (.matrix m rows :: l) = none := by
  simp [List.replicate_succ, bindArgs, PyParam.convert, hm]

theorem bind_points_default_table (k e : ℕ) (m : ℕ) (rows : List (List ℝ)) (l : List PyArg) (hm : m ≠ 1) :
    bindArgs (List.replicate (k + 1) (.column e) ++ [.orderDefault]) (.matrix m rows :: l) = none := by
  simp [List.replicate_succ, bindArgs, PyParam.convert, hm]

theorem argRows_points (vs : List (List ℝ)) (l : List PyArg) : argRows (vs.map .vector ++ l) = vs ++ argRows l := by
  induction vs with
  | nil => rfl
  | cons v vs ih => simp [argRows, ih]

theorem argOrder_points (vs : List (List ℝ)) (l : List PyArg) : argOrder (vs.map .vector ++ l) = argOrder l := by
  induction vs with
  | nil => rfl
  | cons v vs ih => simp [argOrder, ih]

theorem fnRows_getD {n m : ℕ} (g : Fin n → Fin m → ℝ) (i : Fin n) (a : Fin m) : ((fnRows g).getD i []).getD a 0 = g i a := by
  simp [fnRows, List.getD, List.getElem?_ofFn]

theorem rowsFn_fnRows {n m : ℕ} (g : Fin n → Fin m → ℝ) : rowsFn n m (fnRows g) = g := by
  funext i a; exact fnRows_getD g i a

end Caribou
