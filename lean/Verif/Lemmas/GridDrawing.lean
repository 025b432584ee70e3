import Verif.Model.GridDrawing
import Verif.Spec.GridDrawing
import Verif.Props.FictitiousGrid

/-! Helper lemmas for the drawing of the fictitious grid. -/

set_option autoImplicit false
set_option linter.all false

namespace Caribou.FictitiousGrid

open Spec

/-! ### Appending to the vectors -/

section Append

variable {X P : Type*}

/-- The vectors after the elements of `L` were added to the vector of their region. -/
def addTo (keep : X → Bool) (region : X → ℤ) (f : X → List P) (L : List X) (v : List (List P)) : List (List P) :=
  v.mapIdx fun r l => l ++ (L.filter fun x => keep x && decide (region x = r)).flatMap f

variable (keep : X → Bool) (region : X → ℤ) (f : X → List P)

theorem addTo_length (L : List X) (v : List (List P)) : (addTo keep region f L v).length = v.length := by simp [addTo]

theorem addTo_nil (v : List (List P)) : addTo keep region f [] v = v := by
  apply List.ext_getElem?
  intro i
  simp [addTo]

theorem addTo_skip {x : X} (hx : keep x = false) (L : List X) (v : List (List P)) :
    addTo keep region f (x :: L) v = addTo keep region f L v := by
  simp [addTo, List.filter_cons, hx]

theorem addTo_keep {x : X} (hx : keep x = true) (h0 : 0 ≤ region x) (L : List X) (v : List (List P)) :
    addTo keep region f (x :: L) v = addTo keep region f L (v.modify (region x).toNat fun l => l ++ f x) := by
  apply List.ext_getElem?
  intro i
  simp only [addTo, List.getElem?_mapIdx, List.getElem?_modify, List.filter_cons, hx, Bool.true_and, Option.map_map]
  rcases v[i]? with _ | l
  · simp
  · by_cases hi : region x = i
    · have : (region x).toNat = i := by omega
      simp [hi, this]
    · have : (region x).toNat ≠ i := by omega
      simp [hi, this]

theorem addTo_append (L L' : List X) (v : List (List P)) :
    addTo keep region f (L ++ L') v = addTo keep region f L' (addTo keep region f L v) := by
  apply List.ext_getElem?
  intro i
  simp only [addTo, List.getElem?_mapIdx, Option.map_map]
  rcases v[i]? with _ | l
  · simp
  · simp

theorem addTo_map {Y : Type*} (j : Y → X) (L : List Y) (v : List (List P)) :
    addTo keep region f (L.map j) v = addTo (keep ∘ j) (region ∘ j) (f ∘ j) L v := by
  apply List.ext_getElem?
  intro i
  simp only [addTo, List.getElem?_mapIdx]
  rcases v[i]? with _ | l
  · simp
  · simp [List.filter_map, List.flatMap_map, Function.comp_def]

end Append

section Field

variable {D : ℕ} {K : Type*} [Field K]

/-- The points added for a leaf. -/
abbrev cellPoints (scale : K) (e : Box D K) : List (Fin 3 → K) := (List.finRange (2 ^ D)).map (e.drawn scale)

abbrev edgeEnds (scale : K) (e : Box D K) : List (Fin 3 → K) :=
  (cellEdges D).flatMap fun x => [e.drawn scale x.1, e.drawn scale x.2]

theorem drawQueue_spec {α : Type*} (g : Grid D K) (top : ℤ) (scale : K) (region : List (Fin (2 ^ D)) → ℤ) (border : List (Fin (2 ^ D)) → Bool)
    (n : ℕ) : ∀ (fuel : ℕ) (q : List (List (Fin (2 ^ D)) × CellTree D α × Box D K)) (v : DrawVectors K),
    (∀ x ∈ q, x.2.2 = refBox g x.1 top) → v.cells.length = n → v.edges.length = n →
    (∀ x ∈ CellTree.leafQueue fuel (q.map fun x => (x.1, x.2.1)), 0 ≤ region x.1 ∧ region x.1 < n) →
    drawQueue scale region border fuel q v = .ok
      ⟨addTo border region (fun p => cellPoints scale (refBox g p top)) ((CellTree.leafQueue fuel (q.map fun x => (x.1, x.2.1))).map Prod.fst) v.cells,
        addTo border region (fun p => edgeEnds scale (refBox g p top)) ((CellTree.leafQueue fuel (q.map fun x => (x.1, x.2.1))).map Prod.fst) v.edges⟩ := by
  intro fuel
  induction fuel with
  | zero => intro q v _ _ _ _; simp [drawQueue, CellTree.leafQueue, addTo_nil]
  | succ fuel ih =>
    intro q v hq hc he hr
    match q with
    | [] => simp [drawQueue, CellTree.leafQueue, addTo_nil]
    | (path, .node ch, e) :: q =>
      have hm : ((q ++ (List.finRange (2 ^ D)).map fun i => (i :: path, ch i, e.child i)).map fun x => (x.1, x.2.1))
          = (q.map fun x => (x.1, x.2.1)) ++ (List.finRange (2 ^ D)).map fun i => (i :: path, ch i) := by
        simp [Function.comp_def]
      simp only [List.map_cons, CellTree.leafQueue] at hr ⊢
      rw [drawQueue, ← hm]
      refine ih _ v ?_ hc he ?_
      · intro x hx
        rcases List.mem_append.mp hx with h | h
        · exact hq x (by simp [h])
        · obtain ⟨i, _, rfl⟩ := List.mem_map.mp h
          have := hq _ (List.mem_cons_self)
          simp only at this ⊢
          rw [this, refBox]
      · rw [hm]; exact hr
    | (path, .leaf d, e) :: q =>
      simp only [List.map_cons, CellTree.leafQueue] at hr ⊢
      rw [drawQueue]
      have hq' : ∀ x ∈ q, x.2.2 = refBox g x.1 top := fun x hx => hq x (by simp [hx])
      have hr' := fun x hx => hr x (List.mem_cons_of_mem _ hx)
      have h0 := hr (path, d) (List.mem_cons_self)
      have heq := hq (path, .leaf d, e) (List.mem_cons_self)
      simp only at h0 heq
      by_cases hb : border path = true
      · rw [if_pos hb, drawLeaf, if_pos ⟨h0.1, by omega, by omega⟩]
        simp only
        rw [ih q _ hq' (by simp [hc]) (by simp [he]) hr', addTo_keep _ _ _ hb h0.1, addTo_keep _ _ _ hb h0.1, ← heq]
      · rw [if_neg hb, ih q _ hq' hc he hr', addTo_skip _ _ _ (by simpa using hb), addTo_skip _ _ _ (by simpa using hb)]

theorem drawTrees_spec {α : Type*} (g : Grid D K) (cells : ℤ → CellTree D α) (scale : K) (region : CellRef D → ℤ) (border : CellRef D → Bool)
    (n : ℕ) : ∀ (L : List ℕ) (v : DrawVectors K), v.cells.length = n → v.edges.length = n →
    (∀ c ∈ L.flatMap fun i : ℕ => (cells i).leafCells.map fun x => (⟨x.1, (i : ℤ)⟩ : CellRef D), 0 ≤ region c ∧ region c < n) →
    drawTrees g cells scale region border L v = .ok
      ⟨addTo border region (fun c => cellPoints scale (refBox g c.path c.top))
          (L.flatMap fun i : ℕ => (cells i).leafCells.map fun x => (⟨x.1, (i : ℤ)⟩ : CellRef D)) v.cells,
        addTo border region (fun c => edgeEnds scale (refBox g c.path c.top))
          (L.flatMap fun i : ℕ => (cells i).leafCells.map fun x => (⟨x.1, (i : ℤ)⟩ : CellRef D)) v.edges⟩ := by
  intro L
  induction L with
  | nil => intro v _ _ _; simp [drawTrees, addTo_nil]
  | cons i L ih =>
    intro v hc he hr
    rw [drawTrees, drawQueue_spec g i scale _ _ n _ _ v (by simp [refBox]) hc he ?_]
    · simp only
      rw [ih _ (by simp [addTo_length, hc]) (by simp [addTo_length, he]) fun c h => hr c (by
        rw [List.flatMap_cons]; exact List.mem_append_right _ h)]
      simp only [List.flatMap_cons, addTo_append]
      simp only [addTo_map]
      rfl
    · intro x hx
      refine hr ⟨x.1, i⟩ ?_
      rw [List.flatMap_cons]
      exact List.mem_append_left _ (List.mem_map.mpr ⟨x, hx, rfl⟩)

end Field

/-! ### The points of a cell -/

section Points

variable {D : ℕ} {K : Type*} [Field K] [CharZero K]

/-- The signs of the nodes of the code. -/
def nodeSigns : (D : ℕ) → Fin (2 ^ D) → Fin D → ℤ
  | 2 => ![![-1, -1], ![1, -1], ![1, 1], ![-1, 1]]
  | 3 => ![![-1, -1, -1], ![1, -1, -1], ![1, 1, -1], ![-1, 1, -1], ![-1, -1, 1], ![1, -1, 1], ![1, 1, 1], ![-1, 1, 1]]
  | _ => fun _ _ => 0

theorem nodeAt_eq (h : Is23 D) (e : Box D K) (i : Fin (2 ^ D)) (a : Fin D) :
    e.nodeAt i a = e.center a + nodeSigns D i a * (e.size a / 2) := by
  rcases h with rfl | rfl
  · show e.world (quad1.node i) a = _
    unfold Box.world
    congr 1
    congr 1
    fin_cases i <;> fin_cases a <;> simp [quad1, nodeSigns]
  · show e.world (hexa1.node i) a = _
    unfold Box.world
    congr 1
    congr 1
    fin_cases i <;> fin_cases a <;> simp [hexa1, nodeSigns]

theorem point3_eq (h : Is23 D) (p : Fin D → K) : point3 D p = inSpace p := by
  rcases h with rfl | rfl <;> funext a <;> fin_cases a <;> simp [point3, inSpace]

theorem drawn_eq (h : Is23 D) (e : Box D K) (s : K) (i : Fin (2 ^ D)) : e.drawn s i = cornerOf (shrunkBox e s) (nodeSigns D i) := by
  rw [Box.drawn, point3_eq h, cornerOf]
  congr 1
  funext a
  rw [nodeAt_eq h]
  simp only [shrunkBox]
  ring

theorem cellPoints_eq (h : Is23 D) (e : Box D K) (s : K) : cellPoints s e = cornersOf (shrunkBox e s) := by
  have : cornerSigns D = (List.finRange (2 ^ D)).map (nodeSigns D) := by rcases h with rfl | rfl <;> rfl
  rw [cellPoints, cornersOf, this, List.map_map]
  exact List.map_congr_left fun i _ => drawn_eq h e s i

/-- The edges of the code as pairs of signs. -/
def edgeSigns (D : ℕ) : List ((Fin D → ℤ) × (Fin D → ℤ)) := (cellEdges D).map fun x => (nodeSigns D x.1, nodeSigns D x.2)

theorem edgeEnds_eq (h : Is23 D) (e : Box D K) (s : K) : edgeEnds s e = edgePoints (shrunkBox e s) (edgeSigns D) := by
  rw [edgeEnds, edgePoints, edgeSigns, List.flatMap_map]
  simp only [drawn_eq h]

theorem edgeSigns_spec (h : Is23 D) : IsEdgeList (edgeSigns D) := by
  unfold IsEdgeList
  rcases h with rfl | rfl <;> decide +kernel

end Points

end Caribou.FictitiousGrid
