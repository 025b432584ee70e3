import Verif.Spec.FictitiousLife
import Verif.Props.FictitiousOutside
import Verif.Props.FictitiousGauss

/-!
# Lemmas: initialising a fictitious grid again, volume ratios, implicit surfaces
-/

set_option autoImplicit false
set_option linter.all false

namespace Caribou

open Spec FictitiousGrid

/-! ### Reading the triangles -/

/-- The index designates a triangle of the mesh whose nodes exist. -/
def ValidTriangle (S : SurfaceMesh) (m : ℕ) : Prop := ∃ t, S.triangles[m]? = some t ∧ ∀ k, t k < S.positions.length

theorem readsOutside_false {S : SurfaceMesh} (e : Box 3 ℝ) : ∀ (l : List ℕ), (∀ m ∈ l, ValidTriangle S m) → readsOutside S e l = false
  | [], _ => rfl
  | m :: l, h => by
    obtain ⟨t, ht, hk⟩ := h m (by simp)
    have hc : ((List.finRange 3).any fun k => decide (t k ≥ S.positions.length)) = false := by
      rw [List.any_eq_false]
      intro k _
      simpa using hk k
    rw [readsOutside, ht]
    simp only [hc, Bool.false_eq_true, if_false]
    split_ifs
    · rfl
    · exact readsOutside_false e l fun m hm => h m (by simp [hm])

theorem subdivisionReadsOutside_false {S : SurfaceMesh} (l : List ℕ) (h : ∀ m ∈ l, ValidTriangle S m) :
    ∀ (n : ℕ) (e : Box 3 ℝ), subdivisionReadsOutside S l n e = false
  | 0, e => readsOutside_false e l h
  | n + 1, e => by
    rw [subdivisionReadsOutside, readsOutside_false e l h, Bool.false_or]
    split_ifs
    · rw [List.any_eq_false]
      intro i _
      simp [subdivisionReadsOutside_false l h n]
    · rfl

theorem readsOutside_true {S : SurfaceMesh} (e : Box 3 ℝ) : ∀ (l : List ℕ), (∃ m ∈ l, S.triangles[m]? = none) →
    (∀ m ∈ l, ∀ t, S.triangles[m]? = some t → e.hexa.intersectsTriangle (S.corners t) 0 = false) → readsOutside S e l = true
  | [], h, _ => by simp at h
  | m :: l, h, hno => by
    rw [readsOutside]
    rcases ht : S.triangles[m]? with _ | t
    · rfl
    · simp only
      rw [hno m (by simp) t ht]
      simp only [Bool.false_eq_true, if_false]
      split_ifs
      · rfl
      · refine readsOutside_true e l ?_ fun m hm => hno m (by simp [hm])
        obtain ⟨m', hm', hn⟩ := h
        rcases List.mem_cons.mp hm' with rfl | hm'
        · rw [ht] at hn; cases hn
        · exact ⟨m', hm', hn⟩

theorem subdivisionReadsOutside_top {S : SurfaceMesh} {l : List ℕ} {e : Box 3 ℝ} (h : readsOutside S e l = true) (n : ℕ) :
    subdivisionReadsOutside S l n e = true := by
  cases n with
  | zero => exact h
  | succ n => rw [subdivisionReadsOutside, h, Bool.true_or]

/-! ### Indices stored by the first pass -/

theorem tagCell_mem (g : Grid 3 ℝ) (t : Fin 3 → Fin 3 → ℝ) (k : ℕ) (l : List ℤ) : ∀ (s : SurfaceTags) (i : ℤ) (m : ℕ),
    m ∈ (l.foldl (tagCell g t k) s).triangles i → m ∈ s.triangles i ∨ m = k := by
  induction l with
  | nil => intro s i m h; exact .inl h
  | cons a l ih =>
    intro s i m h
    rcases ih _ i m h with h | h
    · unfold tagCell at h
      split_ifs at h
      · rw [add_triangles] at h
        exact h.imp_right fun h => h.1
      · exact .inl h
    · exact .inr h

theorem tagTriangles_mem (g : Grid 3 ℝ) (S : SurfaceMesh) (L : List (Fin 3 → ℕ)) : ∀ (k : ℕ) (s : SurfaceTags) (i : ℤ) (m : ℕ),
    m ∈ (tagTriangles g S L k s).1.triangles i → m ∈ s.triangles i ∨ k ≤ m ∧ m < k + L.length := by
  induction L with
  | nil => intro k s i m h; exact .inl h
  | cons t L ih =>
    intro k s i m h
    rw [tagTriangles] at h
    split_ifs at h with c1 c2
    · exact .inl h
    · rcases ih _ _ i m h with h | ⟨h1, h2⟩
      · exact .inl h
      · exact .inr ⟨by omega, by simp only [List.length_cons]; omega⟩
    · have key : ∀ s', (∀ m, m ∈ s'.triangles i → m ∈ s.triangles i ∨ m = k) → m ∈ (tagTriangles g S L (k + 1) s').1.triangles i →
          m ∈ s.triangles i ∨ k ≤ m ∧ m < k + (t :: L).length := by
        intro s' hs' hm
        rcases ih _ _ i m hm with h | ⟨h1, h2⟩
        · rcases hs' m h with h | h
          · exact .inl h
          · exact .inr ⟨by omega, by simp only [List.length_cons]; omega⟩
        · exact .inr ⟨by omega, by simp only [List.length_cons]; omega⟩
      split at h
      · exact .inl h
      · exact key _ (fun m hm => by rw [add_triangles] at hm; exact hm.imp_right fun h => h.1) h
      · exact key _ (fun m hm => tagCell_mem _ _ _ _ _ _ _ hm) h

/-! ### Trees -/

theorem subdivide_congr {D : ℕ} {K : Type*} [Field K] {f f' : Box D K → CellType × Bool} (n : ℕ) :
    ∀ (e : Box D K) (w : K), (∀ p, f (boxBelow e p) = f' (boxBelow e p)) → subdivide f n e w = subdivide f' n e w := by
  induction n with
  | zero => intro e w h; have := h []; simp only [boxBelow] at this; rw [subdivide, subdivide, this]
  | succ n ih =>
    intro e w h
    have h0 := h []
    simp only [boxBelow] at h0
    rw [subdivide, subdivide, h0]
    split_ifs
    · congr 1
      funext i
      exact ih _ _ fun p => h (i :: p)
    · rfl

theorem retype_self {D : ℕ} {K : Type*} (type : List (Fin (2 ^ D)) → CellType) (t : CellTree D (CellData K)) :
    ∀ acc, (∀ p d, LeafAt t p d → type (p.reverse ++ acc) = d.type) → t.retype type acc = t := by
  induction t with
  | leaf d => intro acc h; have := h [] d (.here d); simp at this; rw [CellTree.retype, this]
  | node ch ih =>
    intro acc h
    rw [CellTree.retype]
    congr 1
    funext i
    refine ih i _ fun p d hp => ?_
    have := h (i :: p) d (.child ch i p d hp)
    simpa using this

/-- After the first pass every step of `create_grid` comes to its end. -/
theorem createGridFrom_ok {g : Grid 3 ℝ} (hg : Proper g) (hf : Fits g.n) (hs : ∀ a, (g.n a : ℤ) < 2 ^ 31) (S : SurfaceMesh) (levels : ℕ)
    (threshold : ℝ) (tags : SurfaceTags) : ∃ r, createGridFrom g S levels threshold tags = .ok r := by
  set cells := subdivideSurface g S levels tags with hcells
  have hcount : 0 ≤ g.numberOfCells := by
    rw [C24_count g hf]; exact Finset.prod_nonneg fun a _ => by positivity
  have hN : (g.numberOfCells.toNat : ℤ) = g.numberOfCells := Int.toNat_of_nonneg hcount
  obtain ⟨s, hrun, htags⟩ := C63_partial g hf hs (fun a => (hg a).1) hg.H_pos cells (leafType cells) _ hN
  have hval := C60_validate (Or.inr rfl) g hf hs (fun a => (hg a).1) (fun a => (hg a).2)
    (fun i => classifySurface S (tags.triangles i)) levels (leafType cells) _ hN s hrun
  have hval' := (validate_retype (fun i path => (tagRegions g ⟨s.regions, leafType cells⟩).type ⟨path, i⟩) cells g
    ⟨s.regions, leafType cells⟩).trans hval
  have e : createGridFrom g S levels threshold tags = (match createRegions (leafType cells) (gridNeighbors g cells) (sides 3)
        (allLeaves cells g.numberOfCells.toNat).length (allLeaves cells g.numberOfCells.toNat) with
      | .ok s =>
        let tagged := tagRegions g ⟨s.regions, leafType cells⟩
        let final : ℤ → CellTree 3 (CellData ℝ) := fun i => (cells i).retype (fun path => tagged.type ⟨path, i⟩) []
        let result : ImmersedGrid := ⟨final, tagged.regions, createSparseGrid g final threshold⟩
        if validateGrid g final tagged.regions then .ok result else .throws result
      | .throws _ => .throws ⟨cells, [], createSparseGrid g cells threshold⟩
      | .hangs => .hangs
      | .undefined => .undefined) := rfl
  rw [e, hrun]
  exact ⟨_, if_pos hval'⟩

theorem createGridFrom_congr {g : Grid 3 ℝ} {S : SurfaceMesh} (levels : ℕ) (threshold : ℝ) {tags tags' : SurfaceTags}
    (h : ∀ i p, classifySurface S (tags.triangles i) (boxBelow (gridBox g i) p) =
      classifySurface S (tags'.triangles i) (boxBelow (gridBox g i) p)) :
    createGridFrom g S levels threshold tags = createGridFrom g S levels threshold tags' := by
  have : subdivideSurface g S levels tags = subdivideSurface g S levels tags' := by
    funext i
    exact subdivide_congr _ _ _ (h i)
  unfold createGridFrom
  rw [this]

/-! ### The first pass of a component -/

theorem firstPass_spec (c : GridComponent) {g : Grid 3 ℝ} (h : Immersible g c.mesh) (i : ℤ) :
    (∀ m, m ∈ (c.firstPass g).triangles i ↔ (0 ≤ i ∧ i < g.numberOfCells) ∧
      ((i < c.trianglesSize ∧ m ∈ c.triangles i) ∨
        ∃ t, c.mesh.triangles[m]? = some t ∧ TriMeets (c.mesh.corners t) (gridBox g i))) ∧
    (c.firstPass g).types i = open Classical in if 0 ≤ i ∧ i < g.numberOfCells then
      (if Meets (meshSurface c.mesh) (gridBox g i) then .boundary else if i < c.typesSize then c.types i else .undef) else .undef := by
  classical
  have hspec := (tagTriangles_spec h.proper h.fits c.mesh c.mesh.triangles h.nodes h.corners 0
    ⟨resized c.typesSize c.types g.numberOfCells .undef, resized c.trianglesSize c.triangles g.numberOfCells [], []⟩).2.2
  by_cases hi : 0 ≤ i ∧ i < g.numberOfCells
  · obtain ⟨h1, h2⟩ := hspec i hi.1 hi.2
    have e1 : (c.firstPass g).triangles i = (tagTriangles g c.mesh c.mesh.triangles 0
      ⟨resized c.typesSize c.types g.numberOfCells .undef, resized c.trianglesSize c.triangles g.numberOfCells [], []⟩).1.triangles i :=
      if_pos hi
    have e2 : (c.firstPass g).types i = (tagTriangles g c.mesh c.mesh.triangles 0
      ⟨resized c.typesSize c.types g.numberOfCells .undef, resized c.trianglesSize c.triangles g.numberOfCells [], []⟩).1.types i :=
      if_pos hi
    constructor
    · intro m
      rw [e1, h1]
      simp only [resized]
      constructor
      · rintro (hm | ⟨j, t, hj, rfl, hm⟩)
        · split_ifs at hm with hc
          · exact ⟨hi, .inl ⟨hc.2.1, hm⟩⟩
          · simp at hm
        · exact ⟨hi, .inr ⟨t, by simpa using hj, hm⟩⟩
      · rintro ⟨_, ⟨hc, hm⟩ | ⟨t, ht, hm⟩⟩
        · exact .inl (by rw [if_pos ⟨hi.1, hc, hi.2⟩]; exact hm)
        · exact .inr ⟨m, t, ht, by omega, hm⟩
    · rw [e2, h2, if_pos hi]
      refine if_congr (meets_iff c.mesh (gridBox g i)).symm rfl ?_
      simp only [resized]
      refine if_congr ⟨fun h => h.2.1, fun h => ⟨hi.1, h, hi.2⟩⟩ rfl rfl
  · have e1 : (c.firstPass g).triangles i = [] := if_neg hi
    have e2 : (c.firstPass g).types i = .undef := if_neg hi
    exact ⟨fun m => by rw [e1]; simp [hi], by rw [e2, if_neg hi]⟩

theorem firstPass_mem (c : GridComponent) (g : Grid 3 ℝ) (i : ℤ) (m : ℕ) (hm : m ∈ (c.firstPass g).triangles i) :
    (0 ≤ i ∧ i < c.trianglesSize ∧ m ∈ c.triangles i) ∨ m < c.mesh.triangles.length := by
  simp only [GridComponent.firstPass, clipped] at hm
  split_ifs at hm with hi
  · rcases tagTriangles_mem _ _ _ _ _ _ _ hm with h | h
    · simp only [resized] at h
      split_ifs at h with hc
      · exact .inl ⟨hc.1, hc.2.1, h⟩
      · simp at h
    · exact .inr (by omega)
  · simp at hm

theorem valid_of_lt {S : SurfaceMesh} (h : ∀ t ∈ S.triangles, ∀ i, t i < S.positions.length) {m : ℕ} (hm : m < S.triangles.length) :
    ValidTriangle S m :=
  ⟨S.triangles[m], List.getElem?_eq_getElem hm, h _ (List.getElem_mem hm)⟩

theorem firstPass_classify (c : GridComponent) {g : Grid 3 ℝ} (h : Immersible g c.mesh) (hv : IndicesFit c) (i : ℤ) (h0 : 0 ≤ i)
    (h1 : i < g.numberOfCells) (p : List (Fin (2 ^ 3))) :
    classifySurface c.mesh ((c.firstPass g).triangles i) (boxBelow (gridBox g i) p) =
      open Classical in if Meets (surfaceOf (c.mesh.triangles.map c.mesh.corners)) (boxBelow (gridBox g i) p) then (.boundary, true)
        else (.undef, false) := by
  classical
  have hmem := (firstPass_spec c h i).1
  unfold classifySurface
  refine if_congr ?_ rfl rfl
  rw [List.any_eq_true, meets_iff]
  constructor
  · rintro ⟨m, hm, hi⟩
    have hlt : m < c.mesh.triangles.length := by
      rcases ((hmem m).mp hm).2 with ⟨hc, hm⟩ | ⟨t, ht, _⟩
      · exact hv i h0 hc m hm
      · exact (List.getElem?_eq_some_iff.mp ht).1
    have e : c.mesh.triangles.getD m 0 = c.mesh.triangles[m] := by simp [List.getD_eq_getElem?_getD, hlt]
    rw [e, hexa_intersects _ (boxBelow_size _ (gridBox_size h.proper i) p)] at hi
    exact ⟨_, List.getElem_mem hlt, hi⟩
  · rintro ⟨t, htm, x, hx, hb⟩
    obtain ⟨j, hj⟩ := List.getElem?_of_mem htm
    refine ⟨j, ?_, ?_⟩
    · rw [hmem]
      exact ⟨⟨h0, h1⟩, .inr ⟨t, hj, x, hx, boxBelow_in _ (gridBox_size h.proper i) p x hb⟩⟩
    · have e : c.mesh.triangles.getD j 0 = t := by simp [List.getD_eq_getElem?_getD, hj]
      rw [e, hexa_intersects _ (boxBelow_size _ (gridBox_size h.proper i) p)]
      exact ⟨x, hx, hb⟩

theorem createGrid_eq (c : GridComponent) (h : ∀ i, ∀ m ∈ (c.firstPass c.gridOfData).triangles i, ValidTriangle c.mesh m)
    {r : ImmersedGrid} (hr : createGridFrom c.gridOfData c.mesh c.levels c.threshold (c.firstPass c.gridOfData) = .ok r) :
    c.createGrid = .ok { c with
      grid := some c.gridOfData, typesSize := c.gridOfData.numberOfCells, types := (c.firstPass c.gridOfData).types,
      trianglesSize := c.gridOfData.numberOfCells, triangles := (c.firstPass c.gridOfData).triangles, result := some r } := by
  have hno : ((indices c.gridOfData.numberOfCells).any fun i => subdivisionReadsOutside c.mesh ((c.firstPass c.gridOfData).triangles i)
      c.levels (gridBox c.gridOfData i)) = false := by
    rw [List.any_eq_false]
    intro i _
    rw [subdivisionReadsOutside_false _ (h i)]
    simp
  unfold GridComponent.createGrid
  simp only [hno, Bool.false_eq_true, if_false, hr]

end Caribou
