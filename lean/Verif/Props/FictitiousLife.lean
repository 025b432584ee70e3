import Verif.Lemmas.FictitiousLife
import Verif.Spec.FictitiousLife

/-!
# Initialising a fictitious grid again (C103)
-/

set_option autoImplicit false

namespace Caribou

open Spec FictitiousGrid

/-- What `create_grid` makes of a component, whatever was stored before. -/
theorem createGrid_runs (c : GridComponent) (hg : Proper c.gridOfData) (hf : Fits c.gridOfData.n)
    (hs : ∀ a, (c.gridOfData.n a : ℤ) < 2 ^ 31) (hn : ∀ t ∈ c.mesh.triangles, ∀ i, t i < c.mesh.positions.length) (hv : IndicesFit c) :
    ∃ r, c.createGrid = .ok { c with
        grid := some c.gridOfData, typesSize := c.gridOfData.numberOfCells, types := (c.firstPass c.gridOfData).types,
        trianglesSize := c.gridOfData.numberOfCells, triangles := (c.firstPass c.gridOfData).triangles, result := some r } ∧
      createGridFrom c.gridOfData c.mesh c.levels c.threshold (c.firstPass c.gridOfData) = .ok r := by
  obtain ⟨r, hr⟩ := createGridFrom_ok hg hf hs c.mesh c.levels c.threshold (c.firstPass c.gridOfData)
  refine ⟨r, createGrid_eq c (fun i m hm => valid_of_lt hn ?_) hr, hr⟩
  rcases firstPass_mem c _ i m hm with ⟨h0, h1, h2⟩ | h2
  · exact hv i h0 h1 m h2
  · exact h2

/-- The same when the surface is in the grid. -/
theorem createGrid_life (c : GridComponent) (h : Immersible c.gridOfData c.mesh) (hv : IndicesFit c) :
    ∃ r, c.createGrid = .ok { c with
        grid := some c.gridOfData, typesSize := c.gridOfData.numberOfCells, types := (c.firstPass c.gridOfData).types,
        trianglesSize := c.gridOfData.numberOfCells, triangles := (c.firstPass c.gridOfData).triangles, result := some r } ∧
      createGridFrom c.gridOfData c.mesh c.levels c.threshold (c.firstPass c.gridOfData) = .ok r :=
  createGrid_runs c h.proper h.fits h.small h.nodes hv

theorem unused_fits {c : GridComponent} (h : Unused c) : IndicesFit c := by
  intro i h0 h1
  rw [h.2.2.2] at h1
  omega

/-- **C103, partial** (`create_grid`): in a component where something was computed before, with indices which designate triangles
of the present mesh, the grid, the classified cells, the regions and the sparse grid are those of a component with the same data which
was never initialised.  The stored cell types are those of the present surface and, besides, the old ones. -/
theorem C103_createGrid_partial (c c₀ : GridComponent) (h : Immersible c.gridOfData c.mesh) (hv : IndicesFit c) (hd : SameData c c₀)
    (hu : Unused c₀) : ∃ r r₀, c.createGrid = .ok r ∧ c₀.createGrid = .ok r₀ ∧ SameData c r ∧ SameData r r₀ ∧ r.grid = r₀.grid ∧
      r.result = r₀.result ∧ r.result.isSome ∧ r.typesSize = r₀.typesSize ∧ IndicesFit r ∧
      ∀ i, 0 ≤ i → i < r.typesSize →
        (r₀.types i = .boundary ↔ Meets (meshSurface c.mesh) (gridBox c.gridOfData i)) ∧
        (r₀.types i = .undef ↔ ¬ Meets (meshSurface c.mesh) (gridBox c.gridOfData i)) ∧
        (Meets (meshSurface c.mesh) (gridBox c.gridOfData i) → r.types i = .boundary) ∧
        (¬ Meets (meshSurface c.mesh) (gridBox c.gridOfData i) → r.types i = if i < c.typesSize then c.types i else .undef) := by
  classical
  obtain ⟨d1, d2, d3, d4, d5, d6⟩ := hd
  have hg : c₀.gridOfData = c.gridOfData := by unfold GridComponent.gridOfData; rw [d1, d2, d3]
  have h₀ : Immersible c₀.gridOfData c₀.mesh := by rw [hg, ← d4]; exact h
  obtain ⟨r, e, hr⟩ := createGrid_life c h hv
  obtain ⟨r₀, e₀, hr₀⟩ := createGrid_life c₀ h₀ (unused_fits hu)
  have hres : r = r₀ := by
    rw [hg, ← d4, ← d5, ← d6] at hr₀
    have : createGridFrom c.gridOfData c.mesh c.levels c.threshold (c.firstPass c.gridOfData) =
        createGridFrom c.gridOfData c.mesh c.levels c.threshold (c₀.firstPass c.gridOfData) := by
      refine createGridFrom_congr _ _ fun i p => ?_
      by_cases hi : 0 ≤ i ∧ i < c.gridOfData.numberOfCells
      · rw [firstPass_classify c h hv i hi.1 hi.2]
        have := firstPass_classify c₀ h₀ (unused_fits hu) i hi.1 (by rw [hg]; exact hi.2) p
        rw [hg, ← d4] at this
        rw [this]
      · have e1 : (c.firstPass c.gridOfData).triangles i = [] := if_neg hi
        have e2 : (c₀.firstPass c.gridOfData).triangles i = [] := if_neg hi
        rw [e1, e2]
    rw [hr, hr₀] at this
    cases this
    rfl
  refine ⟨_, _, e, e₀, ⟨rfl, rfl, rfl, rfl, rfl, rfl⟩, ⟨d1, d2, d3, d4, d5, d6⟩, by rw [hg], by simp [hres], rfl, by simp only [hg], ?_, ?_⟩
  · intro i h0 h1 m hm
    rcases firstPass_mem c _ i m hm with ⟨h0, h1, h2⟩ | h2
    · exact hv i h0 h1 m h2
    · exact h2
  · intro i h0 h1
    simp only at h1
    have t := (firstPass_spec c h i).2
    have t₀ := (firstPass_spec c₀ h₀ i).2
    rw [hg, ← d4, hu.2.2.1, if_pos ⟨h0, h1⟩] at t₀
    rw [if_pos ⟨h0, h1⟩] at t
    have hn : ¬ i < 0 := by omega
    rw [if_neg hn] at t₀
    simp only [hg, t, t₀]
    refine ⟨?_, ?_, fun hm => if_pos hm, fun hm => if_neg hm⟩ <;> split_ifs with hm <;> simp [hm]

theorem bounded_sameData {c c₀ : GridComponent} (hd : SameData c c₀) (lowest highest : ℝ) :
    SameData (c.bounded lowest highest) (c₀.bounded lowest highest) := by
  obtain ⟨d1, d2, d3, d4, d5, d6⟩ := hd
  unfold GridComponent.bounded
  rw [← d2, ← d3]
  split_ifs
  · exact ⟨d1, d2, d3, d4, d5, d6⟩
  · exact ⟨d1, by simp only [d4], by simp only [d4], d4, d5, d6⟩

theorem bounded_members (c : GridComponent) (lowest highest : ℝ) :
    (c.bounded lowest highest).mesh = c.mesh ∧ (c.bounded lowest highest).trianglesSize = c.trianglesSize ∧
    (c.bounded lowest highest).triangles = c.triangles ∧ (c.bounded lowest highest).typesSize = c.typesSize ∧
    (c.bounded lowest highest).types = c.types ∧ (c.bounded lowest highest).grid = c.grid ∧
    (c.bounded lowest highest).result = c.result := by
  unfold GridComponent.bounded
  split_ifs <;> exact ⟨rfl, rfl, rfl, rfl, rfl, rfl, rfl⟩

theorem bounded_fits {c : GridComponent} (h : IndicesFit c) (lowest highest : ℝ) : IndicesFit (c.bounded lowest highest) := by
  obtain ⟨h1, h2, h3, -⟩ := bounded_members c lowest highest
  unfold IndicesFit
  rw [h1, h2, h3]
  exact h

theorem bounded_unused {c : GridComponent} (h : Unused c) (lowest highest : ℝ) : Unused (c.bounded lowest highest) := by
  obtain ⟨h1, h2, h3, h4, h5, h6, h7⟩ := bounded_members c lowest highest
  unfold Unused
  rw [h2, h4, h6, h7]
  exact h

/-- **C103, partial** (`init`). -/
theorem C103_partial (lowest highest : ℝ) (c c₀ : GridComponent)
    (h : Immersible (c.bounded lowest highest).gridOfData c.mesh) (hv : IndicesFit c) (hd : SameData c c₀) (hu : Unused c₀) :
    ∃ r r₀, c.init lowest highest = .ok r ∧ c₀.init lowest highest = .ok r₀ ∧ SameData r r₀ ∧ r.grid = r₀.grid ∧
      r.result = r₀.result ∧ r.result.isSome ∧ IndicesFit r ∧
      ∀ i, 0 ≤ i → i < r.typesSize →
        (Meets (meshSurface c.mesh) (gridBox (c.bounded lowest highest).gridOfData i) → r.types i = .boundary ∧ r₀.types i = .boundary) ∧
        (¬ Meets (meshSurface c.mesh) (gridBox (c.bounded lowest highest).gridOfData i) →
          (r.types i = if i < c.typesSize then c.types i else .undef) ∧ r₀.types i = .undef) := by
  obtain ⟨hm, -, -, h4, h5, -⟩ := bounded_members c lowest highest
  obtain ⟨r, r₀, e, e₀, -, h2, h3, h4', h5', -, h6, h7⟩ := C103_createGrid_partial (c.bounded lowest highest) (c₀.bounded lowest highest)
    (by rw [hm]; exact h) (bounded_fits hv _ _) (bounded_sameData hd _ _) (bounded_unused hu _ _)
  refine ⟨r, r₀, e, e₀, h2, h3, h4', h5', h6, fun i h0 h1 => ?_⟩
  obtain ⟨a, b, c', d⟩ := h7 i h0 h1
  rw [hm] at a b c' d
  rw [h4, h5] at d
  exact ⟨fun hm => ⟨c' hm, a.mpr hm⟩, fun hm => ⟨d hm, b.mpr hm⟩⟩

/-! ### Histories -/

theorem createGrid_fits (c r : GridComponent) (hv : IndicesFit c) (h : c.createGrid = .ok r) : r.mesh = c.mesh ∧ IndicesFit r := by
  unfold GridComponent.createGrid at h
  simp only at h
  split_ifs at h
  split at h <;> cases h
  refine ⟨rfl, fun i h0 h1 m hm => ?_⟩
  rcases firstPass_mem c _ i m hm with ⟨h0, h1, h2⟩ | h2
  · exact hv i h0 h1 m h2
  · exact h2

theorem step_fits (lowest highest : ℝ) (c r : GridComponent) (o : GridOp) (l : List GridOp) (hv : IndicesFit c)
    (hg : Growing c.mesh.triangles.length (o :: l)) (h : c.step lowest highest o = .ok r) :
    IndicesFit r ∧ Growing r.mesh.triangles.length l := by
  cases o with
  | setMesh S => cases h; exact ⟨fun i h0 h1 m hm => (hv i h0 h1 m hm).trans_le hg.1, hg.2⟩
  | init =>
    obtain ⟨hm, hf⟩ := createGrid_fits _ r (bounded_fits hv lowest highest) h
    rw [(bounded_members c lowest highest).1] at hm
    exact ⟨hf, by rw [hm]; exact hg⟩
  | createGrid =>
    obtain ⟨hm, hf⟩ := createGrid_fits _ r hv h
    exact ⟨hf, by rw [hm]; exact hg⟩
  | _ => cases h; exact ⟨hv, hg⟩

theorem run_fits (lowest highest : ℝ) (l : List GridOp) : ∀ (c r : GridComponent), IndicesFit c → Growing c.mesh.triangles.length l →
    c.run lowest highest l = .ok r → IndicesFit r := by
  induction l with
  | nil => intro c r hv _ h; cases h; exact hv
  | cons o l ih =>
    intro c r hv hg h
    rw [GridComponent.run] at h
    split at h
    · rename_i c' hs
      obtain ⟨a, b⟩ := step_fits lowest highest c c' o l hv hg hs
      exact ih c' r a b h
    all_goals cases h

/-- **C103, partial** (histories): however a component was used before, `init` and `create_grid` in any order with any data in between,
provided that no mesh had fewer triangles than the one it replaced and that nothing went wrong, initialising it gives the grid, the cells,
the regions and the sparse grid of a new component with its present data. -/
theorem C103_history_partial (lowest highest : ℝ) (start c c₀ : GridComponent) (history : List GridOp) (hs : Unused start)
    (hg : Growing start.mesh.triangles.length history) (hrun : start.run lowest highest history = .ok c)
    (h : Immersible (c.bounded lowest highest).gridOfData c.mesh) (hd : SameData c c₀) (hu : Unused c₀) :
    ∃ r r₀, c.init lowest highest = .ok r ∧ c₀.init lowest highest = .ok r₀ ∧ SameData r r₀ ∧ r.grid = r₀.grid ∧
      r.result = r₀.result ∧ r.result.isSome := by
  obtain ⟨r, r₀, h1, h2, h3, h4, h5, h6, -⟩ := C103_partial lowest highest c c₀ h (run_fits _ _ _ _ _ (unused_fits hs) hg hrun) hd hu
  exact ⟨r, r₀, h1, h2, h3, h4, h5, h6⟩

theorem bounded_bounded (lowest highest : ℝ) (c : GridComponent) :
    (c.bounded lowest highest).bounded lowest highest = c.bounded lowest highest := by
  have h : ((c.bounded lowest highest).min.isSome && (c.bounded lowest highest).max.isSome) = true := by
    unfold GridComponent.bounded
    split_ifs with h
    · exact h
    · rfl
  conv_lhs => rw [GridComponent.bounded]
  rw [if_pos h]

theorem bounded_set (lowest highest : ℝ) (c : GridComponent) (h : c.min.isSome = true ∧ c.max.isSome = true) :
    c.bounded lowest highest = c := by
  rw [GridComponent.bounded, if_pos (by simp [h])]

theorem createGrid_data {c r : GridComponent} (h : c.createGrid = .ok r) :
    SameData c r ∧ r.grid = some c.gridOfData ∧ r.typesSize = c.gridOfData.numberOfCells ∧ r.trianglesSize = c.gridOfData.numberOfCells ∧
    r.types = (c.firstPass c.gridOfData).types ∧ r.triangles = (c.firstPass c.gridOfData).triangles := by
  unfold GridComponent.createGrid at h
  simp only at h
  split_ifs at h
  split at h <;> cases h
  exact ⟨⟨rfl, rfl, rfl, rfl, rfl, rfl⟩, rfl, rfl, rfl, rfl, rfl⟩

theorem init_data {lowest highest : ℝ} {c r : GridComponent} (h : c.init lowest highest = .ok r) :
    SameData (c.bounded lowest highest) r ∧ r.bounded lowest highest = r := by
  have hd := (createGrid_data h).1
  refine ⟨hd, bounded_set _ _ _ ?_⟩
  rw [← hd.2.1, ← hd.2.2.1]
  unfold GridComponent.bounded
  split_ifs with hc
  · simpa using hc
  · exact ⟨rfl, rfl⟩

/-- **C103** (no change): initialising a second time without any change leaves the grid, the result and the cell types as they are. -/
theorem C103_twice (lowest highest : ℝ) (c : GridComponent) (h : Immersible (c.bounded lowest highest).gridOfData c.mesh)
    (hv : IndicesFit c) : ∃ r r', c.init lowest highest = .ok r ∧ r.init lowest highest = .ok r' ∧ SameData r r' ∧ r'.grid = r.grid ∧
      r'.result = r.result ∧ ∀ i, 0 ≤ i → i < r.typesSize → r'.types i = r.types i := by
  classical
  obtain ⟨r, r₀, e, e₀, h2, h3, h4, h5, hf, h6⟩ := C103_partial lowest highest c
    { c with grid := none, result := none, typesSize := 0, trianglesSize := 0 } h hv ⟨rfl, rfl, rfl, rfl, rfl, rfl⟩ ⟨rfl, rfl, rfl, rfl⟩
  obtain ⟨hd, hb⟩ := init_data e
  have hm : r.mesh = c.mesh := by rw [← hd.2.2.2.1, (bounded_members c lowest highest).1]
  have hgd : r.gridOfData = (c.bounded lowest highest).gridOfData := by
    unfold GridComponent.gridOfData; rw [hd.1, hd.2.1, hd.2.2.1]
  obtain ⟨r', r₀', e', e₀', h2', h3', h4', h5', hf', h6'⟩ := C103_partial lowest highest r
    { r with grid := none, result := none, typesSize := 0, trianglesSize := 0 } (by rw [hb, hgd, hm]; exact h) hf
    ⟨rfl, rfl, rfl, rfl, rfl, rfl⟩ ⟨rfl, rfl, rfl, rfl⟩
  obtain ⟨hd', hb'⟩ := init_data e'
  rw [hb] at hd'
  -- the two new components have the same data once the bounds are set
  have hr : r₀.result = r₀'.result ∧ r₀.grid = r₀'.grid := by
    have hx := C103_createGrid_partial (({ r with grid := none, result := none, typesSize := 0, trianglesSize := 0 } : GridComponent).bounded lowest highest)
      (({ c with grid := none, result := none, typesSize := 0, trianglesSize := 0 } : GridComponent).bounded lowest highest)
      (by rw [bounded_set]
          · show Immersible r.gridOfData r.mesh
            rw [hgd, hm]
            exact h
          · rw [← hb]
            unfold GridComponent.bounded
            split_ifs with hc
            · simpa using hc
            · exact ⟨rfl, rfl⟩)
      (bounded_fits (unused_fits ⟨rfl, rfl, rfl, rfl⟩) _ _) ?_ (bounded_unused ⟨rfl, rfl, rfl, rfl⟩ _ _)
    · obtain ⟨a, b, ea, eb, -, -, hg, hr, -⟩ := hx
      rw [show GridComponent.createGrid _ = _ from e₀'] at ea
      rw [show GridComponent.createGrid _ = _ from e₀] at eb
      cases ea
      cases eb
      exact ⟨hr.symm, hg.symm⟩
    · have hx := bounded_sameData (c := { r with grid := none, result := none, typesSize := 0, trianglesSize := 0 }) (c₀ := r)
        ⟨rfl, rfl, rfl, rfl, rfl, rfl⟩ lowest highest
      rw [hb] at hx
      have hy := bounded_sameData (c := c) (c₀ := { c with grid := none, result := none, typesSize := 0, trianglesSize := 0 })
        ⟨rfl, rfl, rfl, rfl, rfl, rfl⟩ lowest highest
      obtain ⟨x1, x2, x3, x4, x5, x6⟩ := hx
      obtain ⟨y1, y2, y3, y4, y5, y6⟩ := hy
      obtain ⟨z1, z2, z3, z4, z5, z6⟩ := hd
      exact ⟨x1.trans (z1.symm.trans y1), x2.trans (z2.symm.trans y2), x3.trans (z3.symm.trans y3), x4.trans (z4.symm.trans y4),
        x5.trans (z5.symm.trans y5), x6.trans (z6.symm.trans y6)⟩
  have hsize : r'.typesSize = r.typesSize := by
    obtain ⟨-, -, s1, -⟩ := createGrid_data e
    obtain ⟨-, -, s2, -⟩ := createGrid_data e'
    rw [s1, s2, hb, hgd]
  refine ⟨r, r', e, e', hd', by rw [h3', h3, hr.2], by rw [h4', h4, hr.1], fun i h0 h1 => ?_⟩
  obtain ⟨a, b⟩ := h6 i h0 h1
  obtain ⟨a', b'⟩ := h6' i h0 (by rw [hsize]; exact h1)
  rw [hb, hgd, hm] at a' b'
  by_cases hM : Meets (meshSurface c.mesh) (gridBox (c.bounded lowest highest).gridOfData i)
  · rw [(a hM).1, (a' hM).1]
  · rw [(b' hM).1, if_pos h1]

theorem lastWritten_cons {α : Type*} (read : GridOp → Option α) (o : GridOp) (l : List GridOp) (before : α) :
    lastWritten read (o :: l) before = lastWritten read l ((read o).getD before) := by
  unfold lastWritten
  cases h : read o with
  | none => simp [List.filterMap_cons, h]
  | some a => cases h' : l.filterMap read <;> simp [List.filterMap_cons, h, h', List.getLast?_cons]

/-- **C103** (the present data): after any history without error, the number of cells, the mesh, the number of levels and the threshold are
those written last, and so are the bounds when both were given at the beginning. -/
theorem C103_data (lowest highest : ℝ) (history : List GridOp) : ∀ (start c : GridComponent),
    start.run lowest highest history = .ok c →
    c.n = lastWritten (fun | .setN n => some n | _ => none) history start.n ∧
    c.mesh = lastWritten (fun | .setMesh S => some S | _ => none) history start.mesh ∧
    c.levels = lastWritten (fun | .setLevels k => some k | _ => none) history start.levels ∧
    c.threshold = lastWritten (fun | .setThreshold t => some t | _ => none) history start.threshold ∧
    (start.min.isSome → start.max.isSome →
      c.min = lastWritten (fun | .setMin p => some (some p) | _ => none) history start.min ∧
      c.max = lastWritten (fun | .setMax p => some (some p) | _ => none) history start.max) := by
  induction history with
  | nil => intro start c h; cases h; exact ⟨rfl, rfl, rfl, rfl, fun _ _ => ⟨rfl, rfl⟩⟩
  | cons o l ih =>
    intro start c h
    rw [GridComponent.run] at h
    split at h
    · rename_i c' hs
      obtain ⟨h1, h2, h3, h4, h5⟩ := ih c' c h
      simp only [lastWritten_cons]
      have hb : (start.bounded lowest highest).n = start.n ∧ (start.bounded lowest highest).levels = start.levels ∧
          (start.bounded lowest highest).threshold = start.threshold := by
        unfold GridComponent.bounded
        split_ifs <;> exact ⟨rfl, rfl, rfl⟩
      have hm := (bounded_members start lowest highest).1
      cases o with
      | init =>
        obtain ⟨d1, d2, d3, d4, d5, d6⟩ := (init_data hs).1
        refine ⟨by rw [h1, ← d1, hb.1]; rfl, by rw [h2, ← d4, hm]; rfl, by rw [h3, ← d5, hb.2.1]; rfl,
          by rw [h4, ← d6, hb.2.2]; rfl, fun e1 e2 => ?_⟩
        rw [bounded_set _ _ _ ⟨e1, e2⟩] at d2 d3
        obtain ⟨a, b⟩ := h5 (by rw [← d2]; exact e1) (by rw [← d3]; exact e2)
        exact ⟨by rw [a, ← d2]; rfl, by rw [b, ← d3]; rfl⟩
      | createGrid =>
        obtain ⟨d1, d2, d3, d4, d5, d6⟩ := (createGrid_data hs).1
        refine ⟨by rw [h1, ← d1]; rfl, by rw [h2, ← d4]; rfl, by rw [h3, ← d5]; rfl, by rw [h4, ← d6]; rfl, fun e1 e2 => ?_⟩
        obtain ⟨a, b⟩ := h5 (by rw [← d2]; exact e1) (by rw [← d3]; exact e2)
        exact ⟨by rw [a, ← d2]; rfl, by rw [b, ← d3]; rfl⟩
      | _ =>
        cases hs
        refine ⟨h1, h2, h3, h4, fun e1 e2 => ?_⟩
        first
          | exact h5 e1 e2
          | exact h5 rfl e2
          | exact h5 e1 rfl
    all_goals cases h

/-! ### Where the property does not hold -/

/-- A component which was never initialised, with the given bounds and mesh. -/
def exampleComponent (lo hi : Option (Fin 3 → ℝ)) (S : SurfaceMesh) : GridComponent :=
  ⟨![4, 4, 4], lo, hi, S, 1, 0, none, 0, fun _ => .undef, 0, fun _ => [], none⟩

theorem exampleComponent_unused (lo hi : Option (Fin 3 → ℝ)) (S : SurfaceMesh) : Unused (exampleComponent lo hi S) :=
  ⟨rfl, rfl, rfl, rfl⟩

/-- A tetrahedron in the first cell. -/
noncomputable def smallSurface : SurfaceMesh :=
  ⟨[![1/4, 1/4, 1/4], ![1/2, 1/4, 1/4], ![1/4, 1/2, 1/4], ![1/4, 1/4, 1/2]], [![1, 2, 3], ![0, 3, 2], ![0, 1, 3], ![0, 2, 1]]⟩

/-- One triangle in the first cell. -/
noncomputable def oneTriangle : SurfaceMesh := ⟨[![1/4, 1/4, 1/4], ![1/2, 1/4, 1/4], ![1/4, 1/2, 1/4]], [![0, 1, 2]]⟩

theorem exampleComponent_grid (S : SurfaceMesh) : (exampleComponent (some 0) (some ![3, 3, 3]) S).gridOfData = exampleSurfaceGrid := by
  unfold GridComponent.gridOfData gridOfCorners exampleSurfaceGrid exampleComponent
  congr 1 <;> funext a <;> fin_cases a <;> norm_num

theorem immersible_of {S : SurfaceMesh} (h1 : ∀ t ∈ S.triangles, ∀ i, t i < S.positions.length)
    (h2 : ∀ p ∈ S.positions, InGrid exampleSurfaceGrid.anchor exampleSurfaceGrid.size p) : Immersible exampleSurfaceGrid S :=
  ⟨exampleSurface_immersible.proper, exampleSurface_immersible.fits, exampleSurface_immersible.small, h1, h2⟩

theorem smallSurface_immersible : Immersible exampleSurfaceGrid smallSurface := by
  refine immersible_of (by decide) ?_
  intro p hp a
  simp only [smallSurface, List.mem_cons, List.not_mem_nil, or_false] at hp
  rcases hp with rfl | rfl | rfl | rfl <;> fin_cases a <;> norm_num [exampleSurfaceGrid]

theorem oneTriangle_immersible : Immersible exampleSurfaceGrid oneTriangle := by
  refine immersible_of (by decide) ?_
  intro p hp a
  simp only [oneTriangle, List.mem_cons, List.not_mem_nil, or_false] at hp
  rcases hp with rfl | rfl | rfl <;> fin_cases a <;> norm_num [exampleSurfaceGrid]

theorem example_box13 (x : Fin 3 → ℝ) : InCellBox (gridBox exampleSurfaceGrid 13) x ↔ ∀ a, 1 ≤ x a ∧ x a ≤ 2 := by
  have hc : exampleSurfaceGrid.cellCoordinatesAt 13 = ![1, 1, 1] := by decide
  rw [inCellBox_gridBox, hc]
  unfold InCell InClosedBox
  refine forall_congr' fun a => ?_
  fin_cases a <;> norm_num [gridPoint, exampleSurfaceGrid, Grid.H]

theorem meets_small (x : Fin 3 → ℝ) (h : x ∈ meshSurface smallSurface) : ∀ a, x a ≤ 1 / 2 := by
  obtain ⟨t, ht, u, v, w, hu, hv, hw, hs, hx⟩ := h
  intro a
  rw [hx a]
  have key : ∀ i, t i a ≤ 1 / 2 := by
    simp only [smallSurface, List.map_cons, List.map_nil, List.mem_cons, List.not_mem_nil, or_false] at ht
    intro i
    rcases ht with rfl | rfl | rfl | rfl <;> fin_cases i <;> fin_cases a <;> norm_num [SurfaceMesh.corners]
  nlinarith [mul_le_mul_of_nonneg_left (key 0) hu, mul_le_mul_of_nonneg_left (key 1) hv, mul_le_mul_of_nonneg_left (key 2) hw]

theorem example_meets : Meets (meshSurface exampleSurface) (gridBox exampleSurfaceGrid 13) :=
  ⟨![1, 1, 1], ⟨exampleSurface.corners ![0, 3, 2], by simp [exampleSurface], 1, 0, 0, by norm_num, by norm_num, by norm_num, by norm_num,
    fun j => by fin_cases j <;> simp [exampleSurface, SurfaceMesh.corners]⟩, (example_box13 _).mpr fun a => by
      fin_cases a <;> norm_num⟩

theorem example_mid (types : ℤ → CellType) : getTypeAt exampleSurfaceGrid types ![3/2, 3/2, 3/2] = .ok (types 13) := by
  have hi : exampleSurfaceGrid.cellIndexAt ![1, 1, 1] = 13 := by decide
  rw [← hi]
  refine ((C66_partial (.inr (.inr rfl)) exampleSurfaceGrid exampleSurface_immersible.proper exampleSurface_immersible.fits types
    ![3/2, 3/2, 3/2]).1 (by intro a; fin_cases a <;> norm_num [exampleSurfaceGrid])).1 ![1, 1, 1] ⟨by decide, ?_⟩ ?_
  · intro a; fin_cases a <;> norm_num [exampleSurfaceGrid, Grid.H, gridEps]
  · rintro c' ⟨-, hc⟩
    funext a
    have h := hc a
    have h1 : (c' a : ℝ) < 7 / 4 := by
      fin_cases a <;> norm_num [exampleSurfaceGrid, Grid.H, gridEps] at h ⊢ <;> linarith [h.1, h.2]
    have h2 : (1 / 4 : ℝ) < c' a := by
      fin_cases a <;> norm_num [exampleSurfaceGrid, Grid.H, gridEps] at h ⊢ <;> linarith [h.1, h.2]
    have h1' : c' a < 2 := by exact_mod_cast h1.trans (by norm_num : (7 / 4 : ℝ) < 2)
    have h2' : 0 < c' a := by exact_mod_cast (by norm_num : (0 : ℝ) < 1 / 4).trans h2
    have h3 : c' a = 1 := by omega
    rw [h3]
    fin_cases a <;> rfl

/-- **C103 is violated** for the stored cell types: with bounds given once and for all, a first mesh and then another with as many
triangles, the cell in the middle of the grid keeps the type `Boundary` which it had for the first mesh.  Hence `get_type_at` says that
the middle of the grid is on the boundary of the second object, while for a new component with the same data it does not. -/
theorem C103_types_violated (lowest highest : ℝ) : ∃ r r₀,
    (exampleComponent (some 0) (some ![3, 3, 3]) exampleSurface).run lowest highest [.init, .setMesh smallSurface, .init] = .ok r ∧
    (exampleComponent (some 0) (some ![3, 3, 3]) smallSurface).run lowest highest [.init] = .ok r₀ ∧
    r.grid = r₀.grid ∧ r.result = r₀.result ∧ SameData r r₀ ∧
    getTypeAt exampleSurfaceGrid r.types ![3/2, 3/2, 3/2] = .ok .boundary ∧
    getTypeAt exampleSurfaceGrid r₀.types ![3/2, 3/2, 3/2] = .ok .undef := by
  have hgr : ∀ S, (exampleComponent (some 0) (some ![3, 3, 3]) S).gridOfData = exampleSurfaceGrid := exampleComponent_grid
  have hb : ∀ S, (exampleComponent (some 0) (some ![3, 3, 3]) S).bounded lowest highest = exampleComponent (some 0) (some ![3, 3, 3]) S :=
    fun S => bounded_set _ _ _ ⟨rfl, rfl⟩
  obtain ⟨r₁, _, e₁, -, -, -, -, -, f₁, t₁⟩ := C103_partial lowest highest (exampleComponent (some 0) (some ![3, 3, 3]) exampleSurface) _
    (by rw [hb, hgr]; exact exampleSurface_immersible) (unused_fits (exampleComponent_unused _ _ _)) ⟨rfl, rfl, rfl, rfl, rfl, rfl⟩
    (exampleComponent_unused (some 0) (some ![3, 3, 3]) exampleSurface)
  have hd := (init_data e₁).1
  rw [hb] at hd
  have hsize : r₁.typesSize = 27 := by
    rw [(createGrid_data e₁).2.2.1, hb, hgr]; decide
  have hm1 := (t₁ 13 (by norm_num) (by rw [hsize]; norm_num)).1 (by rw [hb, hgr]; exact example_meets)
  have hd2 : SameData { r₁ with mesh := smallSurface } (exampleComponent (some 0) (some ![3, 3, 3]) smallSurface) :=
    ⟨hd.1.symm, hd.2.1.symm, hd.2.2.1.symm, rfl, hd.2.2.2.2.1.symm, hd.2.2.2.2.2.symm⟩
  have hb2 : ({ r₁ with mesh := smallSurface } : GridComponent).bounded lowest highest = { r₁ with mesh := smallSurface } :=
    bounded_set _ _ _ ⟨by rw [hd2.2.1]; rfl, by rw [hd2.2.2.1]; rfl⟩
  have hgr2 : ({ r₁ with mesh := smallSurface } : GridComponent).gridOfData = exampleSurfaceGrid := by
    rw [← hgr smallSurface]
    unfold GridComponent.gridOfData
    rw [hd2.1, hd2.2.1, hd2.2.2.1]
  have hno : ¬ Meets (meshSurface smallSurface) (gridBox exampleSurfaceGrid 13) := by
    rintro ⟨x, hx, hbx⟩
    have h1 := meets_small x hx 0
    have h2 := ((example_box13 x).mp hbx 0).1
    linarith
  obtain ⟨r, r₀, e, e₀, h1, h2, h3, h4, f, t⟩ := C103_partial lowest highest { r₁ with mesh := smallSurface }
    (exampleComponent (some 0) (some ![3, 3, 3]) smallSurface) (by rw [hb2, hgr2]; exact smallSurface_immersible)
    (fun i h0 h1 m hm => by
      have := f₁ i h0 h1 m hm
      rw [← hd.2.2.2.1] at this
      exact this) hd2 (exampleComponent_unused _ _ _)
  have hsize2 : r.typesSize = 27 := by
    rw [(createGrid_data e).2.2.1, hb2, hgr2]; decide
  have hm2 := (t 13 (by norm_num) (by rw [hsize2]; norm_num)).2 (by rw [hb2, hgr2]; exact hno)
  refine ⟨r, r₀, ?_, ?_, h2, h3, h1, ?_, ?_⟩
  · simp only [GridComponent.run, GridComponent.step, e₁, e]
  · simp only [GridComponent.run, GridComponent.step, e₀]
  · rw [example_mid, hm2.1]
    simp only [hsize, hm1.1]
    norm_num
  · rw [example_mid, hm2.2]

/-- **C103 is violated** by a mesh with fewer triangles than the one before: the triangles stored in the middle cell do not exist any
more, and the second initialisation reads outside of the vector of triangles.  A new component with the same data works. -/
theorem C103_fewer_violated (lowest highest : ℝ) :
    (exampleComponent (some 0) (some ![3, 3, 3]) exampleSurface).run lowest highest [.init, .setMesh oneTriangle, .init] = .undefined ∧
    ∃ r₀, (exampleComponent (some 0) (some ![3, 3, 3]) oneTriangle).run lowest highest [.init] = .ok r₀ := by
  have hgr : ∀ S, (exampleComponent (some 0) (some ![3, 3, 3]) S).gridOfData = exampleSurfaceGrid := exampleComponent_grid
  have hb : ∀ S, (exampleComponent (some 0) (some ![3, 3, 3]) S).bounded lowest highest = exampleComponent (some 0) (some ![3, 3, 3]) S :=
    fun S => bounded_set _ _ _ ⟨rfl, rfl⟩
  constructor
  · obtain ⟨r₁, _, e₁, -⟩ := C103_partial lowest highest (exampleComponent (some 0) (some ![3, 3, 3]) exampleSurface) _
      (by rw [hb, hgr]; exact exampleSurface_immersible) (unused_fits (exampleComponent_unused _ _ _)) ⟨rfl, rfl, rfl, rfl, rfl, rfl⟩
      (exampleComponent_unused (some 0) (some ![3, 3, 3]) exampleSurface)
    have hd := (init_data e₁).1
    rw [hb] at hd
    obtain ⟨-, -, -, hsize, -, htri⟩ := createGrid_data e₁
    rw [hb, hgr] at hsize htri
    have hcount : exampleSurfaceGrid.numberOfCells = 27 := by decide
    have hmem : 1 ∈ r₁.triangles 13 := by
      rw [htri]
      refine ((firstPass_spec _ (g := exampleSurfaceGrid) exampleSurface_immersible 13).1 1).mpr ⟨⟨by norm_num, by rw [hcount]; norm_num⟩,
        .inr ⟨![0, 3, 2], rfl, ![1, 1, 1], ⟨1, 0, 0, by norm_num, by norm_num, by norm_num, by norm_num, fun j => ?_⟩, ?_⟩⟩
      · fin_cases j <;> simp [exampleComponent, exampleSurface, SurfaceMesh.corners]
      · exact (example_box13 _).mpr fun a => by fin_cases a <;> norm_num
    set c : GridComponent := { r₁ with mesh := oneTriangle } with hc
    have hd2 : SameData c (exampleComponent (some 0) (some ![3, 3, 3]) oneTriangle) :=
      ⟨hd.1.symm, hd.2.1.symm, hd.2.2.1.symm, rfl, hd.2.2.2.2.1.symm, hd.2.2.2.2.2.symm⟩
    have hb2 : c.bounded lowest highest = c := bounded_set _ _ _ ⟨by rw [hd2.2.1]; rfl, by rw [hd2.2.2.1]; rfl⟩
    have hgr2 : c.gridOfData = exampleSurfaceGrid := by
      rw [← hgr oneTriangle]
      unfold GridComponent.gridOfData
      rw [hd2.1, hd2.2.1, hd2.2.2.1]
    have hmem2 : 1 ∈ (c.firstPass exampleSurfaceGrid).triangles 13 := by
      refine ((firstPass_spec c (g := exampleSurfaceGrid) oneTriangle_immersible 13).1 1).mpr ⟨⟨by norm_num, by rw [hcount]; norm_num⟩,
        .inl ⟨?_, hmem⟩⟩
      show 13 < r₁.trianglesSize
      rw [hsize, hcount]
      norm_num
    have hread : readsOutside oneTriangle (gridBox exampleSurfaceGrid 13) ((c.firstPass exampleSurfaceGrid).triangles 13) = true := by
      refine readsOutside_true _ _ ⟨1, hmem2, rfl⟩ fun m _ t ht => ?_
      rw [Bool.eq_false_iff]
      intro hi
      rw [hexa_intersects _ (gridBox_size exampleSurface_immersible.proper 13)] at hi
      obtain ⟨x, ⟨u, v, w, hu, hv, hw, hs, hx⟩, hbx⟩ := hi
      have h2 := ((example_box13 x).mp hbx 0).1
      have htm : t = ![0, 1, 2] := by
        have := List.mem_of_getElem? ht
        simpa [oneTriangle] using this
      subst htm
      have := hx 0
      simp [SurfaceMesh.corners, oneTriangle] at this
      linarith
    have hund : c.createGrid = .undefined := by
      unfold GridComponent.createGrid
      simp only [hgr2]
      rw [if_pos]
      rw [List.any_eq_true]
      exact ⟨13, (mem_indices _ _).mpr ⟨by norm_num, by rw [hcount]; norm_num⟩, subdivisionReadsOutside_top hread _⟩
    simp only [GridComponent.run, GridComponent.step, e₁]
    rw [← hc, GridComponent.init, hb2, hund]
  · obtain ⟨r₁, _, e₁, -⟩ := C103_partial lowest highest (exampleComponent (some 0) (some ![3, 3, 3]) oneTriangle) _
      (by rw [hb, hgr]; exact oneTriangle_immersible) (unused_fits (exampleComponent_unused _ _ _)) ⟨rfl, rfl, rfl, rfl, rfl, rfl⟩
      (exampleComponent_unused (some 0) (some ![3, 3, 3]) oneTriangle)
    exact ⟨r₁, by simp only [GridComponent.run, GridComponent.step, e₁]⟩

/-! ### Bounds -/

/-- **C103 is violated** for the default bounds: they are computed at the first initialisation and kept afterwards.  Whatever mesh is set
in between, the grid of the second initialisation is the grid of the first one. -/
theorem C103_bounds_kept (lowest highest : ℝ) (c r r' : GridComponent) (S : SurfaceMesh)
    (h : c.run lowest highest [.init] = .ok r) (h' : c.run lowest highest [.init, .setMesh S, .init] = .ok r') :
    r'.min = r.min ∧ r'.max = r.max ∧ r'.grid = r.grid ∧ r'.mesh = S := by
  rcases e : c.init lowest highest with x | x | _ | _ <;> simp only [GridComponent.run, GridComponent.step, e] at h h' <;> cases h
  have hb := (init_data e).2
  have hset : r.min.isSome = true ∧ r.max.isSome = true := by
    rw [← hb]
    unfold GridComponent.bounded
    split_ifs with hc
    · simpa using hc
    · exact ⟨rfl, rfl⟩
  rcases e' : ({ r with mesh := S } : GridComponent).init lowest highest with y | y | _ | _ <;> simp only [e'] at h' <;> cases h'
  have hb' : ({ r with mesh := S } : GridComponent).bounded lowest highest = { r with mesh := S } := bounded_set _ _ _ hset
  obtain ⟨hd, hg, -⟩ := createGrid_data e'
  obtain ⟨hd0, hg0, -⟩ := createGrid_data e
  rw [hb'] at hd hg
  refine ⟨hd.2.1.symm, hd.2.2.1.symm, ?_, hd.2.2.2.1.symm⟩
  rw [hg, hg0]
  unfold GridComponent.gridOfData
  rw [hd0.1, hd0.2.1, hd0.2.2.1]

theorem exampleSurface_bounds {lowest highest : ℝ} (hl : lowest ≤ 1) (hh : 2 ≤ highest) (a : Fin 3) :
    surfaceBounds lowest highest exampleSurface.positions a = (1, 2) := by
  have h1 : (1 : ℝ) < highest := by linarith
  have h2 : lowest < 2 := by linarith
  have h3 : ¬ (highest < 1) := by linarith
  have h4 : lowest < 1 ∨ lowest = 1 := lt_or_eq_of_le hl
  fin_cases a <;> rcases h4 with h4 | rfl <;> norm_num [surfaceBounds, exampleSurface, *]

/-- The tetrahedron of the example, ten units further. -/
def movedSurface : SurfaceMesh :=
  ⟨[![11, 11, 11], ![12, 11, 11], ![11, 12, 11], ![11, 11, 12]], [![1, 2, 3], ![0, 3, 2], ![0, 1, 3], ![0, 2, 1]]⟩

theorem exampleSurface_box {lowest highest : ℝ} (hl : lowest ≤ 1) (hh : 2 ≤ highest) (lo hi : Option (Fin 3 → ℝ))
    (hno : lo = none ∨ hi = none) :
    (exampleComponent lo hi exampleSurface).bounded lowest highest =
      exampleComponent (some fun _ => 1) (some fun _ => 2) exampleSurface := by
  rw [GridComponent.bounded, if_neg (by rcases hno with rfl | rfl <;> simp [exampleComponent])]
  have e : ∀ a, surfaceBounds lowest highest (exampleComponent lo hi exampleSurface).mesh.positions a = (1, 2) :=
    exampleSurface_bounds hl hh
  simp only [e]
  rfl

theorem exampleBox_grid (S : SurfaceMesh) : (exampleComponent (some fun _ => 1) (some fun _ => 2) S).gridOfData =
    ⟨fun _ => 1, ![3, 3, 3], fun _ => 1⟩ := by
  unfold GridComponent.gridOfData gridOfCorners exampleComponent
  congr 1 <;> funext a <;> fin_cases a <;> norm_num

theorem exampleBox_immersible : Immersible ⟨fun _ => 1, ![3, 3, 3], fun _ => 1⟩ exampleSurface := by
  refine ⟨?_, by unfold Fits; decide, by decide, by decide, ?_⟩
  · intro a; fin_cases a <;> norm_num
  · intro p hp a
    simp only [exampleSurface, List.mem_cons, List.not_mem_nil, or_false] at hp
    rcases hp with rfl | rfl | rfl | rfl <;> fin_cases a <;> norm_num

/-- **C103 is violated** by a surface which moves: the grid of the second initialisation contains no point of it, although no bounds were
given; the grid of a new component contains them all (`C91_bounds`). -/
theorem C103_bounds_violated (lowest highest : ℝ) (hl : lowest ≤ 1) (hh : 12 ≤ highest) : ∃ r r₀ g g₀,
    (exampleComponent none none exampleSurface).run lowest highest [.init, .setMesh movedSurface, .init] = .ok r ∧
    (exampleComponent none none movedSurface).run lowest highest [.init] = .ok r₀ ∧ r.grid = some g ∧ r₀.grid = some g₀ ∧
    (∀ p ∈ r.mesh.positions, ¬ InGrid g.anchor g.size p) ∧
    r₀.mesh = r.mesh ∧ ∀ p ∈ r₀.mesh.positions, InGrid g₀.anchor g₀.size p := by
  have hb := exampleSurface_box hl (by linarith : 2 ≤ highest) none none (.inl rfl)
  obtain ⟨r₁, e⟩ : ∃ r₁, (exampleComponent (some fun _ => 1) (some fun _ => 2) exampleSurface).createGrid = .ok r₁ := by
    obtain ⟨x, e, -⟩ := createGrid_life (exampleComponent (some fun _ => 1) (some fun _ => 2) exampleSurface)
      (by rw [exampleBox_grid]; exact exampleBox_immersible) (unused_fits (exampleComponent_unused _ _ _))
    exact ⟨_, e⟩
  obtain ⟨d1, d2, d3, d4, d5, d6⟩ := (createGrid_data e).1
  have hfit := (createGrid_fits _ r₁ (unused_fits (exampleComponent_unused _ _ _)) e).2
  have hgr : ({ r₁ with mesh := movedSurface } : GridComponent).gridOfData = ⟨fun _ => 1, ![3, 3, 3], fun _ => 1⟩ := by
    rw [← exampleBox_grid exampleSurface]
    unfold GridComponent.gridOfData
    simp only [d1, d2, d3]
  have hm : ∀ t ∈ movedSurface.triangles, ∀ i, t i < movedSurface.positions.length := by decide
  obtain ⟨r, e'⟩ : ∃ r, ({ r₁ with mesh := movedSurface } : GridComponent).createGrid = .ok r := by
    obtain ⟨y, e', -⟩ := createGrid_runs ({ r₁ with mesh := movedSurface } : GridComponent)
      (by rw [hgr]; exact exampleBox_immersible.proper) (by rw [hgr]; exact exampleBox_immersible.fits)
      (by rw [hgr]; exact exampleBox_immersible.small) hm
      (fun i h0 h1 m hm => by have := hfit i h0 h1 m hm; rw [← d4] at this; exact this)
    exact ⟨_, e'⟩
  have hb' : ({ r₁ with mesh := movedSurface } : GridComponent).bounded lowest highest = { r₁ with mesh := movedSurface } :=
    bounded_set _ _ _ ⟨by rw [← d2]; rfl, by rw [← d3]; rfl⟩
  have hmoved : ∀ a, surfaceBounds lowest highest movedSurface.positions a = (11, 12) := by
    intro a
    have h1 : (11 : ℝ) < highest := by linarith
    have h2 : lowest < 12 := by linarith
    have h3 : ¬ (highest < 11) := by linarith
    have h4 : lowest < 11 := by linarith
    fin_cases a <;> norm_num [surfaceBounds, movedSurface, *]
  have hb0 : (exampleComponent none none movedSurface).bounded lowest highest =
      exampleComponent (some fun _ => 11) (some fun _ => 12) movedSurface := by
    rw [GridComponent.bounded, if_neg (by simp [exampleComponent])]
    have : ∀ a, surfaceBounds lowest highest (exampleComponent none none movedSurface).mesh.positions a = (11, 12) := hmoved
    simp only [this]
    rfl
  have hgr0 : (exampleComponent (some fun _ => 11) (some fun _ => 12) movedSurface).gridOfData = ⟨fun _ => 11, ![3, 3, 3], fun _ => 1⟩ := by
    unfold GridComponent.gridOfData gridOfCorners exampleComponent
    congr 1 <;> funext a <;> fin_cases a <;> norm_num
  have him0 : Immersible ⟨fun _ => 11, ![3, 3, 3], fun _ => 1⟩ movedSurface := by
    refine ⟨?_, by unfold Fits; decide, by decide, hm, ?_⟩
    · intro a; fin_cases a <;> norm_num
    · intro p hp a
      simp only [movedSurface, List.mem_cons, List.not_mem_nil, or_false] at hp
      rcases hp with rfl | rfl | rfl | rfl <;> fin_cases a <;> norm_num
  obtain ⟨r₀, e₀⟩ : ∃ r₀, (exampleComponent (some fun _ => 11) (some fun _ => 12) movedSurface).createGrid = .ok r₀ := by
    obtain ⟨z, e₀, -⟩ := createGrid_life (exampleComponent (some fun _ => 11) (some fun _ => 12) movedSurface)
      (by rw [hgr0]; exact him0) (unused_fits (exampleComponent_unused _ _ _))
    exact ⟨_, e₀⟩
  have q := createGrid_data e'
  have q₀ := createGrid_data e₀
  have hmesh : r.mesh = movedSurface := q.1.2.2.2.1.symm
  have hmesh₀ : r₀.mesh = movedSurface := q₀.1.2.2.2.1.symm
  rw [hgr] at q
  rw [hgr0] at q₀
  refine ⟨r, r₀, _, _, ?_, ?_, q.2.1, q₀.2.1, ?_, by rw [hmesh, hmesh₀], ?_⟩
  · simp only [GridComponent.run, GridComponent.step, GridComponent.init, hb, e, hb', e']
  · simp only [GridComponent.run, GridComponent.step, GridComponent.init, hb0, e₀]
  · rw [hmesh]
    intro p hp hin
    have h0 := (hin 0).2
    simp only [movedSurface, List.mem_cons, List.not_mem_nil, or_false] at hp
    rcases hp with rfl | rfl | rfl | rfl <;> norm_num at h0
  · rw [hmesh₀]
    exact him0.inGrid

/-- **C103 is violated** by one given corner: the corner `min` given by the user is replaced by the one of the bounding box of the surface,
and so for `max`. -/
theorem C103_oneBound_violated (lowest highest : ℝ) (hl : lowest ≤ 1) (hh : 2 ≤ highest) :
    (∃ r, (exampleComponent (some 0) none exampleSurface).run lowest highest [.init] = .ok r ∧ r.min ≠ some 0) ∧
    ∃ r, (exampleComponent none (some ![3, 3, 3]) exampleSurface).run lowest highest [.init] = .ok r ∧ r.max ≠ some ![3, 3, 3] := by
  obtain ⟨r₁, e⟩ : ∃ r₁, (exampleComponent (some fun _ => 1) (some fun _ => 2) exampleSurface).createGrid = .ok r₁ := by
    obtain ⟨x, e, -⟩ := createGrid_life (exampleComponent (some fun _ => 1) (some fun _ => 2) exampleSurface)
      (by rw [exampleBox_grid]; exact exampleBox_immersible) (unused_fits (exampleComponent_unused _ _ _))
    exact ⟨_, e⟩
  obtain ⟨-, d2, d3, -⟩ := (createGrid_data e).1
  refine ⟨⟨r₁, ?_, ?_⟩, r₁, ?_, ?_⟩
  · simp only [GridComponent.run, GridComponent.step, GridComponent.init, exampleSurface_box hl hh _ _ (.inr rfl), e]
  · rw [← d2]
    intro h
    have := congrFun (Option.some.inj h) 0
    norm_num at this
  · simp only [GridComponent.run, GridComponent.step, GridComponent.init, exampleSurface_box hl hh _ _ (.inl rfl), e]
  · rw [← d3]
    intro h
    have := congrFun (Option.some.inj h) 0
    norm_num at this

/-! ### Examples -/

/-- Hypotheses of `C103_partial`, `C103_history_partial` and `C103_twice`: two meshes with as many triangles. -/
example (lowest highest : ℝ) : ∃ c, Growing exampleSurface.triangles.length [.init, .setMesh smallSurface] ∧
    (exampleComponent (some 0) (some ![3, 3, 3]) exampleSurface).run lowest highest [.init, .setMesh smallSurface] = .ok c ∧
    Immersible (c.bounded lowest highest).gridOfData c.mesh ∧ IndicesFit c ∧ c.trianglesSize = 27 ∧
    SameData c (exampleComponent (some 0) (some ![3, 3, 3]) smallSurface) := by
  have hgr := exampleComponent_grid exampleSurface
  obtain ⟨r₁, e⟩ : ∃ r₁, (exampleComponent (some 0) (some ![3, 3, 3]) exampleSurface).createGrid = .ok r₁ := by
    obtain ⟨x, e, -⟩ := createGrid_life (exampleComponent (some 0) (some ![3, 3, 3]) exampleSurface)
      (by rw [hgr]; exact exampleSurface_immersible) (unused_fits (exampleComponent_unused _ _ _))
    exact ⟨_, e⟩
  have hb : (exampleComponent (some 0) (some ![3, 3, 3]) exampleSurface).bounded lowest highest = _ := bounded_set _ _ _ ⟨rfl, rfl⟩
  obtain ⟨⟨d1, d2, d3, d4, d5, d6⟩, -, -, hs, -⟩ := createGrid_data e
  have hrun : (exampleComponent (some 0) (some ![3, 3, 3]) exampleSurface).run lowest highest [.init, .setMesh smallSurface] =
      .ok { r₁ with mesh := smallSurface } := by
    simp only [GridComponent.run, GridComponent.step, GridComponent.init, hb, e]
  have hgrow : Growing exampleSurface.triangles.length [.init, .setMesh smallSurface] := ⟨by simp [exampleSurface, smallSurface], trivial⟩
  refine ⟨_, hgrow, hrun, ?_, run_fits _ _ _ _ _ (unused_fits (exampleComponent_unused _ _ _)) hgrow hrun, ?_,
    d1.symm, d2.symm, d3.symm, rfl, d5.symm, d6.symm⟩
  · rw [bounded_set _ _ _ ⟨by rw [← d2]; rfl, by rw [← d3]; rfl⟩]
    have : ({ r₁ with mesh := smallSurface } : GridComponent).gridOfData = exampleSurfaceGrid := by
      rw [← hgr]
      unfold GridComponent.gridOfData
      simp only [d1, d2, d3]
    rw [this]
    exact smallSurface_immersible
  · rw [hgr] at hs
    exact hs.trans (by decide)

/-- The data after the mesh was replaced between two initialisations, `C103_data`. -/
example (lowest highest : ℝ) : ∃ r,
    (exampleComponent (some 0) (some ![3, 3, 3]) exampleSurface).run lowest highest [.init, .setMesh smallSurface, .init] = .ok r ∧
    r.mesh = smallSurface ∧ r.n = ![4, 4, 4] ∧ r.max = some ![3, 3, 3] := by
  obtain ⟨r, -, h, -⟩ := C103_types_violated lowest highest
  obtain ⟨h1, h2, -, -, h3⟩ := C103_data _ _ _ _ _ h
  exact ⟨r, h, h2, h1, (h3 rfl rfl).2⟩

end Caribou
