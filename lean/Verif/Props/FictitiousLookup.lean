import Verif.Spec.GridSurface

/-!
# Property C106: a fictitious grid is built around the designated surface or the only possible one
-/

set_option autoImplicit false

namespace Caribou

open Spec FictitiousGrid

/-! ### Lemmas -/

theorem filter_one {l before after : List SurfaceContainer} {c : SurfaceContainer} (hl : l = before ++ c :: after)
    (hc : c.triangles ≠ []) (hn : ∀ c' ∈ before ++ after, c'.triangles = []) (k : ℕ) :
    (l.zipIdx k).filter (fun c => !c.1.triangles.isEmpty) = [(c, k + before.length)] := by
  have none : ∀ (m : List SurfaceContainer) (k : ℕ), (∀ c' ∈ m, c'.triangles = []) →
      (m.zipIdx k).filter (fun c => !c.1.triangles.isEmpty) = [] := by
    intro m k h
    refine List.filter_eq_nil_iff.2 fun x hx => ?_
    have := h x.1 (List.fst_mem_of_mem_zipIdx hx)
    simp [this]
  rw [hl, List.zipIdx_append, List.filter_append, none before k fun c' h => hn c' (List.mem_append_left _ h), List.zipIdx_cons,
    List.filter_cons_of_pos (by simpa using hc), none after _ fun c' h => hn c' (List.mem_append_right _ h)]
  rfl

theorem filter_one_iff {l : List SurfaceContainer} {x : SurfaceContainer × ℕ}
    (h : l.zipIdx.filter (fun c => !c.1.triangles.isEmpty) = [x]) :
    ∃ before after, l = before ++ x.1 :: after ∧ x.1.triangles ≠ [] ∧ (∀ c' ∈ before ++ after, c'.triangles = []) ∧ l[x.2]? = some x.1 := by
  have hx : x ∈ l.zipIdx.filter (fun c => !c.1.triangles.isEmpty) := by rw [h]; exact List.mem_singleton.2 rfl
  have hx1 := (List.mem_filter.1 hx).1
  have hx2 : x.1.triangles ≠ [] := by simpa using (List.mem_filter.1 hx).2
  have hget : l[x.2]? = some x.1 := List.mem_zipIdx_iff_getElem?.1 hx1
  obtain ⟨hlt, he⟩ := List.getElem?_eq_some_iff.1 hget
  refine ⟨l.take x.2, l.drop (x.2 + 1), ?_, hx2, ?_, hget⟩
  · rw [← he, List.getElem_cons_drop, List.take_append_drop]
  · intro c' hc'
    by_contra hne
    have hj : ∃ j, j ≠ x.2 ∧ l[j]? = some c' := by
      rcases List.mem_append.1 hc' with hm | hm
      · obtain ⟨j, hj, e⟩ := List.mem_iff_getElem.1 hm
        rw [List.length_take] at hj
        refine ⟨j, by omega, ?_⟩
        rw [List.getElem_take] at e
        rw [← e, List.getElem?_eq_getElem]
      · obtain ⟨j, hj, e⟩ := List.mem_iff_getElem.1 hm
        rw [List.getElem_drop] at e
        refine ⟨x.2 + 1 + j, by omega, ?_⟩
        rw [← e, List.getElem?_eq_getElem]
    obtain ⟨j, hj1, hj2⟩ := hj
    have : (c', j) ∈ l.zipIdx.filter (fun c => !c.1.triangles.isEmpty) :=
      List.mem_filter.2 ⟨List.mem_zipIdx_iff_getElem?.2 hj2, by simpa using hne⟩
    rw [h, List.mem_singleton] at this
    exact hj1 (by rw [← this])

/-- The triangles are found when they are meant. -/
theorem findTriangles_meant {s : GridScene} {d : SurfaceData} {T : List (Fin 3 → ℕ)} {source : Option SurfaceContainer}
    (h : MeantTriangles s d.triangles T source) :
    ∃ i, d.findTriangles s = some ({ d with triangles := T }, i) ∧ i.bind (fun i => s.containers[i]?) = source := by
  unfold SurfaceData.findTriangles
  rcases h with ⟨h1, rfl, rfl⟩ | ⟨h1, before, c, after, hl, hc, hn, rfl, rfl⟩
  · exact ⟨none, by rw [if_neg h1], rfl⟩
  · rw [if_pos h1]
    have hf := filter_one hl hc hn 0
    rw [Nat.zero_add] at hf
    have hget : s.containers[before.length]? = some c := by rw [hl]; simp
    split
    · rename_i c₀ hs
      rw [hs] at hl
      have h2 := congrArg List.length hl
      simp only [List.length_append, List.length_cons, List.length_nil] at h2
      have hb : before = [] := List.length_eq_zero_iff.1 (by omega)
      subst hb
      rw [List.nil_append, List.cons.injEq] at hl
      exact ⟨some 0, by rw [hl.1], by rw [hs, hl.1]; rfl⟩
    · rw [hf]
      exact ⟨some before.length, rfl, hget⟩

theorem findPositions_meant {s : GridScene} {d : SurfaceData} {P : List (Fin 3 → ℝ)} {i : Option ℕ}
    (h : MeantPositions s d (i.bind fun i => s.containers[i]?) P) (hP : P ≠ []) :
    ∃ d', d.findPositions i s = some d' ∧ d'.triangles = d.triangles ∧ d'.positions s = P := by
  unfold SurfaceData.findPositions SurfaceData.positions
  rcases h with ⟨p, hp, rfl⟩ | ⟨hp, ⟨h1, rfl⟩ | ⟨h1, ⟨c, hc, hpt⟩ | ⟨hno, m, hm, hr⟩⟩⟩
  · rw [hp]
    exact ⟨d, if_neg hP, rfl, by rw [hp]⟩
  · rw [hp]
    exact ⟨d, if_neg h1, rfl, by rw [hp]⟩
  · rw [hp]
    obtain ⟨j, rfl, hj⟩ := Option.bind_eq_some_iff.1 hc
    refine ⟨{ d with parent := some (.points j) }, ?_, rfl, ?_⟩
    · dsimp only
      rw [if_pos h1, Option.bind_some, hj, Option.bind_some, hpt]
      rfl
    · simp only [GridScene.value, hj, Option.bind_some, hpt, Option.getD_some]
  · rw [hp]
    have e : (i.bind fun i => (s.containers[i]?).bind fun c => c.points.map fun _ => i) = none := by
      cases i with
      | none => rfl
      | some j =>
        rw [Option.bind_some] at hno ⊢
        cases hc : s.containers[j]? with
        | none => rfl
        | some c => rw [Option.bind_some, hno c hc]; rfl
    cases P with
    | nil => exact absurd rfl hP
    | cons x P =>
      refine ⟨{ d with parent := some (.rest 0) }, ?_, rfl, ?_⟩
      · dsimp only
        rw [if_pos h1, e, hm]
        dsimp only
        rw [hr]
      · simp only [GridScene.value, hm, List.getElem?_cons_zero, Option.bind_some, hr, Option.getD_some]

/-! ### The property -/

/-- **C106 (the surface which is meant is found).** When there is no implicit surface, and the triangles and positions are given, linked,
or can be found in one way only, the grid is created around this surface. -/
theorem C106_surface (lowest highest : ℝ) (s : GridScene) (c : SceneGrid) (S : SurfaceMesh) (h1 : c.data.iso = none) (h2 : s.isos = [])
    (hS : MeantSurface s c.data S) :
    (∃ d, c.data.lookup s = .ok (.surface d) ∧ d.triangles = S.triangles ∧ d.positions s = S.positions) ∧
    (∀ c', SceneGrid.init lowest highest s c = .ok c' → c'.field = none ∧
      GridComponent.init lowest highest { c.grid with mesh := S } = .ok c'.grid) ∧
    (∀ g, GridComponent.init lowest highest { c.grid with mesh := S } = .ok g →
      ∃ c', SceneGrid.init lowest highest s c = .ok c' ∧ c'.grid = g) := by
  obtain ⟨hT, hP, source, m1, m2⟩ := hS
  obtain ⟨i, e1, hi⟩ := findTriangles_meant m1
  have m3 : MeantPositions s { c.data with triangles := S.triangles } (i.bind fun i => s.containers[i]?) S.positions := by
    rw [hi]; exact m2
  obtain ⟨d, e2, t, p⟩ := findPositions_meant m3 hP
  have e : c.data.lookup s = .ok (.surface d) := by
    unfold SurfaceData.lookup
    rw [h1, h2, e1]
    dsimp only
    rw [e2]
  refine ⟨⟨d, e, t, p⟩, ?_, ?_⟩
  · intro c' hc'
    rw [SceneGrid.init, e] at hc'
    dsimp only at hc'
    rw [t, p] at hc'
    split at hc' <;> first | (cases hc'; rename_i hg; exact ⟨rfl, hg⟩) | cases hc'
  · intro g hg
    rw [SceneGrid.init, e]
    dsimp only
    rw [t, p, hg]
    exact ⟨_, rfl, rfl⟩

/-- **C106 (nothing else is used, partial).** A grid created around triangles and positions is created around those which are meant.
Missing: surfaces without triangle or without position, around which a grid can be created too (`C106_empty_violated`). -/
theorem C106_sound_partial (s : GridScene) (d d' : SurfaceData) (h : d.lookup s = .ok (.surface d')) (hT : d'.triangles ≠ [])
    (hP : d'.positions s ≠ []) : d.iso = none ∧ s.isos = [] ∧ MeantSurface s d ⟨d'.positions s, d'.triangles⟩ := by
  unfold SurfaceData.lookup at h
  split at h
  · cases h
  rename_i h1
  split at h
  · rename_i h2
    refine ⟨h1, h2, hT, hP, ?_⟩
    split at h
    · cases h
    rename_i d₁ i e1
    split at h
    · cases h
    rename_i d₂ e2
    cases h
    have hpos : ∀ source, i.bind (fun i => s.containers[i]?) = source → d₁.parent = d.parent → d₁.own = d.own →
        MeantPositions s d source (d'.positions s) ∧ d'.triangles = d₁.triangles := by
      intro source hsrc hpar hown
      unfold SurfaceData.findPositions at e2
      split at e2
      · rename_i p hp
        split_ifs at e2
        cases e2
        exact ⟨.inl ⟨p, hpar ▸ hp, by unfold SurfaceData.positions; rw [hp]⟩, rfl⟩
      · rename_i hp
        split_ifs at e2 with ho
        · split at e2
          · rename_i j hj
            cases e2
            obtain ⟨k, rfl, hk⟩ := Option.bind_eq_some_iff.1 hj
            obtain ⟨c, hc, hc2⟩ := Option.bind_eq_some_iff.1 hk
            obtain ⟨pts, hpts, rfl⟩ := Option.map_eq_some_iff.1 hc2
            rw [Option.bind_some, hc] at hsrc
            refine ⟨.inr ⟨hpar ▸ hp, .inr ⟨hown ▸ ho, .inl ⟨c, hsrc.symm, ?_⟩⟩⟩, rfl⟩
            simp only [SurfaceData.positions, GridScene.value, hc, Option.bind_some, hpts, Option.getD_some]
          · rename_i hj
            split at e2
            · rename_i m hm
              split at e2
              · rename_i x P hr
                cases e2
                refine ⟨.inr ⟨hpar ▸ hp, .inr ⟨hown ▸ ho, .inr ⟨?_, m, hm, ?_⟩⟩⟩, rfl⟩
                · intro c hc
                  rw [← hsrc] at hc
                  obtain ⟨k, rfl, hk⟩ := Option.bind_eq_some_iff.1 hc
                  rw [Option.bind_some, hk, Option.bind_some] at hj
                  exact Option.map_eq_none_iff.1 hj
                · simp only [SurfaceData.positions, GridScene.value, hm, List.getElem?_cons_zero, Option.bind_some, hr, Option.getD_some]
              · cases e2
            · cases e2
        · cases e2
          exact ⟨.inr ⟨hpar ▸ hp, .inl ⟨hown ▸ ho, by unfold SurfaceData.positions; rw [hp]; exact hown⟩⟩, rfl⟩
    unfold SurfaceData.findTriangles at e1
    split_ifs at e1 with h0
    · split at e1
      · rename_i c hs
        cases e1
        obtain ⟨a, b⟩ := hpos (some c) (by rw [Option.bind_some, hs]; rfl) rfl rfl
        dsimp only at b
        exact ⟨some c, .inr ⟨h0, [], c, [], hs, b ▸ hT, by simp, b, rfl⟩, a⟩
      · split at e1
        · rename_i x hx
          cases e1
          obtain ⟨before, after, e, k1, k2, k3⟩ := filter_one_iff hx
          obtain ⟨a, b⟩ := hpos (some x.1) (by rw [Option.bind_some, k3]) rfl rfl
          exact ⟨some x.1, .inr ⟨h0, before, x.1, after, e, k1, k2, b, rfl⟩, a⟩
        · cases e1
    · cases e1
      obtain ⟨a, b⟩ := hpos none rfl rfl rfl
      exact ⟨none, .inl ⟨h0, b, rfl⟩, a⟩
  · cases h
  · cases h

/-- **C106 (no grid without a surface).** The initialisation goes on with a surface without triangle only for the single container of the node, and with
a surface without positions only for a `MeshTopology` without point; in every other case it stops. -/
theorem C106_stops (s : GridScene) (d d' : SurfaceData) (h : d.lookup s = .ok (.surface d')) :
    (d'.triangles = [] → ∃ c, s.containers = [c] ∧ c.triangles = []) ∧ (d'.positions s = [] → ∃ c ∈ s.containers, c.points = some []) := by
  unfold SurfaceData.lookup at h
  split at h
  · cases h
  split at h
  · split at h
    · cases h
    rename_i d₁ i e1
    split at h
    · cases h
    rename_i d₂ e2
    cases h
    have ht : d'.triangles = d₁.triangles ∧ (d'.positions s = [] → ∃ c ∈ s.containers, c.points = some []) := by
      unfold SurfaceData.findPositions at e2
      split at e2
      · rename_i p hp
        split_ifs at e2 with hv
        cases e2
        exact ⟨rfl, fun h => absurd (by simpa only [SurfaceData.positions, hp] using h) hv⟩
      · rename_i hp
        split_ifs at e2 with ho
        · split at e2
          · rename_i j hj
            cases e2
            obtain ⟨k, rfl, hk⟩ := Option.bind_eq_some_iff.1 hj
            obtain ⟨c, hc, hc2⟩ := Option.bind_eq_some_iff.1 hk
            obtain ⟨pts, hpts, rfl⟩ := Option.map_eq_some_iff.1 hc2
            refine ⟨rfl, fun h => ⟨c, List.mem_of_getElem? hc, ?_⟩⟩
            simp only [SurfaceData.positions, GridScene.value, hc, Option.bind_some, hpts, Option.getD_some] at h
            rw [hpts, h]
          · split at e2
            · rename_i m hm
              split at e2
              · rename_i x P hr
                cases e2
                refine ⟨rfl, fun h => ?_⟩
                simp [SurfaceData.positions, GridScene.value, hm, hr] at h
              · cases e2
            · cases e2
        · cases e2
          exact ⟨rfl, fun h => absurd (by simpa only [SurfaceData.positions, hp] using h) ho⟩
    refine ⟨fun hT => ?_, ht.2⟩
    rw [ht.1] at hT
    unfold SurfaceData.findTriangles at e1
    split_ifs at e1 with h0
    · split at e1
      · rename_i c hs
        cases e1
        exact ⟨c, hs, hT⟩
      · split at e1
        · rename_i x hx
          cases e1
          obtain ⟨before, after, e, k1, k2, k3⟩ := filter_one_iff hx
          exact absurd hT k1
        · cases e1
    · cases e1
      exact absurd hT h0
  · cases h
  · cases h

/-- **C106 (nothing is lost).** An initialisation in a node which has neither an implicit surface nor a triangle, without triangles of its own, leaves the grid made before as it is, unless there is
a single container. -/
theorem C106_kept (lowest highest : ℝ) (s : GridScene) (c : SceneGrid) (h1 : c.data.iso = none) (h2 : s.isos = []) (h3 : c.data.triangles = []) (h4 : ∀ x ∈ s.containers, x.triangles = [])
    (h5 : s.containers.length ≠ 1) : c.init lowest highest s = .ok c := by
  have hf : c.data.findTriangles s = none := by
    unfold SurfaceData.findTriangles
    rw [if_pos h3]
    split
    · rename_i x hx
      exact absurd (by rw [hx]; rfl) h5
    · split
      · rename_i x hx
        obtain ⟨before, after, e, k1, -, -⟩ := filter_one_iff hx
        exact absurd (h4 x.1 (by rw [e]; simp)) k1
      · rfl
  have hl : c.data.lookup s = .ok (.stopped c.data) := by
    unfold SurfaceData.lookup
    rw [h1, h2]
    simp only [hf]
  unfold SceneGrid.init
  rw [hl]

/-- A grid made before, in a node whose two containers have lost their triangles. -/
example (lowest highest : ℝ) (g : GridComponent) (f : Option (IsoGrid 3 ℝ)) :
    SceneGrid.init lowest highest ⟨[], [⟨[], none⟩, ⟨[], some [0]⟩], [], []⟩ ⟨⟨none, [], none, [0]⟩, g, f⟩ = .ok ⟨⟨none, [], none, [0]⟩, g, f⟩ :=
  C106_kept _ _ _ _ rfl rfl rfl (by simp) (by simp)

/-- **C106 (implicit surfaces).** A designated implicit surface is used whatever else is given, and the only implicit surface of the node is
used when none is designated. -/
theorem C106_implicit (s : GridScene) (d : SurfaceData) (f : (Fin 3 → ℝ) → ℝ) :
    (d.iso = some f → d.lookup s = .ok (.implicit d f)) ∧
    (d.iso = none → s.isos = [f] → ∃ d', d.lookup s = .ok (.implicit d' f) ∧ d'.iso = some f) := by
  refine ⟨fun h => ?_, fun h h' => ?_⟩
  · rw [SurfaceData.lookup, h]
  · rw [SurfaceData.lookup, h, h']
    exact ⟨_, rfl, rfl⟩

/-- **C106 (again).** After a grid was created around a surface, the next initialisation uses the same triangles and the current positions,
whatever containers and mechanical states the node has then, as long as there are positions and no implicit surface. -/
theorem C106_again (s s' : GridScene) (d d' : SurfaceData) (h : d.lookup s = .ok (.surface d')) (hT : d'.triangles ≠ [])
    (h2 : s'.isos = []) (hP : d'.positions s' ≠ []) : d'.lookup s' = .ok (.surface d') := by
  have hiso : d'.iso = none := by
    unfold SurfaceData.lookup at h
    split at h
    · cases h
    rename_i h1
    split at h
    · split at h
      · cases h
      rename_i d₁ i e1
      split at h
      · cases h
      rename_i d₂ e2
      cases h
      have a : d₁.iso = none := by
        unfold SurfaceData.findTriangles at e1
        split_ifs at e1
        · split at e1
          · cases e1; exact h1
          · split at e1 <;> cases e1; exact h1
        · cases e1; exact h1
      unfold SurfaceData.findPositions at e2
      split at e2
      · split_ifs at e2; cases e2; exact a
      · split_ifs at e2
        · split at e2
          · cases e2; exact a
          · split at e2
            · split at e2 <;> cases e2; exact a
            · cases e2
        · cases e2; exact a
    · cases h
    · cases h
  unfold SurfaceData.lookup
  rw [hiso, h2]
  dsimp only
  rw [SurfaceData.findTriangles, if_neg hT]
  dsimp only
  have : d'.findPositions none s' = some d' := by
    unfold SurfaceData.findPositions
    unfold SurfaceData.positions at hP
    split
    · rename_i p hp
      rw [hp] at hP
      rw [if_neg hP]
    · rename_i hp
      rw [hp] at hP
      rw [if_neg hP]
  rw [this]

/-! ### Negations -/

/-- **C106, negation (several implicit surfaces).** The message which announces that the first of several implicit surfaces will be used
dereferences the link which is still empty. -/
theorem C106_isos_violated (s : GridScene) (d : SurfaceData) (h : d.iso = none) (hs : 2 ≤ s.isos.length) : d.lookup s = .undefined := by
  rw [SurfaceData.lookup, h]
  match e : s.isos with
  | [] => rw [e] at hs; cases hs
  | [_] => rw [e] at hs; simp at hs
  | _ :: _ :: _ => rfl

/-- **C106, negation (empty surfaces).** A node with two containers without triangles stops the initialisation, but with one container
without triangle the grid is created around a surface without triangle; and with a `MeshTopology` without point it is created around
triangles without positions, although a mechanical state of the node has some. -/
theorem C106_empty_violated (points rest : List (Fin 3 → ℝ)) (T : List (Fin 3 → ℕ)) :
    ((⟨none, [], none, []⟩ : SurfaceData).lookup ⟨[], [⟨[], some points⟩, ⟨[], some points⟩], [], []⟩ = .ok (.stopped ⟨none, [], none, []⟩)) ∧
    (∃ d, (⟨none, [], none, []⟩ : SurfaceData).lookup ⟨[], [⟨[], some points⟩], [], []⟩ = .ok (.surface d) ∧ d.triangles = []) ∧
    ∃ d, (⟨none, [], none, []⟩ : SurfaceData).lookup ⟨[], [⟨T, some []⟩], [⟨some rest⟩], []⟩ = .ok (.surface d) ∧ d.triangles = T ∧
      d.positions ⟨[], [⟨T, some []⟩], [⟨some rest⟩], []⟩ = [] :=
  ⟨rfl, ⟨_, rfl, rfl⟩, _, rfl, rfl, rfl⟩

/-- **C106, negation (new triangles).** When the container has other triangles and points at the second initialisation, the grid is created
around the old triangles with the new points. -/
theorem C106_stale_violated (points points' : List (Fin 3 → ℝ)) (T T' : List (Fin 3 → ℕ)) (hT : T ≠ []) (hne : T' ≠ T) (hp' : points' ≠ []) :
    ∃ d, (⟨none, [], none, []⟩ : SurfaceData).lookup ⟨[], [⟨T, some points⟩], [], []⟩ = .ok (.surface d) ∧
      d.lookup ⟨[], [⟨T', some points'⟩], [], []⟩ = .ok (.surface d) ∧ d.positions ⟨[], [⟨T', some points'⟩], [], []⟩ = points' ∧
      d.triangles ≠ T' :=
  ⟨⟨none, T, some (.points 0), []⟩, rfl,
    C106_again ⟨[], [⟨T, some points⟩], [], []⟩ _ ⟨none, [], none, []⟩ _ rfl hT rfl hp', rfl, fun h => hne h.symm⟩

/-! ### Examples -/

/-- A node with a container of hexahedra (no triangle), one of triangles which is not a `MeshTopology`, and one mechanical state. -/
example : MeantSurface ⟨[], [⟨[], some [![5, 5, 5]]⟩, ⟨[![0, 1, 2]], none⟩], [⟨some [![0, 0, 0], ![1, 0, 0], ![0, 1, 0]]⟩], []⟩
    ⟨none, [], none, []⟩ ⟨[![0, 0, 0], ![1, 0, 0], ![0, 1, 0]], [![0, 1, 2]]⟩ :=
  ⟨by simp, by simp, some ⟨[![0, 1, 2]], none⟩,
    .inr ⟨rfl, [⟨[], some [![5, 5, 5]]⟩], _, [], rfl, by simp, by simp, rfl, rfl⟩,
    .inr ⟨rfl, .inr ⟨rfl, .inr ⟨fun c hc => by cases hc; rfl, _, rfl, rfl⟩⟩⟩⟩

/-- A mechanical state without rest positions stops the initialisation. -/
example : (⟨none, [![0, 1, 2]], none, []⟩ : SurfaceData).lookup ⟨[], [], [⟨some []⟩], []⟩ = .ok (.stopped ⟨none, [![0, 1, 2]], none, []⟩) := rfl

/-- Given triangles do not use the points of a container. -/
example : ∃ d, (⟨none, [![0, 1, 2]], none, []⟩ : SurfaceData).lookup ⟨[], [⟨[![2, 1, 0]], some [![5, 5, 5]]⟩],
    [⟨some [![0, 0, 0], ![1, 0, 0], ![0, 1, 0]]⟩], []⟩ = .ok (.surface d) ∧ d.triangles = [![0, 1, 2]] ∧ d.parent = some (.rest 0) :=
  ⟨_, rfl, rfl, rfl⟩

end Caribou
