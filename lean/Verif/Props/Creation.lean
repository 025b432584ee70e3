import Verif.Spec.Creation

/-!
# Property C117: components created from a scene are those designated by their description
-/

set_option autoImplicit false

namespace Caribou

open Spec

theorem lower_name (E : FieldElement) : E.name.toLower = E.lowerName := by
  rcases E with ⟨s, p, q⟩
  cases s <;> cases p <;> cases q <;> decide +kernel

theorem lookup_mem {α : Type*} (creators : List (String × α)) (t : String) (a : α) (h : creators.lookup t = some a) :
    (t, a) ∈ creators := by
  induction creators with
  | nil => simp at h
  | cons x l ih =>
    obtain ⟨s, b⟩ := x
    by_cases hs : t = s
    · subst hs
      simp only [List.lookup_cons_self, Option.some.injEq] at h
      subst h
      exact List.mem_cons_self
    · have : (t == s) = false := by simpa using hs
      simp only [List.lookup_cons, this] at h
      exact List.mem_cons_of_mem _ (ih h)

theorem sofaCreate_eq {α : Type*} (creators : List (String × α)) (t : String) (can : α → Bool) :
    sofaCreate creators none t can =
      match (creators.lookup t).filter can with
      | some a => some a
      | none => (creators.map Prod.snd).find? can := by
  unfold sofaCreate
  cases creators.lookup t <;> rfl

theorem sofaCreate_some {α : Type*} {creators : List (String × α)} {t : String} {can : α → Bool} {a : α}
    (h : sofaCreate creators none t can = some a) : can a = true ∧ a ∈ creators.map Prod.snd := by
  rw [sofaCreate_eq] at h
  cases hb : (creators.lookup t).filter can with
  | some b =>
    rw [hb] at h
    obtain rfl : b = a := by simpa using h
    rw [Option.filter_eq_some_iff] at hb
    exact ⟨hb.2, List.mem_map_of_mem (f := Prod.snd) (lookup_mem creators t b hb.1)⟩
  | none =>
    rw [hb] at h
    exact ⟨List.find?_some h, List.mem_of_find?_eq_some h⟩

theorem sofaCreate_none {α : Type*} {creators : List (String × α)} {t : String} {can : α → Bool}
    (h : sofaCreate creators none t can = none) : ∀ a ∈ creators.map Prod.snd, can a = false := by
  rw [sofaCreate_eq] at h
  cases hb : (creators.lookup t).filter can with
  | some b => rw [hb] at h; simp at h
  | none =>
    rw [hb] at h
    intro a ha
    simpa using List.find?_eq_none.1 h a ha

theorem sofaCreate_unique {α : Type*} {creators : List (String × α)} {t : String} {can : α → Bool} {a : α}
    (ha : a ∈ creators.map Prod.snd) (hc : can a = true) (hu : ∀ b ∈ creators.map Prod.snd, can b = true → b = a) :
    sofaCreate creators none t can = some a := by
  cases h : sofaCreate creators none t can with
  | none => rw [sofaCreate_none h a ha] at hc; simp at hc
  | some b => rw [hu b (sofaCreate_some h).2 (sofaCreate_some h).1]

theorem mem_mappingCreators (E : FieldElement) : E ∈ mappingCreators.map Prod.snd ↔ Solid E := by
  rcases E with ⟨s, p, q⟩
  cases s <;> cases p <;> cases q <;> simp [mappingCreators, Solid]

theorem createMapping_fst (d : MappingDescription) (parent : Bool) (c : SceneContext) :
    (createMapping d parent c).map Prod.fst = sofaCreate mappingCreators none d.template fun E => mappingCanCreate E d parent c := by
  unfold createMapping
  split
  · rename_i h
    rw [h]
    rfl
  · rename_i E h
    rw [h]
    dsimp only
    split <;> rfl

theorem lowerName_solid {E E' : FieldElement} (h : Solid E) (h' : Solid E') (e : E.lowerName = E'.lowerName) : E = E' := by
  rcases E with ⟨s, p, q⟩
  rcases E' with ⟨s', p', q'⟩
  obtain ⟨h1, h2⟩ := h
  obtain ⟨h1', h2'⟩ := h'
  simp only at h1 h2 h1' h2'
  subst h2
  subst h2'
  cases s <;> cases s' <;> cases q <;> cases q' <;> simp_all [FieldElement.lowerName]

/-- **C117** (the type is written).  A mapping whose description has the attribute `template` is created for exactly the solid element
with this name, whatever the case of its letters, and it is not created when no element has this name, nor when the base class refuses
the scene. -/
theorem C117_template (d : MappingDescription) (c : SceneContext) (h : d.template ≠ "") (E : FieldElement) :
    ((createMapping d true c).map Prod.fst = some E ↔ Solid E ∧ E.name.toLower = d.template.toLower) ∧ createMapping d false c = none := by
  have can : ∀ (E : FieldElement) (p : Bool), mappingCanCreate E d p c = (decide (d.template.toLower = E.name.toLower) && p) := by
    intro E p
    by_cases e : d.template.toLower = E.name.toLower <;> simp [mappingCanCreate, e, h]
  refine ⟨?_, ?_⟩
  · rw [createMapping_fst]
    constructor
    · intro hs
      obtain ⟨h1, h2⟩ := sofaCreate_some hs
      rw [can] at h1
      exact ⟨(mem_mappingCreators E).1 h2, Eq.symm (by simpa using h1)⟩
    · rintro ⟨hE, e⟩
      refine sofaCreate_unique ((mem_mappingCreators E).2 hE) (by rw [can]; simp [e]) fun b hb hc => ?_
      rw [can] at hc
      refine lowerName_solid ((mem_mappingCreators b).1 hb) hE ?_
      rw [← lower_name, ← lower_name, e]
      have hc' : d.template.toLower = b.name.toLower := by simpa using hc
      exact hc'.symm
  · have := createMapping_fst d false c
    cases hs : sofaCreate mappingCreators none d.template fun E => mappingCanCreate E d false c with
    | none => rw [hs] at this; simpa using this
    | some a =>
      have h1 := (sofaCreate_some hs).1
      rw [can] at h1
      simp at h1

example : ((createMapping ⟨"tetrahedron10", none⟩ true ⟨.mk "root" [] [], []⟩).map Prod.fst = some ⟨.tetrahedron, false, true⟩) :=
  ((C117_template ⟨"tetrahedron10", none⟩ ⟨.mk "root" [] [], []⟩ (by decide) ⟨.tetrahedron, false, true⟩).1).2
    ⟨⟨Or.inl rfl, rfl⟩, by decide +kernel⟩

example : createMapping ⟨"Triangle", none⟩ true ⟨.mk "root" [] [], []⟩ = none := by decide +kernel

theorem find_first {α : Type*} (p : α → Bool) (l r : List α) (x : α) (hx : p x = true) (hl : ∀ y ∈ l, p y = false) :
    (l ++ x :: r).find? p = some x := by
  rw [List.find?_append, List.find?_eq_none.2 fun y hy => by simp [hl y hy], List.find?_cons_of_pos hx]
  rfl

/-- Following a path by `get` gives the object it reaches, when this object has the class asked. -/
theorem leadsTo_get {n : SceneNode} {a : List SceneNode} {l : List PathStep} {o : SceneObject} (h : LeadsTo n a l o)
    (cast : SceneObject → Bool) : SceneContext.getSteps cast l ⟨n, a⟩ = (some o).filter cast := by
  induction h with
  | @object n a s o l r objects first node =>
    have h1 : n.children.find? (fun k => decide (k.name = s)) = none := by
      rw [List.find?_eq_none]
      exact fun k hk => by simpa using node k hk
    have h2 : n.objects.find? (fun x => decide (x.1 = s)) = some (s, o) := by
      rw [objects]
      exact find_first _ l r (s, o) (by simp) fun y hy => by simpa using first y hy
    simp [SceneContext.getSteps, h1, h2]
  | here h ih => simpa [SceneContext.getSteps] using ih
  | up h ih => simpa [SceneContext.getSteps] using ih
  | @child n k a s l o x y children name first h ih =>
    have h1 : n.children.find? (fun k => decide (k.name = s)) = some k := by
      rw [children]
      exact find_first _ x y k (by simp [name]) fun y hy => by simpa using first y hy
    simp only [SceneContext.getSteps, h1]
    exact ih

theorem path_get {c : SceneContext} {path : LinkPath} {o : SceneObject} (h : PathDesignates c path o) (cast : SceneObject → Bool) :
    c.get cast path = (some o).filter cast := by
  unfold PathDesignates at h
  unfold SceneContext.get
  split at h <;> rename_i hp
  · rw [if_pos hp, SceneContext.root, List.getLastD_eq_getLast?]
    exact leadsTo_get h cast
  · rw [if_neg hp]
    exact leadsTo_get h cast

theorem path_get_root {c : SceneContext} {path : LinkPath} {o : SceneObject} (h : PathDesignates c path o) (hp : path.absolute = true)
    (cast : SceneObject → Bool) : c.root.get cast path = (some o).filter cast := by
  rw [← path_get h cast]
  simp [SceneContext.get, SceneContext.root, hp]

theorem isTopology_iff (E : FieldElement) (o : SceneObject) : o.isTopology E = true ↔ ∃ i e, o = .topology i E e := by
  cases o with
  | topology i t e =>
    by_cases h : t = E
    · simp [SceneObject.isTopology, SceneObject.asTopology, h]
    · simp [SceneObject.isTopology, SceneObject.asTopology, h]
  | mesh i a d => simp [SceneObject.isTopology, SceneObject.asTopology]
  | other i => simp [SceneObject.isTopology, SceneObject.asTopology]

theorem empty_lower (E : FieldElement) : ¬ ("".toLower = E.name.toLower) := by
  rcases E with ⟨s, p, q⟩
  cases s <;> cases p <;> cases q <;> decide +kernel

/-- **C117** (the topology is written), for absolute paths: without the attribute `template`, the mapping is created for the type of the
elements of the designated topology, and it uses this topology; it is not created when the path designates another object.
Missing: relative paths, for which this is false (`C117_path_violated`). -/
theorem C117_path_partial (c : SceneContext) (path : LinkPath) (o : SceneObject) (ha : path.absolute = true) (ho : PathDesignates c path o) :
    (∀ E i e, Solid E → o = .topology i E e → createMapping ⟨"", some path⟩ true c = some (E, some o)) ∧
    ((∀ E i e, Solid E → o ≠ .topology i E e) → createMapping ⟨"", some path⟩ true c = none) := by
  have can : ∀ E, mappingCanCreate E ⟨"", some path⟩ true c = o.isTopology E := by
    intro E
    have := path_get_root ho ha (SceneObject.isTopology E)
    by_cases e : o.isTopology E = true
    · simp [mappingCanCreate, empty_lower, this, e]
    · simp only [Bool.not_eq_true] at e
      simp [mappingCanCreate, empty_lower, this, e]
  refine ⟨fun E i e hE hEo => ?_, fun hn => ?_⟩
  · have h1 : o.isTopology E = true := (isTopology_iff E o).2 ⟨i, e, hEo⟩
    have hc : sofaCreate mappingCreators none "" (fun E => mappingCanCreate E ⟨"", some path⟩ true c) = some E := by
      refine sofaCreate_unique ((mem_mappingCreators E).2 hE) (by rw [can]; exact h1) fun b _ hb => ?_
      rw [can, isTopology_iff] at hb
      obtain ⟨j, f, hb⟩ := hb
      rw [hEo] at hb
      injection hb with _ h2 _
      exact h2.symm
    simp only [createMapping, hc, path_get ho, Option.filter_some, h1, if_true]
  · have hc : sofaCreate mappingCreators none "" (fun E => mappingCanCreate E ⟨"", some path⟩ true c) = none := by
      cases hs : sofaCreate mappingCreators none "" (fun E => mappingCanCreate E ⟨"", some path⟩ true c) with
      | none => rfl
      | some b =>
        obtain ⟨h1, h2⟩ := sofaCreate_some hs
        rw [can, isTopology_iff] at h1
        obtain ⟨j, f, h1⟩ := h1
        exact absurd h1 (hn b j f ((mem_mappingCreators b).1 h2))
    simp only [createMapping, hc]

/-- A scene: the root holds a topology of hexahedra named `topology` when `atRoot` is set, its child `body` holds a topology of tetrahedra
with the same name; the mapping is in `body`. -/
def exampleScene (atRoot : Bool) : SceneContext :=
  let body := SceneNode.mk "body" [("topology", .topology 1 ⟨.tetrahedron, false, false⟩ [[0, 1, 2, 3]])] []
  ⟨body, [.mk "root" (if atRoot then [("topology", .topology 0 ⟨.hexahedron, false, false⟩ [])] else []) [body]]⟩

/-- The topology of tetrahedra of `exampleScene`. -/
def exampleTopology : SceneObject := .topology 1 ⟨.tetrahedron, false, false⟩ [[0, 1, 2, 3]]

theorem example_relative (b : Bool) : PathDesignates (exampleScene b) ⟨false, [.name "topology"]⟩ exampleTopology := by
  unfold PathDesignates
  rw [if_neg (by simp)]
  exact LeadsTo.object (l := []) (r := []) rfl (by simp) (by simp [exampleScene, SceneNode.children])

theorem example_absolute (b : Bool) :
    PathDesignates (exampleScene b) ⟨true, [.name "body", .name "topology"]⟩ exampleTopology := by
  unfold PathDesignates
  rw [if_pos rfl]
  refine LeadsTo.child (x := []) (y := []) rfl rfl (by simp) (LeadsTo.object (l := []) (r := []) rfl (by simp) ?_)
  simp [SceneNode.children]

example (b : Bool) : createMapping ⟨"", some ⟨true, [.name "body", .name "topology"]⟩⟩ true (exampleScene b) =
    some (⟨.tetrahedron, false, false⟩, some exampleTopology) :=
  (C117_path_partial _ _ _ rfl (example_absolute b)).1 _ 1 _ ⟨Or.inl rfl, rfl⟩ rfl

/-- **C117** is false for relative paths: `canCreate` follows them from the root, while the link follows them from the node of the
mapping.  The designated topology of tetrahedra is refused (first scene), or the mapping is created for the hexahedra of another
topology and uses this one (second scene). -/
theorem C117_path_violated :
    ∃ (c c' : SceneContext) (path : LinkPath) (o other : SceneObject) (i j : ℕ) (e f : List (List ℕ)),
      o = .topology i ⟨.tetrahedron, false, false⟩ e ∧ other = .topology j ⟨.hexahedron, false, false⟩ f ∧
      PathDesignates c path o ∧ createMapping ⟨"", some path⟩ true c = none ∧
      PathDesignates c' path o ∧ createMapping ⟨"", some path⟩ true c' = some (⟨.hexahedron, false, false⟩, some other) := by
  refine ⟨exampleScene false, exampleScene true, ⟨false, [.name "topology"]⟩, exampleTopology, .topology 0 ⟨.hexahedron, false, false⟩ [],
    1, 0, [[0, 1, 2, 3]], [], rfl, rfl, example_relative false, by decide +kernel, example_relative true, ?_⟩
  have h : sofaCreate mappingCreators none "" (fun E => mappingCanCreate E ⟨"", some ⟨false, [.name "topology"]⟩⟩ true (exampleScene true)) =
      some ⟨.hexahedron, false, false⟩ := by decide +kernel
  simp only [createMapping, h]
  rfl

theorem getUp_eq (cast : SceneObject → Bool) (c : SceneContext) : c.getUp cast = (Visible c).find? cast := rfl

theorem mappingSearch_some {E : FieldElement} {c : SceneContext} {o : SceneObject} (h : mappingSearch E c = some o) :
    o ∈ Visible c ∧ o.isTopology E = true := by
  unfold mappingSearch at h
  dsimp only at h
  split at h
  · rename_i x hx
    obtain rfl : x = o := by simpa using h
    split at hx
    · simp at hx
    · rename_i p r hpr
      rw [getUp_eq] at hx
      refine ⟨?_, List.find?_some hx⟩
      have := List.mem_of_find?_eq_some hx
      unfold Visible at this ⊢
      rw [hpr, List.flatMap_cons, List.mem_append]
      exact Or.inr this
  · rw [getUp_eq] at h
    exact ⟨List.mem_of_find?_eq_some h, List.find?_some h⟩

theorem mappingSearch_isSome {E : FieldElement} {c : SceneContext} {o : SceneObject} (h : o ∈ Visible c) (ho : o.isTopology E = true) :
    ∃ x, mappingSearch E c = some x := by
  unfold mappingSearch
  dsimp only
  split
  · exact ⟨_, rfl⟩
  · rw [getUp_eq]
    cases hf : (Visible c).find? (SceneObject.isTopology E) with
    | some x => exact ⟨x, rfl⟩
    | none => exact absurd ho (List.find?_eq_none.1 hf o h)

theorem canSearch (E : FieldElement) (c : SceneContext) :
    mappingCanCreate E ⟨"", none⟩ true c = (mappingSearch E c).isSome := by
  cases h : (mappingSearch E c).isSome <;> simp [mappingCanCreate, empty_lower, h]

/-- **C117** (nothing is written).  A mapping created without the attributes `template` and `topology` uses a topology of its node or of
an ancestor, and is made for the type of its elements; it is created as soon as there is such a topology. -/
theorem C117_search (c : SceneContext) :
    (∀ E b, createMapping ⟨"", none⟩ true c = some (E, b) → ∃ i e, .topology i E e ∈ Visible c ∧ b = some (.topology i E e)) ∧
    ((createMapping ⟨"", none⟩ true c).isSome = true ↔ ∃ E i e, Solid E ∧ .topology i E e ∈ Visible c) := by
  refine ⟨fun E b h => ?_, ?_⟩
  · have h1 := createMapping_fst ⟨"", none⟩ true c
    rw [h] at h1
    obtain ⟨h2, h3⟩ := sofaCreate_some h1.symm
    rw [canSearch] at h2
    obtain ⟨o, ho⟩ := Option.isSome_iff_exists.1 h2
    obtain ⟨h4, h5⟩ := mappingSearch_some ho
    obtain ⟨i, e, rfl⟩ := (isTopology_iff E o).1 h5
    refine ⟨i, e, h4, ?_⟩
    rw [Option.map_some] at h1
    simp only [createMapping, ← h1, ho, Option.some.injEq, Prod.mk.injEq, true_and] at h
    exact h.symm
  · have h1 := createMapping_fst ⟨"", none⟩ true c
    constructor
    · intro h
      obtain ⟨x, hx⟩ := Option.isSome_iff_exists.1 h
      rw [hx] at h1
      obtain ⟨h2, h3⟩ := sofaCreate_some h1.symm
      rw [canSearch] at h2
      obtain ⟨o, ho⟩ := Option.isSome_iff_exists.1 h2
      obtain ⟨h4, h5⟩ := mappingSearch_some ho
      obtain ⟨i, e, rfl⟩ := (isTopology_iff _ o).1 h5
      exact ⟨_, i, e, (mem_mappingCreators _).1 h3, h4⟩
    · rintro ⟨E, i, e, hE, h⟩
      cases hx : createMapping ⟨"", none⟩ true c with
      | some x => rfl
      | none =>
        rw [hx] at h1
        have h2 := sofaCreate_none h1.symm E ((mem_mappingCreators E).2 hE)
        rw [canSearch] at h2
        obtain ⟨x, hx⟩ := mappingSearch_isSome h ((isTopology_iff E _).2 ⟨i, e, rfl⟩)
        rw [hx] at h2
        simp at h2

example : (createMapping ⟨"", none⟩ true (exampleScene false)).isSome = true :=
  (C117_search (exampleScene false)).2.2 ⟨⟨.tetrahedron, false, false⟩, 1, [[0, 1, 2, 3]], ⟨Or.inl rfl, rfl⟩, List.mem_cons_self⟩

/-- **C117** (nothing is written), nearest topology: when all topologies which can be seen have the same type, the mapping uses the
nearest one of its parent and of the ancestors of its parent.  Missing: topologies of several types, for which this is false
(`C117_nearest_violated`). -/
theorem C117_nearest_partial (n p : SceneNode) (r : List SceneNode) (E : FieldElement) (i : ℕ) (e : List (List ℕ))
    (l t : List SceneObject) (hE : Solid E) (near : Visible ⟨p, r⟩ = l ++ .topology i E e :: t)
    (first : ∀ o ∈ l, ∀ j f, o ≠ .topology j E f)
    (same : ∀ E' j f, Solid E' → .topology j E' f ∈ Visible ⟨n, p :: r⟩ → E' = E) :
    createMapping ⟨"", none⟩ true ⟨n, p :: r⟩ = some (E, some (.topology i E e)) := by
  have hs : mappingSearch E ⟨n, p :: r⟩ = some (.topology i E e) := by
    unfold mappingSearch
    simp only [getUp_eq]
    rw [near, find_first _ l t _ ((isTopology_iff E _).2 ⟨i, e, rfl⟩)]
    intro o ho
    by_contra hc
    simp only [Bool.not_eq_false] at hc
    obtain ⟨j, f, rfl⟩ := (isTopology_iff E o).1 hc
    exact first _ ho j f rfl
  have hc : sofaCreate mappingCreators none "" (fun E => mappingCanCreate E ⟨"", none⟩ true ⟨n, p :: r⟩) = some E := by
    refine sofaCreate_unique ((mem_mappingCreators E).2 hE) (by rw [canSearch, hs]; rfl) fun b hb hbc => ?_
    rw [canSearch] at hbc
    obtain ⟨o, ho⟩ := Option.isSome_iff_exists.1 hbc
    obtain ⟨h4, h5⟩ := mappingSearch_some ho
    obtain ⟨j, f, rfl⟩ := (isTopology_iff b o).1 h5
    exact same b j f ((mem_mappingCreators b).1 hb) h4
  simp only [createMapping, hc, hs]

example : createMapping ⟨"", none⟩ true ⟨.mk "skin" [] [], [.mk "body" [("m", .other 7), ("t", .topology 1 ⟨.tetrahedron, false, true⟩ [])] [],
      .mk "root" [("t", .topology 2 ⟨.tetrahedron, false, true⟩ [])] []]⟩ =
    some (⟨.tetrahedron, false, true⟩, some (.topology 1 ⟨.tetrahedron, false, true⟩ [])) :=
  C117_nearest_partial _ _ _ _ 1 [] [.other 7] [.topology 2 ⟨.tetrahedron, false, true⟩ []] ⟨Or.inl rfl, rfl⟩ rfl (by simp)
    (by
      rintro E' j f - h
      simp only [Visible, SceneNode.objects, List.flatMap_cons, List.map_nil, List.nil_append, List.map_cons, List.flatMap_nil, List.append_nil,
        List.cons_append, List.mem_cons, SceneObject.topology.injEq, List.not_mem_nil, or_false, reduceCtorEq, false_or] at h
      rcases h with h | h <;> exact h.2.1)

/-- **C117** (nearest topology) is false in general: the classes are tried in the order of their names, and each of them looks for
its own type in all ancestors.  Here the parent holds tetrahedra, and the mapping is made for the hexahedra of the root. -/
theorem C117_nearest_violated :
    ∃ (n p : SceneNode) (r : List SceneNode) (i j : ℕ) (e f : List (List ℕ)) (t : List SceneObject),
      Visible ⟨p, r⟩ = .topology i ⟨.tetrahedron, false, false⟩ e :: t ∧
      createMapping ⟨"", none⟩ true ⟨n, p :: r⟩ =
        some (⟨.hexahedron, false, false⟩, some (.topology j ⟨.hexahedron, false, false⟩ f)) := by
  refine ⟨.mk "skin" [] [], .mk "body" [("t", .topology 1 ⟨.tetrahedron, false, false⟩ [[0, 1, 2, 3]])] [],
    [.mk "root" [("t", .topology 0 ⟨.hexahedron, false, false⟩ [])] []], 1, 0, [[0, 1, 2, 3]], [],
    [.topology 0 ⟨.hexahedron, false, false⟩ []], rfl, ?_⟩
  have h : sofaCreate mappingCreators none "" (fun E => mappingCanCreate E ⟨"", none⟩ true ⟨.mk "skin" [] [],
      [.mk "body" [("t", .topology 1 ⟨.tetrahedron, false, false⟩ [[0, 1, 2, 3]])] [],
        .mk "root" [("t", .topology 0 ⟨.hexahedron, false, false⟩ [])] []]⟩) = some ⟨.hexahedron, false, false⟩ := by decide +kernel
  simp only [createMapping, h]
  rfl

/-- **C117** (topologies).  A topology whose attribute `template` is the name of an element type is made for this type.  Missing: any
other attribute should be refused (`C117_topology_violated`). -/
theorem C117_topology_partial (E : FieldElement) (h : Solid E ∨ E.shape = .triangle ∨ E.shape = .quad) :
    createTopology E.name = some E := by
  rcases E with ⟨s, p, q⟩
  cases s <;> cases p <;> cases q <;> first | decide +kernel | (simp [Solid] at h)

example : createTopology "Quad8_2D" = some ⟨.quad, true, true⟩ := C117_topology_partial ⟨.quad, true, true⟩ (Or.inr (Or.inr rfl))

/-- **C117** (topologies) is false: with any other attribute, the name of the type in another case for instance, or without it, the topology
is made for linear hexahedra. -/
theorem C117_topology_violated :
    (∀ template : String, (∀ E : FieldElement, E.name ≠ template) → createTopology template = some ⟨.hexahedron, false, false⟩) ∧
    createTopology "tetrahedron" = some ⟨.hexahedron, false, false⟩ ∧ createTopology "" = some ⟨.hexahedron, false, false⟩ := by
  refine ⟨fun template h => ?_, by decide +kernel, by decide +kernel⟩
  have hl : topologyCreators.lookup template = none := by
    cases hl : topologyCreators.lookup template with
    | none => rfl
    | some a =>
      have := lookup_mem _ _ _ hl
      have hn : ∀ x ∈ topologyCreators, x.2.name = x.1 := by decide +kernel
      exact absurd (hn _ this) (h a)
  rw [createTopology, sofaCreate_eq, hl]
  rfl

/-- **C117** (direct solvers).  A direct solver uses the requested backend, and Eigen when none is requested; its data `backend` shows the
backend it uses.  It is created if and only if the backend is available: a missing backend is never replaced. -/
theorem C117_backend (mkl : Bool) (requested : String) :
    (∀ b shown, createSolver mkl requested = some (b, shown) →
      shown = b.name ∧ b.name = if requested = "" then "Eigen" else requested) ∧
    ((createSolver mkl requested).isSome = true ↔
      requested = "" ∨ requested = "Eigen" ∨ (mkl = true ∧ requested = "Pardiso")) := by
  have he : (["Eigen", "Pardiso"] : List String).getD (readOption ["Eigen", "Pardiso"] DirectBackend.eigen.item "Eigen") "" = "Eigen" := by
    decide +kernel
  have hp : (["Eigen", "Pardiso"] : List String).getD (readOption ["Eigen", "Pardiso"] DirectBackend.pardiso.item "Pardiso") "" =
      "Pardiso" := by decide +kernel
  by_cases h0 : requested = ""
  · subst h0
    have : createSolver mkl "" = some (.eigen, "Eigen") := by cases mkl <;> decide +kernel
    rw [this]
    refine ⟨fun b s h => ?_, by simp⟩
    simp only [Option.some.injEq, Prod.mk.injEq] at h
    obtain ⟨rfl, rfl⟩ := h
    exact ⟨rfl, rfl⟩
  by_cases h1 : requested = "Eigen"
  · subst h1
    have : createSolver mkl "Eigen" = some (.eigen, "Eigen") := by cases mkl <;> decide +kernel
    rw [this]
    refine ⟨fun b s h => ?_, by simp⟩
    simp only [Option.some.injEq, Prod.mk.injEq] at h
    obtain ⟨rfl, rfl⟩ := h
    exact ⟨rfl, rfl⟩
  by_cases h2 : requested = "Pardiso"
  · subst h2
    cases mkl with
    | true =>
      have : createSolver true "Pardiso" = some (.pardiso, "Pardiso") := by decide +kernel
      rw [this]
      refine ⟨fun b s h => ?_, by simp⟩
      simp only [Option.some.injEq, Prod.mk.injEq] at h
      obtain ⟨rfl, rfl⟩ := h
      exact ⟨rfl, rfl⟩
    | false =>
      have : createSolver false "Pardiso" = none := by decide +kernel
      rw [this]
      simp
  · have h3 : ∀ b : DirectBackend, (solverCanCreate b requested).1 = false := by
      intro b
      cases b <;> simp [solverCanCreate, h0, h1, h2, DirectBackend.name]
    have : createSolver mkl requested = none := by
      cases mkl <;> simp [createSolver, sofaCreate, solverCreators, h3]
    rw [this]
    simp [h0, h1, h2]

example : createSolver true "Pardiso" = some (.pardiso, "Pardiso") ∧ createSolver false "Pardiso" = none ∧ createSolver true "eigen" = none := by
  decide +kernel

/-- **C117** (direct solvers made by other code).  The data `backend` of a solver which is built without the factory shows the backend it uses as well. -/
theorem C117_constructed (b : DirectBackend) : ["Eigen", "Pardiso"].getD b.item "" = b.name := by
  cases b <;> decide +kernel

example : ["Eigen", "Pardiso"].getD DirectBackend.pardiso.item "" = "Pardiso" := C117_constructed _

/-- **C117** (materials).  A material is created if and only if its attribute `template` is the name of the positions of dimension three,
or if it has none and the mechanical state of its context has such positions. -/
theorem C117_material (requested : String) (state : Option String) :
    createMaterial requested state = true ↔ requested = "Vec3d" ∨ (requested = "" ∧ state = some "Vec3d") := by
  by_cases h : requested = "Vec3d"
  · subst h
    simp [createMaterial, sofaCreate_eq, materialCanCreate, Option.filter]
  · have hb : (requested == "Vec3d") = false := by simpa using h
    by_cases h0 : requested = ""
    · subst h0
      by_cases hs : state = some "Vec3d" <;> simp [createMaterial, sofaCreate, materialCanCreate, hs]
    · simp [createMaterial, sofaCreate, materialCanCreate, h, h0, List.lookup_cons, hb]

example : createMaterial "" (some "Vec3d") = true := (C117_material _ _).2 (Or.inr ⟨rfl, rfl⟩)

end Caribou
