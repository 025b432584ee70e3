import Verif.Spec.PyTopology
import Verif.Lemmas.Mesh

/-! # Lemmas on Python sessions -/

set_option autoImplicit false
set_option linter.all false

namespace Caribou

namespace PySession

open World Spec

variable {K : Type*} {m : ℕ}

theorem holds_iff (vars : List (String × PyObj K)) (a : ℕ) : holds vars a = true ↔ ∃ x, (x, PyObj.mesh a) ∈ vars := by
  unfold holds
  rw [List.any_eq_true]
  constructor
  · rintro ⟨⟨x, v⟩, hv, h⟩
    cases v <;> simp at h
    subst h
    exact ⟨x, hv⟩
  · rintro ⟨x, hx⟩
    exact ⟨_, hx, by simp⟩

theorem foldl_destroy_buffer (l : List (String × ℕ)) (w : World K m) (b : ℕ)
    (h : ∀ x ∈ l, ∀ D, w.domain x.2 = some D → D.owned = some x.2) (hb : b ∉ l.map Prod.snd) :
    (l.foldl (fun w x => w.destroyDomain x.2) w).buffer b = w.buffer b := by
  induction l generalizing w with
  | nil => rfl
  | cons x l ih =>
    rw [List.foldl_cons, ih]
    · unfold destroyDomain
      cases hd : w.domain x.2 with
      | none => rfl
      | some D =>
        have := h x List.mem_cons_self D hd
        simp only [this]
        have hne : b ≠ x.2 := fun e => hb (by simp [e])
        simp [World.setDomain, World.setBuffer, Function.update, hne]
    · intro y hy D hD
      rw [destroyDomain_domain] at hD
      by_cases e : y.2 = x.2
      · simp [Function.update, e] at hD
      · simp [Function.update, e] at hD
        exact h y (List.mem_cons_of_mem _ hy) D hD
    · intro hh; exact hb (by simp at hh ⊢; exact Or.inr hh)

/-- Invariant of sessions. -/
structure Inv (s : PySession K m) : Prop where
  meshFresh : ∀ a, s.next ≤ a → s.world.mesh a = none
  domFresh : ∀ d, s.next ≤ d → s.world.domain d = none
  held : ∀ a, (∃ M, s.world.mesh a = some M) ↔ holds s.vars a = true
  dom : ∀ d D, s.world.domain d = some D → ∃ a M name, D.mesh = .attached a ∧ s.world.mesh a = some M ∧ (name, d) ∈ M.domains ∧
    D.owned = some d
  listed : ∀ a M, s.world.mesh a = some M → ∀ x ∈ M.domains, ∃ D, s.world.domain x.2 = some D ∧ D.mesh = .attached a
  nodup : ∀ a M, s.world.mesh a = some M → (M.domains.map Prod.snd).Nodup
  names : (s.vars.map Prod.fst).Nodup

/-- What is known of a domain added to a mesh: both are alive and as given, or both are gone. -/
structure Track (s : PySession K m) (a d : ℕ) (nodes : List (Fin m → K)) (D : DomainObj) (data : List ℕ) (kind : PyElement) : Prop where
  old : a < s.next ∧ d < s.next
  att : D.mesh = .attached a
  state : (s.world.mesh a = none ∧ s.world.domain d = none) ∨
    (∃ M, s.world.mesh a = some M ∧ M.nodes = nodes ∧ (∃ name, (name, d) ∈ M.domains) ∧ s.world.domain d = some D ∧
      s.world.buffer d = some data ∧ s.kinds d = kind)

/-- What is known of a mesh. -/
structure TrackMesh (s : PySession K m) (a : ℕ) (nodes : List (Fin m → K)) : Prop where
  old : a < s.next
  state : s.world.mesh a = none ∨ ∃ M, s.world.mesh a = some M ∧ M.nodes = nodes

theorem inv_start : Inv (start K m) := by
  constructor <;> simp [start, World.initial, holds]

/-- The state after a mesh was deleted. -/
theorem deleteMesh_eq {s : PySession K m} (hs : ∀ a M, s.world.mesh a = some M → ∀ x ∈ M.domains, ∃ D, s.world.domain x.2 = some D ∧ D.mesh = .attached a)
    (hn : ∀ a M, s.world.mesh a = some M → (M.domains.map Prod.snd).Nodup) (a : ℕ) (M : MeshObj K m) (hM : s.world.mesh a = some M) :
    s.world.deleteMesh a = .ok ((M.domains.foldl (fun w x => w.destroyDomain x.2) s.world).setMesh a none) := by
  unfold World.deleteMesh
  rw [hM]
  have h1 : (M.domains.all fun x => (s.world.domain x.2).isSome) = true := by
    rw [List.all_eq_true]
    intro x hx
    obtain ⟨D, hD, _⟩ := hs a M hM x hx
    simp [hD]
  have h2 : decide (M.domains.map (·.2)).Nodup = true := by simpa using hn a M hM
  simp only [h1, h2, Bool.and_self, if_true]

section vars

theorem filter_names {vars : List (String × PyObj K)} (h : (vars.map Prod.fst).Nodup) (x : String) :
    ((vars.filter (fun y => y.1 ≠ x)).map Prod.fst).Nodup :=
  List.Nodup.sublist (List.Sublist.map _ List.filter_sublist) h

theorem mem_lookup {s : PySession K m} (h : (s.vars.map Prod.fst).Nodup) {x : String} {v : PyObj K} (hv : (x, v) ∈ s.vars) :
    s.lookup x = some v := by
  unfold lookup
  have aux : ∀ l : List (String × PyObj K), (l.map Prod.fst).Nodup → (x, v) ∈ l → l.find? (fun y => y.1 == x) = some (x, v) := by
    intro l
    induction l with
    | nil => intro _ h; cases h
    | cons y l ih =>
      intro hn hm
      rw [List.map_cons, List.nodup_cons] at hn
      by_cases e : y.1 = x
      · rcases List.mem_cons.mp hm with h1 | h1
        · rw [← h1]; simp
        · exact absurd (List.mem_map_of_mem (f := Prod.fst) h1) (by rw [← e] ; exact hn.1)
      · rw [List.find?_cons_of_neg (by simpa using e)]
        rcases List.mem_cons.mp hm with h1 | h1
        · rw [← h1] at e; exact absurd rfl e
        · exact ih hn.2 h1
  rw [aux _ h hv]; rfl

theorem lookup_mem {s : PySession K m} {x : String} {v : PyObj K} (h : s.lookup x = some v) : (x, v) ∈ s.vars := by
  unfold lookup at h
  cases hf : s.vars.find? (fun y => y.1 == x) with
  | none => simp [hf] at h
  | some y =>
    simp [hf] at h
    have h1 := List.mem_of_find?_eq_some hf
    have h2 := List.find?_some hf
    simp at h2
    rw [← h, ← h2]; exact h1

end vars

/-- Dropping a reference: `s` satisfies the invariant except that the mesh of `old` may be held by nobody. -/
theorem release_spec {s : PySession K m} (old : Option (PyObj K))
    (hm : ∀ a, s.next ≤ a → s.world.mesh a = none) (hd : ∀ d, s.next ≤ d → s.world.domain d = none)
    (hheld : ∀ a, holds s.vars a = true → ∃ M, s.world.mesh a = some M)
    (halive : ∀ a M, s.world.mesh a = some M → holds s.vars a = true ∨ old = some (.mesh a))
    (hold : ∀ a, old = some (.mesh a) → ∃ M, s.world.mesh a = some M)
    (dom : ∀ d D, s.world.domain d = some D → ∃ a M name, D.mesh = .attached a ∧ s.world.mesh a = some M ∧ (name, d) ∈ M.domains ∧
      D.owned = some d)
    (listed : ∀ a M, s.world.mesh a = some M → ∀ x ∈ M.domains, ∃ D, s.world.domain x.2 = some D ∧ D.mesh = .attached a)
    (nodup : ∀ a M, s.world.mesh a = some M → (M.domains.map Prod.snd).Nodup)
    (names : (s.vars.map Prod.fst).Nodup) :
    ∃ s', s.release old = .ok s' ∧ Inv s' ∧ s'.vars = s.vars ∧ s'.kinds = s.kinds ∧ s'.next = s.next ∧
      (∀ a d nodes D data kind, Track s a d nodes D data kind → Track s' a d nodes D data kind) ∧
      (∀ a nodes, TrackMesh s a nodes → TrackMesh s' a nodes) := by
  by_cases hcase : ∃ a, old = some (.mesh a) ∧ holds s.vars a = false
  · obtain ⟨a, rfl, hna⟩ := hcase
    obtain ⟨M, hM⟩ := hold a rfl
    have hdel := deleteMesh_eq listed nodup a M hM
    have howned : ∀ x ∈ M.domains, ∀ D, s.world.domain x.2 = some D → D.owned = some x.2 := by
      intro x hx D hD
      obtain ⟨_, _, _, _, _, _, h⟩ := dom x.2 D hD
      exact h
    obtain ⟨w', hw'⟩ : ∃ w', w' = (M.domains.foldl (fun w x => w.destroyDomain x.2) s.world).setMesh a none := ⟨_, rfl⟩
    rw [← hw'] at hdel
    have emesh : w'.mesh = Function.update s.world.mesh a none := by
      rw [hw']; simp [World.setMesh]
    have edom : ∀ d, w'.domain d = if d ∈ M.domains.map Prod.snd then none else s.world.domain d := by
      intro d; rw [hw']; simp only [World.setMesh]; exact foldl_destroy_domain _ _ _
    have ebuf : ∀ b, b ∉ M.domains.map Prod.snd → w'.buffer b = s.world.buffer b := by
      intro b hb; rw [hw']; simp only [World.setMesh]; exact foldl_destroy_buffer _ _ _ howned hb
    have hother : ∀ a' M', a' ≠ a → s.world.mesh a' = some M' → ∀ x ∈ M'.domains, x.2 ∉ M.domains.map Prod.snd := by
      intro a' M' hne hM' x hx hc
      obtain ⟨y, hy, hyx⟩ := List.mem_map.mp hc
      obtain ⟨D1, hD1, h1⟩ := listed a' M' hM' x hx
      obtain ⟨D2, hD2, h2⟩ := listed a M hM y hy
      rw [hyx, hD1] at hD2
      cases hD2
      rw [h1] at h2; cases h2; exact hne rfl
    refine ⟨{ s with world := w' }, ?_, ?_, rfl, rfl, rfl, ?_, ?_⟩
    · unfold release; simp only [hna, hdel]; rfl
    · constructor
      · intro b hb
        simp only [emesh]
        by_cases e : b = a
        · simp [e]
        · simp [Function.update, e]; exact hm b hb
      · intro d hd'
        simp only [edom]
        split_ifs
        · rfl
        · exact hd d hd'
      · intro b
        simp only [emesh]
        by_cases e : b = a
        · subst e; simp [hna]
        · simp only [Function.update, e, dite_false]
          constructor
          · rintro ⟨M', hM'⟩
            rcases halive b M' (by simpa using hM') with h | h
            · exact h
            · cases h; exact absurd rfl e
          · intro h; simpa using hheld b h
      · intro d D hD
        simp only [edom] at hD
        split_ifs at hD with hin
        obtain ⟨b, M', name, h1, h2, h3, h4⟩ := dom d D hD
        refine ⟨b, M', name, h1, ?_, h3, h4⟩
        simp only [emesh]
        have e : b ≠ a := by
          rintro rfl
          rw [hM] at h2; cases h2
          exact hin (List.mem_map.mpr ⟨_, h3, rfl⟩)
        simp [Function.update, e, h2]
      · intro b M' hM' x hx
        simp only [emesh] at hM'
        by_cases e : b = a
        · simp [e] at hM'
        · simp [Function.update, e] at hM'
          obtain ⟨D, hD, h1⟩ := listed b M' hM' x hx
          refine ⟨D, ?_, h1⟩
          simp only [edom]
          rw [if_neg (hother b M' e hM' x hx)]; exact hD
      · intro b M' hM'
        simp only [emesh] at hM'
        by_cases e : b = a
        · simp [e] at hM'
        · simp [Function.update, e] at hM'
          exact nodup b M' hM'
      · exact names
    · intro a' d nodes D data kind ht
      refine ⟨ht.old, ht.att, ?_⟩
      simp only [emesh, edom]
      rcases ht.state with ⟨h1, h2⟩ | ⟨M', h1, h2, ⟨name, h3⟩, h4, h5, h6⟩
      · left
        constructor
        · by_cases e : a' = a
          · simp [e]
          · simp [Function.update, e, h1]
        · split_ifs
          · rfl
          · exact h2
      · by_cases e : a' = a
        · subst e
          rw [hM] at h1; cases h1
          left
          refine ⟨by simp, ?_⟩
          rw [if_pos (List.mem_map.mpr ⟨_, h3, rfl⟩)]
        · right
          have hnin := hother a' M' e h1 _ h3
          refine ⟨M', by simp [Function.update, e, h1], h2, ⟨name, h3⟩, ?_, ?_, h6⟩
          · rw [if_neg hnin]; exact h4
          · rw [ebuf _ hnin]; exact h5
    · intro a' nodes ht
      refine ⟨ht.old, ?_⟩
      simp only [emesh]
      by_cases e : a' = a
      · left; simp [e]
      · simp only [Function.update, e, dite_false]; exact ht.state
  · have hrel : s.release old = .ok s := by
      unfold release
      cases old with
      | none => rfl
      | some v =>
        cases v <;> try rfl
        rename_i a
        have : holds s.vars a = true := by
          by_contra h
          exact hcase ⟨a, rfl, by simpa using h⟩
        simp [this]
    refine ⟨s, hrel, ⟨hm, hd, ?_, dom, listed, nodup, names⟩, rfl, rfl, rfl, fun _ _ _ _ _ _ h => h, fun _ _ h => h⟩
    intro a
    constructor
    · rintro ⟨M, hM⟩
      rcases halive a M hM with h | h
      · exact h
      · by_contra hc
        exact hcase ⟨a, h, by simpa using hc⟩
    · exact hheld a

/-- Removing a variable. -/
theorem filter_release {s : PySession K m} (hs : Inv s) (x : String) (extra : List (String × PyObj K))
    (hextra : ∀ y ∈ extra, y.1 = x) (hn : (extra.map Prod.fst).Nodup)
    (hx : ∀ y a, (y, PyObj.mesh a) ∈ extra → ∃ M, s.world.mesh a = some M) :
    ∃ s', ({ s with vars := extra ++ s.vars.filter (fun y => y.1 ≠ x) } : PySession K m).release (s.lookup x) = .ok s' ∧ Inv s' ∧
      s'.vars = extra ++ s.vars.filter (fun y => y.1 ≠ x) ∧ s'.kinds = s.kinds ∧ s'.next = s.next ∧
      (∀ a d nodes D data kind, Track s a d nodes D data kind → Track s' a d nodes D data kind) ∧
      (∀ a nodes, TrackMesh s a nodes → TrackMesh s' a nodes) := by
  obtain ⟨s', h1, h2, h3, h4, h5, h6, h7⟩ := release_spec
    (s := { s with vars := extra ++ s.vars.filter (fun y => y.1 ≠ x) }) (s.lookup x) hs.meshFresh hs.domFresh
    (by
      intro a ha
      rw [holds_iff] at ha
      obtain ⟨y, hy⟩ := ha
      rcases List.mem_append.mp hy with h | h
      · exact hx y a h
      · exact (hs.held a).mpr ((holds_iff _ _).mpr ⟨y, List.mem_of_mem_filter h⟩))
    (by
      intro a M hM
      have := (hs.held a).mp ⟨M, hM⟩
      rw [holds_iff] at this
      obtain ⟨y, hy⟩ := this
      by_cases e : y = x
      · right; rw [← e]; exact mem_lookup hs.names hy
      · left
        rw [holds_iff]
        exact ⟨y, List.mem_append_right _ (List.mem_filter.mpr ⟨hy, by simpa using e⟩)⟩)
    (by
      intro a ha
      exact (hs.held a).mpr ((holds_iff _ _).mpr ⟨x, lookup_mem ha⟩))
    hs.dom hs.listed hs.nodup
    (by
      simp only [List.map_append]
      refine List.Nodup.append hn (filter_names hs.names x) ?_
      intro z hz1 hz2
      obtain ⟨y, hy, rfl⟩ := List.mem_map.mp hz1
      obtain ⟨y', hy', he⟩ := List.mem_map.mp hz2
      have := (List.mem_filter.mp hy').2
      simp at this
      exact this (he.trans (hextra y hy)))
  refine ⟨s', h1, h2, h3, h4, h5, ?_, ?_⟩
  · intro a d nodes D data kind ht
    exact h6 a d nodes D data kind ⟨ht.old, ht.att, ht.state⟩
  · intro a nodes ht
    exact h7 a nodes ⟨ht.old, ht.state⟩

theorem bind_spec {s : PySession K m} (hs : Inv s) (x : String) (v : PyObj K) (hv : ∀ a, v = .mesh a → ∃ M, s.world.mesh a = some M) :
    ∃ s', s.bind x v = .ok s' ∧ Inv s' ∧ s'.vars = (x, v) :: s.vars.filter (fun y => y.1 ≠ x) ∧ s'.kinds = s.kinds ∧ s'.next = s.next ∧
      (∀ a d nodes D data kind, Track s a d nodes D data kind → Track s' a d nodes D data kind) ∧
      (∀ a nodes, TrackMesh s a nodes → TrackMesh s' a nodes) :=
  filter_release hs x [(x, v)] (by simp) (by simp) (by
    intro y a h
    simp at h
    exact hv a h.2.symm)

/-- The state after `add_domain` on a live mesh. -/
def added (s : PySession K m) (a : ℕ) (M : MeshObj K m) (name : String) (kind : PyElement) (cols : ℕ) (table : List (List ℤ)) : PySession K m :=
  { s with
    world :=
      { mesh := Function.update s.world.mesh a (some { M with domains := M.domains ++ [(name, s.next)] })
        domain := Function.update s.world.domain s.next
          (some ⟨.attached a, some s.next, ⟨s.next, table.length, cols, cols, 1⟩⟩)
        buffer := Function.update s.world.buffer s.next (some (table.map fun r => r.map toUnsigned).flatten) }
    kinds := Function.update s.kinds s.next kind
    next := s.next + 1 }

theorem addDomain_eq (fmt : ℕ → String) (s : PySession K m) (a : ℕ) (M : MeshObj K m) (hM : s.world.mesh a = some M)
    (name : Option String) (kind : PyElement) (table : List (List ℤ)) :
    s.addDomain fmt a name kind kind.nodes table =
      .ok (s.added a M (name.getD ("domain_" ++ fmt s.next)) kind kind.nodes table, .domain s.next) := by
  have key : ∀ nm : String, (s.world.construct s.next .null (.copied s.next kind.nodes (table.map fun r => r.map toUnsigned))).addPtr a s.next nm =
      .ok (s.added a M nm kind kind.nodes table).world := by
    intro nm
    simp [World.addPtr, World.construct, DomainSource.allocates, DomainSource.build, World.setBuffer, World.setDomain, hM,
      World.attachTo, World.pushDomain, World.setMesh, added]
  unfold addDomain
  simp only [ne_eq, not_true_eq_false, if_false]
  cases name with
  | none => simp only [World.addPtrAnonymous, key]; rfl
  | some nm => simp only [key]; rfl

theorem addDomain_cols (fmt : ℕ → String) (s : PySession K m) (a : ℕ) (name : Option String) (kind : PyElement) (cols : ℕ)
    (table : List (List ℤ)) (h : cols ≠ kind.nodes) : s.addDomain fmt a name kind cols table = .throws (s, .nothing) := by
  unfold addDomain; rw [if_pos h]

theorem added_inv {s : PySession K m} (hs : Inv s) (a : ℕ) (M : MeshObj K m) (hM : s.world.mesh a = some M) (name : String)
    (kind : PyElement) (cols : ℕ) (table : List (List ℤ)) : Inv (s.added a M name kind cols table) := by
  have ha : a < s.next := by
    by_contra h
    rw [hs.meshFresh a (by omega)] at hM; cases hM
  have hfresh : ∀ b M', s.world.mesh b = some M' → s.next ∉ M'.domains.map Prod.snd := by
    intro b M' hM' hin
    obtain ⟨x, hx, he⟩ := List.mem_map.mp hin
    obtain ⟨D, hD, _⟩ := hs.listed b M' hM' x hx
    rw [he, hs.domFresh _ le_rfl] at hD; cases hD
  constructor
  · intro b hb
    simp only [added] at hb ⊢
    have : b ≠ a := by omega
    simp [Function.update, this]; exact hs.meshFresh b (by omega)
  · intro d hd
    simp only [added] at hd ⊢
    have : d ≠ s.next := by omega
    simp [Function.update, this]; exact hs.domFresh d (by omega)
  · intro b
    simp only [added]
    rw [← hs.held b]
    by_cases e : b = a
    · subst e; simp [hM]
    · simp [Function.update, e]
  · intro d D hD
    simp only [added] at hD ⊢
    by_cases e : d = s.next
    · subst e
      simp at hD
      subst hD
      exact ⟨a, { M with domains := M.domains ++ [(name, s.next)] }, name, rfl, by simp, by simp, rfl⟩
    · simp [Function.update, e] at hD
      obtain ⟨b, M', nm, h1, h2, h3, h4⟩ := hs.dom d D hD
      by_cases eb : b = a
      · subst eb
        rw [hM] at h2; cases h2
        exact ⟨b, { M with domains := M.domains ++ [(name, s.next)] }, nm, h1, by simp, by simp [h3], h4⟩
      · exact ⟨b, M', nm, h1, by simp [Function.update, eb, h2], h3, h4⟩
  · intro b M' hM' x hx
    simp only [added] at hM' ⊢
    by_cases eb : b = a
    · subst eb
      simp at hM'
      subst hM'
      simp at hx
      rcases hx with hx | hx
      · obtain ⟨D, hD, h1⟩ := hs.listed b M hM x hx
        have : x.2 ≠ s.next := by
          intro e; exact hfresh b M hM (List.mem_map.mpr ⟨x, hx, e⟩)
        exact ⟨D, by simp [Function.update, this, hD], h1⟩
      · subst hx
        exact ⟨_, by simp; rfl, rfl⟩
    · simp [Function.update, eb] at hM'
      obtain ⟨D, hD, h1⟩ := hs.listed b M' hM' x hx
      have : x.2 ≠ s.next := by
        intro e; exact hfresh b M' hM' (List.mem_map.mpr ⟨x, hx, e⟩)
      exact ⟨D, by simp [Function.update, this, hD], h1⟩
  · intro b M' hM'
    simp only [added] at hM'
    by_cases eb : b = a
    · subst eb
      simp at hM'
      subst hM'
      exact nodup_ids_append (hs.nodup b M hM) (hfresh b M hM)
    · simp [Function.update, eb] at hM'
      exact hs.nodup b M' hM'
  · exact hs.names

theorem added_track {s : PySession K m} (a : ℕ) (M : MeshObj K m) (hM : s.world.mesh a = some M) (name : String)
    (kind : PyElement) (cols : ℕ) (table : List (List ℤ)) {a' d nodes D data k} (ht : Track s a' d nodes D data k) :
    Track (s.added a M name kind cols table) a' d nodes D data k := by
  have hd : d ≠ s.next := by have := ht.old; omega
  refine ⟨⟨by simp only [added]; have := ht.old; omega, by simp only [added]; have := ht.old; omega⟩, ht.att, ?_⟩
  simp only [added, Function.update, hd, dite_false]
  rcases ht.state with ⟨h1, h2⟩ | ⟨M', h1, h2, ⟨nm, h3⟩, h4⟩
  · left
    refine ⟨?_, h2⟩
    have : a' ≠ a := by rintro rfl; rw [hM] at h1; cases h1
    simp [this, h1]
  · right
    by_cases e : a' = a
    · subst e
      rw [hM] at h1; cases h1
      exact ⟨{ M with domains := M.domains ++ [(name, s.next)] }, by simp, h2, ⟨nm, by simp [h3]⟩, by simpa using h4⟩
    · exact ⟨M', by simp [e, h1], h2, ⟨nm, h3⟩, by simpa using h4⟩

theorem added_trackMesh {s : PySession K m} (a : ℕ) (M : MeshObj K m) (hM : s.world.mesh a = some M) (name : String)
    (kind : PyElement) (cols : ℕ) (table : List (List ℤ)) {a' nodes} (ht : TrackMesh s a' nodes) :
    TrackMesh (s.added a M name kind cols table) a' nodes := by
  refine ⟨by simp only [added]; have := ht.old; omega, ?_⟩
  simp only [added, Function.update]
  by_cases e : a' = a
  · subst e
    right
    rcases ht.state with h | ⟨M', h1, h2⟩
    · rw [hM] at h; cases h
    · rw [hM] at h1; cases h1
      exact ⟨{ M with domains := M.domains ++ [(name, s.next)] }, by simp, h2⟩
  · simpa [e] using ht.state

/-- What a new domain is. -/
theorem added_new {s : PySession K m} (hs : Inv s) (a : ℕ) (M : MeshObj K m) (hM : s.world.mesh a = some M) (name : String)
    (kind : PyElement) (cols : ℕ) (table : List (List ℤ)) :
    Track (s.added a M name kind cols table) a s.next M.nodes ⟨.attached a, some s.next, ⟨s.next, table.length, cols, cols, 1⟩⟩
      (table.map fun r => r.map toUnsigned).flatten kind := by
  have ha : a < s.next := by
    by_contra h
    rw [hs.meshFresh a (by omega)] at hM; cases hM
  refine ⟨⟨by simp only [added]; omega, by simp only [added]; omega⟩, rfl, Or.inr ?_⟩
  exact ⟨{ M with domains := M.domains ++ [(name, s.next)] }, by simp [added], rfl, ⟨name, by simp⟩, by simp [added], by simp [added],
    by simp [added]⟩

/-- The state once a mesh was allocated: the mesh is not yet held by a variable. -/
def allocated (s : PySession K m) (nodes : List (Fin m → K)) : PySession K m :=
  { s with world := s.world.setMesh s.next (some ⟨nodes, []⟩), next := s.next + 1 }

theorem allocated_track {s : PySession K m} (nodes : List (Fin m → K)) {a' d nodes' D data k} (ht : Track s a' d nodes' D data k) :
    Track (s.allocated nodes) a' d nodes' D data k := by
  have ha : a' ≠ s.next := by have := ht.old; omega
  refine ⟨⟨by simp only [allocated]; have := ht.old; omega, by simp only [allocated]; have := ht.old; omega⟩, ht.att, ?_⟩
  simpa [allocated, World.setMesh, Function.update, ha] using ht.state

theorem allocated_trackMesh {s : PySession K m} (nodes : List (Fin m → K)) {a' nodes'} (ht : TrackMesh s a' nodes') :
    TrackMesh (s.allocated nodes) a' nodes' := by
  have ha : a' ≠ s.next := by have := ht.old; omega
  refine ⟨by simp only [allocated]; have := ht.old; omega, ?_⟩
  simpa [allocated, World.setMesh, Function.update, ha] using ht.state

theorem allocated_bind {s : PySession K m} (hs : Inv s) (nodes : List (Fin m → K)) (x : String) :
    ∃ s', (s.allocated nodes).bind x (.mesh s.next) = .ok s' ∧ Inv s' ∧
      s'.vars = (x, .mesh s.next) :: s.vars.filter (fun y => y.1 ≠ x) ∧ s'.kinds = s.kinds ∧ s'.next = s.next + 1 ∧
      (∀ a d nodes D data kind, Track s a d nodes D data kind → Track s' a d nodes D data kind) ∧
      (∀ a nodes, TrackMesh s a nodes → TrackMesh s' a nodes) ∧ TrackMesh s' s.next nodes := by
  have hmesh : ∀ b, b ≠ s.next → (s.allocated nodes).world.mesh b = s.world.mesh b := by
    intro b hb; simp [allocated, World.setMesh, Function.update, hb]
  have hself : (s.allocated nodes).world.mesh s.next = some ⟨nodes, []⟩ := by simp [allocated, World.setMesh]
  have hne : ∀ b M, s.world.mesh b = some M → b ≠ s.next := by
    rintro b M hM rfl; rw [hs.meshFresh _ le_rfl] at hM; cases hM
  obtain ⟨s', h1, h2, h3, h4, h5, h6, h7⟩ := release_spec
    (s := { s.allocated nodes with vars := (x, .mesh s.next) :: s.vars.filter (fun y => y.1 ≠ x) }) (s.lookup x)
    (by
      intro b hb
      simp only [allocated] at hb
      show (s.allocated nodes).world.mesh b = none
      rw [hmesh b (by omega)]; exact hs.meshFresh b (by omega))
    (by intro d hd; simp only [allocated] at hd; exact hs.domFresh d (by omega))
    (by
      intro b hb
      show ∃ M, (s.allocated nodes).world.mesh b = some M
      rw [holds_iff] at hb
      obtain ⟨y, hy⟩ := hb
      rcases List.mem_cons.mp hy with h | h
      · cases h; exact ⟨_, hself⟩
      · obtain ⟨M, hM⟩ := (hs.held b).mpr ((holds_iff _ _).mpr ⟨y, List.mem_of_mem_filter h⟩)
        exact ⟨M, by rw [hmesh b (hne b M hM)]; exact hM⟩)
    (by
      intro b M hM
      change (s.allocated nodes).world.mesh b = some M at hM
      by_cases e : b = s.next
      · left; rw [holds_iff]; exact ⟨x, by rw [e]; exact List.mem_cons_self⟩
      · rw [hmesh b e] at hM
        have := (hs.held b).mp ⟨M, hM⟩
        rw [holds_iff] at this
        obtain ⟨y, hy⟩ := this
        by_cases e : y = x
        · right; rw [← e]; exact mem_lookup hs.names hy
        · left
          rw [holds_iff]
          exact ⟨y, List.mem_cons_of_mem _ (List.mem_filter.mpr ⟨hy, by simpa using e⟩)⟩)
    (by
      intro b hb
      show ∃ M, (s.allocated nodes).world.mesh b = some M
      obtain ⟨M, hM⟩ := (hs.held b).mpr ((holds_iff _ _).mpr ⟨x, lookup_mem hb⟩)
      exact ⟨M, by rw [hmesh b (hne b M hM)]; exact hM⟩)
    (by
      intro d D hD
      obtain ⟨b, M, nm, g1, g2, g3, g4⟩ := hs.dom d D hD
      exact ⟨b, M, nm, g1, (hmesh b (hne b M g2)).trans g2, g3, g4⟩)
    (by
      intro b M hM y hy
      change (s.allocated nodes).world.mesh b = some M at hM
      by_cases e : b = s.next
      · rw [e, hself] at hM; cases hM; cases hy
      · rw [hmesh b e] at hM; exact hs.listed b M hM y hy)
    (by
      intro b M hM
      change (s.allocated nodes).world.mesh b = some M at hM
      by_cases e : b = s.next
      · rw [e, hself] at hM; cases hM; simp
      · rw [hmesh b e] at hM; exact hs.nodup b M hM)
    (by
      simp only [List.map_cons]
      rw [List.nodup_cons]
      refine ⟨?_, filter_names hs.names x⟩
      intro hin
      obtain ⟨y, hy, he⟩ := List.mem_map.mp hin
      have := (List.mem_filter.mp hy).2
      simp at this
      exact this he)
  have hl : (s.allocated nodes).lookup x = s.lookup x := rfl
  refine ⟨s', by unfold bind; rw [hl]; exact h1, h2, h3, h4, h5, ?_, ?_, ?_⟩
  · intro a d nodes' D data kind ht
    have := allocated_track nodes ht
    exact h6 a d nodes' D data kind ⟨this.old, this.att, this.state⟩
  · intro a nodes' ht
    have := allocated_trackMesh nodes ht
    exact h7 a nodes' ⟨this.old, this.state⟩
  · exact h7 s.next nodes ⟨by simp [allocated], Or.inr ⟨_, hself, rfl⟩⟩

/-! ### Calls -/

variable [CommRing K]

/-- What a call can do to the state. -/
theorem eval_cases (fmt : ℕ → String) (locate : List (List (List (Option K))) → List K → Option (ℕ × List K)) {s : PySession K m}
    (hs : Inv s) (call : PyCall K m) :
    s.eval fmt locate call = .undefined ∨ s.eval fmt locate call = .throws (s, .nothing) ∨
    (∃ v, s.eval fmt locate call = .ok (s, v) ∧ ∀ a, v = .mesh a → ∃ M, s.world.mesh a = some M) ∨
    (∃ nodes, call = .newMesh nodes ∧ s.eval fmt locate call = .ok (s.allocated nodes, .mesh s.next)) ∨
    (∃ x a M name kind table, call = .addDomain x name kind kind.nodes table ∧ s.lookup x = some (.mesh a) ∧ s.world.mesh a = some M ∧
      s.eval fmt locate call = .ok (s.added a M (name.getD ("domain_" ++ fmt s.next)) kind kind.nodes table, .domain s.next)) := by
  have halive : ∀ x a, s.lookup x = some (.mesh a) → ∃ M, s.world.mesh a = some M := fun x a h =>
    (hs.held a).mpr ((holds_iff _ _).mpr ⟨x, lookup_mem h⟩)
  cases call with
  | newMesh nodes => exact Or.inr (Or.inr (Or.inr (Or.inl ⟨nodes, rfl, rfl⟩)))
  | name x =>
    cases hx : s.lookup x with
    | none => right; left; simp [eval, hx]
    | some v =>
      right; right; left
      exact ⟨v, by simp [eval, hx], fun a e => halive x a (by rw [hx, e])⟩
  | addDomain x name kind cols table =>
    by_cases hc : cols = kind.nodes
    · subst hc
      cases hx : s.lookup x with
      | none => right; left; simp [eval, hx]
      | some v =>
        cases v with
        | mesh a =>
          obtain ⟨M, hM⟩ := halive x a hx
          right; right; right; right
          exact ⟨x, a, M, name, kind, table, rfl, hx, hM, by simp only [eval, hx]; exact addDomain_eq fmt s a M hM name kind table⟩
        | _ => right; left; simp [eval, hx]
    · right; left
      simp only [eval]
      split
      · exact addDomain_cols fmt s _ name kind cols table hc
      · rfl
  | domainNamed x name =>
    simp only [eval]
    split
    · right; right; left
      split
      · exact ⟨_, rfl, by simp⟩
      · exact ⟨_, rfl, by simp⟩
    · right; left; rfl
  | domainAt x i =>
    simp only [eval]
    split
    · split
      · left; rfl
      · split
        · right; right; left; exact ⟨_, rfl, by simp⟩
        · left; rfl
    · right; left; rfl
  | positions x idx =>
    simp only [eval]
    split
    · split
      · left; rfl
      · split
        · right; right; left; exact ⟨_, rfl, by simp⟩
        · left; rfl
    · right; left; rfl
  | meshOf x =>
    simp only [eval]
    split
    · split
      · left; rfl
      · rename_i d _ D hD
        split
        · rename_i a ha
          right; right; left
          refine ⟨_, rfl, ?_⟩
          rintro b ⟨⟩
          obtain ⟨b', M, nm, g1, g2, _⟩ := hs.dom _ D hD
          rw [ha] at g1; cases g1
          exact ⟨M, g2⟩
        · right; right; left; exact ⟨_, rfl, by simp⟩
        · left; rfl
    · right; left; rfl
  | size x =>
    simp only [eval]
    split
    · split
      · left; rfl
      · right; right; left; exact ⟨_, rfl, by simp⟩
    · right; left; rfl
  | element x e =>
    simp only [eval]
    split
    · split
      · right; right; left; exact ⟨_, rfl, by simp⟩
      · left; rfl
    · right; left; rfl
  | elementIndices x e =>
    simp only [eval]
    split
    · split
      · left; rfl
      · right; right; left; exact ⟨_, rfl, by simp⟩
    · right; left; rfl
  | readIndices x =>
    simp only [eval]
    split
    · split
      · right; right; left; exact ⟨_, rfl, by simp⟩
      · left; rfl
    · right; left; rfl
  | embed x cols points =>
    simp only [eval]
    split
    · split
      · left; rfl
      · split
        · right; left; rfl
        · split
          · split
            · right; left; rfl
            · right; right; left; exact ⟨_, rfl, by simp⟩
          · left; rfl
    · right; left; rfl
  | interpolate x rows cols values =>
    simp only [eval]
    split
    · split
      · left; rfl
      · split
        · split
          · left; rfl
          · split
            · right; left; rfl
            · split
              · right; right; left; exact ⟨_, rfl, by simp⟩
              · left; rfl
        · left; rfl
    · right; left; rfl

/-- A statement keeps the invariant and what is known of domains and meshes. -/
theorem step_spec (fmt : ℕ → String) (locate : List (List (List (Option K))) → List K → Option (ℕ × List K)) {s : PySession K m}
    (hs : Inv s) (c : PyStmt K m) :
    s.step fmt locate c = .undefined ∨
    ∃ s', (s.step fmt locate c = .ok s' ∨ s.step fmt locate c = .throws s') ∧ Inv s' ∧
      (∀ a d nodes D data kind, Track s a d nodes D data kind → Track s' a d nodes D data kind) ∧
      (∀ a nodes, TrackMesh s a nodes → TrackMesh s' a nodes) := by
  cases c with
  | assign x call =>
    rcases eval_cases fmt locate hs call with h | h | ⟨v, h, hv⟩ | ⟨nodes, -, h⟩ | ⟨y, a, M, name, kind, table, -, -, hM, h⟩
    · left; simp [step, h]
    · right; exact ⟨s, Or.inr (by simp [step, h]), hs, fun _ _ _ _ _ _ h => h, fun _ _ h => h⟩
    · right
      obtain ⟨s', h1, h2, -, -, -, h6, h7⟩ := bind_spec hs x v hv
      exact ⟨s', Or.inl (by simp [step, h, h1]), h2, h6, h7⟩
    · right
      obtain ⟨s', h1, h2, -, -, -, h6, h7, -⟩ := allocated_bind hs nodes x
      exact ⟨s', Or.inl (by simp [step, h, h1]), h2, h6, h7⟩
    · right
      obtain ⟨s', h1, h2, -, -, -, h6, h7⟩ := bind_spec (added_inv hs a M hM _ kind kind.nodes table) x (.domain s.next) (by simp)
      refine ⟨s', Or.inl (by simp only [step, h]; exact h1), h2, ?_, ?_⟩
      · intro a' d nodes D data k ht
        exact h6 _ _ _ _ _ _ (added_track a M hM _ kind kind.nodes table ht)
      · intro a' nodes ht
        exact h7 _ _ (added_trackMesh a M hM _ kind kind.nodes table ht)
  | del x =>
    right
    cases hx : s.lookup x with
    | none => exact ⟨s, Or.inr (by simp [step, hx]), hs, fun _ _ _ _ _ _ h => h, fun _ _ h => h⟩
    | some v =>
      obtain ⟨s', h1, h2, -, -, -, h6, h7⟩ := filter_release hs x [] (by simp) (by simp) (by simp)
      refine ⟨s', Or.inl ?_, h2, h6, h7⟩
      simp only [step, hx]
      rw [hx] at h1
      exact h1

theorem run_spec (fmt : ℕ → String) (locate : List (List (List (Option K))) → List K → Option (ℕ × List K)) (prog : List (PyStmt K m)) :
    ∀ {s s' : PySession K m}, Inv s → s.run fmt locate prog = .ok s' → Inv s' ∧
      (∀ a d nodes D data kind, Track s a d nodes D data kind → Track s' a d nodes D data kind) ∧
      (∀ a nodes, TrackMesh s a nodes → TrackMesh s' a nodes) := by
  induction prog with
  | nil =>
    intro s s' hs h
    simp [run] at h
    subst h
    exact ⟨hs, fun _ _ _ _ _ _ h => h, fun _ _ h => h⟩
  | cons c rest ih =>
    intro s s' hs h
    rcases step_spec fmt locate hs c with h1 | ⟨s1, h1, h2, h3, h4⟩
    · simp [run, h1] at h
    · have hrun : s1.run fmt locate rest = .ok s' := by
        rcases h1 with h1 | h1 <;> simpa [run, h1] using h
      obtain ⟨g1, g2, g3⟩ := ih h2 hrun
      exact ⟨g1, fun a d nodes D data kind ht => g2 _ _ _ _ _ _ (h3 _ _ _ _ _ _ ht), fun a nodes ht => g3 _ _ (h4 _ _ ht)⟩

/-! ### Reading a domain -/

theorem toUnsigned_of (z : ℤ) (h0 : 0 ≤ z) (h1 : z < 4294967296) : toUnsigned z = z.toNat := by
  unfold toUnsigned
  rw [Int.emod_eq_of_lt h0 h1]

theorem pyRow_ok (hm : m ≤ 3) (M : MeshObj K m) (i : ℕ) (p : Fin m → K) (h : M.nodes[i]? = some p) :
    pyRow M m i = .ok (List.ofFn fun c => some (p c)) := by
  simp only [pyRow, MeshObj.node, MeshObj.position, h]
  have : m = 0 ∨ m = 1 ∨ m = 2 ∨ m = 3 := by omega
  rcases this with rfl | rfl | rfl | rfl <;> simp [List.ofFn_succ] <;> rfl

theorem pyRows_ok (hm : m ≤ 3) (M : MeshObj K m) (row : List ℤ) (h0 : ∀ z ∈ row, 0 ≤ z) (h1 : ∀ z ∈ row, z < M.nodes.length) :
    ∃ rows, pyRows M m (row.map Int.toNat) = .ok rows ∧ Designates M.nodes row rows := by
  induction row with
  | nil => exact ⟨[], rfl, List.Forall₂.nil⟩
  | cons z row ih =>
    obtain ⟨rows, e1, e2⟩ := ih (fun x hx => h0 x (List.mem_cons_of_mem _ hx)) (fun x hx => h1 x (List.mem_cons_of_mem _ hx))
    have a0 := h0 z List.mem_cons_self
    have a1 := h1 z List.mem_cons_self
    have hz : z.toNat < M.nodes.length := by omega
    have hp := List.getElem?_eq_getElem hz
    refine ⟨(List.ofFn fun c => some (M.nodes[z.toNat] c)) :: rows, ?_, List.Forall₂.cons ⟨_, hp, rfl⟩ e2⟩
    simp only [List.map_cons, pyRows, pyRow_ok hm M _ _ hp, e1]

theorem table_indices (w : World K m) (d a : ℕ) (cols : ℕ) (table : List (List ℤ)) (hcols : ∀ r ∈ table, r.length = cols)
    (h0 : ∀ r ∈ table, ∀ z ∈ r, 0 ≤ z) (h1 : ∀ r ∈ table, ∀ z ∈ r, z < 4294967296)
    (hb : w.buffer d = some (table.map fun r => r.map toUnsigned).flatten) (e : ℕ) (row : List ℤ) (he : table[e]? = some row) :
    w.elementIndices ⟨.attached a, some d, ⟨d, table.length, cols, cols, 1⟩⟩ e cols = .ok (row.map Int.toNat) := by
  obtain ⟨hlt, hrow⟩ := List.getElem?_eq_some_iff.mp he
  have hmem : row ∈ table := hrow ▸ List.getElem_mem hlt
  have hlen : row.length = cols := hcols row hmem
  have hcols' : ∀ r ∈ (table.map fun r => r.map toUnsigned), r.length = cols := by
    intro r hr
    obtain ⟨r', hr', rfl⟩ := List.mem_map.mp hr
    simpa using hcols r' hr'
  have hget : ∀ j (hj : j < cols), (table.map fun r => r.map toUnsigned).flatten[e * cols + j]? = some (row[j]'(by omega)).toNat := by
    intro j hj
    rw [flatten_get cols _ hcols' e j (by simpa using hlt) hj]
    simp only [List.getElem_map, hrow, List.getElem?_map]
    rw [List.getElem?_eq_getElem (by omega : j < row.length), Option.map_some]
    have : row[j] ∈ row := List.getElem_mem _
    rw [toUnsigned_of _ (h0 row hmem _ this) (h1 row hmem _ this)]
  rw [elementIndices_ok w _ _ hb e cols (by
    intro j hj
    have := (List.getElem?_eq_some_iff.mp (hget j hj)).1
    simpa using this)]
  congr 1
  apply List.ext_getElem
  · simp [hlen]
  · intro j h2 h3
    have hj : j < cols := by simpa using h2
    simp [hget j hj]

end PySession

end Caribou
