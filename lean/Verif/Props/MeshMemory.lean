import Verif.Model.MeshAssign
import Verif.Lemmas.MeshMemory
import Verif.Props.Mesh

/-!
# Property C134: the memory of meshes
-/

set_option autoImplicit false

namespace Caribou

open World

variable {K : Type*} {m : ℕ}

/-- **C134 (buffers).** After any sequence of calls, every array of indices which is still allocated was allocated by the user or has exactly one owner, a domain which is alive. -/
theorem C134_buffers (fmt : ℕ → String) (hist : List (MeshOp K m)) (w : World K m) (hw : (World.initial K m).run fmt hist = .ok w) (b : ℕ) (hb : (w.buffer b).isSome) :
    (∃ data, MeshOp.newBuffer b data ∈ hist) ∨ ∃! d, ∃ D, w.domain d = some D ∧ D.owned = some b := by
  have h := OwnedBuffers.run (U := fun b => ∃ data, MeshOp.newBuffer b data ∈ hist) hist ownedBuffers_initial (fun b data h => ⟨data, h⟩) hw
  rcases h.buf b hb with hu | ⟨d, D, hD, ho⟩
  · exact .inl hu
  · exact .inr ⟨d, ⟨D, hD, ho⟩, fun d' ⟨D', hD', ho'⟩ => h.inj d' d D' D b hD' hD ho' ho⟩

/-- **C134 (domains).** After any sequence of calls in which domains are added by name, every domain which is alive was created by the user or is in the list of exactly one mesh. -/
theorem C134_domains_partial (fmt : ℕ → String) (hist : List (MeshOp K m)) (hc : ∀ op ∈ hist, op.Checked) (w : World K m) (hw : (World.initial K m).run fmt hist = .ok w) (d : ℕ)
    (hd : (w.domain d).isSome) : (∃ src, MeshOp.newDomain d src ∈ hist) ∨ ∃! a, ∃ M, w.mesh a = some M ∧ d ∈ M.domains.map Prod.snd := by
  have hr := Registry.run hist registry_initial hc hw
  rcases ListedDomains.run (V := fun d => ∃ src, MeshOp.newDomain d src ∈ hist) hist registry_initial listedDomains_initial hc (fun d src h => ⟨src, h⟩) hw d hd with hv | ⟨a, M, x, hM, hx, rfl⟩
  · exact .inl hv
  · refine .inr ⟨a, ⟨M, hM, List.mem_map_of_mem hx⟩, fun a' ⟨M', hM', hx'⟩ => ?_⟩
    obtain ⟨y, hy, hyx⟩ := List.mem_map.1 hx'
    by_contra hne
    exact hr.apart a' a M' M hM' hM hne y hy x hx hyx

/-- What the destruction of a mesh does. -/
theorem deleteMesh_effect {w : World K m} (hr : Registry w) {a : ℕ} {M : MeshObj K m} (hM : w.mesh a = some M) :
    ∃ w', w.deleteMesh a = .ok w' ∧ w'.mesh = Function.update w.mesh a none ∧ (∀ d, w'.domain d = if d ∈ M.domains.map Prod.snd then none else w.domain d) ∧
      ∀ b, w'.buffer b = if (∃ x ∈ M.domains, ∃ D, w.domain x.2 = some D ∧ D.owned = some b) then none else w.buffer b := by
  have h1 : (M.domains.all fun x => (w.domain x.2).isSome) = true := List.all_eq_true.2 (hr.live a M hM)
  have h2 : decide (M.domains.map (·.2)).Nodup = true := decide_eq_true (hr.once a M hM)
  refine ⟨(M.domains.foldl (fun w x => w.destroyDomain x.2) w).setMesh a none, by simp only [World.deleteMesh, hM, h1, h2, Bool.and_self, if_true], ?_, fun d => ?_, fun b => ?_⟩
  · rw [setMesh_mesh, foldl_destroy_mesh]
  · rw [setMesh_domain, foldl_destroy_domain]
  · rw [setMesh_buffer, foldl_destroy_buffers]

/-- **C134 (destruction).** After any such sequence the destruction of a mesh is defined: no domain of it was freed before. It frees the domains of its list and the arrays they own, and nothing else
changes. -/
theorem C134_destroyed_partial (fmt : ℕ → String) (hist : List (MeshOp K m)) (hc : ∀ op ∈ hist, op.Checked) (w : World K m) (hw : (World.initial K m).run fmt hist = .ok w) (a : ℕ)
    (M : MeshObj K m) (hM : w.mesh a = some M) :
    ∃ w', w.deleteMesh a = .ok w' ∧ w'.mesh a = none ∧ (∀ a', a' ≠ a → w'.mesh a' = w.mesh a') ∧
      (∀ d, w'.domain d = if d ∈ M.domains.map Prod.snd then none else w.domain d) ∧
      (∀ b, w'.buffer b = if (∃ x ∈ M.domains, ∃ D, w.domain x.2 = some D ∧ D.owned = some b) then none else w.buffer b) := by
  obtain ⟨w', h1, h2, h3, h4⟩ := deleteMesh_effect (Registry.run hist registry_initial hc hw) hM
  refine ⟨w', h1, by rw [h2, Function.update_self], fun a' ha => by rw [h2, Function.update_of_ne ha], h3, fun b => ?_⟩
  rw [h4]

/-- **C134 (nothing is left).** When every mesh was destroyed and the user allocated nothing on their own, nothing is allocated any more. -/
theorem C134_empty_partial (fmt : ℕ → String) (hist : List (MeshOp K m)) (hc : ∀ op ∈ hist, op.Checked) (hb : ∀ b data, MeshOp.newBuffer b data ∉ hist) (hd : ∀ d src, MeshOp.newDomain d src ∉ hist)
    (w : World K m) (hw : (World.initial K m).run fmt hist = .ok w) (hm : ∀ a, w.mesh a = none) : w = World.initial K m := by
  have h1 : ∀ d, w.domain d = none := by
    intro d
    by_contra hn
    rcases C134_domains_partial fmt hist hc w hw d (Option.isSome_iff_ne_none.2 hn) with ⟨src, h⟩ | ⟨a, ⟨M, hM, -⟩, -⟩
    · exact hd d src h
    · rw [hm a] at hM; cases hM
  have h2 : ∀ b, w.buffer b = none := by
    intro b
    by_contra hn
    rcases C134_buffers fmt hist w hw b (Option.isSome_iff_ne_none.2 hn) with ⟨data, h⟩ | ⟨d, ⟨D, hD, -⟩, -⟩
    · exact hb b data h
    · rw [h1 d] at hD; cases hD
  cases w
  simp only [World.initial, World.mk.injEq]
  exact ⟨funext hm, funext h1, funext h2⟩

/-- **C134 (assignment).** After any such sequence `target = source` gives the target the positions and the names of the source, frees the former domains of the target and the arrays they own, and changes
neither the other meshes nor their domains and arrays. -/
theorem C134_assign_partial (fmt : ℕ → String) (hist : List (MeshOp K m)) (hc : ∀ op ∈ hist, op.Checked) (w : World K m) (hw : (World.initial K m).run fmt hist = .ok w) (target source t : ℕ)
    (M N : MeshObj K m) (hM : w.mesh source = some M) (hN : w.mesh target = some N) (ht : w.mesh t = none) (addrs : List (ℕ × ℕ)) (hl : addrs.length = M.domains.length)
    (hf : ∀ x ∈ addrs, w.domain x.1 = none ∧ w.buffer x.2 = none) (n1 : (addrs.map Prod.fst).Nodup) :
    ∃ w' M', w.assignMesh target source t addrs = .ok w' ∧ w'.mesh target = some M' ∧ M'.nodes = M.nodes ∧ M'.domains.map Prod.fst = M.domains.map Prod.fst ∧
      M'.domains.map Prod.snd = addrs.map Prod.fst ∧ (∀ x ∈ M'.domains, (w'.domain x.2).isSome) ∧
      (∀ a, a ≠ target → w'.mesh a = w.mesh a) ∧ (∀ x ∈ N.domains, w'.domain x.2 = none) ∧ (∀ x ∈ N.domains, ∀ D, w.domain x.2 = some D → ∀ b, D.owned = some b → w'.buffer b = none) ∧
      (∀ a A, a ≠ target → w.mesh a = some A → ∀ x ∈ A.domains, ∃ D, w.domain x.2 = some D ∧ w'.domain x.2 = some D ∧ ∀ b, D.owned = some b → w'.buffer b = w.buffer b) := by
  have hr := Registry.run hist registry_initial hc hw
  have hU := OwnedBuffers.run (U := fun _ => True) hist ownedBuffers_initial (fun _ _ _ => trivial) hw
  obtain ⟨i1, i2, i3, i4, i5⟩ := cloneAll_spec M.domains addrs w hl (hr.live source M hM)
  obtain ⟨f1, f2⟩ := cloneAll_frame M.domains addrs w
  have htt : target ≠ t := by rintro rfl; rw [ht] at hN; cases hN
  have hcopy := hr.copyMesh source t addrs M hM hl (fun x hx => (hf x hx).1) n1
  have hcm : (w.copyMesh source t addrs) = (w.cloneAll M.domains addrs).1.setMesh t (some ⟨M.nodes, (w.cloneAll M.domains addrs).2⟩) := by
    unfold World.copyMesh; rw [hM]
  have hswap := hcopy.swapMesh target t
  have hmesh : ∀ a, ((w.copyMesh source t addrs).swapMesh target t).mesh a =
      if a = target then some ⟨M.nodes, (w.cloneAll M.domains addrs).2⟩ else if a = t then some N else w.mesh a := by
    intro a
    rw [swapMesh_mesh, hcm, setMesh_mesh, i1]
    by_cases e1 : a = target
    · subst e1; simp
    · by_cases e2 : a = t
      · subst e2; simp [e1, Function.update_of_ne htt, hN]
      · rw [Equiv.swap_apply_of_ne_of_ne e1 e2, Function.update_of_ne e2, if_neg e1, if_neg e2]
  have hdom : ∀ d, d ∉ addrs.map Prod.fst → ((w.copyMesh source t addrs).swapMesh target t).domain d = w.domain d := fun d hd => by
    rw [hcm]; exact f1 d hd
  have hbuf : ∀ b, b ∉ addrs.map Prod.snd → ((w.copyMesh source t addrs).swapMesh target t).buffer b = w.buffer b := fun b hb => by
    rw [hcm]; exact f2 b hb
  have hold : ∀ d, (w.domain d).isSome → d ∉ addrs.map Prod.fst := by
    intro d hd hc
    obtain ⟨x, hx, rfl⟩ := List.mem_map.1 hc
    rw [(hf x hx).1] at hd; cases hd
  have holdb : ∀ b, (w.buffer b).isSome → b ∉ addrs.map Prod.snd := by
    intro b hb hc
    obtain ⟨x, hx, rfl⟩ := List.mem_map.1 hc
    rw [(hf x hx).2] at hb; cases hb
  have hNt : ((w.copyMesh source t addrs).swapMesh target t).mesh t = some N := by rw [hmesh, if_neg htt.symm, if_pos rfl]
  obtain ⟨w', k1, k2, k3, k4⟩ := deleteMesh_effect hswap hNt
  have hMt : ((w.copyMesh source t addrs).swapMesh target t).mesh target = some ⟨M.nodes, (w.cloneAll M.domains addrs).2⟩ := by rw [hmesh, if_pos rfl]
  refine ⟨w', ⟨M.nodes, (w.cloneAll M.domains addrs).2⟩, k1, ?_, rfl, i3, i4, fun x hx => ?_, fun a ha => ?_, fun x hx => ?_, fun x hx D hD b ho => ?_, fun a A ha hA x hx => ?_⟩
  · rw [k2, Function.update_of_ne htt, hMt]
  · rw [k3, if_neg]
    · exact hswap.live target _ hMt x hx
    · intro hc
      obtain ⟨y, hy, hyx⟩ := List.mem_map.1 hc
      exact hswap.apart t target N _ hNt hMt htt.symm y hy x hx hyx
  · rw [k2]
    by_cases e : a = t
    · subst e; rw [Function.update_self, ht]
    · rw [Function.update_of_ne e, hmesh, if_neg ha, if_neg e]
  · rw [k3, if_pos (List.mem_map_of_mem hx)]
  · have h1 := hr.live target N hN x hx
    rw [k4, if_pos ⟨x, hx, D, by rw [hdom _ (hold _ h1)]; exact hD, ho⟩]
  · have h1 := hr.live a A hA x hx
    obtain ⟨D, hD⟩ := Option.isSome_iff_exists.1 h1
    refine ⟨D, hD, ?_, fun b ho => ?_⟩
    · rw [k3, if_neg, hdom _ (hold _ h1), hD]
      intro hc
      obtain ⟨y, hy, hyx⟩ := List.mem_map.1 hc
      exact hr.apart target a N A hN hA ha.symm y hy x hx hyx
    · rw [k4, if_neg, hbuf b (holdb b (hU.own _ D b hD ho))]
      rintro ⟨y, hy, E, hE, hEo⟩
      rw [hdom _ (hold _ (hr.live target N hN y hy))] at hE
      exact hr.apart target a N A hN hA ha.symm y hy x hx (hU.inj _ _ E D b hE hD hEo ho)

/-- **C134 (move assignment).** `target = std::move(source)` gives the target the positions and the very domains of the source, leaves the source empty, and frees the former domains of the target. -/
theorem C134_move_partial (fmt : ℕ → String) (hist : List (MeshOp K m)) (hc : ∀ op ∈ hist, op.Checked) (w : World K m) (hw : (World.initial K m).run fmt hist = .ok w) (target source t : ℕ)
    (hne : target ≠ source) (M N : MeshObj K m) (hM : w.mesh source = some M) (hN : w.mesh target = some N) (ht : w.mesh t = none) :
    ∃ w', w.moveAssignMesh target source t = .ok w' ∧ w'.mesh target = some M ∧ w'.mesh source = some ⟨[], []⟩ ∧ (∀ a, a ≠ target → a ≠ source → w'.mesh a = w.mesh a) ∧
      (∀ d, w'.domain d = if d ∈ N.domains.map Prod.snd then none else w.domain d) ∧ (∀ x ∈ M.domains, w'.domain x.2 = w.domain x.2) ∧
      ∀ b, w'.buffer b = if (∃ x ∈ N.domains, ∃ D, w.domain x.2 = some D ∧ D.owned = some b) then none else w.buffer b := by
  have hr := Registry.run hist registry_initial hc hw
  have htt : target ≠ t := by rintro rfl; rw [ht] at hN; cases hN
  have hst : source ≠ t := by rintro rfl; rw [ht] at hM; cases hM
  have hswap := ((hr.emptyMesh t []).swapMesh t source).swapMesh target t
  have hmesh : ∀ a, (((w.setMesh t (some ⟨[], []⟩)).swapMesh t source).swapMesh target t).mesh a =
      if a = target then some M else if a = t then some N else if a = source then some ⟨[], []⟩ else w.mesh a := by
    intro a
    rw [swapMesh_mesh, swapMesh_mesh, setMesh_mesh]
    by_cases e1 : a = target
    · subst e1; simp [Function.update_of_ne hst, hM]
    · by_cases e2 : a = t
      · subst e2
        rw [Equiv.swap_apply_right, Equiv.swap_apply_of_ne_of_ne htt hne, Function.update_of_ne htt, if_neg e1, if_pos rfl, hN]
      · rw [Equiv.swap_apply_of_ne_of_ne e1 e2, if_neg e1, if_neg e2]
        by_cases e3 : a = source
        · subst e3; simp
        · rw [Equiv.swap_apply_of_ne_of_ne e2 e3, Function.update_of_ne e2, if_neg e3]
  obtain ⟨w', k1, k2, k3, k4⟩ := deleteMesh_effect hswap (a := t) (M := N) (by rw [hmesh, if_neg htt.symm, if_pos rfl])
  refine ⟨w', k1, ?_, ?_, fun a h1 h2 => ?_, k3, fun x hx => ?_, k4⟩
  · rw [k2, Function.update_of_ne htt, hmesh, if_pos rfl]
  · rw [k2, Function.update_of_ne hst, hmesh, if_neg hne.symm, if_neg hst, if_pos rfl]
  · rw [k2]
    by_cases e : a = t
    · subst e; rw [Function.update_self, ht]
    · rw [Function.update_of_ne e, hmesh, if_neg h1, if_neg e, if_neg h2]
  · rw [k3, if_neg]
    · rfl
    · intro hc
      obtain ⟨y, hy, hyx⟩ := List.mem_map.1 hc
      exact hr.apart target source N M hN hM hne y hy x hx hyx

/-- **C134, negation.** With domains added by pointer a domain can be freed twice: after a mesh was moved its domains still point to the mesh they come from, which accepts them once more; both meshes own them
then. -/
theorem C134_violated : ∃ (hist : List (MeshOp ℚ 1)) (w w' : World ℚ 1), (World.initial ℚ 1).run exampleFmt hist = .ok w ∧ w.deleteMesh 0 = .ok w' ∧ (w'.mesh 1).isSome ∧ w'.deleteMesh 1 = .undefined :=
  ⟨[.newMesh 0 [![0]], .addNamed 0 "left" 0 (.copied 0 1 [[0]]), .moveMesh 0 1, .addPtr 0 0 "left"], _, _, rfl, rfl, rfl, rfl⟩

/-! ### Examples -/

/-- Two meshes, each one with a domain; the second one is copied to the first one and both are destroyed. -/
def assignHistory : List (MeshOp ℚ 1) :=
  [.newMesh 0 [![0], ![1]], .addNamed 0 "left" 0 (.copied 0 2 [[0, 1]]), .newMesh 1 [![3]], .addNamed 1 "right" 1 (.copied 1 1 [[0]]), .copyMesh 1 2 [(2, 2)], .swapMesh 0 2, .deleteMesh 2,
    .deleteMesh 0, .deleteMesh 1]

example : ∃ w, (World.initial ℚ 1).run exampleFmt assignHistory = .ok w ∧ w = World.initial ℚ 1 := by
  refine ⟨_, rfl, C134_empty_partial exampleFmt assignHistory ?_ ?_ ?_ _ rfl ?_⟩
  · simp [assignHistory, MeshOp.Checked]
  · simp [assignHistory]
  · simp [assignHistory]
  · intro a
    by_cases h0 : a = 0 <;> by_cases h1 : a = 1 <;> by_cases h2 : a = 2 <;> simp_all [World.setMesh, World.swapMesh, World.copyMesh, World.initial, Function.update, World.pushDomain, World.construct,
      World.cloneAll, World.cloneDomain, World.destroyDomain, World.setDomain, World.setBuffer, DomainSource.allocates, DomainSource.build]

end Caribou
