import Verif.Lemmas.Mesh

/-! Lemmas on the memory of meshes: which domains and buffers are alive. -/

set_option autoImplicit false
set_option linter.all false

namespace Caribou

open World

variable {K : Type*} {m : ℕ}

/-- Buffers: those owned by a domain are alive, have one owner, and the others are among `U`. -/
structure OwnedBuffers (U : ℕ → Prop) (w : World K m) : Prop where
  own : ∀ d D b, w.domain d = some D → D.owned = some b → (w.buffer b).isSome
  inj : ∀ d d' D D' b, w.domain d = some D → w.domain d' = some D' → D.owned = some b → D'.owned = some b → d = d'
  buf : ∀ b, (w.buffer b).isSome → U b ∨ ∃ d D, w.domain d = some D ∧ D.owned = some b

/-- Domains which are not among `V` are listed by a mesh. -/
def ListedDomains (V : ℕ → Prop) (w : World K m) : Prop :=
  ∀ d, (w.domain d).isSome → V d ∨ ∃ a M x, w.mesh a = some M ∧ x ∈ M.domains ∧ x.2 = d

variable {U V : ℕ → Prop} {w w' : World K m}

theorem OwnedBuffers.congr (h : OwnedBuffers U w) (hd : w'.domain = w.domain) (hb : w'.buffer = w.buffer) : OwnedBuffers U w' :=
  ⟨by rw [hd, hb]; exact h.own, by rw [hd]; exact h.inj, by rw [hd, hb]; exact h.buf⟩

theorem OwnedBuffers.user (h : OwnedBuffers U w) (b : ℕ) (data) (hb : w.buffer b = none) (hU : U b) : OwnedBuffers U (w.setBuffer b (some data)) := by
  refine ⟨fun d D b' hD ho => ?_, h.inj, fun b' hb' => ?_⟩
  · rw [setBuffer_buffer]
    by_cases e : b' = b
    · subst e; simp
    · rw [Function.update_of_ne e]; exact h.own d D b' hD ho
  · rw [setBuffer_buffer] at hb'
    by_cases e : b' = b
    · subst e; exact .inl hU
    · rw [Function.update_of_ne e] at hb'; exact h.buf b' hb'

theorem OwnedBuffers.alloc (h : OwnedBuffers U w) (d b : ℕ) (data) (D : DomainObj) (hb : w.buffer b = none) (hd : w.domain d = none) (ho : D.owned = some b) :
    OwnedBuffers U ((w.setBuffer b (some data)).setDomain d (some D)) := by
  have hne : ∀ x E, w.domain x = some E → x ≠ d := by rintro x E hx rfl; rw [hd] at hx; cases hx
  have hnb : ∀ x E, w.domain x = some E → E.owned ≠ some b := by
    intro x E hx hc
    have := h.own x E b hx hc
    rw [hb] at this; cases this
  have split : ∀ x E, ((w.setBuffer b (some data)).setDomain d (some D)).domain x = some E → (x = d ∧ E = D) ∨ w.domain x = some E := by
    intro x E hx
    rw [setDomain_domain, setBuffer_domain] at hx
    by_cases e : x = d
    · subst e
      rw [Function.update_self] at hx
      exact .inl ⟨rfl, (Option.some.inj hx).symm⟩
    · rw [Function.update_of_ne e] at hx; exact .inr hx
  refine ⟨fun x E b' hx hE => ?_, fun x y E F b' hx hy hE hF => ?_, fun b' hb' => ?_⟩
  · rw [setDomain_buffer, setBuffer_buffer]
    by_cases e : b' = b
    · subst e; simp
    · rw [Function.update_of_ne e]
      rcases split x E hx with ⟨-, rfl⟩ | hx
      · rw [ho] at hE; exact absurd (Option.some.inj hE).symm e
      · exact h.own x E b' hx hE
  · rcases split x E hx with ⟨ex, eE⟩ | hx' <;> rcases split y F hy with ⟨ey, eF⟩ | hy'
    · rw [ex, ey]
    · rw [eE, ho] at hE; rw [Option.some.inj hE] at hnb; exact absurd hF (hnb y F hy')
    · rw [eF, ho] at hF; rw [Option.some.inj hF] at hnb; exact absurd hE (hnb x E hx')
    · exact h.inj x y E F b' hx' hy' hE hF
  · rw [setDomain_buffer, setBuffer_buffer] at hb'
    by_cases e : b' = b
    · subst e; exact .inr ⟨d, D, by simp, ho⟩
    · rw [Function.update_of_ne e] at hb'
      rcases h.buf b' hb' with hu | ⟨x, E, hx, hE⟩
      · exact .inl hu
      · exact .inr ⟨x, E, by rw [setDomain_domain, setBuffer_domain, Function.update_of_ne (hne x E hx)]; exact hx, hE⟩

theorem OwnedBuffers.relink (h : OwnedBuffers U w) (d : ℕ) (D : DomainObj) (hd : ∀ E, w.domain d = some E → E.owned = D.owned) (hn : w.domain d = none → D.owned = none) :
    OwnedBuffers U (w.setDomain d (some D)) := by
  have back : ∀ x E b, (w.setDomain d (some D)).domain x = some E → E.owned = some b → ∃ E', w.domain x = some E' ∧ E'.owned = some b := by
    intro x E b hx hE
    rw [setDomain_domain] at hx
    by_cases e : x = d
    · subst e
      rw [Function.update_self] at hx
      obtain rfl := Option.some.inj hx
      cases hw : w.domain x with
      | none => rw [hn hw] at hE; cases hE
      | some E' => exact ⟨E', rfl, by rw [hd E' hw]; exact hE⟩
    · rw [Function.update_of_ne e] at hx; exact ⟨E, hx, hE⟩
  refine ⟨fun x E b hx hE => ?_, fun x y E F b hx hy hE hF => ?_, fun b hb => ?_⟩
  · obtain ⟨E', h1, h2⟩ := back x E b hx hE
    exact h.own x E' b h1 h2
  · obtain ⟨E', h1, h2⟩ := back x E b hx hE
    obtain ⟨F', k1, k2⟩ := back y F b hy hF
    exact h.inj x y E' F' b h1 k1 h2 k2
  · rcases h.buf b hb with hu | ⟨x, E, hx, hE⟩
    · exact .inl hu
    · refine .inr ?_
      by_cases e : x = d
      · subst e
        exact ⟨x, D, by simp, by rw [← hd E hx]; exact hE⟩
      · exact ⟨x, E, by rw [setDomain_domain, Function.update_of_ne e]; exact hx, hE⟩

theorem OwnedBuffers.construct (h : OwnedBuffers U w) (d : ℕ) (f) (src : DomainSource) (hf : w.freshFor d src = true) : OwnedBuffers U (w.construct d f src) := by
  have hd := fresh_domain hf
  have hn : ∀ (D : DomainObj) E, w.domain d = some E → E.owned = D.owned := by intro D E hE; rw [hd] at hE; cases hE
  cases src with
  | copied b c t =>
    simp only [World.freshFor, DomainSource.allocates, Bool.and_eq_true, Option.isNone_iff_eq_none] at hf
    exact h.alloc d b _ _ hf.2 hd rfl
  | external b r c => exact h.relink d _ (hn _) fun _ => rfl
  | strided b r c o i => exact h.relink d _ (hn _) fun _ => rfl

/-- The buffers after the destruction of a domain. -/
theorem destroyDomain_buffer (w : World K m) (d b : ℕ) :
    (w.destroyDomain d).buffer b = if (∃ D, w.domain d = some D ∧ D.owned = some b) then none else w.buffer b := by
  unfold World.destroyDomain
  cases hd : w.domain d with
  | none => simp
  | some D =>
    cases ho : D.owned with
    | none => simp [ho]
    | some b' =>
      by_cases e : b = b'
      · subst e; simp [ho]
      · have : ¬b' = b := fun hc => e hc.symm
        simp [ho, Function.update_of_ne e, this]

theorem OwnedBuffers.destroy (h : OwnedBuffers U w) (d : ℕ) : OwnedBuffers U (w.destroyDomain d) := by
  have back : ∀ x E, (w.destroyDomain d).domain x = some E → x ≠ d ∧ w.domain x = some E := by
    intro x E hx
    rw [destroyDomain_domain] at hx
    have hne : x ≠ d := by rintro rfl; simp at hx
    rw [Function.update_of_ne hne] at hx
    exact ⟨hne, hx⟩
  refine ⟨fun x E b hx hE => ?_, fun x y E F b hx hy hE hF => h.inj x y E F b (back x E hx).2 (back y F hy).2 hE hF, fun b hb => ?_⟩
  · obtain ⟨h1, h2⟩ := back x E hx
    rw [destroyDomain_buffer, if_neg]
    · exact h.own x E b h2 hE
    · rintro ⟨D, hD, ho⟩
      exact h1 (h.inj x d E D b h2 hD hE ho)
  · rw [destroyDomain_buffer] at hb
    split at hb
    · cases hb
    · rename_i hn
      rcases h.buf b hb with hu | ⟨x, E, hx, hE⟩
      · exact .inl hu
      · have hne : x ≠ d := by rintro rfl; exact hn ⟨E, hx, hE⟩
        exact .inr ⟨x, E, by rw [destroyDomain_domain, Function.update_of_ne hne]; exact hx, hE⟩

theorem OwnedBuffers.foldl_destroy (l : List (String × ℕ)) (h : OwnedBuffers U w) : OwnedBuffers U (l.foldl (fun w x => w.destroyDomain x.2) w) := by
  induction l generalizing w with
  | nil => exact h
  | cons x l ih => exact ih (h.destroy x.2)

/-- The buffers after the destruction of several domains. -/
theorem foldl_destroy_buffers (l : List (String × ℕ)) (w : World K m) (b : ℕ) :
    (l.foldl (fun w x => w.destroyDomain x.2) w).buffer b = if (∃ x ∈ l, ∃ D, w.domain x.2 = some D ∧ D.owned = some b) then none else w.buffer b := by
  induction l generalizing w with
  | nil => simp
  | cons x l ih =>
    rw [List.foldl_cons, ih, destroyDomain_buffer]
    by_cases h1 : ∃ D, w.domain x.2 = some D ∧ D.owned = some b
    · rw [if_pos h1, ite_self, if_pos ⟨x, List.mem_cons_self, h1⟩]
    · rw [if_neg h1]
      congr 1
      rw [eq_iff_iff]
      constructor
      · rintro ⟨y, hy, D, hD, ho⟩
        rw [destroyDomain_domain] at hD
        have hne : y.2 ≠ x.2 := by intro hc; rw [hc] at hD; simp at hD
        rw [Function.update_of_ne hne] at hD
        exact ⟨y, List.mem_cons_of_mem _ hy, D, hD, ho⟩
      · rintro ⟨y, hy, D, hD, ho⟩
        have hne : y.2 ≠ x.2 := by intro hc; rw [hc] at hD; exact h1 ⟨D, hD, ho⟩
        rcases List.mem_cons.1 hy with rfl | hy
        · exact absurd rfl hne
        · exact ⟨y, hy, D, by rw [destroyDomain_domain, Function.update_of_ne hne]; exact hD, ho⟩

theorem OwnedBuffers.addPtr (h : OwnedBuffers U w) (a d : ℕ) (s : String) (hw : w.addPtr a d s = .ok w' ∨ w.addPtr a d s = .throws w') : OwnedBuffers U w' := by
  rcases addPtr_cases w a d s with e | e | ⟨M, D, x, hM, hD, hf, hx, hxd, hxs, e⟩ | ⟨M, D, hM, hD, hf, hn, e⟩ | ⟨M, D, hM, hD, hf, e⟩ <;>
    rw [e] at hw <;> rcases hw with hw | hw <;> cases hw
  · exact h
  · exact h
  · exact h.congr (pushDomain_domain ..) (pushDomain_buffer ..)
  · refine (h.relink d { D with mesh := .attached a } ?_ ?_).congr (pushDomain_domain ..) (pushDomain_buffer ..)
    · intro E hE; rw [hD] at hE; cases hE; rfl
    · intro hE; rw [hD] at hE; cases hE

theorem OwnedBuffers.removeWith (h : OwnedBuffers U w) (p) (a : ℕ) (r) (hw : w.removeWith p a = .ok r ∨ w.removeWith p a = .throws r) : OwnedBuffers U r.2 := by
  rcases removeWith_cases p w a with e | e | e | ⟨M, x, rest, hM, hl, hp, hd, e⟩ <;> rw [e] at hw <;> rcases hw with hw | hw <;> cases hw
  · exact h
  · exact (h.congr (w' := w.setMesh a (some { M with domains := rest })) rfl rfl).destroy x.2

theorem cloneDomain_frame (w : World K m) (d d' b : ℕ) : (∀ x, x ≠ d' → (w.cloneDomain d d' b).domain x = w.domain x) ∧ (∀ x, x ≠ b → (w.cloneDomain d d' b).buffer x = w.buffer x) := by
  unfold World.cloneDomain
  cases w.domain d with
  | none => exact ⟨fun _ _ => rfl, fun _ _ => rfl⟩
  | some D =>
    refine ⟨fun x hx => ?_, fun x hx => ?_⟩
    · simp [Function.update_of_ne hx]
    · simp [Function.update_of_ne hx]

theorem OwnedBuffers.cloneAll (l : List (String × ℕ)) (addrs : List (ℕ × ℕ)) (h : OwnedBuffers U w) (hf : ∀ x ∈ addrs, w.domain x.1 = none ∧ w.buffer x.2 = none)
    (h1 : (addrs.map Prod.fst).Nodup) (h2 : (addrs.map Prod.snd).Nodup) : OwnedBuffers U (w.cloneAll l addrs).1 := by
  induction l generalizing addrs w with
  | nil => cases addrs <;> exact h
  | cons x l ih =>
    cases addrs with
    | nil => exact h
    | cons p addrs =>
      obtain ⟨d', b⟩ := p
      rw [List.map_cons, List.nodup_cons] at h1 h2
      obtain ⟨f1, f2⟩ := hf (d', b) List.mem_cons_self
      obtain ⟨k1, k2⟩ := cloneDomain_frame w x.2 d' b
      refine ih addrs ?_ (fun y hy => ?_) h1.2 h2.2
      · unfold World.cloneDomain
        cases w.domain x.2 with
        | none => exact h
        | some D => exact h.alloc d' b _ _ f2 f1 rfl
      · have e1 : y.1 ≠ d' := fun hc => h1.1 (List.mem_map.2 ⟨y, hy, hc⟩)
        have e2 : y.2 ≠ b := fun hc => h2.1 (List.mem_map.2 ⟨y, hy, hc⟩)
        rw [k1 _ e1, k2 _ e2]
        exact hf y (List.mem_cons_of_mem _ hy)

/-- A domain after the copy of a mesh is one from before or a new one. -/
theorem cloneAll_domains (l : List (String × ℕ)) (addrs : List (ℕ × ℕ)) (w : World K m) (d : ℕ) (hd : ((w.cloneAll l addrs).1.domain d).isSome) :
    (w.domain d).isSome ∨ ∃ x ∈ (w.cloneAll l addrs).2, x.2 = d := by
  induction l generalizing addrs w with
  | nil => cases addrs <;> exact .inl hd
  | cons x l ih =>
    cases addrs with
    | nil => exact .inl hd
    | cons p addrs =>
      obtain ⟨d', b⟩ := p
      rcases ih addrs (w.cloneDomain x.2 d' b) hd with h | ⟨y, hy, rfl⟩
      · by_cases e : d = d'
        · subst e; exact .inr ⟨_, List.mem_cons_self, rfl⟩
        · rw [(cloneDomain_frame w x.2 d' b).1 _ e] at h; exact .inl h
      · exact .inr ⟨y, List.mem_cons_of_mem _ hy, rfl⟩

/-- A copy leaves the other domains and buffers. -/
theorem cloneAll_frame (l : List (String × ℕ)) (addrs : List (ℕ × ℕ)) (w : World K m) :
    (∀ d, d ∉ addrs.map Prod.fst → (w.cloneAll l addrs).1.domain d = w.domain d) ∧ (∀ b, b ∉ addrs.map Prod.snd → (w.cloneAll l addrs).1.buffer b = w.buffer b) := by
  induction l generalizing addrs w with
  | nil => cases addrs <;> exact ⟨fun _ _ => rfl, fun _ _ => rfl⟩
  | cons x l ih =>
    cases addrs with
    | nil => exact ⟨fun _ _ => rfl, fun _ _ => rfl⟩
    | cons p addrs =>
      obtain ⟨d', b⟩ := p
      obtain ⟨i1, i2⟩ := ih addrs (w.cloneDomain x.2 d' b)
      obtain ⟨k1, k2⟩ := cloneDomain_frame w x.2 d' b
      refine ⟨fun d hd => ?_, fun c hc => ?_⟩
      · rw [List.map_cons, List.mem_cons, not_or] at hd
        exact (i1 d hd.2).trans (k1 d hd.1)
      · rw [List.map_cons, List.mem_cons, not_or] at hc
        exact (i2 c hc.2).trans (k2 c hc.1)

theorem fresh_copy {a a' : ℕ} {addrs : List (ℕ × ℕ)} (hc : ((w.mesh a').isNone && (addrs.all fun x => (w.domain x.1).isNone && (w.buffer x.2).isNone) &&
    addrs.length == ((w.mesh a).map fun M => M.domains.length).getD 0 && decide (addrs.map (·.1)).Nodup && decide (addrs.map (·.2)).Nodup) = true) :
    w.mesh a' = none ∧ (∀ x ∈ addrs, w.domain x.1 = none ∧ w.buffer x.2 = none) ∧ addrs.length = ((w.mesh a).map fun M => M.domains.length).getD 0 ∧
      (addrs.map Prod.fst).Nodup ∧ (addrs.map Prod.snd).Nodup := by
  simp only [Bool.and_eq_true, List.all_eq_true, beq_iff_eq, decide_eq_true_eq, Option.isNone_iff_eq_none] at hc
  exact ⟨hc.1.1.1.1, fun x hx => hc.1.1.1.2 x hx, hc.1.1.2, hc.1.2, hc.2⟩

/-- Every call keeps the ownership of buffers. -/
theorem OwnedBuffers.step {fmt : ℕ → String} (h : OwnedBuffers U w) (op : MeshOp K m) (hU : ∀ b data, op = .newBuffer b data → U b)
    (hw : w.step fmt op = .ok w' ∨ w.step fmt op = .throws w') : OwnedBuffers U w' := by
  cases op with
  | newMesh a nodes =>
    simp only [World.step] at hw
    split at hw <;> rcases hw with hw | hw <;> cases hw
    exact h.congr rfl rfl
  | newBuffer b data =>
    simp only [World.step] at hw
    split at hw <;> rcases hw with hw | hw <;> cases hw
    rename_i hf
    exact h.user b data (Option.isNone_iff_eq_none.1 hf) (hU b data rfl)
  | newDomain d src =>
    simp only [World.step] at hw
    split at hw
    · rename_i hf
      rcases hw with hw | hw <;> cases hw
      exact h.construct d _ src hf
    · rcases hw with hw | hw <;> cases hw
  | addNamed a s d src =>
    simp only [World.step] at hw
    split at hw
    · rename_i hf
      unfold World.addNamed at hw
      split at hw
      · rcases hw with hw | hw <;> cases hw
      · split at hw
        · rcases hw with hw | hw <;> cases hw; exact h
        · exact (h.construct d _ src hf).addPtr a d s hw
    · rcases hw with hw | hw <;> cases hw
  | addAnonymous a d src =>
    simp only [World.step] at hw
    split at hw
    · rename_i hf
      unfold World.addAnonymous at hw
      split at hw
      · rcases hw with hw | hw <;> cases hw
      · exact (h.construct d _ src hf).addPtr a d _ hw
    · rcases hw with hw | hw <;> cases hw
  | addPtr a d s => exact h.addPtr a d s hw
  | addPtrAnonymous a d => exact h.addPtr a d _ hw
  | attachTo d a =>
    simp only [World.step] at hw
    rcases attachTo_cases w d a with e | e | e | ⟨D, hD, hf, e⟩ <;> rw [e] at hw <;> rcases hw with hw | hw <;> cases hw
    · exact h
    · exact h
    · refine h.relink d _ ?_ ?_
      · intro E hE; rw [hD] at hE; cases hE; rfl
      · intro hE; rw [hD] at hE; cases hE
  | removeDomain a s =>
    simp only [World.step, World.removeDomain] at hw
    rcases hr : w.removeWith (fun x => x.1 == s) a with r | r | _ | _ <;> rw [hr] at hw <;> rcases hw with hw | hw <;>
      simp only [Outcome.world] at hw <;> cases hw
    · exact h.removeWith _ a r (Or.inl hr)
    · exact h.removeWith _ a r (Or.inr hr)
  | remove a d =>
    simp only [World.step, World.remove] at hw
    rcases hr : w.removeWith (fun x => x.2 == d) a with r | r | _ | _ <;> rw [hr] at hw <;> rcases hw with hw | hw <;>
      simp only [Outcome.world] at hw <;> cases hw
    · exact h.removeWith _ a r (Or.inl hr)
    · exact h.removeWith _ a r (Or.inr hr)
  | copyMesh a a' addrs =>
    simp only [World.step] at hw
    split at hw <;> rcases hw with hw | hw <;> cases hw
    rename_i hc
    obtain ⟨c1, c2, c3, c4, c5⟩ := fresh_copy hc
    unfold World.copyMesh
    cases hM : w.mesh a with
    | none => exact h
    | some M => exact (h.cloneAll M.domains addrs c2 c4 c5).congr rfl rfl
  | moveMesh a a' =>
    simp only [World.step] at hw
    split at hw <;> rcases hw with hw | hw <;> cases hw
    exact h.congr rfl rfl
  | swapMesh a a' =>
    simp only [World.step] at hw
    split at hw <;> rcases hw with hw | hw <;> cases hw
    exact h.congr rfl rfl
  | deleteMesh a =>
    simp only [World.step, World.deleteMesh] at hw
    cases hM : w.mesh a with
    | none => rw [hM] at hw; rcases hw with hw | hw <;> cases hw
    | some M =>
      rw [hM] at hw
      simp only at hw
      split at hw
      · rcases hw with hw | hw <;> cases hw
        exact (h.foldl_destroy _).congr rfl rfl
      · rcases hw with hw | hw <;> cases hw

theorem OwnedBuffers.run {fmt : ℕ → String} (ops : List (MeshOp K m)) {w w' : World K m} (h : OwnedBuffers U w) (hU : ∀ b data, MeshOp.newBuffer b data ∈ ops → U b)
    (hw : w.run fmt ops = .ok w') : OwnedBuffers U w' := by
  induction ops generalizing w with
  | nil => simp only [World.run] at hw; cases hw; exact h
  | cons op ops ih =>
    simp only [World.run] at hw
    have h1 : ∀ b data, op = .newBuffer b data → U b := by rintro b data rfl; exact hU b data List.mem_cons_self
    have h2 := fun b data ho => hU b data (List.mem_cons_of_mem _ ho)
    rcases hs : w.step fmt op with w1 | w1 | _ | _ <;> rw [hs] at hw <;> simp only at hw
    · exact ih (h.step op h1 (Or.inl hs)) h2 hw
    · exact ih (h.step op h1 (Or.inr hs)) h2 hw
    · cases hw
    · cases hw

theorem ownedBuffers_initial : OwnedBuffers U (World.initial K m) := by
  constructor <;> simp [World.initial]

/-! ### Domains -/

theorem ListedDomains.setMesh (h : ListedDomains V w) (a : ℕ) (M' : Option (MeshObj K m))
    (hk : ∀ M, w.mesh a = some M → ∀ x ∈ M.domains, V x.2 ∨ ∃ N, M' = some N ∧ ∃ y ∈ N.domains, y.2 = x.2) : ListedDomains V (w.setMesh a M') := by
  intro d hd
  rcases h d hd with hv | ⟨a1, M, x, hM, hx, rfl⟩
  · exact .inl hv
  · by_cases e : a1 = a
    · subst e
      rcases hk M hM x hx with hv | ⟨N, hN, y, hy, hyx⟩
      · exact .inl hv
      · exact .inr ⟨a1, N, y, by rw [setMesh_mesh, Function.update_self]; exact hN, hy, hyx⟩
    · exact .inr ⟨a1, M, x, by rw [setMesh_mesh, Function.update_of_ne e]; exact hM, hx, rfl⟩

theorem ListedDomains.step {fmt : ℕ → String} (hr : Registry w) (h : ListedDomains V w) (op : MeshOp K m) (hop : op.Checked) (hV : ∀ d src, op = .newDomain d src → V d)
    (hw : w.step fmt op = .ok w' ∨ w.step fmt op = .throws w') : ListedDomains V w' := by
  have removal : ∀ p a r, (w.removeWith p a = .ok r ∨ w.removeWith p a = .throws r) → ListedDomains V r.2 := by
    intro p a r hw
    rcases removeWith_cases p w a with e | e | e | ⟨M, x, rest, hM, hl, hp, hd, e⟩ <;> rw [e] at hw <;> rcases hw with hw | hw <;> cases hw
    · exact h
    · intro d hd
      rw [destroyDomain_domain, setMesh_domain] at hd
      have hne : d ≠ x.2 := by rintro rfl; simp at hd
      rw [Function.update_of_ne hne] at hd
      rcases h d hd with hv | ⟨a1, M1, y, hM1, hy, rfl⟩
      · exact .inl hv
      · by_cases e1 : a1 = a
        · subst e1
          rw [hM] at hM1
          obtain rfl := Option.some.inj hM1
          rw [hl] at hy
          rcases List.mem_cons.1 hy with rfl | hy
          · exact absurd rfl hne
          · exact .inr ⟨a1, _, y, by rw [destroyDomain_mesh, setMesh_mesh, Function.update_self], hy, rfl⟩
        · exact .inr ⟨a1, M1, y, by rw [destroyDomain_mesh, setMesh_mesh, Function.update_of_ne e1]; exact hM1, hy, rfl⟩
  cases op with
  | newMesh a nodes =>
    simp only [World.step] at hw
    split at hw <;> rcases hw with hw | hw <;> cases hw
    rename_i hn
    refine h.setMesh a _ fun M hM => ?_
    rw [Option.isNone_iff_eq_none] at hn
    rw [hn] at hM; cases hM
  | newBuffer b data =>
    simp only [World.step] at hw
    split at hw <;> rcases hw with hw | hw <;> cases hw
    exact h
  | newDomain d src =>
    simp only [World.step] at hw
    split at hw <;> rcases hw with hw | hw <;> cases hw
    intro x hx
    rw [construct_domain] at hx
    by_cases e : x = d
    · subst e; exact .inl (hV x src rfl)
    · rw [Function.update_of_ne e] at hx
      rw [construct_mesh]
      exact h x hx
  | addNamed a s d src =>
    simp only [World.step] at hw
    split at hw
    · rename_i hf
      have hd := fresh_domain hf
      rcases addNamed_ok (w := w) (a := a) (d := d) (s := s) (src := src) (fun M hM => hr.fresh hd a M hM) with e | ⟨M, hM, hs, e⟩ | ⟨M, hM, hs, e⟩ <;>
        rw [e] at hw <;> rcases hw with hw | hw <;> cases hw
      · exact h
      · intro x hx
        rw [pushDomain_domain, construct_domain] at hx
        rw [pushDomain_mesh _ a s d M (by rw [construct_mesh]; exact hM), construct_mesh]
        by_cases e : x = d
        · subst e
          exact .inr ⟨a, _, (s, x), Function.update_self .., List.mem_append_right _ List.mem_cons_self, rfl⟩
        · rw [Function.update_of_ne e] at hx
          rcases h x hx with hv | ⟨a1, M1, y, hM1, hy, rfl⟩
          · exact .inl hv
          · by_cases e1 : a1 = a
            · subst e1
              rw [hM] at hM1
              obtain rfl := Option.some.inj hM1
              exact .inr ⟨a1, _, y, Function.update_self .., List.mem_append_left _ hy, rfl⟩
            · exact .inr ⟨a1, M1, y, by rw [Function.update_of_ne e1]; exact hM1, hy, rfl⟩
    · rcases hw with hw | hw <;> cases hw
  | addAnonymous => exact hop.elim
  | addPtr => exact hop.elim
  | addPtrAnonymous => exact hop.elim
  | attachTo d a =>
    simp only [World.step] at hw
    rcases attachTo_cases w d a with e | e | e | ⟨D, hD, hf, e⟩ <;> rw [e] at hw <;> rcases hw with hw | hw <;> cases hw
    · exact h
    · exact h
    · intro x hx
      refine h x ?_
      rw [setDomain_domain] at hx
      by_cases e : x = d
      · subst e; rw [hD]; rfl
      · rw [Function.update_of_ne e] at hx; exact hx
  | removeDomain a s =>
    simp only [World.step, World.removeDomain] at hw
    rcases hr : w.removeWith (fun x => x.1 == s) a with r | r | _ | _ <;> rw [hr] at hw <;> rcases hw with hw | hw <;>
      simp only [Outcome.world] at hw <;> cases hw
    · exact removal _ a r (Or.inl hr)
    · exact removal _ a r (Or.inr hr)
  | remove a d =>
    simp only [World.step, World.remove] at hw
    rcases hr : w.removeWith (fun x => x.2 == d) a with r | r | _ | _ <;> rw [hr] at hw <;> rcases hw with hw | hw <;>
      simp only [Outcome.world] at hw <;> cases hw
    · exact removal _ a r (Or.inl hr)
    · exact removal _ a r (Or.inr hr)
  | copyMesh a a' addrs =>
    simp only [World.step] at hw
    split at hw <;> rcases hw with hw | hw <;> cases hw
    rename_i hc
    obtain ⟨c1, c2, c3, c4, c5⟩ := fresh_copy hc
    unfold World.copyMesh
    cases hM : w.mesh a with
    | none => exact h
    | some M =>
      rw [hM] at c3
      have hm := (cloneAll_spec M.domains addrs w c3 (hr.live a M hM)).1
      intro d hd
      rcases cloneAll_domains M.domains addrs w d hd with hd | ⟨x, hx, rfl⟩
      · rcases h d hd with hv | ⟨a1, M1, y, hM1, hy, rfl⟩
        · exact .inl hv
        · have e1 : a1 ≠ a' := by rintro rfl; rw [c1] at hM1; cases hM1
          exact .inr ⟨a1, M1, y, by rw [setMesh_mesh, Function.update_of_ne e1, hm]; exact hM1, hy, rfl⟩
      · exact .inr ⟨a', _, x, by rw [setMesh_mesh, Function.update_self], hx, rfl⟩
  | moveMesh a a' =>
    simp only [World.step] at hw
    split at hw <;> rcases hw with hw | hw <;> cases hw
    rename_i hc
    simp only [Bool.and_eq_true, Option.isNone_iff_eq_none] at hc
    intro d hd
    rcases h d hd with hv | ⟨a1, M1, y, hM1, hy, rfl⟩
    · exact .inl hv
    · have e1 : a1 ≠ a' := by rintro rfl; rw [hc.1] at hM1; cases hM1
      refine .inr ⟨Equiv.swap a' a a1, M1, y, ?_, hy, rfl⟩
      rw [World.moveMesh, swapMesh_mesh, Equiv.swap_apply_self, setMesh_mesh, Function.update_of_ne e1]
      exact hM1
  | swapMesh a a' =>
    simp only [World.step] at hw
    split at hw <;> rcases hw with hw | hw <;> cases hw
    intro d hd
    rcases h d hd with hv | ⟨a1, M1, y, hM1, hy, rfl⟩
    · exact .inl hv
    · refine .inr ⟨Equiv.swap a a' a1, M1, y, ?_, hy, rfl⟩
      rw [swapMesh_mesh, Equiv.swap_apply_self]
      exact hM1
  | deleteMesh a =>
    simp only [World.step, World.deleteMesh] at hw
    cases hM : w.mesh a with
    | none => rw [hM] at hw; rcases hw with hw | hw <;> cases hw
    | some M =>
      rw [hM] at hw
      simp only at hw
      split at hw
      · rcases hw with hw | hw <;> cases hw
        intro d hd
        rw [setMesh_domain, foldl_destroy_domain] at hd
        split at hd
        · cases hd
        · rename_i hn
          rcases h d hd with hv | ⟨a1, M1, y, hM1, hy, rfl⟩
          · exact .inl hv
          · have e1 : a1 ≠ a := by
              rintro rfl
              rw [hM] at hM1
              obtain rfl := Option.some.inj hM1
              exact hn (List.mem_map_of_mem hy)
            exact .inr ⟨a1, M1, y, by rw [setMesh_mesh, foldl_destroy_mesh, Function.update_of_ne e1]; exact hM1, hy, rfl⟩
      · rcases hw with hw | hw <;> cases hw

theorem ListedDomains.run {fmt : ℕ → String} (ops : List (MeshOp K m)) {w w' : World K m} (hr : Registry w) (h : ListedDomains V w) (hop : ∀ op ∈ ops, op.Checked)
    (hV : ∀ d src, MeshOp.newDomain d src ∈ ops → V d) (hw : w.run fmt ops = .ok w') : ListedDomains V w' := by
  induction ops generalizing w with
  | nil => simp only [World.run] at hw; cases hw; exact h
  | cons op ops ih =>
    simp only [World.run] at hw
    have h1 : ∀ d src, op = .newDomain d src → V d := by rintro d src rfl; exact hV d src List.mem_cons_self
    have h2 := fun d src ho => hV d src (List.mem_cons_of_mem _ ho)
    have h3 := hop op List.mem_cons_self
    have h4 := fun o ho => hop o (List.mem_cons_of_mem _ ho)
    rcases hs : w.step fmt op with w1 | w1 | _ | _ <;> rw [hs] at hw <;> simp only at hw
    · exact ih (hr.step op h3 (Or.inl hs)) (h.step hr op h3 h1 (Or.inl hs)) h4 h2 hw
    · exact ih (hr.step op h3 (Or.inr hs)) (h.step hr op h3 h1 (Or.inr hs)) h4 h2 hw
    · cases hw
    · cases hw

theorem listedDomains_initial : ListedDomains V (World.initial K m) := by
  intro d hd; cases hd

end Caribou
