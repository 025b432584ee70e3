import Verif.Model.Mesh
import Verif.Spec.Mesh
import Mathlib.Data.List.Nodup
import Mathlib.Logic.Equiv.Basic
import Mathlib.Tactic.Linarith

/-! Lemmas on the mesh registry. -/

set_option autoImplicit false
set_option linter.all false

namespace Caribou

variable {K : Type*} {m : ℕ}

/-! ### The removal loop -/

theorem whileLoop_mono {σ : Type*} (cond : σ → Bool) (body : σ → σ) {f f' : ℕ} {s r : σ} (h : f ≤ f')
    (hr : whileLoop cond body f s = some r) : whileLoop cond body f' s = some r := by
  induction f generalizing f' s with
  | zero => simp [whileLoop] at hr
  | succ f ih =>
    obtain ⟨g, rfl⟩ : ∃ g, f' = g + 1 := ⟨f' - 1, by omega⟩
    simp only [whileLoop] at hr ⊢
    split at hr
    · rename_i hc; rw [if_pos hc]; exact ih (by omega) hr
    · rename_i hc; rw [if_neg hc]; exact hr

theorem scan_stuck (p : String × ℕ → Bool) (l : List (String × ℕ)) (it : ℕ) (h : scanCond p l it = true) (fuel : ℕ) :
    whileLoop (scanCond p l) scanBody fuel it = none := by
  induction fuel with
  | zero => rfl
  | succ f ih => simp only [whileLoop, scanBody, h, if_true]; exact ih

/-- If the loop has not stopped after `length + 1` evaluations of its condition it never stops. -/
theorem scan_never (p : String × ℕ → Bool) (l : List (String × ℕ))
    (h : whileLoop (scanCond p l) scanBody (l.length + 1) 0 = none) (fuel : ℕ) :
    whileLoop (scanCond p l) scanBody fuel 0 = none := by
  by_cases hc : scanCond p l 0 = true
  · exact scan_stuck p l 0 hc fuel
  · simp only [whileLoop, hc] at h; simp at h

theorem removeScan_nil (p : String × ℕ → Bool) : removeScan p [] = .ok (none, []) := by
  simp [removeScan, whileLoop, scanCond]

theorem removeScan_head (p : String × ℕ → Bool) (x : String × ℕ) (l : List (String × ℕ)) (h : p x = true) :
    removeScan p (x :: l) = .ok (some x, l) := by
  simp [removeScan, whileLoop, scanCond, h]

theorem removeScan_hangs (p : String × ℕ → Bool) (x : String × ℕ) (l : List (String × ℕ)) (h : p x = false) :
    removeScan p (x :: l) = .hangs := by
  have := scan_stuck p (x :: l) 0 (by simp [scanCond, h]) ((x :: l).length + 1)
  simp only [removeScan, this]

theorem removeScan_ok (p : String × ℕ → Bool) (l : List (String × ℕ)) (r : Option (String × ℕ) × List (String × ℕ))
    (h : removeScan p l = .ok r) : (∃ x, l = x :: r.2 ∧ p x = true ∧ r.1 = some x) ∨ (l = [] ∧ r = (none, [])) := by
  cases l with
  | nil => rw [removeScan_nil] at h; cases h; right; exact ⟨rfl, rfl⟩
  | cons x l =>
    cases hp : p x with
    | true => rw [removeScan_head p x l hp] at h; cases h; left; exact ⟨x, rfl, hp, rfl⟩
    | false => rw [removeScan_hangs p x l hp] at h; cases h

/-! ### Projections -/

namespace World

@[simp] theorem setMesh_mesh (w : World K m) (a : ℕ) (M) : (w.setMesh a M).mesh = Function.update w.mesh a M := rfl
@[simp] theorem setMesh_domain (w : World K m) (a : ℕ) (M) : (w.setMesh a M).domain = w.domain := rfl
@[simp] theorem setMesh_buffer (w : World K m) (a : ℕ) (M) : (w.setMesh a M).buffer = w.buffer := rfl
@[simp] theorem setDomain_mesh (w : World K m) (a : ℕ) (M) : (w.setDomain a M).mesh = w.mesh := rfl
@[simp] theorem setDomain_domain (w : World K m) (a : ℕ) (M) : (w.setDomain a M).domain = Function.update w.domain a M := rfl
@[simp] theorem setDomain_buffer (w : World K m) (a : ℕ) (M) : (w.setDomain a M).buffer = w.buffer := rfl
@[simp] theorem setBuffer_mesh (w : World K m) (a : ℕ) (M) : (w.setBuffer a M).mesh = w.mesh := rfl
@[simp] theorem setBuffer_domain (w : World K m) (a : ℕ) (M) : (w.setBuffer a M).domain = w.domain := rfl
@[simp] theorem setBuffer_buffer (w : World K m) (a : ℕ) (M) : (w.setBuffer a M).buffer = Function.update w.buffer a M := rfl

@[simp] theorem construct_mesh (w : World K m) (d : ℕ) (f src) : (w.construct d f src).mesh = w.mesh := by
  cases src <;> rfl

@[simp] theorem construct_domain (w : World K m) (d : ℕ) (f src) :
    (w.construct d f src).domain = Function.update w.domain d (some (src.build f)) := by
  cases src <;> rfl

theorem build_mesh (f : MeshField) (src : DomainSource) : (src.build f).mesh = f := by cases src <;> rfl

@[simp] theorem destroyDomain_mesh (w : World K m) (d : ℕ) : (w.destroyDomain d).mesh = w.mesh := by
  unfold destroyDomain
  cases h : w.domain d with
  | none => rfl
  | some D => cases D with | mk f o v => cases o <;> rfl

@[simp] theorem destroyDomain_domain (w : World K m) (d : ℕ) :
    (w.destroyDomain d).domain = Function.update w.domain d none := by
  unfold destroyDomain
  cases h : w.domain d with
  | none => funext x; by_cases hx : x = d <;> simp [Function.update, hx, h]
  | some D => cases D with | mk f o v => cases o <;> rfl

@[simp] theorem foldl_destroy_mesh (l : List (String × ℕ)) (w : World K m) :
    (l.foldl (fun w x => w.destroyDomain x.2) w).mesh = w.mesh := by
  induction l generalizing w with
  | nil => rfl
  | cons x l ih => rw [List.foldl_cons, ih, destroyDomain_mesh]

theorem foldl_destroy_domain (l : List (String × ℕ)) (w : World K m) (d : ℕ) :
    (l.foldl (fun w x => w.destroyDomain x.2) w).domain d = if d ∈ l.map Prod.snd then none else w.domain d := by
  induction l generalizing w with
  | nil => rfl
  | cons x l ih =>
    rw [List.foldl_cons, ih, destroyDomain_domain]
    by_cases h1 : d ∈ l.map Prod.snd
    · simp [h1]
    · by_cases h2 : d = x.2
      · subst h2; simp
      · simp [h1, h2, Function.update]

@[simp] theorem pushDomain_domain (w : World K m) (a : ℕ) (s : String) (d : ℕ) : (w.pushDomain a s d).domain = w.domain := by
  unfold pushDomain; cases w.mesh a <;> rfl

@[simp] theorem pushDomain_buffer (w : World K m) (a : ℕ) (s : String) (d : ℕ) : (w.pushDomain a s d).buffer = w.buffer := by
  unfold pushDomain; cases w.mesh a <;> rfl

theorem pushDomain_mesh (w : World K m) (a : ℕ) (s : String) (d : ℕ) (M : MeshObj K m) (h : w.mesh a = some M) :
    (w.pushDomain a s d).mesh = Function.update w.mesh a (some { M with domains := M.domains ++ [(s, d)] }) := by
  unfold pushDomain; rw [h]; rfl

/-! ### What the calls do -/

/-- The possible effects of `add_domain(ptr, name)`. -/
theorem addPtr_cases (w : World K m) (a d : ℕ) (s : String) :
    w.addPtr a d s = .undefined ∨ w.addPtr a d s = .throws w ∨
    (∃ M D x, w.mesh a = some M ∧ w.domain d = some D ∧ D.mesh = .attached a ∧ x ∈ M.domains ∧ x.2 = d ∧ x.1 = s ∧
      w.addPtr a d s = .ok w) ∨
    (∃ M D, w.mesh a = some M ∧ w.domain d = some D ∧ D.mesh = .attached a ∧ d ∉ M.domains.map Prod.snd ∧
      w.addPtr a d s = .ok (w.pushDomain a s d)) ∨
    (∃ M D, w.mesh a = some M ∧ w.domain d = some D ∧ D.mesh = .null ∧
      w.addPtr a d s = .ok ((w.setDomain d (some { D with mesh := .attached a })).pushDomain a s d)) := by
  unfold addPtr
  cases hM : w.mesh a with
  | none => left; rfl
  | some M =>
    cases hD : w.domain d with
    | none => left; rfl
    | some D =>
      cases hf : D.mesh with
      | indeterminate => left; simp [hf]
      | null =>
        right; right; right; right
        refine ⟨M, D, rfl, rfl, hf, ?_⟩
        simp [hf, attachTo, hD]
      | attached a' =>
        by_cases ha : a = a'
        · subst ha
          cases hx : M.domains.find? (fun x => x.2 == d) with
          | some x =>
            have hmem := List.mem_of_find?_eq_some hx
            have hp := List.find?_some hx
            simp only [beq_iff_eq] at hp
            by_cases hs : x.1 = s
            · right; right; left
              exact ⟨M, D, x, rfl, rfl, hf, hmem, hp, hs, by simp [hf, hx, hs]⟩
            · right; left; simp [hf, hx, hs]
          | none =>
            right; right; right; left
            refine ⟨M, D, rfl, rfl, hf, ?_, by simp [hf, hx]⟩
            rw [List.find?_eq_none] at hx
            intro hc
            obtain ⟨y, hy, rfl⟩ := List.mem_map.mp hc
            exact hx y hy (by simp)
        · right; left; simp [hf, ha]

theorem attachTo_cases (w : World K m) (d a : ℕ) :
    w.attachTo d a = .undefined ∨ w.attachTo d a = .throws w ∨ w.attachTo d a = .ok w ∨
    (∃ D, w.domain d = some D ∧ D.mesh = .null ∧ w.attachTo d a = .ok (w.setDomain d (some { D with mesh := .attached a }))) := by
  unfold attachTo
  cases hD : w.domain d with
  | none => left; rfl
  | some D =>
    cases hf : D.mesh with
    | indeterminate => left; simp [hf]
    | null => right; right; right; exact ⟨D, rfl, hf, by simp [hf]⟩
    | attached a' =>
      by_cases ha : a = a'
      · right; right; left; simp [hf, ha]
      · right; left; simp [hf, ha]

theorem removeWith_cases (p : String × ℕ → Bool) (w : World K m) (a : ℕ) :
    w.removeWith p a = .undefined ∨ w.removeWith p a = .hangs ∨ w.removeWith p a = .ok (false, w) ∨
    (∃ M x rest, w.mesh a = some M ∧ M.domains = x :: rest ∧ p x = true ∧ (w.domain x.2).isSome ∧
      w.removeWith p a = .ok (true, (w.setMesh a (some { M with domains := rest })).destroyDomain x.2)) := by
  unfold removeWith
  cases hM : w.mesh a with
  | none => left; rfl
  | some M =>
    cases hl : M.domains with
    | nil => right; right; left; simp [removeScan_nil, hl]
    | cons x rest =>
      cases hp : p x with
      | false => right; left; simp [removeScan_hangs p x rest hp, hl]
      | true =>
        by_cases hd : (w.domain x.2).isSome
        · right; right; right
          exact ⟨M, x, rest, rfl, hl, hp, hd, by simp [hl, removeScan_head p x rest hp, hd]⟩
        · left; simp [hl, removeScan_head p x rest hp, hd]

/-! ### Listed domains are attached -/

/-- Every domain listed by a mesh exists, is attached to it, and is listed once. -/
structure Attached (w : World K m) : Prop where
  field : ∀ a M, w.mesh a = some M → ∀ x ∈ M.domains, ∃ D, w.domain x.2 = some D ∧ D.mesh = .attached a
  once : ∀ a M, w.mesh a = some M → (M.domains.map Prod.snd).Nodup

theorem attached_initial : Attached (World.initial K m) := ⟨by simp [World.initial], by simp [World.initial]⟩

theorem Attached.unlisted {w : World K m} (h : Attached w) {d : ℕ} (hd : ∀ D, w.domain d = some D → D.mesh = .null) (a : ℕ) (M)
    (hM : w.mesh a = some M) : d ∉ M.domains.map Prod.snd := by
  intro hc
  obtain ⟨x, hx, rfl⟩ := List.mem_map.mp hc
  obtain ⟨D, hD, hf⟩ := h.field a M hM x hx
  rw [hd D hD] at hf; cases hf

theorem Attached.setDomain {w : World K m} (h : Attached w) (d : ℕ) (D' : Option DomainObj)
    (hd : ∀ D, w.domain d = some D → D.mesh = .null) : Attached (w.setDomain d D') := by
  refine ⟨fun a M hM x hx => ?_, h.once⟩
  have hne : x.2 ≠ d := fun hc => h.unlisted hd a M hM (hc ▸ List.mem_map_of_mem hx)
  obtain ⟨D, hD, hf⟩ := h.field a M hM x hx
  exact ⟨D, by simpa [Function.update, hne] using hD, hf⟩

theorem Attached.setBuffer {w : World K m} (h : Attached w) (b) (B) : Attached (w.setBuffer b B) := ⟨h.field, h.once⟩

theorem Attached.construct {w : World K m} (h : Attached w) (d : ℕ) (f src) (hd : w.domain d = none) :
    Attached (w.construct d f src) := by
  have h2 : ∀ D, w.domain d = some D → D.mesh = .null := by intro D hD; rw [hd] at hD; cases hD
  unfold World.construct
  cases src with
  | copied b c t => exact (h.setBuffer b _).setDomain d _ (by simpa using h2)
  | external => exact h.setDomain d _ h2
  | strided => exact h.setDomain d _ h2

theorem Attached.pushDomain {w : World K m} (h : Attached w) (a : ℕ) (s : String) (d : ℕ) (M) (hM : w.mesh a = some M) (D)
    (hD : w.domain d = some D) (hf : D.mesh = .attached a) (hn : d ∉ M.domains.map Prod.snd) : Attached (w.pushDomain a s d) := by
  refine ⟨fun a' M' hM' x hx => ?_, fun a' M' hM' => ?_⟩
  · rw [pushDomain_mesh w a s d M hM] at hM'
    rw [pushDomain_domain]
    by_cases ha : a' = a
    · subst ha
      simp only [Function.update_self, Option.some.injEq] at hM'
      subst hM'
      rcases List.mem_append.mp hx with hx | hx
      · exact h.field a' M hM x hx
      · rw [List.mem_singleton] at hx; subst hx; exact ⟨D, hD, hf⟩
    · rw [Function.update_of_ne ha] at hM'
      exact h.field a' M' hM' x hx
  · rw [pushDomain_mesh w a s d M hM] at hM'
    by_cases ha : a' = a
    · subst ha
      simp only [Function.update_self, Option.some.injEq] at hM'
      subst hM'
      simp only [List.map_append, List.map_cons, List.map_nil]
      rw [List.nodup_append]
      refine ⟨h.once a' M hM, by simp, ?_⟩
      intro y hy z hz
      rw [List.mem_singleton] at hz
      subst hz
      rintro rfl
      exact hn hy
    · rw [Function.update_of_ne ha] at hM'
      exact h.once a' M' hM'

theorem Attached.addPtr {w w' : World K m} (h : Attached w) (a d : ℕ) (s : String)
    (hw : w.addPtr a d s = .ok w' ∨ w.addPtr a d s = .throws w') : Attached w' := by
  rcases addPtr_cases w a d s with e | e | ⟨M, D, x, hM, hD, hf, hx, hxd, hxs, e⟩ | ⟨M, D, hM, hD, hf, hn, e⟩ | ⟨M, D, hM, hD, hf, e⟩
  · rw [e] at hw; rcases hw with hw | hw <;> cases hw
  · rw [e] at hw; rcases hw with hw | hw <;> cases hw; exact h
  · rw [e] at hw; rcases hw with hw | hw <;> cases hw; exact h
  · rw [e] at hw; rcases hw with hw | hw <;> cases hw; exact h.pushDomain a s d M hM D hD hf hn
  · rw [e] at hw; rcases hw with hw | hw <;> cases hw
    have h2 : ∀ D, w.domain d = some D → D.mesh = .null := by intro D' hD'; rw [hD] at hD'; cases hD'; exact hf
    exact (h.setDomain d _ h2).pushDomain a s d M (by simpa using hM) { D with mesh := .attached a } (by simp) rfl
      (h.unlisted h2 a M hM)

theorem Attached.removeWith {w : World K m} (h : Attached w) (p) (a : ℕ) (r)
    (hw : w.removeWith p a = .ok r ∨ w.removeWith p a = .throws r) : Attached r.2 := by
  rcases removeWith_cases p w a with e | e | e | ⟨M, x, rest, hM, hl, hp, hd, e⟩
  · rw [e] at hw; rcases hw with hw | hw <;> cases hw
  · rw [e] at hw; rcases hw with hw | hw <;> cases hw
  · rw [e] at hw; rcases hw with hw | hw <;> cases hw; exact h
  · rw [e] at hw; rcases hw with hw | hw <;> cases hw
    have hnd := h.once a M hM
    rw [hl, List.map_cons, List.nodup_cons] at hnd
    refine ⟨fun a' M' hM' y hy => ?_, fun a' M' hM' => ?_⟩
    · rw [destroyDomain_mesh, setMesh_mesh] at hM'
      rw [destroyDomain_domain, setMesh_domain]
      by_cases ha : a' = a
      · subst ha
        simp only [Function.update_self, Option.some.injEq] at hM'
        subst hM'
        have hne : y.2 ≠ x.2 := fun hc => hnd.1 (hc ▸ List.mem_map_of_mem hy)
        rw [Function.update_of_ne hne]
        exact h.field a' M hM y (hl ▸ List.mem_cons_of_mem _ hy)
      · rw [Function.update_of_ne ha] at hM'
        obtain ⟨D, hD, hf⟩ := h.field a' M' hM' y hy
        obtain ⟨D2, hD2, hf2⟩ := h.field a M hM x (hl ▸ List.mem_cons_self)
        have hne : y.2 ≠ x.2 := by
          intro hc
          rw [hc, hD2] at hD
          cases hD
          rw [hf2] at hf
          cases hf
          exact ha rfl
        rw [Function.update_of_ne hne]
        exact ⟨D, hD, hf⟩
    · rw [destroyDomain_mesh, setMesh_mesh] at hM'
      by_cases ha : a' = a
      · subst ha
        simp only [Function.update_self, Option.some.injEq] at hM'
        subst hM'
        exact hnd.2
      · rw [Function.update_of_ne ha] at hM'
        exact h.once a' M' hM'

theorem Attached.deleteMesh {w w' : World K m} (h : Attached w) (a : ℕ)
    (hw : w.deleteMesh a = .ok w' ∨ w.deleteMesh a = .throws w') : Attached w' := by
  unfold World.deleteMesh at hw
  cases hM : w.mesh a with
  | none => rw [hM] at hw; rcases hw with hw | hw <;> cases hw
  | some M =>
    rw [hM] at hw
    simp only at hw
    split at hw
    · rcases hw with hw | hw <;> cases hw
      refine ⟨fun a' M' hM' y hy => ?_, fun a' M' hM' => ?_⟩
      · rw [setMesh_mesh, foldl_destroy_mesh] at hM'
        rw [setMesh_domain, foldl_destroy_domain]
        have ha : a' ≠ a := by rintro rfl; simp at hM'
        rw [Function.update_of_ne ha] at hM'
        obtain ⟨D, hD, hf⟩ := h.field a' M' hM' y hy
        rw [if_neg]
        · exact ⟨D, hD, hf⟩
        · intro hc
          obtain ⟨x, hx, hxy⟩ := List.mem_map.mp hc
          obtain ⟨D2, hD2, hf2⟩ := h.field a M hM x hx
          rw [hxy, hD] at hD2
          cases hD2
          rw [hf2] at hf
          cases hf
          exact ha rfl
      · rw [setMesh_mesh, foldl_destroy_mesh] at hM'
        have ha : a' ≠ a := by rintro rfl; simp at hM'
        rw [Function.update_of_ne ha] at hM'
        exact h.once a' M' hM'
    · rcases hw with hw | hw <;> cases hw


/-! ### Unique names -/

/-- Names are unique, listed domains exist and are listed once. -/
structure Registry (w : World K m) : Prop where
  names : ∀ a M, w.mesh a = some M → UniqueNames M.domains
  live : ∀ a M, w.mesh a = some M → ∀ x ∈ M.domains, (w.domain x.2).isSome
  once : ∀ a M, w.mesh a = some M → (M.domains.map Prod.snd).Nodup
  apart : ∀ a a' M M', w.mesh a = some M → w.mesh a' = some M' → a ≠ a' → ∀ x ∈ M.domains, ∀ y ∈ M'.domains, x.2 ≠ y.2

theorem registry_initial : Registry (World.initial K m) := by
  constructor <;> simp [World.initial]

theorem Registry.mono {w w' : World K m} (h : Registry w) (hm : w'.mesh = w.mesh)
    (hd : ∀ d, (w.domain d).isSome → (w'.domain d).isSome) : Registry w' := by
  refine ⟨?_, ?_, ?_, ?_⟩
  · rw [hm]; exact h.names
  · rw [hm]; exact fun a M hM x hx => hd _ (h.live a M hM x hx)
  · rw [hm]; exact h.once
  · rw [hm]; exact h.apart

/-- Giving the mesh at `a` a new list of domains. -/
theorem Registry.setMesh {w : World K m} (h : Registry w) (a : ℕ) (M : MeshObj K m) (hn : UniqueNames M.domains)
    (hl : ∀ x ∈ M.domains, (w.domain x.2).isSome) (ho : (M.domains.map Prod.snd).Nodup)
    (hap : ∀ a' M', w.mesh a' = some M' → a' ≠ a → ∀ x ∈ M.domains, ∀ y ∈ M'.domains, x.2 ≠ y.2) :
    Registry (w.setMesh a (some M)) := by
  refine ⟨fun a1 M1 h1 => ?_, fun a1 M1 h1 x hx => ?_, fun a1 M1 h1 => ?_, fun a1 a2 M1 M2 h1 h2 hne x hx y hy => ?_⟩
  · rw [setMesh_mesh] at h1
    by_cases e : a1 = a
    · subst e; simp only [Function.update_self, Option.some.injEq] at h1; subst h1; exact hn
    · rw [Function.update_of_ne e] at h1; exact h.names a1 M1 h1
  · rw [setMesh_mesh] at h1
    by_cases e : a1 = a
    · subst e; simp only [Function.update_self, Option.some.injEq] at h1; subst h1; exact hl x hx
    · rw [Function.update_of_ne e] at h1; exact h.live a1 M1 h1 x hx
  · rw [setMesh_mesh] at h1
    by_cases e : a1 = a
    · subst e; simp only [Function.update_self, Option.some.injEq] at h1; subst h1; exact ho
    · rw [Function.update_of_ne e] at h1; exact h.once a1 M1 h1
  · rw [setMesh_mesh] at h1 h2
    by_cases e : a1 = a
    · subst e
      simp only [Function.update_self, Option.some.injEq] at h1; subst h1
      rw [Function.update_of_ne (Ne.symm hne)] at h2
      exact hap a2 M2 h2 (Ne.symm hne) x hx y hy
    · rw [Function.update_of_ne e] at h1
      by_cases e2 : a2 = a
      · subst e2
        simp only [Function.update_self, Option.some.injEq] at h2; subst h2
        exact (hap a1 M1 h1 e y hy x hx).symm
      · rw [Function.update_of_ne e2] at h2
        exact h.apart a1 a2 M1 M2 h1 h2 hne x hx y hy

theorem Registry.fresh {w : World K m} (h : Registry w) {d : ℕ} (hd : w.domain d = none) (a : ℕ) (M)
    (hM : w.mesh a = some M) : d ∉ M.domains.map Prod.snd := by
  intro hc
  obtain ⟨x, hx, rfl⟩ := List.mem_map.mp hc
  have := h.live a M hM x hx
  rw [hd] at this
  cases this

theorem any_name_false {l : List (String × ℕ)} {s : String} (h : (l.any fun x => x.1 == s) = false) :
    s ∉ l.map Prod.fst := by
  intro hc
  obtain ⟨x, hx, rfl⟩ := List.mem_map.mp hc
  rw [List.any_eq_false] at h
  exact h x hx (by simp)

/-- What a successful `add_domain<Element>(name, ...)` does. -/
theorem addNamed_ok {w : World K m} {a d : ℕ} {s : String} {src : DomainSource} (hfresh : ∀ M, w.mesh a = some M → d ∉ M.domains.map Prod.snd) :
    w.addNamed a s d src = .undefined ∨
    (∃ M, w.mesh a = some M ∧ s ∈ M.domains.map Prod.fst ∧ w.addNamed a s d src = .throws w) ∨
    (∃ M, w.mesh a = some M ∧ s ∉ M.domains.map Prod.fst ∧
      w.addNamed a s d src = .ok ((w.construct d (.attached a) src).pushDomain a s d)) := by
  unfold World.addNamed
  cases hM : w.mesh a with
  | none => left; rfl
  | some M =>
    cases hany : M.domains.any (fun x => x.1 == s) with
    | true =>
      right; left
      refine ⟨M, rfl, ?_, by simp only [hany, if_true]⟩
      rw [List.any_eq_true] at hany
      obtain ⟨x, hx, he⟩ := hany
      simp only [beq_iff_eq] at he
      exact he ▸ List.mem_map_of_mem hx
    | false =>
      have hns := any_name_false hany
      right; right
      refine ⟨M, rfl, hns, ?_⟩
      simp only [hany]
      rw [if_neg (by simp)]
      rcases addPtr_cases (w.construct d (.attached a) src) a d s with e | e | ⟨M1, D, x, hM1, hD, hf, hx, hxd, hxs, e⟩ |
        ⟨M1, D, hM1, hD, hf, hn, e⟩ | ⟨M1, D, hM1, hD, hf, e⟩
      · exfalso
        revert e
        unfold World.addPtr
        rw [construct_mesh, hM, construct_domain, Function.update_self]
        simp only [build_mesh, if_true]
        split
        · split <;> intro h <;> cases h
        · intro h; cases h
      · exfalso
        revert e
        unfold World.addPtr
        rw [construct_mesh, hM, construct_domain, Function.update_self]
        simp only [build_mesh, if_true]
        split
        · rename_i x hx
          exfalso
          have h1 := List.mem_of_find?_eq_some hx
          have h2 := List.find?_some hx
          simp only [beq_iff_eq] at h2
          exact hfresh M hM (h2 ▸ List.mem_map_of_mem h1)
        · intro h; cases h
      · exfalso
        rw [construct_mesh, hM] at hM1; cases hM1
        exact hfresh M hM (hxd ▸ List.mem_map_of_mem hx)
      · exact e
      · exfalso
        rw [construct_domain, Function.update_self] at hD; cases hD
        rw [build_mesh] at hf; cases hf

theorem uniqueNames_append {l : List (String × ℕ)} {s : String} {d : ℕ} (h : UniqueNames l) (hs : s ∉ l.map Prod.fst) :
    UniqueNames (l ++ [(s, d)]) := by
  unfold UniqueNames at *
  simp only [List.map_append, List.map_cons, List.map_nil]
  rw [List.nodup_append]
  refine ⟨h, by simp, fun y hy z hz => ?_⟩
  rw [List.mem_singleton] at hz
  subst hz
  rintro rfl
  exact hs hy

theorem nodup_ids_append {l : List (String × ℕ)} {s : String} {d : ℕ} (h : (l.map Prod.snd).Nodup) (hs : d ∉ l.map Prod.snd) :
    ((l ++ [(s, d)]).map Prod.snd).Nodup := by
  simp only [List.map_append, List.map_cons, List.map_nil]
  rw [List.nodup_append]
  refine ⟨h, by simp, fun y hy z hz => ?_⟩
  rw [List.mem_singleton] at hz
  subst hz
  rintro rfl
  exact hs hy

theorem Registry.construct {w : World K m} (h : Registry w) (d : ℕ) (f src) : Registry (w.construct d f src) := by
  refine h.mono (construct_mesh ..) fun x hx => ?_
  rw [construct_domain]
  by_cases e : x = d
  · subst e; simp
  · rw [Function.update_of_ne e]; exact hx

theorem Registry.pushDomain {w : World K m} (h : Registry w) (a : ℕ) (s : String) (d : ℕ) (M) (hM : w.mesh a = some M)
    (hd : (w.domain d).isSome) (hs : s ∉ M.domains.map Prod.fst)
    (hn : ∀ a' M', w.mesh a' = some M' → d ∉ M'.domains.map Prod.snd) : Registry (w.pushDomain a s d) := by
  have e : w.pushDomain a s d = w.setMesh a (some { M with domains := M.domains ++ [(s, d)] }) := by
    unfold World.pushDomain; rw [hM]
  rw [e]
  refine h.setMesh a _ (uniqueNames_append (h.names a M hM) hs) ?_ (nodup_ids_append (h.once a M hM) (hn a M hM)) ?_
  · intro x hx
    rcases List.mem_append.mp hx with hx | hx
    · exact h.live a M hM x hx
    · rw [List.mem_singleton] at hx; subst hx; exact hd
  · intro a' M' hM' hne x hx y hy
    rcases List.mem_append.mp hx with hx | hx
    · exact h.apart a a' M M' hM hM' (Ne.symm hne) x hx y hy
    · rw [List.mem_singleton] at hx; subst hx
      intro hc
      exact hn a' M' hM' (by rw [show d = y.2 from hc]; exact List.mem_map_of_mem hy)

theorem Registry.addNamed {w w' : World K m} (h : Registry w) (a d : ℕ) (s : String) (src) (hd : w.domain d = none)
    (hw : w.addNamed a s d src = .ok w' ∨ w.addNamed a s d src = .throws w') : Registry w' := by
  rcases addNamed_ok (w := w) (a := a) (d := d) (s := s) (src := src) (fun M hM => h.fresh hd a M hM) with e | ⟨M, hM, hs, e⟩ | ⟨M, hM, hs, e⟩
  · rw [e] at hw; rcases hw with hw | hw <;> cases hw
  · rw [e] at hw; rcases hw with hw | hw <;> cases hw; exact h
  · rw [e] at hw; rcases hw with hw | hw <;> cases hw
    refine (h.construct d _ src).pushDomain a s d M (by rw [construct_mesh]; exact hM) (by simp) hs ?_
    intro a' M' hM'
    rw [construct_mesh] at hM'
    exact h.fresh hd a' M' hM'

theorem Registry.removeWith {w : World K m} (h : Registry w) (p) (a : ℕ) (r)
    (hw : w.removeWith p a = .ok r ∨ w.removeWith p a = .throws r) : Registry r.2 := by
  rcases removeWith_cases p w a with e | e | e | ⟨M, x, rest, hM, hl, hp, hd, e⟩
  · rw [e] at hw; rcases hw with hw | hw <;> cases hw
  · rw [e] at hw; rcases hw with hw | hw <;> cases hw
  · rw [e] at hw; rcases hw with hw | hw <;> cases hw; exact h
  · rw [e] at hw; rcases hw with hw | hw <;> cases hw
    have hnd := h.once a M hM
    have hnm := h.names a M hM
    unfold UniqueNames at hnm
    rw [hl, List.map_cons, List.nodup_cons] at hnd hnm
    have hR : Registry (w.setMesh a (some { M with domains := rest })) := by
      refine h.setMesh a _ hnm.2 (fun y hy => h.live a M hM y (hl ▸ List.mem_cons_of_mem _ hy)) hnd.2 ?_
      intro a' M' hM' hne y hy z hz
      exact h.apart a a' M M' hM hM' (Ne.symm hne) y (hl ▸ List.mem_cons_of_mem _ hy) z hz
    refine ⟨?_, ?_, ?_, ?_⟩
    · rw [destroyDomain_mesh]; exact hR.names
    · rw [destroyDomain_mesh]
      intro a' M' hM' y hy
      rw [destroyDomain_domain]
      have hne : y.2 ≠ x.2 := by
        rw [setMesh_mesh] at hM'
        by_cases ha : a' = a
        · subst ha
          simp only [Function.update_self, Option.some.injEq] at hM'
          subst hM'
          exact fun hc => hnd.1 (hc ▸ List.mem_map_of_mem hy)
        · rw [Function.update_of_ne ha] at hM'
          exact h.apart a' a M' M hM' hM ha y hy x (hl ▸ List.mem_cons_self)
      rw [Function.update_of_ne hne]
      exact hR.live a' M' hM' y hy
    · rw [destroyDomain_mesh]; exact hR.once
    · rw [destroyDomain_mesh]; exact hR.apart

theorem Registry.deleteMesh {w w' : World K m} (h : Registry w) (a : ℕ)
    (hw : w.deleteMesh a = .ok w' ∨ w.deleteMesh a = .throws w') : Registry w' := by
  unfold World.deleteMesh at hw
  cases hM : w.mesh a with
  | none => rw [hM] at hw; rcases hw with hw | hw <;> cases hw
  | some M =>
    rw [hM] at hw
    simp only at hw
    split at hw
    · rcases hw with hw | hw <;> cases hw
      have key : ∀ a' M', Function.update w.mesh a none a' = some M' → a' ≠ a ∧ w.mesh a' = some M' := by
        intro a' M' hM'
        have ha : a' ≠ a := by rintro rfl; simp at hM'
        rw [Function.update_of_ne ha] at hM'
        exact ⟨ha, hM'⟩
      refine ⟨fun a' M' hM' => ?_, fun a' M' hM' y hy => ?_, fun a' M' hM' => ?_, fun a1 a2 M1 M2 h1 h2 => ?_⟩
      · rw [setMesh_mesh, foldl_destroy_mesh] at hM'
        exact h.names a' M' (key a' M' hM').2
      · rw [setMesh_mesh, foldl_destroy_mesh] at hM'
        obtain ⟨ha, hM'⟩ := key a' M' hM'
        rw [setMesh_domain, foldl_destroy_domain, if_neg]
        · exact h.live a' M' hM' y hy
        · intro hc
          obtain ⟨x, hx, hxy⟩ := List.mem_map.mp hc
          exact h.apart a' a M' M hM' hM ha y hy x hx hxy.symm
      · rw [setMesh_mesh, foldl_destroy_mesh] at hM'
        exact h.once a' M' (key a' M' hM').2
      · rw [setMesh_mesh, foldl_destroy_mesh] at h1 h2
        exact h.apart a1 a2 M1 M2 (key a1 M1 h1).2 (key a2 M2 h2).2
    · rcases hw with hw | hw <;> cases hw

theorem swapMesh_mesh (w : World K m) (a a' x : ℕ) : (w.swapMesh a a').mesh x = w.mesh (Equiv.swap a a' x) := by
  unfold swapMesh
  by_cases h1 : x = a'
  · subst h1; simp
  · by_cases h2 : x = a
    · subst h2; simp [Function.update_of_ne h1]
    · simp [Function.update_of_ne h1, Function.update_of_ne h2, Equiv.swap_apply_of_ne_of_ne h2 h1]

theorem Registry.swapMesh {w : World K m} (h : Registry w) (a a' : ℕ) : Registry (w.swapMesh a a') := by
  refine ⟨?_, ?_, ?_, ?_⟩
  · intro b M hM; rw [swapMesh_mesh] at hM; exact h.names _ M hM
  · intro b M hM; rw [swapMesh_mesh] at hM; exact h.live _ M hM
  · intro b M hM; rw [swapMesh_mesh] at hM; exact h.once _ M hM
  · intro b b' M M' hM hM' hne
    rw [swapMesh_mesh] at hM hM'
    exact h.apart _ _ M M' hM hM' (fun hc => hne ((Equiv.swap a a').injective hc))

theorem Registry.emptyMesh {w : World K m} (h : Registry w) (a : ℕ) (nodes) : Registry (w.setMesh a (some ⟨nodes, []⟩)) :=
  h.setMesh a _ (by simp [UniqueNames]) (by simp) (by simp) (by simp)

@[simp] theorem cloneDomain_mesh (w : World K m) (d d' b : ℕ) : (w.cloneDomain d d' b).mesh = w.mesh := by
  unfold cloneDomain; cases w.domain d <;> rfl

theorem cloneDomain_live (w : World K m) (d d' b x : ℕ) (h : (w.domain x).isSome) : ((w.cloneDomain d d' b).domain x).isSome := by
  unfold cloneDomain
  cases w.domain d with
  | none => exact h
  | some D =>
    simp only [setDomain_domain, setBuffer_domain]
    by_cases e : x = d'
    · subst e; simp
    · rw [Function.update_of_ne e]; exact h

theorem cloneDomain_new (w : World K m) (d d' b : ℕ) (h : (w.domain d).isSome) : ((w.cloneDomain d d' b).domain d').isSome := by
  unfold cloneDomain
  cases hd : w.domain d with
  | none => rw [hd] at h; cases h
  | some D => simp

theorem cloneAll_spec (l : List (String × ℕ)) (addrs : List (ℕ × ℕ)) (w : World K m) (hlen : addrs.length = l.length)
    (hl : ∀ x ∈ l, (w.domain x.2).isSome) :
    (w.cloneAll l addrs).1.mesh = w.mesh ∧ (∀ x, (w.domain x).isSome → ((w.cloneAll l addrs).1.domain x).isSome) ∧
    (w.cloneAll l addrs).2.map Prod.fst = l.map Prod.fst ∧ (w.cloneAll l addrs).2.map Prod.snd = addrs.map Prod.fst ∧
    (∀ x ∈ (w.cloneAll l addrs).2, ((w.cloneAll l addrs).1.domain x.2).isSome) := by
  induction l generalizing addrs w with
  | nil =>
    have : addrs = [] := List.eq_nil_of_length_eq_zero (by simpa using hlen)
    subst this
    simp [cloneAll]
  | cons x l ih =>
    cases addrs with
    | nil => simp at hlen
    | cons p addrs =>
      obtain ⟨d', b⟩ := p
      have hx := hl x List.mem_cons_self
      obtain ⟨i1, i2, i3, i4, i5⟩ := ih addrs (w.cloneDomain x.2 d' b) (by simpa using hlen)
        (fun y hy => cloneDomain_live w _ _ _ _ (hl y (List.mem_cons_of_mem _ hy)))
      simp only [cloneAll, List.map_cons]
      refine ⟨by rw [i1, cloneDomain_mesh], fun y hy => i2 y (cloneDomain_live w _ _ _ _ hy), by rw [i3], by rw [i4], ?_⟩
      intro y hy
      rcases List.mem_cons.mp hy with rfl | hy
      · exact i2 d' (cloneDomain_new w _ _ _ hx)
      · exact i5 y hy

theorem Registry.copyMesh {w : World K m} (h : Registry w) (a a' : ℕ) (addrs : List (ℕ × ℕ)) (M) (hM : w.mesh a = some M)
    (hlen : addrs.length = M.domains.length) (hf : ∀ x ∈ addrs, w.domain x.1 = none) (hnd : (addrs.map Prod.fst).Nodup) :
    Registry (w.copyMesh a a' addrs) := by
  unfold World.copyMesh
  rw [hM]
  obtain ⟨i1, i2, i3, i4, i5⟩ := cloneAll_spec M.domains addrs w hlen (h.live a M hM)
  refine (h.mono i1 i2).setMesh a' _ ?_ i5 ?_ ?_
  · unfold UniqueNames; simp only; rw [i3]; exact h.names a M hM
  · simp only; rw [i4]; exact hnd
  · intro a1 M1 hM1 hne x hx y hy hc
    rw [i1] at hM1
    have hx2 : x.2 ∈ (w.cloneAll M.domains addrs).2.map Prod.snd := List.mem_map_of_mem hx
    rw [i4] at hx2
    obtain ⟨p, hp, hpx⟩ := List.mem_map.mp hx2
    have h1 := h.live a1 M1 hM1 y hy
    rw [← hc, ← hpx, hf p hp] at h1
    cases h1

/-- Which calls name their domains through the checked overload. -/
def _root_.Caribou.MeshOp.Checked : MeshOp K m → Prop
  | .addAnonymous .. => False
  | .addPtr .. => False
  | .addPtrAnonymous .. => False
  | _ => True

theorem Registry.step {fmt : ℕ → String} {w w' : World K m} (h : Registry w) (op : MeshOp K m) (hop : op.Checked)
    (hw : w.step fmt op = .ok w' ∨ w.step fmt op = .throws w') : Registry w' := by
  cases op with
  | newMesh a nodes =>
    simp only [World.step] at hw
    split at hw
    · rcases hw with hw | hw <;> cases hw; exact h.emptyMesh a nodes
    · rcases hw with hw | hw <;> cases hw
  | newBuffer b data =>
    simp only [World.step] at hw
    split at hw
    · rcases hw with hw | hw <;> cases hw; exact h.mono rfl (fun _ h => h)
    · rcases hw with hw | hw <;> cases hw
  | newDomain d src =>
    simp only [World.step] at hw
    split at hw
    · rcases hw with hw | hw <;> cases hw; exact h.construct d _ src
    · rcases hw with hw | hw <;> cases hw
  | addNamed a s d src =>
    simp only [World.step] at hw
    split at hw
    · rename_i hf
      have hd : w.domain d = none := by
        unfold World.freshFor at hf
        rw [Bool.and_eq_true] at hf
        exact Option.isNone_iff_eq_none.mp hf.1
      exact h.addNamed a d s src hd hw
    · rcases hw with hw | hw <;> cases hw
  | addAnonymous => exact hop.elim
  | addPtr => exact hop.elim
  | addPtrAnonymous => exact hop.elim
  | attachTo d a =>
    simp only [World.step] at hw
    rcases attachTo_cases w d a with e | e | e | ⟨D, hD, hf, e⟩ <;> rw [e] at hw <;> rcases hw with hw | hw <;> cases hw
    · exact h
    · exact h
    · refine h.mono rfl fun x hx => ?_
      rw [setDomain_domain]
      by_cases e : x = d
      · subst e; simp
      · rw [Function.update_of_ne e]; exact hx
  | removeDomain a s =>
    simp only [World.step, World.removeDomain] at hw
    rcases hr : w.removeWith (fun x => x.1 == s) a with r | r | _ | _ <;> rw [hr] at hw <;> rcases hw with hw | hw <;>
      simp only [Outcome.world] at hw <;> cases hw
    · exact h.removeWith _ a r (Or.inl hr)
    · exact h.removeWith _ a r (Or.inr hr)
  | remove a d =>
    simp only [World.step, World.remove] at hw
    rcases hr : w.removeWith (fun x => x.2 == d) a with r | r | _ | _ <;> rw [hr] at hw <;> rcases hw with hw | hw <;>
      simp only [Outcome.world] at hw <;> cases hw
    · exact h.removeWith _ a r (Or.inl hr)
    · exact h.removeWith _ a r (Or.inr hr)
  | copyMesh a a' addrs =>
    simp only [World.step] at hw
    split at hw
    · rename_i hc
      rcases hw with hw | hw <;> cases hw
      simp only [Bool.and_eq_true, List.all_eq_true, beq_iff_eq, decide_eq_true_eq, Option.isNone_iff_eq_none] at hc
      obtain ⟨⟨⟨⟨h1, h2⟩, h3⟩, h4⟩, h5⟩ := hc
      cases hM : w.mesh a with
      | none =>
        have : w.copyMesh a a' addrs = w := by unfold World.copyMesh; rw [hM]
        rw [this]; exact h
      | some M =>
        rw [hM] at h3
        exact h.copyMesh a a' addrs M hM h3 (fun x hx => (h2 x hx).1) h4
    · rcases hw with hw | hw <;> cases hw
  | moveMesh a a' =>
    simp only [World.step] at hw
    split at hw
    · rcases hw with hw | hw <;> cases hw
      exact (h.emptyMesh a' []).swapMesh a' a
    · rcases hw with hw | hw <;> cases hw
  | swapMesh a a' =>
    simp only [World.step] at hw
    split at hw
    · rcases hw with hw | hw <;> cases hw
      exact h.swapMesh a a'
    · rcases hw with hw | hw <;> cases hw
  | deleteMesh a => exact h.deleteMesh a hw

theorem Registry.run {fmt : ℕ → String} (ops : List (MeshOp K m)) {w w' : World K m} (h : Registry w) (hop : ∀ op ∈ ops, op.Checked)
    (hw : w.run fmt ops = .ok w') : Registry w' := by
  induction ops generalizing w with
  | nil => simp only [World.run] at hw; cases hw; exact h
  | cons op ops ih =>
    simp only [World.run] at hw
    have h1 := hop op List.mem_cons_self
    have h2 := fun o ho => hop o (List.mem_cons_of_mem _ ho)
    rcases hs : w.step fmt op with w1 | w1 | _ | _ <;> rw [hs] at hw <;> simp only at hw
    · exact ih (h.step op h1 (Or.inl hs)) h2 hw
    · exact ih (h.step op h1 (Or.inr hs)) h2 hw
    · cases hw
    · cases hw

theorem find_unique {l : List (String × ℕ)} (h : UniqueNames l) {s : String} {d : ℕ} (hx : (s, d) ∈ l) :
    l.find? (fun x => x.1 == s) = some (s, d) := by
  induction l with
  | nil => cases hx
  | cons y l ih =>
    unfold UniqueNames at h
    rw [List.map_cons, List.nodup_cons] at h
    rcases List.mem_cons.mp hx with e | hx
    · subst e; simp
    · have : y.1 ≠ s := fun hc => h.1 (hc ▸ List.mem_map_of_mem (f := Prod.fst) hx)
      rw [List.find?_cons_of_neg (by simpa using this)]
      exact ih h.2 hx

/-! ### Histories without copies and moves -/

/-- Calls other than copies, moves and swaps of meshes. -/
def _root_.Caribou.MeshOp.InPlace : MeshOp K m → Prop
  | .copyMesh .. => False
  | .moveMesh .. => False
  | .swapMesh .. => False
  | _ => True

theorem Attached.emptyMesh {w : World K m} (h : Attached w) (a : ℕ) (nodes) : Attached (w.setMesh a (some ⟨nodes, []⟩)) := by
  refine ⟨fun a' M hM x hx => ?_, fun a' M hM => ?_⟩
  all_goals
    rw [setMesh_mesh] at hM
    by_cases e : a' = a
    · subst e
      simp only [Function.update_self, Option.some.injEq] at hM
      subst hM
      simp_all
    · rw [Function.update_of_ne e] at hM
      first
        | exact h.field a' M hM x hx
        | exact h.once a' M hM

theorem fresh_domain {w : World K m} {d : ℕ} {src} (hf : w.freshFor d src = true) : w.domain d = none := by
  unfold World.freshFor at hf
  rw [Bool.and_eq_true] at hf
  exact Option.isNone_iff_eq_none.mp hf.1

theorem Attached.step {fmt : ℕ → String} {w w' : World K m} (h : Attached w) (op : MeshOp K m) (hop : op.InPlace)
    (hw : w.step fmt op = .ok w' ∨ w.step fmt op = .throws w') : Attached w' := by
  cases op with
  | newMesh a nodes =>
    simp only [World.step] at hw
    split at hw
    · rcases hw with hw | hw <;> cases hw; exact h.emptyMesh a nodes
    · rcases hw with hw | hw <;> cases hw
  | newBuffer b data =>
    simp only [World.step] at hw
    split at hw
    · rcases hw with hw | hw <;> cases hw; exact h.setBuffer b _
    · rcases hw with hw | hw <;> cases hw
  | newDomain d src =>
    simp only [World.step] at hw
    split at hw
    · rename_i hf
      rcases hw with hw | hw <;> cases hw; exact h.construct d _ src (fresh_domain hf)
    · rcases hw with hw | hw <;> cases hw
  | addNamed a s d src =>
    simp only [World.step] at hw
    split at hw
    · rename_i hf
      unfold World.addNamed at hw
      split at hw
      · rcases hw with hw | hw <;> cases hw
      · split at hw
        · rcases hw with hw | hw <;> cases hw; exact h
        · exact (h.construct d _ src (fresh_domain hf)).addPtr a d s hw
    · rcases hw with hw | hw <;> cases hw
  | addAnonymous a d src =>
    simp only [World.step] at hw
    split at hw
    · rename_i hf
      unfold World.addAnonymous at hw
      split at hw
      · rcases hw with hw | hw <;> cases hw
      · exact (h.construct d _ src (fresh_domain hf)).addPtr a d _ hw
    · rcases hw with hw | hw <;> cases hw
  | addPtr a d s => exact h.addPtr a d s hw
  | addPtrAnonymous a d => exact h.addPtr a d _ hw
  | attachTo d a =>
    simp only [World.step] at hw
    rcases attachTo_cases w d a with e | e | e | ⟨D, hD, hf, e⟩ <;> rw [e] at hw <;> rcases hw with hw | hw <;> cases hw
    · exact h
    · exact h
    · exact h.setDomain d _ (by intro D' hD'; rw [hD] at hD'; cases hD'; exact hf)
  | removeDomain a s =>
    simp only [World.step, World.removeDomain] at hw
    rcases hr : w.removeWith (fun x => x.1 == s) a with r | r | _ | _ <;> rw [hr] at hw <;> rcases hw with hw | hw <;>
      simp only [Outcome.world] at hw <;> cases hw
    · exact h.removeWith _ a r (Or.inl hr)
    · exact h.removeWith _ a r (Or.inr hr)
  | remove a d =>
    simp only [World.step, World.remove] at hw
    rcases hr : w.removeWith (fun x => x.2 == d) a with r | r | _ | _ <;> rw [hr] at hw <;> rcases hw with hw | hw <;>
      simp only [Outcome.world] at hw <;> cases hw
    · exact h.removeWith _ a r (Or.inl hr)
    · exact h.removeWith _ a r (Or.inr hr)
  | copyMesh => exact hop.elim
  | moveMesh => exact hop.elim
  | swapMesh => exact hop.elim
  | deleteMesh a => exact h.deleteMesh a hw

theorem Attached.run {fmt : ℕ → String} (ops : List (MeshOp K m)) {w w' : World K m} (h : Attached w) (hop : ∀ op ∈ ops, op.InPlace)
    (hw : w.run fmt ops = .ok w') : Attached w' := by
  induction ops generalizing w with
  | nil => simp only [World.run] at hw; cases hw; exact h
  | cons op ops ih =>
    simp only [World.run] at hw
    have h1 := hop op List.mem_cons_self
    have h2 := fun o ho => hop o (List.mem_cons_of_mem _ ho)
    rcases hs : w.step fmt op with w1 | w1 | _ | _ <;> rw [hs] at hw <;> simp only at hw
    · exact ih (h.step op h1 (Or.inl hs)) h2 hw
    · exact ih (h.step op h1 (Or.inr hs)) h2 hw
    · cases hw
    · cases hw


/-! ### Automatic names -/

/-- Unique names when automatic names are used too. -/
structure AutoNames (fmt : ℕ → String) (w : World K m) : Prop where
  att : Attached w
  names : ∀ a M, w.mesh a = some M → UniqueNames M.domains
  auto : ∀ a M, w.mesh a = some M → ∀ x ∈ M.domains, ∀ p, x.1 = "domain_" ++ fmt p → x.2 = p

/-- Calls in place which do not choose a name of the automatic form, nor use the unchecked overload with a name. -/
def _root_.Caribou.MeshOp.Auto (fmt : ℕ → String) : MeshOp K m → Prop
  | .copyMesh .. => False
  | .moveMesh .. => False
  | .swapMesh .. => False
  | .addPtr .. => False
  | .addNamed _ s _ _ => ∀ p, s ≠ "domain_" ++ fmt p
  | _ => True

theorem AutoNames.sub {fmt : ℕ → String} {w w' : World K m} (h : AutoNames fmt w) (ha : Attached w')
    (hs : ∀ a M', w'.mesh a = some M' → M'.domains = [] ∨ ∃ M, w.mesh a = some M ∧ M'.domains.Sublist M.domains) :
    AutoNames fmt w' := by
  refine ⟨ha, fun a M' hM' => ?_, fun a M' hM' x hx => ?_⟩
  · rcases hs a M' hM' with e | ⟨M, hM, hsub⟩
    · rw [e]; simp [UniqueNames]
    · exact List.Nodup.sublist (hsub.map _) (h.names a M hM)
  · rcases hs a M' hM' with e | ⟨M, hM, hsub⟩
    · rw [e] at hx; cases hx
    · exact h.auto a M hM x (hsub.subset hx)

theorem AutoNames.same {fmt : ℕ → String} {w w' : World K m} (h : AutoNames fmt w) (ha : Attached w')
    (hs : w'.mesh = w.mesh) : AutoNames fmt w' :=
  h.sub ha fun a M' hM' => Or.inr ⟨M', hs ▸ hM', List.Sublist.refl _⟩

theorem AutoNames.push {fmt : ℕ → String} {w w' : World K m} (h : AutoNames fmt w) (a d : ℕ) (s : String) (M)
    (hM : w.mesh a = some M) (ha : Attached w')
    (hw : w'.mesh = Function.update w.mesh a (some { M with domains := M.domains ++ [(s, d)] }))
    (hs : s ∉ M.domains.map Prod.fst) (hp : ∀ p, s = "domain_" ++ fmt p → d = p) : AutoNames fmt w' := by
  refine ⟨ha, fun a' M' hM' => ?_, fun a' M' hM' x hx p he => ?_⟩
  · rw [hw] at hM'
    by_cases e : a' = a
    · subst e
      simp only [Function.update_self, Option.some.injEq] at hM'
      subst hM'
      exact uniqueNames_append (h.names a' M hM) hs
    · rw [Function.update_of_ne e] at hM'; exact h.names a' M' hM'
  · rw [hw] at hM'
    by_cases e : a' = a
    · subst e
      simp only [Function.update_self, Option.some.injEq] at hM'
      subst hM'
      rcases List.mem_append.mp hx with hx | hx
      · exact h.auto a' M hM x hx p he
      · rw [List.mem_singleton] at hx; subst hx; exact hp p he
    · rw [Function.update_of_ne e] at hM'; exact h.auto a' M' hM' x hx p he

theorem AutoNames.addPtrAnonymous {fmt : ℕ → String} (hfmt : Function.Injective fmt) {w w' : World K m} (h : AutoNames fmt w)
    (a d : ℕ) (hw : w.addPtrAnonymous fmt a d = .ok w' ∨ w.addPtrAnonymous fmt a d = .throws w') : AutoNames fmt w' := by
  have ha : Attached w' := h.att.addPtr a d _ hw
  unfold World.addPtrAnonymous at hw
  have hnew : ∀ M, w.mesh a = some M → d ∉ M.domains.map Prod.snd → ("domain_" ++ fmt d) ∉ M.domains.map Prod.fst := by
    intro M hM hn hc
    obtain ⟨x, hx, he⟩ := List.mem_map.mp hc
    exact hn (h.auto a M hM x hx d he ▸ List.mem_map_of_mem hx)
  have hinj : ∀ p, "domain_" ++ fmt d = "domain_" ++ fmt p → d = p := by
    intro p hp
    exact hfmt (String.append_right_inj _ |>.mp hp)
  rcases addPtr_cases w a d ("domain_" ++ fmt d) with e | e | ⟨M, D, x, hM, hD, hf, hx, hxd, hxs, e⟩ | ⟨M, D, hM, hD, hf, hn, e⟩ | ⟨M, D, hM, hD, hf, e⟩
  · rw [e] at hw; rcases hw with hw | hw <;> cases hw
  · rw [e] at hw; rcases hw with hw | hw <;> cases hw; exact h
  · rw [e] at hw; rcases hw with hw | hw <;> cases hw; exact h
  · rw [e] at hw; rcases hw with hw | hw <;> cases hw
    exact h.push a d _ M hM ha (pushDomain_mesh w a _ d M hM) (hnew M hM hn) hinj
  · rw [e] at hw; rcases hw with hw | hw <;> cases hw
    have h2 : ∀ D, w.domain d = some D → D.mesh = .null := by intro D' hD'; rw [hD] at hD'; cases hD'; exact hf
    exact h.push a d _ M hM ha (by rw [pushDomain_mesh _ a _ d M (by simpa using hM)]; rfl)
      (hnew M hM (h.att.unlisted h2 a M hM)) hinj

theorem AutoNames.step {fmt : ℕ → String} (hfmt : Function.Injective fmt) {w w' : World K m} (h : AutoNames fmt w) (op : MeshOp K m)
    (hop : op.Auto fmt) (hw : w.step fmt op = .ok w' ∨ w.step fmt op = .throws w') : AutoNames fmt w' := by
  have hin : op.InPlace := by cases op <;> first | trivial | exact hop.elim
  have ha : Attached w' := h.att.step op hin hw
  cases op with
  | newMesh a nodes =>
    simp only [World.step] at hw
    split at hw
    · rcases hw with hw | hw <;> cases hw
      refine h.sub ha fun a' M' hM' => ?_
      rw [setMesh_mesh] at hM'
      by_cases e : a' = a
      · subst e; simp only [Function.update_self, Option.some.injEq] at hM'; subst hM'; left; rfl
      · rw [Function.update_of_ne e] at hM'; right; exact ⟨M', hM', List.Sublist.refl _⟩
    · rcases hw with hw | hw <;> cases hw
  | newBuffer b data =>
    simp only [World.step] at hw
    split at hw
    · rcases hw with hw | hw <;> cases hw; exact h.same ha rfl
    · rcases hw with hw | hw <;> cases hw
  | newDomain d src =>
    simp only [World.step] at hw
    split at hw
    · rcases hw with hw | hw <;> cases hw; exact h.same ha (construct_mesh ..)
    · rcases hw with hw | hw <;> cases hw
  | addNamed a s d src =>
    simp only [World.step] at hw
    split at hw
    · rename_i hf
      have hd := fresh_domain hf
      have hfr : ∀ M, w.mesh a = some M → d ∉ M.domains.map Prod.snd := fun M hM =>
        h.att.unlisted (by intro D hD; rw [hd] at hD; cases hD) a M hM
      rcases addNamed_ok (w := w) (a := a) (d := d) (s := s) (src := src) hfr with e | ⟨M, hM, hs, e⟩ | ⟨M, hM, hs, e⟩
      · rw [e] at hw; rcases hw with hw | hw <;> cases hw
      · rw [e] at hw; rcases hw with hw | hw <;> cases hw; exact h
      · rw [e] at hw; rcases hw with hw | hw <;> cases hw
        exact h.push a d s M hM ha (by rw [pushDomain_mesh _ a s d M (by rw [construct_mesh]; exact hM), construct_mesh]) hs
          (fun p hp => (hop p hp).elim)
    · rcases hw with hw | hw <;> cases hw
  | addAnonymous a d src =>
    simp only [World.step] at hw
    split at hw
    · rename_i hf
      unfold World.addAnonymous at hw
      split at hw
      · rcases hw with hw | hw <;> cases hw
      · have h1 : AutoNames fmt (w.construct d (.attached a) src) :=
          h.same (h.att.construct d _ src (fresh_domain hf)) (construct_mesh ..)
        exact h1.addPtrAnonymous hfmt a d hw
    · rcases hw with hw | hw <;> cases hw
  | addPtr => exact hop.elim
  | addPtrAnonymous a d => exact h.addPtrAnonymous hfmt a d hw
  | attachTo d a =>
    simp only [World.step] at hw
    rcases attachTo_cases w d a with e | e | e | ⟨D, hD, hf, e⟩ <;> rw [e] at hw <;> rcases hw with hw | hw <;> cases hw
    · exact h
    · exact h
    · exact h.same ha rfl
  | removeDomain a s =>
    simp only [World.step, World.removeDomain] at hw
    rcases removeWith_cases (fun x => x.1 == s) w a with e | e | e | ⟨M, x, rest, hM, hl, hp, hd, e⟩ <;> rw [e] at hw <;>
      rcases hw with hw | hw <;> simp only [Outcome.world] at hw <;> cases hw
    · exact h
    · refine h.sub ha fun a' M' hM' => ?_
      rw [destroyDomain_mesh, setMesh_mesh] at hM'
      by_cases e : a' = a
      · subst e; simp only [Function.update_self, Option.some.injEq] at hM'; subst hM'
        right; exact ⟨M, hM, by simp [hl]⟩
      · rw [Function.update_of_ne e] at hM'; right; exact ⟨M', hM', List.Sublist.refl _⟩
  | remove a d =>
    simp only [World.step, World.remove] at hw
    rcases removeWith_cases (fun x => x.2 == d) w a with e | e | e | ⟨M, x, rest, hM, hl, hp, hd, e⟩ <;> rw [e] at hw <;>
      rcases hw with hw | hw <;> simp only [Outcome.world] at hw <;> cases hw
    · exact h
    · refine h.sub ha fun a' M' hM' => ?_
      rw [destroyDomain_mesh, setMesh_mesh] at hM'
      by_cases e : a' = a
      · subst e; simp only [Function.update_self, Option.some.injEq] at hM'; subst hM'
        right; exact ⟨M, hM, by simp [hl]⟩
      · rw [Function.update_of_ne e] at hM'; right; exact ⟨M', hM', List.Sublist.refl _⟩
  | copyMesh => exact hop.elim
  | moveMesh => exact hop.elim
  | swapMesh => exact hop.elim
  | deleteMesh a =>
    simp only [World.step, World.deleteMesh] at hw
    cases hM : w.mesh a with
    | none => rw [hM] at hw; rcases hw with hw | hw <;> cases hw
    | some M =>
      rw [hM] at hw
      simp only at hw
      split at hw
      · rcases hw with hw | hw <;> cases hw
        refine h.sub ha fun a' M' hM' => ?_
        rw [setMesh_mesh, foldl_destroy_mesh] at hM'
        have hne : a' ≠ a := by rintro rfl; simp at hM'
        rw [Function.update_of_ne hne] at hM'
        right; exact ⟨M', hM', List.Sublist.refl _⟩
      · rcases hw with hw | hw <;> cases hw

theorem AutoNames.run {fmt : ℕ → String} (hfmt : Function.Injective fmt) (ops : List (MeshOp K m)) {w w' : World K m}
    (h : AutoNames fmt w) (hop : ∀ op ∈ ops, op.Auto fmt) (hw : w.run fmt ops = .ok w') : AutoNames fmt w' := by
  induction ops generalizing w with
  | nil => simp only [World.run] at hw; cases hw; exact h
  | cons op ops ih =>
    simp only [World.run] at hw
    have h1 := hop op List.mem_cons_self
    have h2 := fun o ho => hop o (List.mem_cons_of_mem _ ho)
    rcases hs : w.step fmt op with w1 | w1 | _ | _ <;> rw [hs] at hw <;> simp only at hw
    · exact ih (h.step hfmt op h1 (Or.inl hs)) h2 hw
    · exact ih (h.step hfmt op h1 (Or.inr hs)) h2 hw
    · cases hw
    · cases hw

theorem autoNames_initial (fmt : ℕ → String) : AutoNames fmt (World.initial K m) :=
  ⟨attached_initial, by simp [World.initial], by simp [World.initial]⟩

/-! ### Positions and elements -/

theorem positions_ok (M : MeshObj K m) (idx : List ℕ) (h : ∀ i ∈ idx, i < M.nodes.length) :
    ∃ rows, M.positions idx = .ok rows ∧ rows.length = idx.length ∧
      ∀ k (hk : k < idx.length), rows[k]? = M.nodes[idx[k]]? := by
  induction idx with
  | nil => exact ⟨[], rfl, rfl, by simp⟩
  | cons i rest ih =>
    obtain ⟨rows, e1, e2, e3⟩ := ih (fun j hj => h j (List.mem_cons_of_mem _ hj))
    have hi := h i List.mem_cons_self
    refine ⟨M.nodes[i] :: rows, ?_, by simp [e2], ?_⟩
    · simp [MeshObj.positions, MeshObj.position, List.getElem?_eq_getElem hi, e1]
    · intro k hk
      cases k with
      | zero => simp [List.getElem?_eq_getElem hi]
      | succ k => simpa using e3 k (by simpa using hk)

theorem node_row (hm : m ≤ 3) (M : MeshObj K m) (i : ℕ) (p : Fin m → K) (h : M.nodes[i]? = some p) :
    nodeRow M i = .ok fun c => some (p c) := by
  simp only [nodeRow, MeshObj.node, MeshObj.position, h]
  congr 1
  funext c
  obtain ⟨c, hc⟩ := c
  have : c = 0 ∨ c = 1 ∨ c = 2 := by omega
  rcases this with rfl | rfl | rfl
  · simp; omega
  · simp; omega
  · simp; omega

theorem nodeRows_ok (hm : m ≤ 3) (M : MeshObj K m) (idx : List ℕ) (h : ∀ i ∈ idx, i < M.nodes.length) :
    ∃ rows, nodeRows M idx = .ok rows ∧ rows.length = idx.length ∧
      ∀ k (hk : k < idx.length), rows[k]? = (M.nodes[idx[k]]?).map fun p => fun c => some (p c) := by
  induction idx with
  | nil => exact ⟨[], rfl, rfl, by simp⟩
  | cons i rest ih =>
    obtain ⟨rows, e1, e2, e3⟩ := ih (fun j hj => h j (List.mem_cons_of_mem _ hj))
    have hi := h i List.mem_cons_self
    refine ⟨(fun c => some (M.nodes[i] c)) :: rows, ?_, by simp [e2], ?_⟩
    · simp only [nodeRows, node_row hm M i _ (List.getElem?_eq_getElem hi), e1]
    · intro k hk
      cases k with
      | zero => simp [List.getElem?_eq_getElem hi]
      | succ k => simpa using e3 k (by simpa using hk)

theorem givenRows_ok (pos : List (Fin m → K)) (idx : List ℕ) (h : ∀ i ∈ idx, i < pos.length) :
    ∃ rows, givenRows pos idx = .ok rows ∧ rows.length = idx.length ∧
      ∀ k (hk : k < idx.length), rows[k]? = pos[idx[k]]? := by
  induction idx with
  | nil => exact ⟨[], rfl, rfl, by simp⟩
  | cons i rest ih =>
    obtain ⟨rows, e1, e2, e3⟩ := ih (fun j hj => h j (List.mem_cons_of_mem _ hj))
    have hi := h i List.mem_cons_self
    refine ⟨pos[i] :: rows, ?_, by simp [e2], ?_⟩
    · simp [givenRows, List.getElem?_eq_getElem hi, e1]
    · intro k hk
      cases k with
      | zero => simp [List.getElem?_eq_getElem hi]
      | succ k => simpa using e3 k (by simpa using hk)

theorem elementIndices_ok (w : World K m) (D : DomainObj) (data : List ℕ) (hb : w.buffer D.view.buffer = some data) (e n : ℕ)
    (h : ∀ j < n, e * D.view.outer + j * D.view.inner < data.length) :
    w.elementIndices D e n = .ok ((List.range n).map fun j => data[e * D.view.outer + j * D.view.inner]?.getD 0) := by
  induction n with
  | zero => rfl
  | succ n ih =>
    have hn := h n (by omega)
    rw [List.range_succ, List.map_append]
    simp only [elementIndices, ih (fun j hj => h j (by omega)), elementIndex, hb, List.getElem?_eq_getElem hn, List.map_cons,
      List.map_nil, Option.getD_some]

theorem flatten_get (c : ℕ) (table : List (List ℕ)) (hc : ∀ r ∈ table, r.length = c) (e j : ℕ) (he : e < table.length) (hj : j < c) :
    table.flatten[e * c + j]? = (table[e])[j]? := by
  induction table generalizing e with
  | nil => simp at he
  | cons r t ih =>
    have hr := hc r List.mem_cons_self
    cases e with
    | zero =>
      simp only [List.flatten_cons, Nat.zero_mul, Nat.zero_add, List.getElem_cons_zero]
      rw [List.getElem?_append_left (by omega)]
    | succ e =>
      simp only [List.flatten_cons, List.getElem_cons_succ]
      rw [List.getElem?_append_right (by rw [hr]; nlinarith)]
      rw [hr, show (e + 1) * c + j - c = e * c + j by rw [Nat.succ_mul]; omega]
      exact ih (fun r hr => hc r (List.mem_cons_of_mem _ hr)) e (by simpa using he)

theorem flatten_length (c : ℕ) (table : List (List ℕ)) (hc : ∀ r ∈ table, r.length = c) : table.flatten.length = table.length * c := by
  induction table with
  | nil => simp
  | cons r t ih =>
    simp only [List.flatten_cons, List.length_append, List.length_cons]
    rw [ih (fun r hr => hc r (List.mem_cons_of_mem _ hr)), hc r List.mem_cons_self, Nat.succ_mul]; omega


/-! ### Index buffers -/

/-- Every domain that owns a buffer reads from it, and no two domains own the same one. -/
structure Buffers (w : World K m) : Prop where
  live : ∀ d D b, w.domain d = some D → D.owned = some b → (w.buffer b).isSome ∧ D.view.buffer = b
  inj : ∀ d d' D D' b, w.domain d = some D → w.domain d' = some D' → D.owned = some b → D'.owned = some b → d = d'

theorem buffers_initial : Buffers (World.initial K m) := by constructor <;> simp [World.initial]

theorem Buffers.mono {w w' : World K m} (h : Buffers w) (hd : ∀ d D', w'.domain d = some D' → ∃ D, w.domain d = some D ∧
    D'.owned = D.owned ∧ D'.view = D.view) (hb : ∀ b, (w.buffer b).isSome → (w'.buffer b).isSome) : Buffers w' := by
  refine ⟨fun d D' b hD' ho => ?_, fun d d' D D' b hD hD' ho ho' => ?_⟩
  · obtain ⟨D, hD, e1, e2⟩ := hd d D' hD'
    rw [e1] at ho
    rw [e2]
    exact ⟨hb b (h.live d D b hD ho).1, (h.live d D b hD ho).2⟩
  · obtain ⟨D1, h1, e1, _⟩ := hd d D hD
    obtain ⟨D2, h2, e2, _⟩ := hd d' D' hD'
    rw [e1] at ho
    rw [e2] at ho'
    exact h.inj d d' D1 D2 b h1 h2 ho ho'

theorem Buffers.setMesh {w : World K m} (h : Buffers w) (a M) : Buffers (w.setMesh a M) := ⟨h.live, h.inj⟩

theorem Buffers.pushDomain {w : World K m} (h : Buffers w) (a s d) : Buffers (w.pushDomain a s d) := by
  unfold World.pushDomain
  cases w.mesh a with
  | none => exact h
  | some M => exact h.setMesh a _

theorem Buffers.relink {w : World K m} (h : Buffers w) (d : ℕ) (D f) (hD : w.domain d = some D) :
    Buffers (w.setDomain d (some { D with mesh := f })) := by
  refine h.mono (fun x D' hx => ?_) (fun _ h => h)
  rw [setDomain_domain] at hx
  by_cases e : x = d
  · subst e; simp only [Function.update_self, Option.some.injEq] at hx; subst hx; exact ⟨D, hD, rfl, rfl⟩
  · rw [Function.update_of_ne e] at hx; exact ⟨D', hx, rfl, rfl⟩

theorem Buffers.setBuffer {w : World K m} (h : Buffers w) (b data) : Buffers (w.setBuffer b (some data)) := by
  refine h.mono (fun x D' hx => ⟨D', hx, rfl, rfl⟩) (fun b' hb' => ?_)
  rw [setBuffer_buffer]
  by_cases e : b' = b
  · subst e; simp
  · rw [Function.update_of_ne e]; exact hb'

theorem Buffers.construct {w : World K m} (h : Buffers w) (d : ℕ) (f src) (hf : w.freshFor d src = true) :
    Buffers (w.construct d f src) := by
  have hd := fresh_domain hf
  have plain : ∀ D : DomainObj, D.owned = none → Buffers (w.setDomain d (some D)) := by
    intro D hD
    refine ⟨fun x D' b hx ho => ?_, fun x y D1 D2 b hx hy ho ho' => ?_⟩
    · rw [setDomain_domain] at hx
      by_cases e : x = d
      · subst e; simp only [Function.update_self, Option.some.injEq] at hx; subst hx; rw [hD] at ho; cases ho
      · rw [Function.update_of_ne e] at hx; exact h.live x D' b hx ho
    · rw [setDomain_domain] at hx hy
      by_cases e : x = d
      · subst e; simp only [Function.update_self, Option.some.injEq] at hx; subst hx; rw [hD] at ho; cases ho
      · rw [Function.update_of_ne e] at hx
        by_cases e2 : y = d
        · subst e2; simp only [Function.update_self, Option.some.injEq] at hy; subst hy; rw [hD] at ho'; cases ho'
        · rw [Function.update_of_ne e2] at hy; exact h.inj x y D1 D2 b hx hy ho ho'
  cases src with
  | external b r c => exact plain _ rfl
  | strided b r c o i => exact plain _ rfl
  | copied b c t =>
    have hb : w.buffer b = none := by
      unfold World.freshFor at hf
      simp only [DomainSource.allocates, Bool.and_eq_true] at hf
      exact Option.isNone_iff_eq_none.mp hf.2
    have hnot : ∀ x D, w.domain x = some D → D.owned ≠ some b := by
      intro x D hx ho
      have := (h.live x D b hx ho).1
      rw [hb] at this; cases this
    simp only [World.construct, DomainSource.allocates, DomainSource.build]
    refine ⟨fun x D' b' hx ho => ?_, fun x y D1 D2 b' hx hy ho ho' => ?_⟩
    · rw [setDomain_domain, setBuffer_domain] at hx
      rw [setDomain_buffer, setBuffer_buffer]
      by_cases e : x = d
      · subst e; simp only [Function.update_self, Option.some.injEq] at hx; subst hx
        simp only [Option.some.injEq] at ho
        subst ho
        simp
      · rw [Function.update_of_ne e] at hx
        have h1 := h.live x D' b' hx ho
        have hne : b' ≠ b := fun hc => hnot x D' hx (hc ▸ ho)
        rw [Function.update_of_ne hne]
        exact h1
    · rw [setDomain_domain, setBuffer_domain] at hx hy
      by_cases e : x = d
      · subst e
        by_cases e2 : y = x
        · exact e2.symm
        · simp only [Function.update_self, Option.some.injEq] at hx; subst hx
          simp only [Option.some.injEq] at ho
          subst ho
          rw [Function.update_of_ne e2] at hy
          exact (hnot y D2 hy ho').elim
      · rw [Function.update_of_ne e] at hx
        by_cases e2 : y = d
        · subst e2
          simp only [Function.update_self, Option.some.injEq] at hy; subst hy
          simp only [Option.some.injEq] at ho'
          subst ho'
          exact (hnot x D1 hx ho).elim
        · rw [Function.update_of_ne e2] at hy; exact h.inj x y D1 D2 b' hx hy ho ho'

/-- Destroying a domain does not touch the buffers of the others. -/
theorem destroy_buffer {w : World K m} (h : Buffers w) (d x : ℕ) (D : DomainObj) (hD : w.domain x = some D) (hne : x ≠ d) (b : ℕ)
    (hb : D.owned = some b) : (w.destroyDomain d).buffer b = w.buffer b := by
  unfold World.destroyDomain
  cases hd : w.domain d with
  | none => rfl
  | some E =>
    cases ho : E.owned with
    | none => simp only [ho]; rfl
    | some b' =>
      simp only [ho]
      have : b ≠ b' := by rintro rfl; exact hne (h.inj x d D E b hD hd hb ho)
      rw [setDomain_buffer, setBuffer_buffer, Function.update_of_ne this]

theorem destroy_buffer_free {w : World K m} (d b : ℕ) (hb : ∀ D, w.domain d = some D → D.owned ≠ some b) :
    (w.destroyDomain d).buffer b = w.buffer b := by
  unfold World.destroyDomain
  cases hd : w.domain d with
  | none => rfl
  | some E =>
    cases ho : E.owned with
    | none => simp only [ho]; rfl
    | some b' =>
      simp only [ho]
      have : b ≠ b' := by rintro rfl; exact hb E hd ho
      rw [setDomain_buffer, setBuffer_buffer, Function.update_of_ne this]

theorem Buffers.destroy {w : World K m} (h : Buffers w) (d : ℕ) : Buffers (w.destroyDomain d) := by
  refine ⟨fun x D b hx ho => ?_, fun x y D1 D2 b hx hy ho ho' => ?_⟩
  · rw [destroyDomain_domain] at hx
    have hne : x ≠ d := by rintro rfl; simp at hx
    rw [Function.update_of_ne hne] at hx
    rw [destroy_buffer h d x D hx hne b ho]
    exact h.live x D b hx ho
  · rw [destroyDomain_domain] at hx hy
    have hne : x ≠ d := by rintro rfl; simp at hx
    have hne' : y ≠ d := by rintro rfl; simp at hy
    rw [Function.update_of_ne hne] at hx
    rw [Function.update_of_ne hne'] at hy
    exact h.inj x y D1 D2 b hx hy ho ho'

theorem Buffers.foldl_destroy {w : World K m} (l : List (String × ℕ)) (h : Buffers w) :
    Buffers (l.foldl (fun w x => w.destroyDomain x.2) w) := by
  induction l generalizing w with
  | nil => exact h
  | cons x l ih => exact ih (h.destroy x.2)

/-- What a domain reads is not affected by a destruction of other domains. -/
theorem foldl_destroy_buffer {w : World K m} (l : List (String × ℕ)) (h : Buffers w) (d : ℕ) (D : DomainObj) (hD : w.domain d = some D)
    (hn : d ∉ l.map Prod.snd) (hb : D.owned.isSome ∨ ∀ d' D', w.domain d' = some D' → D'.owned ≠ some D.view.buffer) :
    (l.foldl (fun w x => w.destroyDomain x.2) w).buffer D.view.buffer = w.buffer D.view.buffer := by
  induction l generalizing w with
  | nil => rfl
  | cons x l ih =>
    have hx : d ≠ x.2 := fun hc => hn (by simp [hc])
    have hstep : (w.destroyDomain x.2).buffer D.view.buffer = w.buffer D.view.buffer := by
      rcases hb with hb | hb
      · obtain ⟨b, hb⟩ := Option.isSome_iff_exists.mp hb
        rw [(h.live d D b hD hb).2]
        exact destroy_buffer h x.2 d D hD hx b hb
      · exact destroy_buffer_free x.2 _ (fun D' hD' => hb x.2 D' hD')
    rw [List.foldl_cons, ih (h.destroy x.2) (by rw [destroyDomain_domain, Function.update_of_ne hx]; exact hD)
      (fun hc => hn (by rw [List.map_cons]; exact List.mem_cons_of_mem _ hc)) ?_, hstep]
    rcases hb with hb | hb
    · exact Or.inl hb
    · right
      intro d' D' hD'
      rw [destroyDomain_domain] at hD'
      have hne : d' ≠ x.2 := by rintro rfl; simp at hD'
      rw [Function.update_of_ne hne] at hD'
      exact hb d' D' hD'

theorem Buffers.addPtr {w w' : World K m} (h : Buffers w) (a d : ℕ) (s : String)
    (hw : w.addPtr a d s = .ok w' ∨ w.addPtr a d s = .throws w') : Buffers w' := by
  rcases addPtr_cases w a d s with e | e | ⟨M, D, x, hM, hD, hf, hx, hxd, hxs, e⟩ | ⟨M, D, hM, hD, hf, hn, e⟩ | ⟨M, D, hM, hD, hf, e⟩ <;>
    rw [e] at hw <;> rcases hw with hw | hw <;> cases hw
  · exact h
  · exact h
  · exact h.pushDomain a s d
  · exact (h.relink d D _ hD).pushDomain a s d

theorem Buffers.removeWith {w : World K m} (h : Buffers w) (p) (a : ℕ) (r)
    (hw : w.removeWith p a = .ok r ∨ w.removeWith p a = .throws r) : Buffers r.2 := by
  rcases removeWith_cases p w a with e | e | e | ⟨M, x, rest, hM, hl, hp, hd, e⟩ <;> rw [e] at hw <;> rcases hw with hw | hw <;> cases hw
  · exact h
  · exact (h.setMesh a _).destroy x.2

theorem Buffers.step {fmt : ℕ → String} {w w' : World K m} (h : Buffers w) (op : MeshOp K m) (hop : op.InPlace)
    (hw : w.step fmt op = .ok w' ∨ w.step fmt op = .throws w') : Buffers w' := by
  cases op with
  | newMesh a nodes =>
    simp only [World.step] at hw
    split at hw <;> rcases hw with hw | hw <;> cases hw
    exact h.setMesh a _
  | newBuffer b data =>
    simp only [World.step] at hw
    split at hw <;> rcases hw with hw | hw <;> cases hw
    exact h.setBuffer b _
  | newDomain d src =>
    simp only [World.step] at hw
    split at hw
    · rename_i hf
      rcases hw with hw | hw <;> cases hw
      exact h.construct d _ src hf
    · rcases hw with hw | hw <;> cases hw
  | addNamed a s d src =>
    simp only [World.step] at hw
    split at hw
    · rename_i hf
      unfold World.addNamed at hw
      split at hw
      · rcases hw with hw | hw <;> cases hw
      · split at hw
        · rcases hw with hw | hw <;> cases hw; exact h
        · exact (h.construct d _ src hf).addPtr a d s hw
    · rcases hw with hw | hw <;> cases hw
  | addAnonymous a d src =>
    simp only [World.step] at hw
    split at hw
    · rename_i hf
      unfold World.addAnonymous at hw
      split at hw
      · rcases hw with hw | hw <;> cases hw
      · exact (h.construct d _ src hf).addPtr a d _ hw
    · rcases hw with hw | hw <;> cases hw
  | addPtr a d s => exact h.addPtr a d s hw
  | addPtrAnonymous a d => exact h.addPtr a d _ hw
  | attachTo d a =>
    simp only [World.step] at hw
    rcases attachTo_cases w d a with e | e | e | ⟨D, hD, hf, e⟩ <;> rw [e] at hw <;> rcases hw with hw | hw <;> cases hw
    · exact h
    · exact h
    · exact h.relink d D _ hD
  | removeDomain a s =>
    simp only [World.step, World.removeDomain] at hw
    rcases hr : w.removeWith (fun x => x.1 == s) a with r | r | _ | _ <;> rw [hr] at hw <;> rcases hw with hw | hw <;>
      simp only [Outcome.world] at hw <;> cases hw
    · exact h.removeWith _ a r (Or.inl hr)
    · exact h.removeWith _ a r (Or.inr hr)
  | remove a d =>
    simp only [World.step, World.remove] at hw
    rcases hr : w.removeWith (fun x => x.2 == d) a with r | r | _ | _ <;> rw [hr] at hw <;> rcases hw with hw | hw <;>
      simp only [Outcome.world] at hw <;> cases hw
    · exact h.removeWith _ a r (Or.inl hr)
    · exact h.removeWith _ a r (Or.inr hr)
  | copyMesh => exact hop.elim
  | moveMesh => exact hop.elim
  | swapMesh => exact hop.elim
  | deleteMesh a =>
    simp only [World.step, World.deleteMesh] at hw
    cases hM : w.mesh a with
    | none => rw [hM] at hw; rcases hw with hw | hw <;> cases hw
    | some M =>
      rw [hM] at hw
      simp only at hw
      split at hw
      · rcases hw with hw | hw <;> cases hw
        exact (h.foldl_destroy _).setMesh a _
      · rcases hw with hw | hw <;> cases hw

theorem Buffers.run {fmt : ℕ → String} (ops : List (MeshOp K m)) {w w' : World K m} (h : Buffers w) (hop : ∀ op ∈ ops, op.InPlace)
    (hw : w.run fmt ops = .ok w') : Buffers w' := by
  induction ops generalizing w with
  | nil => simp only [World.run] at hw; cases hw; exact h
  | cons op ops ih =>
    simp only [World.run] at hw
    have h1 := hop op List.mem_cons_self
    have h2 := fun o ho => hop o (List.mem_cons_of_mem _ ho)
    rcases hs : w.step fmt op with w1 | w1 | _ | _ <;> rw [hs] at hw <;> simp only at hw
    · exact ih (h.step op h1 (Or.inl hs)) h2 hw
    · exact ih (h.step op h1 (Or.inr hs)) h2 hw
    · cases hw
    · cases hw

theorem construct_buffer {w : World K m} {d f src} (hf : w.freshFor d src = true) (b : ℕ) (hb : (w.buffer b).isSome) :
    (w.construct d f src).buffer b = w.buffer b := by
  cases src with
  | external => rfl
  | strided => rfl
  | copied b' c t =>
    have hb' : w.buffer b' = none := by
      unfold World.freshFor at hf
      simp only [DomainSource.allocates, Bool.and_eq_true] at hf
      exact Option.isNone_iff_eq_none.mp hf.2
    have hne : b ≠ b' := by rintro rfl; rw [hb'] at hb; cases hb
    simp only [World.construct, DomainSource.allocates, setDomain_buffer, setBuffer_buffer, Function.update_of_ne hne]

theorem addPtr_keeps {w w' : World K m} (a d : ℕ) (s : String) (hw : w.addPtr a d s = .ok w' ∨ w.addPtr a d s = .throws w') (x : ℕ) (D)
    (hx : w.domain x = some D) (hf : D.mesh ≠ .null) : w'.domain x = some D ∧ w'.buffer = w.buffer := by
  rcases addPtr_cases w a d s with e | e | ⟨M, E, y, hM, hE, hfE, hy, hyd, hys, e⟩ | ⟨M, E, hM, hE, hfE, hn, e⟩ | ⟨M, E, hM, hE, hfE, e⟩ <;>
    rw [e] at hw <;> rcases hw with hw | hw <;> cases hw
  · exact ⟨hx, rfl⟩
  · exact ⟨hx, rfl⟩
  · exact ⟨by rw [pushDomain_domain]; exact hx, by simp⟩
  · refine ⟨?_, by simp⟩
    rw [pushDomain_domain, setDomain_domain]
    have hne : x ≠ d := by rintro rfl; rw [hE] at hx; cases hx; exact hf hfE
    rw [Function.update_of_ne hne]; exact hx

/-- A call in place keeps a domain that stays listed, and the buffer it reads. -/
theorem step_keeps {fmt : ℕ → String} {w w' : World K m} (h : Buffers w) (op : MeshOp K m) (hop : op.InPlace)
    (hw : w.step fmt op = .ok w' ∨ w.step fmt op = .throws w') (d : ℕ) (D : DomainObj) (hD : w.domain d = some D) (hf : D.mesh ≠ .null)
    (hl : (w'.domain d).isSome) (hv : (w.buffer D.view.buffer).isSome)
    (hb : D.owned.isSome ∨ ∀ d' D', w.domain d' = some D' → D'.owned ≠ some D.view.buffer) :
    w'.domain d = some D ∧ w'.buffer D.view.buffer = w.buffer D.view.buffer := by
  have rem : ∀ p a r, (w.removeWith p a = .ok r ∨ w.removeWith p a = .throws r) → (r.2.domain d).isSome →
      r.2.domain d = some D ∧ r.2.buffer D.view.buffer = w.buffer D.view.buffer := by
    intro p a r hr hl
    rcases removeWith_cases p w a with e | e | e | ⟨M, x, rest, hM, hxl, hp, hd, e⟩ <;> rw [e] at hr <;> rcases hr with hr | hr <;> cases hr
    · exact ⟨hD, rfl⟩
    · simp only at hl ⊢
      rw [destroyDomain_domain, setMesh_domain] at hl ⊢
      have hne : d ≠ x.2 := by rintro rfl; simp at hl
      rw [Function.update_of_ne hne]
      refine ⟨hD, ?_⟩
      have := foldl_destroy_buffer [x] (h.setMesh a (some { M with domains := rest })) d D (by simpa using hD) (by simpa using hne) hb
      simpa using this
  cases op with
  | newMesh a nodes =>
    simp only [World.step] at hw
    split at hw <;> rcases hw with hw | hw <;> cases hw
    exact ⟨hD, rfl⟩
  | newBuffer b data =>
    simp only [World.step] at hw
    split at hw
    · rename_i hn
      rcases hw with hw | hw <;> cases hw
      refine ⟨hD, ?_⟩
      have hne : D.view.buffer ≠ b := by
        rintro rfl
        rw [Option.isNone_iff_eq_none] at hn
        rw [hn] at hv; cases hv
      rw [setBuffer_buffer, Function.update_of_ne hne]
    · rcases hw with hw | hw <;> cases hw
  | newDomain x src =>
    simp only [World.step] at hw
    split at hw
    · rename_i hfr
      rcases hw with hw | hw <;> cases hw
      have hne : d ≠ x := by rintro rfl; rw [fresh_domain hfr] at hD; cases hD
      exact ⟨by rw [construct_domain, Function.update_of_ne hne]; exact hD, construct_buffer hfr _ hv⟩
    · rcases hw with hw | hw <;> cases hw
  | addNamed a s x src =>
    simp only [World.step] at hw
    split at hw
    · rename_i hfr
      have hne : d ≠ x := by rintro rfl; rw [fresh_domain hfr] at hD; cases hD
      unfold World.addNamed at hw
      split at hw
      · rcases hw with hw | hw <;> cases hw
      · split at hw
        · rcases hw with hw | hw <;> cases hw; exact ⟨hD, rfl⟩
        · have := addPtr_keeps a x s hw d D (by rw [construct_domain, Function.update_of_ne hne]; exact hD) hf
          exact ⟨this.1, by rw [this.2]; exact construct_buffer hfr _ hv⟩
    · rcases hw with hw | hw <;> cases hw
  | addAnonymous a x src =>
    simp only [World.step] at hw
    split at hw
    · rename_i hfr
      have hne : d ≠ x := by rintro rfl; rw [fresh_domain hfr] at hD; cases hD
      unfold World.addAnonymous at hw
      split at hw
      · rcases hw with hw | hw <;> cases hw
      · have := addPtr_keeps a x _ hw d D (by rw [construct_domain, Function.update_of_ne hne]; exact hD) hf
        exact ⟨this.1, by rw [this.2]; exact construct_buffer hfr _ hv⟩
    · rcases hw with hw | hw <;> cases hw
  | addPtr a x s => have := addPtr_keeps a x s hw d D hD hf; exact ⟨this.1, by rw [this.2]⟩
  | addPtrAnonymous a x => have := addPtr_keeps a x _ hw d D hD hf; exact ⟨this.1, by rw [this.2]⟩
  | attachTo x a =>
    simp only [World.step] at hw
    rcases attachTo_cases w x a with e | e | e | ⟨E, hE, hfE, e⟩ <;> rw [e] at hw <;> rcases hw with hw | hw <;> cases hw
    · exact ⟨hD, rfl⟩
    · exact ⟨hD, rfl⟩
    · have hne : d ≠ x := by rintro rfl; rw [hE] at hD; cases hD; exact hf hfE
      exact ⟨by rw [setDomain_domain, Function.update_of_ne hne]; exact hD, rfl⟩
  | removeDomain a s =>
    simp only [World.step, World.removeDomain] at hw
    rcases hr : w.removeWith (fun x => x.1 == s) a with r | r | _ | _ <;> rw [hr] at hw <;> rcases hw with hw | hw <;>
      simp only [Outcome.world] at hw <;> cases hw
    · exact rem _ a r (Or.inl hr) hl
    · exact rem _ a r (Or.inr hr) hl
  | remove a x =>
    simp only [World.step, World.remove] at hw
    rcases hr : w.removeWith (fun y => y.2 == x) a with r | r | _ | _ <;> rw [hr] at hw <;> rcases hw with hw | hw <;>
      simp only [Outcome.world] at hw <;> cases hw
    · exact rem _ a r (Or.inl hr) hl
    · exact rem _ a r (Or.inr hr) hl
  | copyMesh => exact hop.elim
  | moveMesh => exact hop.elim
  | swapMesh => exact hop.elim
  | deleteMesh a =>
    simp only [World.step, World.deleteMesh] at hw
    cases hM : w.mesh a with
    | none => rw [hM] at hw; rcases hw with hw | hw <;> cases hw
    | some M =>
      rw [hM] at hw
      simp only at hw
      split at hw
      · rcases hw with hw | hw <;> cases hw
        rw [setMesh_domain, foldl_destroy_domain] at hl ⊢
        split at hl
        · cases hl
        · rename_i hn
          rw [if_neg hn]
          exact ⟨hD, foldl_destroy_buffer _ h d D hD hn hb⟩
      · rcases hw with hw | hw <;> cases hw

/-- Calls on domains keep the positions of a mesh, and do not create meshes. -/
theorem step_nodes {fmt : ℕ → String} {w w' : World K m} (op : MeshOp K m) (hop : op.InPlace)
    (hnew : ∀ a nodes, op ≠ .newMesh a nodes) (hw : w.step fmt op = .ok w' ∨ w.step fmt op = .throws w') (a : ℕ) (M' : MeshObj K m)
    (hM' : w'.mesh a = some M') : ∃ M, w.mesh a = some M ∧ M'.nodes = M.nodes := by
  have push : ∀ (u : World K m) b s d, u.mesh = w.mesh → (u.pushDomain b s d).mesh a = some M' → ∃ M, w.mesh a = some M ∧ M'.nodes = M.nodes := by
    intro u b s d hu h
    unfold World.pushDomain at h
    cases hb : u.mesh b with
    | none => rw [hb] at h; simp only at h; rw [hu] at h; exact ⟨M', h, rfl⟩
    | some N =>
      rw [hb] at h
      simp only [setMesh_mesh] at h
      by_cases e : a = b
      · subst e
        simp only [Function.update_self, Option.some.injEq] at h
        subst h
        exact ⟨N, hu ▸ hb, rfl⟩
      · rw [Function.update_of_ne e, hu] at h; exact ⟨M', h, rfl⟩
  have ptr : ∀ (u : World K m) b d s, u.mesh = w.mesh → (u.addPtr b d s = .ok w' ∨ u.addPtr b d s = .throws w') →
      ∃ M, w.mesh a = some M ∧ M'.nodes = M.nodes := by
    intro u b d s hu hr
    rcases addPtr_cases u b d s with e | e | ⟨M, E, y, hM, hE, hfE, hy, hyd, hys, e⟩ | ⟨M, E, hM, hE, hfE, hn, e⟩ | ⟨M, E, hM, hE, hfE, e⟩ <;>
      rw [e] at hr <;> rcases hr with hr | hr <;> cases hr
    · exact ⟨M', hu ▸ hM', rfl⟩
    · exact ⟨M', hu ▸ hM', rfl⟩
    · exact push u b s d hu hM'
    · exact push _ b s d (by simpa using hu) hM'
  have rem : ∀ p b r, (w.removeWith p b = .ok r ∨ w.removeWith p b = .throws r) → r.2.mesh a = some M' →
      ∃ M, w.mesh a = some M ∧ M'.nodes = M.nodes := by
    intro p b r hr hM
    rcases removeWith_cases p w b with e | e | e | ⟨N, x, rest, hN, hl, hp, hd, e⟩ <;> rw [e] at hr <;> rcases hr with hr | hr <;> cases hr
    · exact ⟨M', hM, rfl⟩
    · simp only [destroyDomain_mesh, setMesh_mesh] at hM
      by_cases e : a = b
      · subst e
        simp only [Function.update_self, Option.some.injEq] at hM
        subst hM
        exact ⟨N, hN, rfl⟩
      · rw [Function.update_of_ne e] at hM; exact ⟨M', hM, rfl⟩
  cases op with
  | newMesh b nodes => exact (hnew b nodes rfl).elim
  | newBuffer b data =>
    simp only [World.step] at hw
    split at hw <;> rcases hw with hw | hw <;> cases hw
    exact ⟨M', hM', rfl⟩
  | newDomain x src =>
    simp only [World.step] at hw
    split at hw <;> rcases hw with hw | hw <;> cases hw
    rw [construct_mesh] at hM'
    exact ⟨M', hM', rfl⟩
  | addNamed b s x src =>
    simp only [World.step] at hw
    split at hw
    · unfold World.addNamed at hw
      split at hw
      · rcases hw with hw | hw <;> cases hw
      · split at hw
        · rcases hw with hw | hw <;> cases hw; exact ⟨M', hM', rfl⟩
        · exact ptr _ b x s (construct_mesh ..) hw
    · rcases hw with hw | hw <;> cases hw
  | addAnonymous b x src =>
    simp only [World.step] at hw
    split at hw
    · unfold World.addAnonymous at hw
      split at hw
      · rcases hw with hw | hw <;> cases hw
      · exact ptr _ b x _ (construct_mesh ..) hw
    · rcases hw with hw | hw <;> cases hw
  | addPtr b x s => exact ptr w b x s rfl hw
  | addPtrAnonymous b x => exact ptr w b x _ rfl hw
  | attachTo x b =>
    simp only [World.step] at hw
    rcases attachTo_cases w x b with e | e | e | ⟨E, hE, hfE, e⟩ <;> rw [e] at hw <;> rcases hw with hw | hw <;> cases hw <;>
      exact ⟨M', hM', rfl⟩
  | removeDomain b s =>
    simp only [World.step, World.removeDomain] at hw
    rcases hr : w.removeWith (fun x => x.1 == s) b with r | r | _ | _ <;> rw [hr] at hw <;> rcases hw with hw | hw <;>
      simp only [Outcome.world] at hw <;> cases hw
    · exact rem _ b r (Or.inl hr) hM'
    · exact rem _ b r (Or.inr hr) hM'
  | remove b x =>
    simp only [World.step, World.remove] at hw
    rcases hr : w.removeWith (fun y => y.2 == x) b with r | r | _ | _ <;> rw [hr] at hw <;> rcases hw with hw | hw <;>
      simp only [Outcome.world] at hw <;> cases hw
    · exact rem _ b r (Or.inl hr) hM'
    · exact rem _ b r (Or.inr hr) hM'
  | copyMesh => exact hop.elim
  | moveMesh => exact hop.elim
  | swapMesh => exact hop.elim
  | deleteMesh b =>
    simp only [World.step, World.deleteMesh] at hw
    cases hM : w.mesh b with
    | none => rw [hM] at hw; rcases hw with hw | hw <;> cases hw
    | some M =>
      rw [hM] at hw
      simp only at hw
      split at hw
      · rcases hw with hw | hw <;> cases hw
        rw [setMesh_mesh, foldl_destroy_mesh] at hM'
        have hne : a ≠ b := by rintro rfl; simp at hM'
        rw [Function.update_of_ne hne] at hM'
        exact ⟨M', hM', rfl⟩
      · rcases hw with hw | hw <;> cases hw

theorem nodeRows_congr {M M' : MeshObj K m} (h : M'.nodes = M.nodes) (idx : List ℕ) : nodeRows M' idx = nodeRows M idx := by
  induction idx with
  | nil => rfl
  | cons i rest ih => simp only [nodeRows, ih, nodeRow, MeshObj.node, MeshObj.position, h]

theorem elementIndices_congr {w w' : World K m} (D : DomainObj) (h : w'.buffer D.view.buffer = w.buffer D.view.buffer) (e n : ℕ) :
    w'.elementIndices D e n = w.elementIndices D e n := by
  induction n with
  | zero => rfl
  | succ n ih => simp only [elementIndices, ih, elementIndex, h]

end World

end Caribou
