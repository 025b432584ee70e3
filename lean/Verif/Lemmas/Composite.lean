import Verif.Spec.Composite
import Verif.Props.SmallLoads

/-!
# Lemmas about bodies of several parts
-/

set_option autoImplicit false
set_option linter.all false

namespace Caribou

open Spec Matrix

variable {N : ℕ}

/-! ### Element by element -/

/-- The part made of one element. -/
def Spec.BodyElement.part (b : BodyElement N) : BodyPart N := ⟨b.type, 1, fun _ => b.nodes, b.material⟩

noncomputable def Spec.BodyElement.force (X x : Fin N → Fin 3 → ℝ) (b : BodyElement N) : Fin N → Fin 3 → ℝ := fun p =>
  ∑ i, if b.nodes i = p then nodalForces b.material (getGaussNodes b.type.elem b.type.gauss fun i => X (b.nodes i)) (fun i => x (b.nodes i)) i else 0

theorem partsForce_eq (parts : List (BodyPart N)) (X x f : Fin N → Fin 3 → ℝ) :
    partsForce parts X x f = f - ((elementsOf parts).map fun b => b.force X x).sum := by
  induction parts generalizing f with
  | nil => simp [partsForce, elementsOf]
  | cons p ps ih =>
    have h : partsForce (p :: ps) X x f = partsForce ps X x ((p.mesh X).addForce p.material x f) := rfl
    have e : elementsOf (p :: ps) = (List.ofFn fun e => (⟨p.type, p.idx e, p.material⟩ : BodyElement N)) ++ elementsOf ps := by simp [elementsOf]
    rw [h, ih, e, List.map_append, List.sum_append, ← sub_sub, List.map_ofFn, List.sum_ofFn]
    congr 1
    funext q
    simp only [HyperMesh.addForce, Pi.sub_apply, Finset.sum_apply]
    rfl

noncomputable def Spec.BodyElement.energy (X x : Fin N → Fin 3 → ℝ) (b : BodyElement N) : ℝ :=
  ((getGaussNodes b.type.elem b.type.gauss fun i => X (b.nodes i)).map fun g =>
    let F := strainF g.dN (fun i => x (b.nodes i) - X (b.nodes i))
    (g.detJ * g.weight) * b.material.energy F.det (F.transpose * F)).sum

theorem partsEnergy_eq (parts : List (BodyPart N)) (X x : Fin N → Fin 3 → ℝ) : partsEnergy parts X x = ((elementsOf parts).map fun b => b.energy X x).sum := by
  induction parts with
  | nil => simp [partsEnergy, elementsOf]
  | cons p ps ih =>
    have e : elementsOf (p :: ps) = (List.ofFn fun e => (⟨p.type, p.idx e, p.material⟩ : BodyElement N)) ++ elementsOf ps := by simp [elementsOf]
    have h : partsEnergy (p :: ps) X x = (p.mesh X).potentialEnergy p.material X x + partsEnergy ps X x := by simp [partsEnergy]
    rw [h, ih, e, List.map_append, List.sum_append, List.map_ofFn, List.sum_ofFn]
    rfl

noncomputable def Spec.BodyElement.matrix (X x : Fin N → Fin 3 → ℝ) (b : BodyElement N) : Dof N → Dof N → ℝ :=
  addStoredToMatrix 1 ((b.part.mesh X).storedK b.material x) 0

theorem addStored_add (K A : Dof N → Dof N → ℝ) : addStoredToMatrix 1 K A = A + addStoredToMatrix 1 K 0 := by
  funext d d'
  simp only [addStored_eq, Pi.add_apply, Pi.zero_apply]
  ring

theorem addStored_sum {M : ℕ} (K : Fin M → Dof N → Dof N → ℝ) : addStoredToMatrix 1 (fun r c => ∑ e, K e r c) 0 = ∑ e, addStoredToMatrix 1 (K e) 0 := by
  funext d d'
  simp only [Finset.sum_apply, addStored_eq, Pi.zero_apply, one_mul, zero_sub, fullK_apply]
  split_ifs with h
  · rw [Finset.sum_neg_distrib]
  · rw [Finset.sum_neg_distrib, Finset.sum_add_distrib]

theorem partsMatrix_eq (parts : List (BodyPart N)) (X x : Fin N → Fin 3 → ℝ) (A : Dof N → Dof N → ℝ) :
    partsMatrix parts X x A = A + ((elementsOf parts).map fun b => b.matrix X x).sum := by
  induction parts generalizing A with
  | nil => simp [partsMatrix, elementsOf]
  | cons p ps ih =>
    have h : partsMatrix (p :: ps) X x A = partsMatrix ps X x (addStoredToMatrix 1 ((p.mesh X).storedK p.material x) A) := rfl
    have e : elementsOf (p :: ps) = (List.ofFn fun e => (⟨p.type, p.idx e, p.material⟩ : BodyElement N)) ++ elementsOf ps := by simp [elementsOf]
    rw [h, ih, e, List.map_append, List.sum_append, addStored_add, ← add_assoc, List.map_ofFn, List.sum_ofFn]
    congr 2
    have : (p.mesh X).storedK p.material x = fun r c => ∑ e, ((BodyElement.part ⟨p.type, p.idx e, p.material⟩).mesh X).storedK p.material x r c := by
      funext r c
      simp only [HyperMesh.storedK]
      refine Finset.sum_congr rfl fun e _ => ?_
      exact (Fin.sum_univ_one (fun _ => _)).symm
    rw [this, addStored_sum]
    rfl

/-! ### Part by part -/

theorem partsForce_sum (parts : List (BodyPart N)) (X x f : Fin N → Fin 3 → ℝ) :
    partsForce parts X x f = f + (parts.map fun p => (p.mesh X).addForce p.material x 0).sum := by
  induction parts generalizing f with
  | nil => simp [partsForce]
  | cons p ps ih =>
    have h : partsForce (p :: ps) X x f = partsForce ps X x ((p.mesh X).addForce p.material x f) := rfl
    rw [h, ih, List.map_cons, List.sum_cons, ← add_assoc]
    congr 1
    funext q
    simp only [HyperMesh.addForce, Pi.add_apply, Pi.zero_apply, zero_sub]
    rw [sub_eq_add_neg]

theorem partsMatrix_sum (parts : List (BodyPart N)) (X x : Fin N → Fin 3 → ℝ) (A : Dof N → Dof N → ℝ) :
    partsMatrix parts X x A = A + (parts.map fun p => addStoredToMatrix 1 ((p.mesh X).storedK p.material x) 0).sum := by
  induction parts generalizing A with
  | nil => simp [partsMatrix]
  | cons p ps ih =>
    have h : partsMatrix (p :: ps) X x A = partsMatrix ps X x (addStoredToMatrix 1 ((p.mesh X).storedK p.material x) A) := rfl
    rw [h, ih, List.map_cons, List.sum_cons, ← add_assoc, addStored_add]

theorem totalForce_parts (parts : List (BodyPart N)) (X : Fin N → Fin 3 → ℝ) (fixed : Fin N → Bool) (x : Dof N → ℝ) :
    totalForce (partsScene parts X fixed) x = (parts.map fun p => totalForce (hyperScene (p.mesh X) p.material fixed) x).sum := by
  have h1 : totalForce (partsScene parts X fixed) x = fun d => partsForce parts X (fun p a => x (p, a)) 0 d.1 d.2 := by
    funext d
    simp [totalForce, partsScene]
  have h2 : ∀ p : BodyPart N, totalForce (hyperScene (p.mesh X) p.material fixed) x = fun d => (p.mesh X).addForce p.material (fun p a => x (p, a)) 0 d.1 d.2 := by
    intro p
    funext d
    simp [totalForce, hyperScene]
  rw [h1, partsForce_sum]
  simp only [h2]
  clear h1 h2
  induction parts with
  | nil => funext d; simp
  | cons p ps ih =>
    rw [List.map_cons, List.sum_cons, List.map_cons, List.sum_cons, ← ih]
    funext d
    simp

theorem totalStiff_parts (parts : List (BodyPart N)) (X : Fin N → Fin 3 → ℝ) (fixed : Fin N → Bool) (x : Dof N → ℝ) :
    totalStiff (partsScene parts X fixed) x = (parts.map fun p => totalStiff (hyperScene (p.mesh X) p.material fixed) x).sum := by
  have h1 : totalStiff (partsScene parts X fixed) x = Matrix.of (partsMatrix parts X (fun p a => x (p, a)) 0) := by
    simp [totalStiff, partsScene]
  have h2 : ∀ p : BodyPart N, totalStiff (hyperScene (p.mesh X) p.material fixed) x = Matrix.of (addStoredToMatrix 1 ((p.mesh X).storedK p.material fun p a => x (p, a)) 0) := by
    intro p
    simp [totalStiff, hyperScene]
  rw [h1, partsMatrix_sum]
  simp only [h2]
  clear h1 h2
  induction parts with
  | nil => ext d d'; simp
  | cons p ps ih =>
    rw [List.map_cons, List.sum_cons, List.map_cons, List.sum_cons, ← ih]
    ext d d'
    simp

/-! ### Bodies held by three points -/

theorem heldTogether_zero (els : Set (Set (Fin N))) (X v : Fin N → Fin 3 → ℝ) (fixed : Fin N → Bool) (hheld : HeldTogether els X fixed) (hv : ∀ p, fixed p = true → v p = 0)
    (hr : ∀ e ∈ els, ∃ c W, SkewM W ∧ ∀ i ∈ e, v i = c + W *ᵥ X i) : v = 0 := by
  have piece : ∀ {e e'}, Relation.ReflTransGen (fun a b => b ∈ els ∧ ShareFace X a b) e e' → ∀ c W, SkewM W → (∀ i ∈ e, v i = c + W *ᵥ X i) → ∀ i ∈ e', v i = c + W *ᵥ X i := by
    intro e e' h c W hW he
    induction h with
    | refl => exact he
    | tail _ hg ih =>
      obtain ⟨hd, p, q, r, hs, hc⟩ := hg
      obtain ⟨c', W', hW', he'⟩ := hr _ hd
      obtain ⟨rfl, rfl⟩ := rigid_unique X v hW hW' p q r (fun s hs' => ih s (hs s hs').1) (fun s hs' => he' s (hs s hs').2) hc
      exact he'
  funext s
  rcases hheld s with h | ⟨e, he0, hse, p, q, r, ht, hc⟩
  · rw [hv s h]; rfl
  · obtain ⟨c, W, hW, he⟩ := hr e he0
    have hz : ∀ t ∈ [p, q, r], c + W *ᵥ X t = 0 := by
      intro t hm
      obtain ⟨⟨e', hp, hte⟩, hf⟩ := ht t hm
      rw [← piece hp c W hW he t hte]
      exact hv _ hf
    obtain ⟨h1, h2⟩ := skew_zero_of_three hW c _ _ _ (hz p (by simp)) (hz q (by simp)) (hz r (by simp)) hc
    rw [he s hse, h1, h2, zero_mulVec, add_zero]; rfl

/-- A mesh of elements of one type which is well held, cut in parts in any way, is held together. -/
theorem wellHeld_parts {n M : ℕ} (idx : Fin M → Fin n → Fin N) (X : Fin N → Fin 3 → ℝ) (fixed : Fin N → Bool) (h : WellHeld idx X fixed) (els : Set (Set (Fin N)))
    (hels : ∀ e, Set.range (idx e) ∈ els) : HeldTogether els X fixed := by
  have hp : ∀ {e e'}, SamePiece idx X e e' → Relation.ReflTransGen (fun a b => b ∈ els ∧ ShareFace X a b) (Set.range (idx e)) (Set.range (idx e')) := by
    intro e e' h
    induction h with
    | refl => exact .refl
    | tail _ hg ih =>
      obtain ⟨p, q, r, hs, hc⟩ := hg
      exact ih.tail ⟨hels _, p, q, r, hs, hc⟩
  intro s
  rcases h s with h | ⟨e, hse, p, q, r, ht, hc⟩
  · exact Or.inl h
  · refine Or.inr ⟨_, hels e, hse, p, q, r, fun t hm => ?_, hc⟩
    obtain ⟨⟨e', hp', hte⟩, hf⟩ := ht t hm
    exact ⟨⟨_, hp hp', hte⟩, hf⟩

/-- The hypotheses about a part: elements with distinct nodes and of a shape covered by `C101`, a material which is elastic. -/
structure Spec.SoundPart (X : Fin N → Fin 3 → ℝ) (p : BodyPart N) : Prop where
  type : p.type ≠ .hexa2
  injective : ∀ e, Function.Injective (p.idx e)
  shape : ∀ e, RegularShape p.type fun i => X (p.idx e i)
  material : ElasticMaterial p.material

/-- The quadratic form of the stiffness of a part at the positions `Q X + c`: it is not negative and where it is zero the elements move rigidly. -/
theorem part_form (X : Fin N → Fin 3 → ℝ) (p : BodyPart N) (hp : SoundPart X p) (Q : Mat3) (hQ : IsRotation Q) (c : Fin 3 → ℝ) (A : Matrix (Dof N) (Dof N) ℝ)
    (hA : A = -(Matrix.of (addStoredToMatrix 1 ((p.mesh X).storedK p.material fun q => Q.mulVec (X q) + c) 0))) :
    (∀ i j, A i j = A j i) ∧ (∀ v : Dof N → ℝ, 0 ≤ ∑ i, v i * ∑ j, A i j * v j) ∧
      ∀ v : Dof N → ℝ, ∑ i, v i * ∑ j, A i j * v j = 0 → ∀ e, ∃ d W, SkewM W ∧ ∀ i, Q.transpose.mulVec (fun a => v (p.idx e i, a)) = d + W *ᵥ X (p.idx e i) := by
  obtain ⟨young, poisson, h1, h2, h3, hmat⟩ := hp.material
  obtain ⟨m1, m2⟩ := lame_strict h1 h2 h3
  have hJ : ∀ e, ∀ g ∈ p.type.gauss, (p.type.elem.jacobian (fun i => X (p.idx e i)) g.position : Mat3).det ≠ 0 := fun e g hg => (hp.shape e).det_ne hg
  have h := hyper_strainForm p.type p.idx hp.injective X hJ Q hQ c p.material hmat
  have hAe : A = -(Matrix.of (addStoredToMatrix 1 ((HyperMesh.initialize p.type.elem p.type.gauss p.idx X).storedK p.material fun q => Q.mulVec (X q) + c) 0)) := hA
  rw [← hAe] at h
  have hq : ∀ e, ∀ q ∈ getGaussNodes p.type.elem p.type.gauss fun i => X (p.idx e i), 0 < q.detJ * q.weight := by
    intro e q hq'
    obtain ⟨g, hg, rfl⟩ := List.mem_map.1 hq'
    refine mul_pos (abs_pos.2 (hJ e g hg)) ?_
    have : ∀ T : SolidType, ∀ g ∈ T.gauss, 0 < g.weight := by
      intro T g hg
      cases T
      · exact (C12_inside_positive .tetra1 g hg).2
      · exact (C12_inside_positive .tetra2 g hg).2
      · exact (C12_inside_positive .hexa1 g hg).2
      · exact (C12_inside_positive .hexa2 g hg).2
    exact this _ g hg
  refine ⟨h.symm, h.nonneg m1.le m2.le fun e q hq' => (hq e q hq').le, fun v h0 e => ?_⟩
  rw [h.form] at h0
  have hn : ∀ e, ∀ q ∈ (fun e => getGaussNodes p.type.elem p.type.gauss fun i => X (p.idx e i)) e, 0 ≤ (q.detJ * q.weight) *
      lameForm (lameL young poisson) (lameMu young poisson) (symPart (deformationGradient q.dN fun i => Q.transpose.mulVec fun a => v (p.idx e i, a))) := fun e q hq' =>
    mul_nonneg (hq e q hq').le (lameForm_nonneg m1.le m2.le _)
  have hz := fun e => (Finset.sum_eq_zero_iff_of_nonneg fun e _ => list_sum_nonneg' _ _ (hn e)).mp h0 e (Finset.mem_univ _)
  refine (hp.shape e).rigid hp.type _ fun g hg => ?_
  have hm : gaussNodeOf p.type.elem (fun i => X (p.idx e i)) g ∈ getGaussNodes p.type.elem p.type.gauss fun i => X (p.idx e i) := List.mem_map.2 ⟨g, hg, rfl⟩
  exact lameForm_eq_zero m1 m2 ((mul_eq_zero.mp (list_sum_eq_zero_of_nonneg _ _ (hn e) (hz e) _ hm)).resolve_left (hq e _ hm).ne')

theorem form_sum (parts : List (BodyPart N)) (A : BodyPart N → Matrix (Dof N) (Dof N) ℝ) (v : Dof N → ℝ) :
    ∑ i, v i * ∑ j, (parts.map A).sum i j * v j = (parts.map fun p => ∑ i, v i * ∑ j, A p i j * v j).sum := by
  induction parts with
  | nil => simp
  | cons p ps ih =>
    rw [List.map_cons, List.sum_cons, List.map_cons, List.sum_cons, ← ih, ← Finset.sum_add_distrib]
    refine Finset.sum_congr rfl fun i _ => ?_
    rw [← mul_add, ← Finset.sum_add_distrib]
    congr 1
    exact Finset.sum_congr rfl fun j _ => by rw [Matrix.add_apply, add_mul]

theorem symm_sum (parts : List (BodyPart N)) (A : BodyPart N → Matrix (Dof N) (Dof N) ℝ) (h : ∀ p ∈ parts, ∀ i j, A p i j = A p j i) (i j : Dof N) :
    (parts.map A).sum i j = (parts.map A).sum j i := by
  induction parts with
  | nil => rfl
  | cons p ps ih =>
    rw [List.map_cons, List.sum_cons, Matrix.add_apply, Matrix.add_apply, h p (by simp), ih fun q hq => h q (by simp [hq])]

/-- The constrained stiffness of a body of several parts held together, at the positions `Q X + c`. -/
theorem parts_spd (parts : List (BodyPart N)) (X : Fin N → Fin 3 → ℝ) (hp : ∀ p ∈ parts, SoundPart X p) (fixed : Fin N → Bool) (hheld : HeldTogether (nodeSets parts) X fixed)
    (Q : Mat3) (hQ : IsRotation Q) (c : Fin 3 → ℝ) :
    IsSPD (constrainMatrix (fun d : Dof N => fixed d.1) (-(Matrix.of (partsMatrix parts X (fun q => Q.mulVec (X q) + c) 0)))) := by
  obtain ⟨A, hA⟩ : ∃ A : BodyPart N → Matrix (Dof N) (Dof N) ℝ, ∀ p, A p = -(Matrix.of (addStoredToMatrix 1 ((p.mesh X).storedK p.material fun q => Q.mulVec (X q) + c) 0)) := ⟨_, fun _ => rfl⟩
  have hsum : -(Matrix.of (partsMatrix parts X (fun q => Q.mulVec (X q) + c) 0)) = (parts.map A).sum := by
    rw [partsMatrix_sum]
    clear hp hheld
    induction parts with
    | nil => ext i j; simp
    | cons p ps ih =>
      rw [List.map_cons, List.sum_cons, List.map_cons, List.sum_cons, ← ih, hA]
      ext i j
      simp
      ring
  rw [hsum]
  have hpf := fun p hpp => part_form X p (hp p hpp) Q hQ c (A p) (hA p)
  have hn : ∀ v : Dof N → ℝ, ∀ p ∈ parts, 0 ≤ ∑ i, v i * ∑ j, A p i j * v j := fun v p hpp => (hpf p hpp).2.1 v
  refine constrained_spd _ _ (symm_sum parts A fun p hpp => (hpf p hpp).1) (fun v => ?_) fun v hfix h0 => ?_
  · rw [form_sum]
    exact list_sum_nonneg' _ _ (hn v)
  · rw [form_sum] at h0
    have hz := list_sum_eq_zero_of_nonneg _ _ (hn v) h0
    have hw := heldTogether_zero (nodeSets parts) X (fun p => Q.transpose.mulVec fun a => v (p, a)) fixed hheld
      (fun p hp => by
        have : (fun a => v (p, a)) = 0 := funext fun a => hfix (p, a) hp
        simp only [this, mulVec_zero])
      (by
        rintro s ⟨b, hb, rfl⟩
        obtain ⟨p, hpp, hb⟩ := List.mem_flatMap.1 hb
        obtain ⟨e, rfl⟩ := (List.mem_ofFn' _ _).1 hb
        obtain ⟨d, W, hW, hr⟩ := (hpf p hpp).2.2 v (hz p hpp) e
        refine ⟨d, W, hW, ?_⟩
        rintro _ ⟨i, rfl⟩
        exact hr i)
    funext ⟨p, a⟩
    have := congrArg (fun u => Q *ᵥ u) (congrFun hw p)
    simp only [mulVec_mulVec, mul_eq_one_comm.1 hQ.1, one_mulVec, Pi.zero_apply, mulVec_zero] at this
    exact congrFun this a

/-! ### Regular equilibria -/

/-- The force of a part near the positions `Q X + c`. -/
theorem part_smooth (X : Fin N → Fin 3 → ℝ) (p : BodyPart N) (hp : SoundPart X p) (fixed : Fin N → Bool) (Q : Mat3) (hQ : IsRotation Q) (c : Fin 3 → ℝ) :
    totalForce (hyperScene (p.mesh X) p.material fixed) (fun d => (Q.mulVec (X d.1) + c) d.2) = 0 ∧
      ContDiffAt ℝ 2 (totalForce (hyperScene (p.mesh X) p.material fixed)) (fun d => (Q.mulVec (X d.1) + c) d.2) ∧
      ∀ᶠ x : Dof N → ℝ in nhds fun d => (Q.mulVec (X d.1) + c) d.2, HasFDerivAt (totalForce (hyperScene (p.mesh X) p.material fixed))
        (LinearMap.toContinuousLinearMap (totalStiff (hyperScene (p.mesh X) p.material fixed) x).mulVecLin) x := by
  obtain ⟨T, M, idx, mat⟩ := p
  obtain ⟨hT, hinj, hshape, young, poisson, h1, h2, h3, hmat⟩ := hp
  simp only at hT hinj hshape hmat
  have hJ : ∀ e, ∀ g ∈ T.gauss, (T.elem.jacobian (fun i => X (idx e i)) g.position : Mat3).det ≠ 0 := fun e g hg => (hshape e).det_ne hg
  have hfree : StressFree mat := by
    rcases hmat with rfl | rfl
    · exact (C41_rest_and_symmetry _ _ 1).2.1
    · exact (C42_rest_and_symmetry _ _).2.1
  have hrest := C48_hyperelastic T idx X 0 hJ mat hfree Q hQ c
  show totalForce (hyperScene (HyperMesh.initialize T.elem T.gauss idx X) mat fixed) _ = 0 ∧ ContDiffAt ℝ 2 (totalForce (hyperScene (HyperMesh.initialize T.elem T.gauss idx X) mat fixed)) _ ∧
    ∀ᶠ x : Dof N → ℝ in nhds fun d => (Q.mulVec (X d.1) + c) d.2, HasFDerivAt (totalForce (hyperScene (HyperMesh.initialize T.elem T.gauss idx X) mat fixed))
        (LinearMap.toContinuousLinearMap (totalStiff (hyperScene (HyperMesh.initialize T.elem T.gauss idx X) mat fixed) x).mulVecLin) x
  obtain ⟨m, hm⟩ : ∃ m, m = HyperMesh.initialize T.elem T.gauss idx X := ⟨_, rfl⟩
  have hpos : ∀ e, ∀ q ∈ m.qnodes e, 0 < (deformationGradient q.dN (m.gather (fun p a => (Q.mulVec (X p) + c) a) e)).det := by
    intro e q hq
    rw [hm] at hq ⊢
    have hF : deformationGradient q.dN ((HyperMesh.initialize T.elem T.gauss idx X).gather (fun p => Q.mulVec (X p) + c) e) = Q :=
      (C45_affine T (fun i => X (idx e i)) (hJ e) Q c q hq).1
    rw [hF, hQ.2]
    exact one_pos
  have hinj' : ∀ e, Function.Injective (m.idx e) := by rw [hm]; exact hinj
  rw [← hm] at hrest ⊢
  have hf : totalForce (hyperScene m mat fixed) = fun y d => m.addForce mat (fun p a => y (p, a)) 0 d.1 d.2 := by
    funext y d
    simp [totalForce, hyperScene]
  have hline : ∀ (x u : Dof N → ℝ) (p : Fin N) (a : Fin 3), HasDerivAt (fun s : ℝ => x (p, a) + s * u (p, a)) (u (p, a)) 0 := by
    intro x u p a
    simpa using ((hasDerivAt_id (0 : ℝ)).mul_const (u (p, a))).const_add (x (p, a))
  have hsm : ∀ᶠ x : Dof N → ℝ in nhds fun d => (Q.mulVec (X d.1) + c) d.2, SmoothAt m mat x ∧
      HasFDerivAt (totalForce (hyperScene m mat fixed)) (LinearMap.toContinuousLinearMap (totalStiff (hyperScene m mat fixed) x).mulVecLin) x := by
    rcases hmat with rfl | rfl
    · refine Filter.Eventually.of_forall fun x => ⟨smoothAt_svk _ _ m x, hyper_hasFDeriv m _ fixed x (smoothAt_svk _ _ m x) fun u d => ?_⟩
      have := C47_derivative_svk (lameMu young poisson) (lameL young poisson) m hinj' (fun s p a => x (p, a) + s * u (p, a)) (fun p a => u (p, a)) 0 (hline x u) 0 d.1 d.2
      simpa using this
    · refine (eventually_positive m (fun d => (Q.mulVec (X d.1) + c) d.2) hpos).mono fun x hx => ⟨smoothAt_nh _ _ m x hx, hyper_hasFDeriv m _ fixed x (smoothAt_nh _ _ m x hx) fun u d => ?_⟩
      have := C47_derivative_neohookean (lameMu young poisson) (lameL young poisson) m hinj' (fun s p a => x (p, a) + s * u (p, a)) (fun p a => u (p, a)) 0 (hline x u)
        (by simpa using hx) 0 d.1 d.2
      simpa using this
  refine ⟨?_, ?_, hsm.mono fun x hx => hx.2⟩
  · rw [hf]
    funext d
    exact congrFun (congrFun hrest d.1) d.2
  · rw [hf, contDiffAt_pi]
    exact fun d => addForce_smooth m mat _ hsm.self_of_nhds.1 d

theorem parts_contDiff {E F : Type*} [NormedAddCommGroup E] [NormedSpace ℝ E] [NormedAddCommGroup F] [NormedSpace ℝ F] {α : Type*} (l : List α) (f : α → E → F) (x : E)
    (h : ∀ a ∈ l, ContDiffAt ℝ 2 (f a) x) : ContDiffAt ℝ 2 (fun y => (l.map fun a => f a y).sum) x := by
  induction l with
  | nil => simpa using contDiffAt_const
  | cons a l ih =>
    simp only [List.map_cons, List.sum_cons]
    exact (h a (by simp)).add (ih fun b hb => h b (by simp [hb]))

theorem parts_hasFDeriv {ι : Type*} [Fintype ι] [DecidableEq ι] {α : Type*} (l : List α) (f : α → (ι → ℝ) → ι → ℝ) (A : α → Matrix ι ι ℝ) (x : ι → ℝ)
    (h : ∀ a ∈ l, HasFDerivAt (f a) (LinearMap.toContinuousLinearMap (A a).mulVecLin) x) :
    HasFDerivAt (fun y => (l.map fun a => f a y).sum) (LinearMap.toContinuousLinearMap ((l.map A).sum).mulVecLin) x := by
  induction l with
  | nil =>
    have : LinearMap.toContinuousLinearMap (((([] : List α).map A).sum).mulVecLin) = (0 : (ι → ℝ) →L[ℝ] ι → ℝ) := by ext; simp
    rw [this]
    simpa only [List.map_nil, List.sum_nil] using hasFDerivAt_const (𝕜 := ℝ) (0 : ι → ℝ) x
  | cons a l ih =>
    have e : LinearMap.toContinuousLinearMap ((((a :: l).map A).sum).mulVecLin) = LinearMap.toContinuousLinearMap (A a).mulVecLin + LinearMap.toContinuousLinearMap ((l.map A).sum).mulVecLin := by
      rw [List.map_cons, List.sum_cons, Matrix.mulVecLin_add, map_add]
    rw [e]
    simp only [List.map_cons, List.sum_cons]
    exact (h a (by simp)).add (ih fun b hb => h b (by simp [hb]))

end Caribou
