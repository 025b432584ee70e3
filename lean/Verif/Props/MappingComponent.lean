import Verif.Spec.MappingComponent
import Verif.Props.Mapping

/-!
# The barycentric mapping in complete and incomplete scenes (C111)
-/

set_option autoImplicit false

namespace Caribou

open Spec MappingComponent

variable {K : Type*} [Field K] [LinearOrder K] [IsStrictOrderedRing K] [FloorRing K] {m d n : ℕ}

private theorem rest_eq (o : MappedObjects K m) :
    (if o.mappedRest.isEmpty then o.mappedX else o.mappedRest) = restOf o := by
  unfold restOf
  cases o.mappedRest <;> simp

private theorem applyTo_link (ops : ElementOps K m d n) (s : MappingComponent K m d n) (o : MappedObjects K m)
    (r : MappingComponent K m d n × MappedObjects K m) (h : initBase ops s o = .ok r ∨ initBase ops s o = .throws r) :
    r.1 = s := by
  unfold initBase at h
  cases h1 : s.applyTo ops o.mappedX o.parentX <;> simp only [h1] at h
  · cases h2 : s.applyTo ops o.mappedV o.parentV <;> simp only [h2] at h
    all_goals simp at h
    all_goals first | rw [← h] | skip
  all_goals simp at h
  all_goals first | rw [← h] | skip

private theorem initWith_link (ops : ElementOps K m d n) (s : MappingComponent K m d n) (D : Option (MeshDomain K m n))
    (o : MappedObjects K m) (r : MappingComponent K m d n × MappedObjects K m)
    (h : initWith ops s D o = .ok r ∨ initWith ops s D o = .throws r) : r.1.link = s.link := by
  unfold initWith at h
  cases D with
  | none => simp at h; rw [← h]
  | some D =>
    simp only [rest_eq] at h
    split_ifs at h
    · simp at h; rw [← h]
    · simp at h; rw [← h]
    · cases hc : D.container ops (restOf o) <;> simp only [hc] at h
      · simp at h; rw [← h]
      · split_ifs at h
        · simp at h; rw [← h]
        · unfold initMatrix at h
          simp only at h
          split_ifs at h
          · rw [applyTo_link _ _ _ _ h]
          · simp at h

/-- **C111**, the topology: whatever the scene, when `init` returns or throws, the link is the promised topology. -/
theorem C111_topology (ops : ElementOps K m d n) (s : MappingComponent K m d n) (scene : MappingScene K m n) (o : MappedObjects K m)
    (r : MappingComponent K m d n × MappedObjects K m) (h : s.init ops scene o = .ok r ∨ s.init ops scene o = .throws r) :
    PromisedTopology scene s.link r.1.link := by
  unfold MappingComponent.init at h
  cases hl : s.link with
  | some t =>
    simp only [hl] at h
    rw [initWith_link _ _ _ _ _ h, hl]
    exact .designated t
  | none =>
    simp only [hl] at h
    unfold searchTopology at h
    cases ha : scene.above with
    | none =>
      cases ho : scene.own with
      | nil =>
        simp [ha, ho] at h
        rw [← h, hl]
        exact .missing (Or.inl ha) ho
      | cons t l =>
        simp only [ha, ho, List.cons_append, List.head?_cons] at h
        rw [initWith_link _ _ _ _ _ h]
        exact .own t l (Or.inl ha) ho
    | some a =>
      cases a with
      | nil =>
        cases ho : scene.own with
        | nil =>
          simp [ha, ho] at h
          rw [← h, hl]
          exact .missing (Or.inr ha) ho
        | cons t l =>
          simp only [ha, ho, List.cons_append, List.head?_cons, List.head?_nil] at h
          rw [initWith_link _ _ _ _ _ h]
          exact .own t l (Or.inr ha) ho
      | cons t l =>
        simp only [ha, List.head?_cons] at h
        rw [initWith_link _ _ _ _ _ h]
        exact .above t l ha

private theorem init_promised (ops : ElementOps K m d n) (s : MappingComponent K m d n) (scene : MappingScene K m n)
    (o : MappedObjects K m) (t : ℕ) (h : PromisedTopology scene s.link (some t)) :
    s.init ops scene o = initWith ops { s with link := some t } (scene.domain t) o := by
  obtain ⟨link, c, J⟩ := s
  unfold MappingComponent.init
  simp only at h ⊢
  cases h with
  | designated => rfl
  | above _ l ha => simp only [searchTopology, ha, List.head?_cons]
  | own _ l ha ho =>
    rcases ha with ha | ha <;> simp only [searchTopology, ha, ho, List.cons_append, List.head?_cons, List.head?_nil]

private theorem init_missing (ops : ElementOps K m d n) (s : MappingComponent K m d n) (scene : MappingScene K m n)
    (o : MappedObjects K m) (h : PromisedTopology scene s.link none) : s.init ops scene o = .ok (s, o) := by
  obtain ⟨link, c, J⟩ := s
  unfold MappingComponent.init
  simp only at h ⊢
  cases h with
  | missing ha ho =>
    rcases ha with ha | ha <;>
      simp only [searchTopology, ha, ho, List.nil_append, Option.getD_none, Option.getD_some, List.head?_nil]

/-- A held point is located. -/
private theorem located_of_held (hm : IsDim m) (hn : 0 < n) (ops : ElementOps K m d n) (D : MeshDomain K m n) (hext : HasExtent D)
    (p : Fin m → K) (h : ∃ e, HoldsPoint ops D e p) : (D.barycentricPoint ops p).elementIndex ≠ none := by
  intro hnone
  obtain ⟨e, hb, hc⟩ := h
  obtain ⟨e', a, i, j, hij⟩ := hext
  have := (C33_not_found hm hn ops D p hnone).2.2 (cellSize_pos hn D e' a i j hij) e hb
  rw [this] at hc
  cases hc

private theorem container_held (hm : IsDim m) (hn : 0 < n) (ops : ElementOps K m d n) (D : MeshDomain K m n) (hext : HasExtent D)
    (rest : List (Fin m → K)) (h : ∀ p ∈ rest, ∃ e, HoldsPoint ops D e p) :
    ∃ c, D.container ops rest = some c ∧ c.outside = [] ∧ c.points = rest.map (D.barycentricPoint ops) := by
  have hne : D.numElements ≠ 0 := by
    obtain ⟨e, -⟩ := hext
    exact (Fin.pos e).ne'
  obtain ⟨c, hc⟩ : ∃ c, D.container ops rest = some c := by
    unfold MeshDomain.container
    rw [if_neg hne]
    exact ⟨_, rfl⟩
  obtain ⟨hlen, hpt, hout, -⟩ := (C35_bookkeeping ops D rest).2 c hc
  refine ⟨c, hc, List.eq_nil_iff_forall_not_mem.mpr fun i hi => ?_, List.ext_getElem? fun i => ?_⟩
  · obtain ⟨hi', hnone⟩ := (hout i).mp hi
    exact located_of_held hm hn ops D hext _ (h _ (List.getElem_mem hi')) hnone
  · by_cases hi : i < rest.length
    · rw [hpt i hi, List.getElem?_map, List.getElem?_eq_getElem hi]
      rfl
    · rw [List.getElem?_eq_none (by omega), List.getElem?_eq_none (by simp; omega)]

private theorem applyTo_ready (ops : ElementOps K m d n) (s : MappingComponent K m d n) (D : MeshDomain K m n)
    (c : MeshDomain.Embedded K d D.numElements) (hs : s.container = some ⟨D, c⟩) (ho : c.outside = []) {k : ℕ}
    (output input : List (Fin k → K)) (h : input.length = D.numNodes) (hin : input ≠ []) (hout : output ≠ [])
    (hl : output.length = c.points.length) :
    s.applyTo ops output input = .ok (List.zipWith (fun row old => row.getD old)
      (D.interpolate ops c fun b => input[b.val]'(by rw [h]; exact b.isLt)) output) := by
  have hr : s.ready = some ⟨D, c⟩ := by
    unfold ready
    rw [hs, Option.filter_some, if_pos]
    simp [ho]
  unfold applyTo
  rw [hr]
  simp only
  rw [if_neg (by simp [hin, hout]), dif_pos h, if_pos hl]

private theorem interp_rows (ops : ElementOps K m d n) (D : MeshDomain K m n) (rest : List (Fin m → K))
    (c : MeshDomain.Embedded K d D.numElements) (hp : c.points = rest.map (D.barycentricPoint ops))
    (hsome : ∀ p ∈ rest, (D.barycentricPoint ops p).elementIndex ≠ none) {k : ℕ} (output input : List (Fin k → K))
    (h : input.length = D.numNodes) (hl : output.length = rest.length) :
    IsInterpolation ops D rest input (List.zipWith (fun row old => row.getD old)
      (D.interpolate ops c fun b => input[b.val]'(by rw [h]; exact b.isLt)) output) := by
  refine ⟨by simp [MeshDomain.interpolate, hp, hl], fun i p hi => ?_⟩
  have hmem : p ∈ rest := List.mem_of_getElem? hi
  have hlt : i < rest.length := by
    by_contra hc
    rw [List.getElem?_eq_none (by omega)] at hi
    cases hi
  obtain ⟨e, he⟩ := Option.ne_none_iff_exists'.mp (hsome p hmem)
  obtain ⟨h1, h2, -, -⟩ := C33_found ops D p e he
  refine ⟨e, by rw [← h1]; exact h2, ?_⟩
  rw [List.getElem?_zipWith]
  simp only [MeshDomain.interpolate, hp, List.map_map, List.getElem?_map, hi, Option.map_some, Function.comp, he,
    List.getElem?_eq_getElem (show i < output.length by omega), Option.getD_some]
  congr 1
  funext a
  refine Finset.sum_congr rfl fun j _ => ?_
  rw [h1, mul_comm]
  congr 2
  rw [List.getD_eq_getElem _ _ (by rw [h]; exact (D.indices e j).isLt)]

private theorem numNodes_pos (hn : 0 < n) (D : MeshDomain K m n) (hext : HasExtent D) : 0 < D.numNodes := by
  obtain ⟨e, -⟩ := hext
  exact Fin.pos (D.indices e ⟨0, hn⟩)

private theorem mem_entries (ops : ElementOps K m d n) (D : MeshDomain K m n) (c : MeshDomain.Embedded K d D.numElements)
    (x : ℕ × ℕ × K) : x ∈ BarycentricMapping.entries ops D c ↔ ∃ (i : ℕ) (bp : BarycentricPoint K d D.numElements)
      (e : Fin D.numElements) (j : Fin n), c.points[i]? = some bp ∧ bp.elementIndex = some e ∧
      x = (i, (D.indices e j).val, ops.L bp.localCoordinates j) := by
  unfold BarycentricMapping.entries
  rw [List.mem_flatMap]
  constructor
  · rintro ⟨⟨bp, i⟩, hmem, hx⟩
    have hi : c.points[i]? = some bp := by
      have := List.mem_zipIdx_iff_getElem?.mp hmem
      simpa using this
    simp only [BarycentricMapping.pointEntries] at hx
    cases he : bp.elementIndex with
    | none => simp [he] at hx
    | some e =>
      simp only [he, List.mem_map] at hx
      obtain ⟨j, -, rfl⟩ := hx
      exact ⟨i, bp, e, j, hi, he, rfl⟩
  · rintro ⟨i, bp, e, j, hi, he, rfl⟩
    refine ⟨(bp, i), List.mem_zipIdx_iff_getElem?.mpr (by simpa using hi), ?_⟩
    simp only [BarycentricMapping.pointEntries, he, List.mem_map]
    exact ⟨j, List.mem_finRange j, rfl⟩

private theorem complete_aux (hm : IsDim m) (hn : 0 < n) (ops : ElementOps K m d n) (s : MappingComponent K m d n)
    (scene : MappingScene K m n) (o : MappedObjects K m) (t : ℕ) (D : MeshDomain K m n)
    (ht : PromisedTopology scene s.link (some t)) (hD : scene.domain t = some D) (ho : CompleteFor ops D o) :
    ∃ s' x v, s.init ops scene o = .ok (s', { o with mappedRest := restOf o, mappedX := x, mappedV := v }) ∧
      IsInterpolation ops D (restOf o) o.parentX x ∧ IsInterpolation ops D (restOf o) o.parentV v ∧
      s'.draw (restOf o) = .ok [] ∧ (s'.link = some t ∧ ∃ c, s'.ready = some ⟨D, c⟩) ∧
      ∀ (k : ℕ) (V W : List (Fin k → K)), V.length = D.numNodes → W.length = (restOf o).length →
        ∃ w, s'.applyTo ops W V = .ok w ∧ IsInterpolation ops D (restOf o) V w ∧
        ∀ (F f : List (Fin k → K)), F.length = D.numNodes → f.length = (restOf o).length →
          ∃ F', s'.applyJT F f = .ok F' ∧ F'.length = F.length ∧
          ∑ b ∈ Finset.range D.numNodes, ∑ a, (F'.getD b 0 a - F.getD b 0 a) * V.getD b 0 a =
            ∑ i ∈ Finset.range (restOf o).length, ∑ a, f.getD i 0 a * w.getD i 0 a := by
  obtain ⟨hext, hpX, hpV, hmX, hrest, hmV, hheld⟩ := ho
  have hpos := numNodes_pos hn D hext
  obtain ⟨c, hc, hout, hpts⟩ := container_held hm hn ops D hext (restOf o) hheld
  have hsome := fun p hp => located_of_held hm hn ops D hext p (hheld p hp)
  have hclen : c.points.length = (restOf o).length := by rw [hpts, List.length_map]
  have hmpos : 0 < o.mappedX.length := List.length_pos_of_ne_nil hmX
  have ne_nil : ∀ {k : ℕ} (l : List (Fin k → K)), 0 < l.length → l ≠ [] := fun l h => List.ne_nil_of_length_pos h
  obtain ⟨J, hJ⟩ : ∃ J : SMatrix K, J = (SMatrix.empty false (restOf o).length D.numNodes).setFromTriplets
    (BarycentricMapping.entries ops D c) := ⟨_, rfl⟩
  have hJr : J.rows = (restOf o).length := by rw [hJ]; rfl
  have hJc : J.cols = D.numNodes := by rw [hJ]; rfl
  have hinit : BarycentricMapping.init false ops D (restOf o) ⟨none, s.J⟩ = some ⟨some c, J⟩ := by
    unfold BarycentricMapping.init
    rw [if_neg hpos.ne', if_neg (by omega), hc, Option.map_some, if_pos (by simp [hout]), hJ]
  have hready : (⟨some c, J⟩ : BarycentricMapping K d D.numElements).ready = some c := by
    unfold BarycentricMapping.ready
    rw [Option.filter_some, if_pos (by simp [hout])]
  have hall : ∀ (x : ℕ × ℕ × K), x ∈ BarycentricMapping.entries ops D c → x.1 < o.mappedX.length ∧ x.2.1 < o.parentX.length := by
    intro x hx
    obtain ⟨i, bp, e, j, hi, -, rfl⟩ := (mem_entries ops D c x).mp hx
    refine ⟨?_, ?_⟩
    · have : i < c.points.length := by
        by_contra hge
        rw [List.getElem?_eq_none (by omega)] at hi
        cases hi
      simp only
      omega
    · rw [hpX]
      exact (D.indices e j).isLt
  have hap : ∀ (k : ℕ) (V W : List (Fin k → K)), V.length = D.numNodes → W.length = (restOf o).length →
      ∃ w, (⟨some t, some ⟨D, c⟩, J⟩ : MappingComponent K m d n).applyTo ops W V = .ok w ∧
        IsInterpolation ops D (restOf o) V w ∧ ∀ h : V.length = D.numNodes, w = List.zipWith (fun row old => row.getD old)
          (D.interpolate ops c fun b => V[b.val]'(by rw [h]; exact b.isLt)) W := by
    intro k V W hV hW
    refine ⟨_, applyTo_ready ops _ D c rfl hout W V hV (ne_nil V (by omega)) (ne_nil W (by omega)) (by omega), ?_, fun h => rfl⟩
    exact interp_rows ops D (restOf o) c hpts hsome W V hV hW
  obtain ⟨x, hx, hxi, -⟩ := hap m o.parentX o.mappedX hpX (by omega)
  obtain ⟨v, hv, hvi, -⟩ := hap m o.parentV o.mappedV hpV (by omega)
  refine ⟨⟨some t, some ⟨D, c⟩, J⟩, x, v, ?_, hxi, hvi, ?_, ⟨rfl, c, ?_⟩, ?_⟩
  · rw [init_promised ops s scene o t ht, hD]
    unfold initWith
    simp only
    rw [if_neg (by omega), if_neg (by omega), rest_eq, hc]
    simp only
    rw [if_neg (by simp [hout])]
    unfold initMatrix
    simp only
    rw [if_pos (by
      rw [List.all_eq_true]
      intro e he
      simpa using hall e he), hpX, ← hrest, ← hJ]
    unfold initBase
    simp only [hx, hv]
  · unfold draw
    simp [hout]
  · unfold MappingComponent.ready
    rw [Option.filter_some, if_pos]
    simp [hout]
  · intro k V W hV hW
    obtain ⟨w, hw, hwi, hweq⟩ := hap k V W hV hW
    refine ⟨w, hw, hwi, fun F f hF hf => ?_⟩
    refine ⟨(List.range F.length).map (BarycentricMapping.applyJT ⟨some c, J⟩ (fun b => F.getD b 0) fun i => f.getD i 0), ?_,
      by simp, ?_⟩
    · have hr : (⟨some t, some ⟨D, c⟩, J⟩ : MappingComponent K m d n).ready = some ⟨D, c⟩ := by
        unfold MappingComponent.ready
        rw [Option.filter_some, if_pos]
        simp [hout]
      unfold MappingComponent.applyJT
      rw [hr]
      simp only
      rw [if_neg (by simp [ne_nil F (by omega), ne_nil f (by omega)]), if_pos ⟨by rw [hJc, hF], by rw [hJr, hf]⟩]
    · obtain ⟨w', hw', hpow⟩ := C59_power false ops D (restOf o) _ _ hinit hpos.ne' (by omega) c hready
        (fun b => V.getD b 0) (fun i => f.getD i 0) (fun b => F.getD b 0)
      have hww : ∀ i, i < (restOf o).length → w.getD i 0 = w' i := by
        intro i hi
        have hrow : (D.interpolate ops c fun b => V[b.val]'(by rw [hV]; exact b.isLt)) =
            BarycentricMapping.applyJ ops D ⟨some c, J⟩ (fun b => V.getD b.val 0) := by
          unfold BarycentricMapping.applyJ
          rw [hready]
          unfold MeshDomain.interpolate
          simp only
          refine List.map_congr_left fun bp _ => ?_
          congr 1
          funext e a
          refine Finset.sum_congr rfl fun j _ => ?_
          rw [List.getD_eq_getElem _ _ (by rw [hV]; exact (D.indices e j).isLt)]
        rw [hweq hV, hrow, hw']
        have hiW : i < W.length := by omega
        rw [List.getD_eq_getElem?_getD, List.getElem?_zipWith, List.getElem?_map, List.getElem?_range hi,
          List.getElem?_eq_getElem hiW]
        rfl
      have hright : ∑ i ∈ Finset.range (restOf o).length, ∑ a, f.getD i 0 a * w.getD i 0 a =
          ∑ i ∈ Finset.range (restOf o).length, ∑ a, f.getD i 0 a * w' i a :=
        Finset.sum_congr rfl fun i hi => by rw [hww i (Finset.mem_range.mp hi)]
      rw [hright, ← hpow]
      refine Finset.sum_congr rfl fun b hb => ?_
      rw [List.getD_eq_getElem?_getD (l := List.map _ _), List.getElem?_map, List.getElem?_range (by rw [hF]; exact Finset.mem_range.mp hb)]
      rfl

/-- **C111**, complete scenes: whatever happened to the component before, `init` returns; positions and velocities are mapped with
the shape functions of the promised topology, nothing else is written except missing rest positions.  From then on each vector of
the right size is mapped in the same way, forces do the same work on both sides, and no point is drawn as being outside. -/
theorem C111_complete (hm : IsDim m) (hn : 0 < n) (ops : ElementOps K m d n) (s : MappingComponent K m d n)
    (scene : MappingScene K m n) (o : MappedObjects K m) (t : ℕ) (D : MeshDomain K m n)
    (ht : PromisedTopology scene s.link (some t)) (hD : scene.domain t = some D) (ho : CompleteFor ops D o) :
    ∃ s' x v, s.init ops scene o = .ok (s', { o with mappedRest := restOf o, mappedX := x, mappedV := v }) ∧
      IsInterpolation ops D (restOf o) o.parentX x ∧ IsInterpolation ops D (restOf o) o.parentV v ∧
      s'.draw (restOf o) = .ok [] ∧
      ∀ (k : ℕ) (V W : List (Fin k → K)), V.length = D.numNodes → W.length = (restOf o).length →
        ∃ w, s'.applyTo ops W V = .ok w ∧ IsInterpolation ops D (restOf o) V w ∧
        ∀ (F f : List (Fin k → K)), F.length = D.numNodes → f.length = (restOf o).length →
          ∃ F', s'.applyJT F f = .ok F' ∧ F'.length = F.length ∧
          ∑ b ∈ Finset.range D.numNodes, ∑ a, (F'.getD b 0 a - F.getD b 0 a) * V.getD b 0 a =
            ∑ i ∈ Finset.range (restOf o).length, ∑ a, f.getD i 0 a * w.getD i 0 a := by
  obtain ⟨s', x, v, h1, h2, h3, h4, -, h5⟩ := complete_aux hm hn ops s scene o t D ht hD ho
  exact ⟨s', x, v, h1, h2, h3, h4, h5⟩

private theorem inert_of_not_ready (ops : ElementOps K m d n) (s : MappingComponent K m d n) (h : s.ready = none) : Inert ops s := by
  intro k output input
  unfold applyTo MappingComponent.applyJT
  rw [h]
  exact ⟨rfl, rfl⟩

/-- **C111**, incomplete scenes: a component which never had a container returns from `init` when there is no topology, no domain, no
parent node or no mapped node; nothing is written, later calls do nothing and nothing is drawn. -/
theorem C111_missing (ops : ElementOps K m d n) (s : MappingComponent K m d n) (scene : MappingScene K m n) (o : MappedObjects K m)
    (hs : s.container = none) (t : Option ℕ) (ht : PromisedTopology scene s.link t)
    (h : t.bind scene.domain = none ∨ o.parentX = [] ∨ o.mappedX = []) :
    ∃ s', s.init ops scene o = .ok (s', o) ∧ Inert ops s' ∧ ∀ rest, s'.draw rest = .ok [] := by
  have key : ∀ s' : MappingComponent K m d n, s'.container = none → Inert ops s' ∧ ∀ rest, s'.draw rest = .ok [] := by
    intro s' hs'
    refine ⟨inert_of_not_ready ops s' (by unfold MappingComponent.ready; rw [hs']; rfl), fun rest => ?_⟩
    unfold draw
    rw [hs']
  cases t with
  | none => exact ⟨s, init_missing ops s scene o ht, key s hs⟩
  | some t =>
    refine ⟨{ s with link := some t }, ?_, key _ hs⟩
    rw [init_promised ops s scene o t ht]
    unfold initWith
    cases hD : scene.domain t with
    | none => rfl
    | some D =>
      simp only [rest_eq]
      split_ifs with h1 h2
      · rfl
      · rfl
      · rcases h with h | h | h
        · simp [hD] at h
        · exact absurd (by rw [h]; rfl) h1
        · exact absurd (by rw [h]; rfl) h2

/-- **C111**, points outside: when an element of the domain exists and some rest position is accepted by no element, `init` returns and
maps nothing (missing rest positions are copied), later calls do nothing, and the points which are drawn are rest positions in no
element, among them all those which no element accepts. -/
theorem C111_outside (hm : IsDim m) (hn : 0 < n) (ops : ElementOps K m d n) (s : MappingComponent K m d n)
    (scene : MappingScene K m n) (o : MappedObjects K m) (t : ℕ) (D : MeshDomain K m n)
    (ht : PromisedTopology scene s.link (some t)) (hD : scene.domain t = some D) (hext : HasExtent D)
    (hp : o.parentX ≠ []) (hx : o.mappedX ≠ [])
    (hout : ∃ p ∈ restOf o, ∀ e, ops.containsLocal (D.element e) (ops.localCoordinates (D.element e) p) = false) :
    ∃ s', s.init ops scene o = .ok (s', { o with mappedRest := restOf o }) ∧ Inert ops s' ∧
      ∃ l : List ℕ, s'.draw (restOf o) = .ok (l.map fun i => (restOf o).getD i 0) ∧ l.Pairwise (· < ·) ∧
        (∀ i ∈ l, ∃ p, (restOf o)[i]? = some p ∧ ∀ e, ¬ HoldsPoint ops D e p) ∧
        ∀ i p, (restOf o)[i]? = some p →
          (∀ e, ops.containsLocal (D.element e) (ops.localCoordinates (D.element e) p) = false) → i ∈ l := by
  have hne : D.numElements ≠ 0 := by
    obtain ⟨e, -⟩ := hext
    exact (Fin.pos e).ne'
  obtain ⟨c, hc⟩ : ∃ c, D.container ops (restOf o) = some c := by
    unfold MeshDomain.container
    rw [if_neg hne]
    exact ⟨_, rfl⟩
  obtain ⟨-, -, hbook, hpair⟩ := (C35_bookkeeping ops D (restOf o)).2 c hc
  have hlist : ∀ i p, (restOf o)[i]? = some p →
      (∀ e, ops.containsLocal (D.element e) (ops.localCoordinates (D.element e) p) = false) → i ∈ c.outside := by
    intro i p hi hno
    obtain ⟨hlt, hget⟩ := List.getElem?_eq_some_iff.mp hi
    refine (hbook i).mpr ⟨hlt, ?_⟩
    rw [hget]
    cases he : (D.barycentricPoint ops p).elementIndex with
    | none => rfl
    | some e =>
      obtain ⟨h1, h2, -, -⟩ := C33_found ops D p e he
      rw [h1, hno e] at h2
      cases h2
  have houtside : c.outside ≠ [] := by
    obtain ⟨p, hmem, hno⟩ := hout
    obtain ⟨i, hi⟩ := List.mem_iff_getElem?.mp hmem
    exact List.ne_nil_of_mem (hlist i p hi hno)
  refine ⟨⟨some t, some ⟨D, c⟩, s.J⟩, ?_, inert_of_not_ready ops _ ?_, c.outside, ?_, hpair, ?_, hlist⟩
  · rw [init_promised ops s scene o t ht, hD]
    unfold initWith
    simp only
    rw [if_neg (by simpa using hp), if_neg (by simpa using hx), rest_eq, hc]
    simp only
    rw [if_pos (by simpa using houtside)]
  · unfold MappingComponent.ready
    rw [Option.filter_some, if_neg]
    simpa using houtside
  · unfold draw
    simp only
    rw [if_pos]
    rw [List.all_eq_true]
    intro i hi
    obtain ⟨hlt, -⟩ := (hbook i).mp hi
    simpa using hlt
  · intro i hi
    obtain ⟨hlt, hnone⟩ := (hbook i).mp hi
    exact ⟨_, List.getElem?_eq_getElem hlt, fun e he => located_of_held hm hn ops D hext _ ⟨e, he⟩ hnone⟩

/-- **C111 is false for parents of another size.** When the parent object has not one node per node of the mesh, `init` does not
return, though everything else is there: an exception leaves it, or `setFromTriplets` is given entries out of range. -/
theorem C111_parent_violated (hm : IsDim m) (hn : 0 < n) (ops : ElementOps K m d n) (s : MappingComponent K m d n)
    (scene : MappingScene K m n) (o : MappedObjects K m) (t : ℕ) (D : MeshDomain K m n)
    (ht : PromisedTopology scene s.link (some t)) (hD : scene.domain t = some D) (hext : HasExtent D)
    (hp : o.parentX ≠ []) (hx : o.mappedX ≠ []) (hheld : ∀ p ∈ restOf o, ∃ e, HoldsPoint ops D e p)
    (hsize : o.parentX.length ≠ D.numNodes) : ¬ Returns (s.init ops scene o) := by
  obtain ⟨c, hc, hout, hpts⟩ := container_held hm hn ops D hext (restOf o) hheld
  rintro ⟨r, hr⟩
  rw [init_promised ops s scene o t ht, hD] at hr
  unfold initWith at hr
  simp only at hr
  rw [if_neg (by simpa using hp), if_neg (by simpa using hx), rest_eq, hc] at hr
  simp only at hr
  rw [if_neg (by simp [hout])] at hr
  unfold initMatrix at hr
  simp only at hr
  split_ifs at hr
  unfold initBase at hr
  have : ∀ J, (⟨some t, some ⟨D, c⟩, J⟩ : MappingComponent K m d n).applyTo ops o.mappedX o.parentX = .throws o.mappedX := by
    intro J
    unfold applyTo
    have hrd : (⟨some t, some ⟨D, c⟩, J⟩ : MappingComponent K m d n).ready = some ⟨D, c⟩ := by
      unfold MappingComponent.ready
      rw [Option.filter_some, if_pos]
      simp [hout]
    rw [hrd]
    simp only
    rw [if_neg (by simp [hp, hx]), dif_neg hsize]
  simp only [this] at hr
  cases hr

/-- **C111 is false for rest positions of another number.** When the mapped object has not one rest position per node, `init` does not
return, though everything else is there. -/
theorem C111_rest_violated (hm : IsDim m) (hn : 0 < n) (ops : ElementOps K m d n) (s : MappingComponent K m d n)
    (scene : MappingScene K m n) (o : MappedObjects K m) (t : ℕ) (D : MeshDomain K m n)
    (ht : PromisedTopology scene s.link (some t)) (hD : scene.domain t = some D) (hext : HasExtent D)
    (hp : o.parentX ≠ []) (hx : o.mappedX ≠ []) (hheld : ∀ p ∈ restOf o, ∃ e, HoldsPoint ops D e p)
    (hsize : (restOf o).length ≠ o.mappedX.length) : ¬ Returns (s.init ops scene o) := by
  obtain ⟨c, hc, hout, hpts⟩ := container_held hm hn ops D hext (restOf o) hheld
  rintro ⟨r, hr⟩
  rw [init_promised ops s scene o t ht, hD] at hr
  unfold initWith at hr
  simp only at hr
  rw [if_neg (by simpa using hp), if_neg (by simpa using hx), rest_eq, hc] at hr
  simp only at hr
  rw [if_neg (by simp [hout])] at hr
  unfold initMatrix at hr
  simp only at hr
  split_ifs at hr
  unfold initBase at hr
  have : ∀ J, (⟨some t, some ⟨D, c⟩, J⟩ : MappingComponent K m d n).applyTo ops o.mappedX o.parentX = .throws o.mappedX := by
    intro J
    unfold applyTo
    have hrd : (⟨some t, some ⟨D, c⟩, J⟩ : MappingComponent K m d n).ready = some ⟨D, c⟩ := by
      unfold MappingComponent.ready
      rw [Option.filter_some, if_pos]
      simp [hout]
    rw [hrd]
    simp only
    rw [if_neg (by simp [hp, hx])]
    split_ifs with h1 h2
    · exact absurd (by rw [h2, hpts, List.length_map]) hsize
    · rfl
    · rfl
  simp only [this] at hr
  cases hr

/-- **C111 is false for a topology without elements.** The exception of the container leaves `init`. -/
theorem C111_elements_violated (ops : ElementOps K m d n) (s : MappingComponent K m d n) (scene : MappingScene K m n)
    (o : MappedObjects K m) (t : ℕ) (D : MeshDomain K m n) (ht : PromisedTopology scene s.link (some t))
    (hD : scene.domain t = some D) (hE : D.numElements = 0) (hp : o.parentX ≠ []) (hx : o.mappedX ≠ []) :
    ¬ Returns (s.init ops scene o) := by
  rintro ⟨r, hr⟩
  rw [init_promised ops s scene o t ht, hD] at hr
  unfold initWith at hr
  simp only at hr
  rw [if_neg (by simpa using hp), if_neg (by simpa using hx), rest_eq,
    ((C35_bookkeeping ops D (restOf o)).1).mpr hE] at hr
  simp only at hr
  cases hr

/-- **C111 is false when `init` is called again in a scene which became incomplete.** After a complete scene, a second `init` finds
the parent or the mapped object without nodes, reports it and returns; but the mapping is still active and reads the first entry
of an empty vector. -/
theorem C111_again_violated (hm : IsDim m) (hn : 0 < n) (ops : ElementOps K m d n) (s : MappingComponent K m d n)
    (scene : MappingScene K m n) (o : MappedObjects K m) (t : ℕ) (D : MeshDomain K m n)
    (ht : PromisedTopology scene s.link (some t)) (hD : scene.domain t = some D) (ho : CompleteFor ops D o)
    (o₂ : MappedObjects K m) (h₂ : o₂.parentX = [] ∨ o₂.mappedX = []) :
    ∃ s' o' s'', s.init ops scene o = .ok (s', o') ∧ s'.init ops scene o₂ = .ok (s'', o₂) ∧
      s''.applyTo ops o₂.mappedX o₂.parentX = .undefined := by
  obtain ⟨s', x, v, h1, -, -, -, ⟨hlink, c, hc⟩, -⟩ := complete_aux hm hn ops s scene o t D ht hD ho
  refine ⟨s', _, s', h1, ?_, ?_⟩
  · unfold MappingComponent.init
    rw [hlink]
    simp only
    unfold initWith
    rw [hD]
    simp only
    rcases h₂ with h₂ | h₂
    · rw [if_pos (by rw [h₂]; rfl)]
    · rw [if_pos (show o₂.mappedX.length = 0 by rw [h₂]; rfl), ite_self]
  · unfold applyTo
    rw [hc]
    simp only
    rw [if_pos]
    rcases h₂ with h₂ | h₂ <;> simp [h₂]

/-! ### A scene with one triangle -/

/-- One right triangle with sides of length one. -/
def mappedTriangle : MeshDomain ℚ 2 3 where
  numNodes := 3
  position := ![![0, 0], ![1, 0], ![0, 1]]
  numElements := 1
  indices := ![![0, 1, 2]]

instance : NeZero mappedTriangle.numElements := ⟨by decide⟩

/-- The triangle is the domain of topology `7` of the parent node; topology `9` is beside the mapping. -/
def mappedScene : MappingScene ℚ 2 3 := ⟨[9], some [7], fun t => if t = 7 then some mappedTriangle else none⟩

/-- Three parent nodes and one mapped node. -/
def mappedObjects : MappedObjects ℚ 2 :=
  ⟨[![0, 0], ![2, 0], ![0, 1]], [0, 0, ![3, 0]], [![1 / 3, 1 / 3]], [], [0]⟩

theorem mappedTriangle_extent : HasExtent mappedTriangle := ⟨0, 0, 0, 1, by decide⟩

theorem mappedTriangle_held : ∃ e, HoldsPoint (ElementType.triangle1.ops 2) mappedTriangle e ![1 / 3, 1 / 3] := by
  obtain ⟨e, he⟩ := C34_triangle mappedTriangle 0 (by decide +kernel) (fun _ => 1 / 3) (fun _ => by norm_num) (by norm_num [sum_fin3])
  have hp : (fun a => ∑ i, (fun _ => (1 : ℚ) / 3) i * mappedTriangle.element 0 i a) = ![1 / 3, 1 / 3] := by
    funext a
    fin_cases a <;> decide +kernel
  rw [hp] at he
  obtain ⟨h1, h2, -, -⟩ := C33_found _ _ _ e he
  refine ⟨e, ?_, by rw [← h1]; exact h2⟩
  have : e = 0 := Subsingleton.elim (α := Fin 1) _ _
  subst this
  intro a
  fin_cases a
  · exact ⟨⟨(0 : Fin 3), by decide +kernel⟩, ⟨(1 : Fin 3), by decide +kernel⟩⟩
  · exact ⟨⟨(0 : Fin 3), by decide +kernel⟩, ⟨(2 : Fin 3), by decide +kernel⟩⟩

theorem mappedObjects_complete : CompleteFor (ElementType.triangle1.ops 2) mappedTriangle mappedObjects where
  extent := mappedTriangle_extent
  parentX := rfl
  parentV := rfl
  mapped := by simp [mappedObjects]
  rest := rfl
  mappedV := rfl
  held := by
    intro p hp
    have : p = ![1 / 3, 1 / 3] := by simpa [restOf, mappedObjects] using hp
    rw [this]
    exact mappedTriangle_held

example : PromisedTopology mappedScene none (some 7) := .above 7 [] rfl

/-- The hypotheses of `C111_complete` and `C111_again_violated`. -/
example : ∃ s' x v, (fresh none).init (ElementType.triangle1.ops 2) mappedScene mappedObjects =
      .ok (s', { mappedObjects with mappedRest := restOf mappedObjects, mappedX := x, mappedV := v }) ∧
      IsInterpolation (ElementType.triangle1.ops 2) mappedTriangle (restOf mappedObjects) mappedObjects.parentX x := by
  obtain ⟨s', x, v, h1, h2, -⟩ := C111_complete (Or.inr (Or.inl rfl)) (by decide) _ (fresh none) mappedScene mappedObjects 7
    mappedTriangle (.above 7 [] rfl) rfl mappedObjects_complete
  exact ⟨s', x, v, h1, h2⟩

/-- The hypotheses of `C111_missing`: the parent node is lost, and the topology beside the mapping has no domain. -/
example : ∃ s', (fresh none).init (ElementType.triangle1.ops 2) { mappedScene with above := none } mappedObjects =
    .ok (s', mappedObjects) ∧ Inert (ElementType.triangle1.ops 2) s' ∧ ∀ rest, s'.draw rest = .ok [] :=
  C111_missing _ _ _ _ rfl (some 9) (.own 9 [] (Or.inl rfl) rfl) (Or.inl rfl)

/-- The hypotheses of `C111_parent_violated`: a fourth parent node. -/
example : ¬ Returns ((fresh none).init (ElementType.triangle1.ops 2) mappedScene { mappedObjects with parentX := [0, 0, 0, 0] }) :=
  C111_parent_violated (Or.inr (Or.inl rfl)) (by decide) _ _ _ _ 7 mappedTriangle (.above 7 [] rfl) rfl mappedTriangle_extent
    (by simp) (by simp [mappedObjects]) mappedObjects_complete.held (by decide)

/-- The hypotheses of `C111_rest_violated`: two rest positions for one mapped node. -/
example : ¬ Returns ((fresh none).init (ElementType.triangle1.ops 2) mappedScene
    { mappedObjects with mappedRest := [![1 / 3, 1 / 3], ![1 / 3, 1 / 3]] }) :=
  C111_rest_violated (Or.inr (Or.inl rfl)) (by decide) _ _ _ _ 7 mappedTriangle (.above 7 [] rfl) rfl mappedTriangle_extent
    (by simp [mappedObjects]) (by simp [mappedObjects]) (by
      intro p hp
      have : p = ![1 / 3, 1 / 3] := by simpa [restOf] using hp
      rw [this]
      exact mappedTriangle_held) (by decide)

/-- The hypotheses of `C111_elements_violated`. -/
example : ¬ Returns ((fresh (some 7)).init (ElementType.triangle1.ops 2)
    { mappedScene with domain := fun _ => some { mappedTriangle with numElements := 0, indices := nofun } } mappedObjects) :=
  C111_elements_violated _ _ _ _ 7 _ (.designated 7) rfl rfl (by simp [mappedObjects]) (by simp [mappedObjects])

/-- The hypotheses of `C111_outside`: the mapped node is far from the triangle. -/
example : ∃ s', (fresh (some 7)).init (ElementType.triangle1.ops 2) mappedScene { mappedObjects with mappedX := [![5, 5]] } =
      .ok (s', { mappedObjects with mappedX := [![5, 5]], mappedRest := [![5, 5]] }) ∧
    s'.draw [![5, 5]] = .ok [![5, 5]] := by
  have hno : ∀ e, (ElementType.triangle1.ops (K := ℚ) 2).containsLocal (mappedTriangle.element e)
      ((ElementType.triangle1.ops (K := ℚ) 2).localCoordinates (mappedTriangle.element e) ![5, 5]) = false := by
    intro e
    have : e = 0 := Subsingleton.elim (α := Fin 1) _ _
    subst this
    obtain ⟨A, hA⟩ : ∃ A : Matrix (Fin ElementType.triangle1.dim) (Fin ElementType.triangle1.dim) ℚ, A = 1 := ⟨_, rfl⟩
    have hdet : A.det ≠ 0 := by rw [hA, Matrix.det_one]; exact one_ne_zero
    obtain ⟨z, hz⟩ : ∃ z : Fin ElementType.triangle1.dim → ℚ, z = 0 := ⟨_, rfl⟩
    have haff : mappedTriangle.element 0 = fun i => affineMap z A (ElementType.triangle1.elem.node i) := by
      rw [hA, hz]
      funext i a
      fin_cases i <;> fin_cases a <;> decide +kernel
    have hinv := C15_affine_inverse ElementType.triangle1 z A hdet ![5, 5] 0 (1 / 100000) 5
    have huni := C15_unique ElementType.triangle1 z A hdet
    rw [← haff] at hinv huni
    have hξ : (ElementType.triangle1.ops (K := ℚ) 2).localCoordinates (mappedTriangle.element 0) ![5, 5] = ![5, 5] := by
      change localCoordinates ElementType.triangle1.elem (mappedTriangle.element 0) ![5, 5] 0 (1 / 100000) 5 = ![5, 5]
      rcases hinv with ⟨-, h⟩ | h
      · exact absurd h (by decide +kernel)
      · exact huni _ _ (h.trans (by funext a; fin_cases a <;> decide +kernel))
    rw [hξ]
    change (some (containsTriangle (![5, 5] : Fin 2 → ℚ) (1 / 10 ^ 10))).getD false = false
    decide +kernel
  obtain ⟨s', h1, -, l, h3, h4, h5, h6⟩ := C111_outside (Or.inr (Or.inl rfl)) (by decide) (ElementType.triangle1.ops 2) (fresh (some 7))
    mappedScene { mappedObjects with mappedX := [![5, 5]] } 7 mappedTriangle (.designated 7) rfl mappedTriangle_extent
    (by simp [mappedObjects]) (by simp) ⟨![5, 5], by simp [restOf, mappedObjects], hno⟩
  refine ⟨s', h1, ?_⟩
  have h0 : 0 ∈ l := h6 0 ![5, 5] rfl hno
  have hl : l = [0] := by
    have hz : ∀ i ∈ l, i = 0 := by
      intro i hi
      obtain ⟨p, hp, -⟩ := h5 i hi
      obtain ⟨hlt, -⟩ := List.getElem?_eq_some_iff.mp hp
      exact Nat.lt_one_iff.mp hlt
    match l, h0, h4, hz with
    | [x], _, _, hz => rw [hz x (by simp)]
    | x :: y :: r, _, h4, hz =>
      have hx := hz x (by simp)
      have hy := hz y (by simp)
      have := (List.pairwise_cons.mp h4).1 y (by simp)
      omega
  rw [hl] at h3
  exact h3

end Caribou
