import Verif.Lemmas.FebioScript
import Verif.Model.FenicsScript

/-!
# C148: the input file written for FEBio

The file should list the elements with the three tags, once each and with distinct numbers, and the nodes of the base.  It does when each block of volume elements has a single tag, each block of
surface elements several ones, and so on; the theorems at the end show what happens otherwise.
-/

set_option autoImplicit false
set_option linter.all false

namespace Caribou

open Spec Febio

/-- Under these conditions the file is written, and it has the tagged elements in the order of the mesh, the elements of both surfaces are numbered from one, and the nodes of the base are those of
the elements of the base, in increasing order and without repetition.  Without the conditions it is not so, see below. -/
theorem C148_write_partial (mesh : List Block) (bas top vol : ℕ) (h : FebioMesh mesh bas top vol) :
    ∃ f, write mesh bas top vol = some f ∧
      f.volume.map (fun e => (some e.type, e.nodes)) = taggedElements mesh vol ∧
      f.base.map (fun e => (some e.type, e.nodes)) = taggedElements mesh bas ∧
      f.top.map (fun e => (some e.type, e.nodes)) = taggedElements mesh top ∧
      f.base.map Entry.id = List.range' 1 f.base.length ∧ f.top.map Entry.id = List.range' 1 f.top.length ∧
      f.baseNodes.Pairwise (· < ·) ∧ (∀ n, n ∈ f.baseNodes ↔ ∃ e ∈ taggedElements mesh bas, n ∈ e.2) := by
  obtain ⟨b, hb, hbt, hbo⟩ := h.hasBase
  obtain ⟨bv, hbv, hbvt⟩ := h.hasVolume
  obtain ⟨bt, hbt', hbtt⟩ := h.hasTop
  obtain ⟨n, hn⟩ := Option.isSome_iff_exists.mp (h.known b hb)
  obtain ⟨nv, hnv⟩ := Option.isSome_iff_exists.mp (h.known bv hbv)
  obtain ⟨nt, hnt⟩ := Option.isSome_iff_exists.mp (h.known bt hbt')
  obtain ⟨hsingle, htag⟩ := expected_single bas b n hn hbt mesh hb h.distinct hbo
  have hmix := h.surface b hb bas (Or.inl rfl) hbt
  obtain ⟨lv, hlv, hlvc⟩ := volumeLines_expected vol mesh h.known h.volume
  obtain ⟨lb, hlb, hlbc, hlbi⟩ := surfaceLines_expected bas mesh 0 h.known (fun c hc => h.surface c hc bas (Or.inl rfl))
  obtain ⟨lt, hlt, hltc, hlti⟩ := surfaceLines_expected top mesh 0 h.known (fun c hc => h.surface c hc top (Or.inr rfl))
  have hnodes : nodeSet (expected mesh bas) = some (((((b.cells.filter fun c => c.2 == bas).map Prod.fst).flatten).dedup.insertionSort (· ≤ ·)).map (· + 1)) := by
    rw [hsingle, select_mixed b bas hmix]
    rfl
  have hne : ∀ t c m, c ∈ mesh → febioType c.type = some m → HasTag c t → (expected mesh t).isEmpty = false := by
    intro t c m hc hm hct
    have := expected_mem t mesh c hc m hm hct
    cases he : expected mesh t with
    | nil => rw [he] at this; simp at this
    | cons => rfl
  refine ⟨⟨((((b.cells.filter fun c => c.2 == bas).map Prod.fst).flatten).dedup.insertionSort (· ≤ ·)).map (· + 1), lv, lb, lt⟩, ?_, hlvc, hlbc, hltc, hlbi, hlti, ?_, ?_⟩
  · unfold write
    rw [sortElements_start mesh h.distinct h.known]
    simp only [hne bas b n hb hn hbt, hne vol bv nv hbv hnv hbvt, hne top bt nt hbt' hnt hbtt, Bool.or_self, Bool.false_eq_true, if_false, hnodes, hlv, hlb, hlt]
  · simp only
    rw [List.pairwise_map]
    have hs := List.pairwise_insertionSort (· ≤ ·) (((b.cells.filter fun c => c.2 == bas).map Prod.fst).flatten).dedup
    have hd : ((((b.cells.filter fun c => c.2 == bas).map Prod.fst).flatten).dedup.insertionSort (· ≤ ·)).Nodup :=
      (List.perm_insertionSort (· ≤ ·) _).nodup_iff.mpr (List.nodup_dedup _)
    exact (hs.and hd).imp fun {x y} hxy => by
      have := lt_of_le_of_ne hxy.1 hxy.2
      omega
  · intro m
    rw [htag]
    simp only [List.mem_map, List.mem_insertionSort, List.mem_dedup, List.mem_flatten, taggedElements, List.flatMap_cons, List.flatMap_nil, List.append_nil]
    constructor
    · rintro ⟨k, ⟨row, ⟨c, hc, rfl⟩, hk⟩, rfl⟩
      exact ⟨_, ⟨c, by simpa using hc, rfl⟩, List.mem_map.mpr ⟨k, hk, rfl⟩⟩
    · rintro ⟨e, ⟨c, hc, rfl⟩, hm⟩
      obtain ⟨k, hk, rfl⟩ := List.mem_map.mp hm
      exact ⟨k, ⟨c.1, ⟨c, by simpa using hc, rfl⟩, hk⟩, rfl⟩

/-- The loads are those of the reference computation with FEniCS: equal steps along the traction, the last one being the whole of it. -/
theorem C148_loads_partial (T : Fin 3 → ℝ) (hT : T ≠ 0) (nsteps : ℕ) (hn : 0 < nsteps) :
    (∀ i, loadAt T nsteps i = some (((i + 1 : ℝ) / nsteps) • T)) ∧ loadAt T nsteps (nsteps - 1) = some T ∧
    ∀ t : ℝ, T = ![0, -t, 0] → ∀ i, loadAt T nsteps i = some ![0, Fenics.stepTraction t nsteps i, 0] := by
  have hpos : 0 < ∑ c, T c * T c := by
    obtain ⟨c, hc⟩ := Function.ne_iff.mp hT
    exact Finset.sum_pos' (fun c _ => mul_self_nonneg _) ⟨c, Finset.mem_univ _, mul_self_pos.mpr hc⟩
  have hnorm : tractionNorm T ≠ 0 := (Real.sqrt_pos.mpr hpos).ne'
  have hn' : (nsteps : ℝ) ≠ 0 := Nat.cast_ne_zero.mpr (by omega)
  have hall : ∀ i, loadAt T nsteps i = some (((i + 1 : ℝ) / nsteps) • T) := by
    intro i
    unfold loadAt
    rw [if_neg hnorm]
    congr 1
    funext c
    simp only [loadCurve, Pi.smul_apply, smul_eq_mul]
    field_simp
  refine ⟨hall, ?_, ?_⟩
  · rw [hall]
    have e : ((nsteps - 1 : ℕ) : ℝ) + 1 = nsteps := by
      rw [← Nat.cast_add_one]
      congr 1
      omega
    rw [e, div_self hn', one_smul]
  · intro t ht i
    rw [hall, ht]
    congr 1
    funext c
    have hF : Fenics.stepTraction t nsteps i = ((i + 1 : ℝ) / nsteps) * -t := by
      unfold Fenics.stepTraction
      field_simp
    rw [hF]
    fin_cases c <;> simp

/-- Without a traction, the file has `nan` for its direction. -/
theorem C148_loads_violated (nsteps i : ℕ) : loadAt 0 nsteps i = none := by
  unfold loadAt
  rw [if_pos]
  simp [tractionNorm]

/-- The displacements which are read are those of the last record of the log file: its title, four more lines, then one line for each node. -/
theorem C148_log {α : Type*} (isRecord : α → Bool) (before : List α) (title : α) (header rows after : List α) (ht : isRecord title = true) (hh : header.length = 4)
    (hno : ∀ l ∈ header ++ rows ++ after, isRecord l = false) : displacementLines isRecord (before ++ title :: (header ++ rows ++ after)) rows.length = some rows := by
  have hstart : (before ++ title :: (header ++ rows ++ after)).drop (before.length + 5) = rows ++ after := by
    rw [← List.drop_drop, List.drop_left, show 5 = header.length + 1 by omega, List.drop_succ_cons, List.append_assoc, List.drop_left]
  unfold displacementLines
  simp only [lastRecord_append isRecord title ht _ hno before 0 0, Nat.zero_add, hstart, List.take_left, if_true]

/-- When the log file ends before the displacement of the last node, the script stops. -/
theorem C148_log_short {α : Type*} (isRecord : α → Bool) (before : List α) (title : α) (header rows : List α) (n : ℕ) (ht : isRecord title = true) (hh : header.length = 4)
    (hno : ∀ l ∈ header ++ rows, isRecord l = false) (hn : rows.length < n) : displacementLines isRecord (before ++ title :: (header ++ rows)) n = none := by
  have hstart : (before ++ title :: (header ++ rows)).drop (before.length + 5) = rows := by
    rw [← List.drop_drop, List.drop_left, show 5 = header.length + 1 by omega, List.drop_succ_cons, List.drop_left]
  unfold displacementLines
  simp only [lastRecord_append isRecord title ht _ hno before 0 0, Nat.zero_add, hstart]
  rw [if_neg]
  rw [List.length_take]
  omega

/-- A block of volume elements which also has cells of another tag stops the script. -/
theorem C148_volume_violated (mesh : List Block) (bas top vol : ℕ) (hk : ∀ b ∈ mesh, (febioType b.type).isSome) (hd : (mesh.map Block.type).Nodup)
    (b : Block) (hb : b ∈ mesh) (hr : ∀ c ∈ b.cells, c.1 ≠ []) (ht : HasTag b vol) (ho : ¬ OnlyTag b vol) : write mesh bas top vol = none := by
  obtain ⟨n, hn⟩ := Option.isSome_iff_exists.mp (hk b hb)
  have hm := expected_mem vol mesh b hb n hn ht
  rw [select_mixed b vol ho] at hm
  have hv : volumeLines (expected mesh vol) = none := by
    obtain ⟨c, hc, hct⟩ := ht
    cases hf : (b.cells.filter fun c => c.2 == vol) with
    | nil =>
      have : c ∈ b.cells.filter fun c => c.2 == vol := by simp [hc, hct]
      rw [hf] at this
      simp at this
    | cons x xs =>
      rw [hf] at hm
      refine volumeLines_none _ n x.1 (xs.map Prod.fst) (by simpa using hm) (hr x ?_)
      have : x ∈ b.cells.filter fun c => c.2 == vol := by rw [hf]; simp
      exact (List.mem_filter.mp this).1
  unfold write
  rw [sortElements_start mesh hd hk]
  simp only [hv]
  split_ifs
  · rfl
  · cases nodeSet (expected mesh bas) <;> rfl

/-- A block whose cells all belong to the base or all to the top stops the script: a mesh with one block per surface cannot be used. -/
theorem C148_surface_violated (mesh : List Block) (bas top vol : ℕ) (hk : ∀ b ∈ mesh, (febioType b.type).isSome) (hd : (mesh.map Block.type).Nodup)
    (b : Block) (hb : b ∈ mesh) (t : ℕ) (htt : t = bas ∨ t = top) (ht : HasTag b t) (ho : OnlyTag b t) : write mesh bas top vol = none := by
  obtain ⟨n, hn⟩ := Option.isSome_iff_exists.mp (hk b hb)
  have hm := expected_mem t mesh b hb n hn ht
  rw [select_only b t ho] at hm
  have hrows : b.cells.map Prod.fst ≠ [] := by
    obtain ⟨c, hc, _⟩ := ht
    intro h
    rw [List.map_eq_nil_iff] at h
    rw [h] at hc
    simp at hc
  have hs := surfaceLines_none (expected mesh t) 0 n _ hm hrows
  unfold write
  rw [sortElements_start mesh hd hk]
  simp only
  split_ifs
  · rfl
  · rcases htt with rfl | rfl
    · rw [hs]
      cases nodeSet (expected mesh t) <;> cases volumeLines (expected mesh vol) <;> rfl
    · rw [hs]
      cases nodeSet (expected mesh bas) <;> cases volumeLines (expected mesh vol) <;> cases surfaceLines (expected mesh bas) 0 <;> rfl

/-- A tetrahedron and a pyramid-like hexahedron with two triangles, one on the base and one at the top. -/
def mixedMesh : List Block :=
  [⟨.triangle, [([0, 1, 2], 1), ([5, 6, 7], 2)]⟩, ⟨.tetra, [([0, 1, 2, 3], 4)]⟩, ⟨.hexahedron, [([0, 1, 2, 3, 4, 5, 6, 7], 4)]⟩]

theorem mixedMesh_ok : FebioMesh mixedMesh 1 2 4 where
  known := by decide
  distinct := by decide
  volume := by simp [mixedMesh, HasTag, OnlyTag]
  surface := by
    simp [mixedMesh, HasTag, OnlyTag]
    exact ⟨⟨_, _, Or.inr ⟨rfl, rfl⟩, by decide⟩, ⟨_, _, Or.inl ⟨rfl, rfl⟩, by decide⟩⟩
  hasVolume := by simp [mixedMesh, HasTag]
  hasTop := by simp [mixedMesh, HasTag]
  hasBase := ⟨_, List.mem_cons_self, by simp [HasTag], by simp [mixedMesh, HasTag]⟩

/-- The numbers of the volume elements start again for every type, so that two elements have the same number. -/
theorem C148_numbers_violated : ¬ ∀ (mesh : List Block) (bas top vol : ℕ), FebioMesh mesh bas top vol → ∀ f, write mesh bas top vol = some f → (f.volume.map Entry.id).Nodup := by
  intro h
  have hf : ∃ f, write mixedMesh 1 2 4 = some f ∧ f.volume.map Entry.id = [1, 1] := by
    refine ⟨⟨[1, 2, 3], [⟨"tet4", 1, [1, 2, 3, 4]⟩, ⟨"hex8", 1, [1, 2, 3, 4, 5, 6, 7, 8]⟩], [⟨"tri3", 1, [1, 2, 3]⟩], [⟨"tri3", 1, [6, 7, 8]⟩]⟩, ?_, rfl⟩
    rfl
  obtain ⟨f, hf, hi⟩ := hf
  have := h mixedMesh 1 2 4 mixedMesh_ok f hf
  rw [hi] at this
  simp at this

/-- Two blocks of tetrahedra of the same size: the file is written without any error, and the elements of the first block are missing. -/
theorem C148_lost_violated : ∃ (mesh : List Block) (f : File), (∀ b ∈ mesh, HasTag b 4 → OnlyTag b 4) ∧ write mesh 1 2 4 = some f ∧
    (some "tet4", [1, 2, 3, 4]) ∈ taggedElements mesh 4 ∧ ∀ e ∈ f.volume, e.nodes ≠ [1, 2, 3, 4] := by
  refine ⟨[⟨.triangle, [([0, 1, 2], 1), ([1, 2, 4], 2)]⟩, ⟨.tetra, [([0, 1, 2, 3], 4)]⟩, ⟨.tetra, [([1, 2, 3, 4], 4)]⟩],
    ⟨[1, 2, 3], [⟨"tet4", 1, [2, 3, 4, 5]⟩], [⟨"tri3", 1, [1, 2, 3]⟩], [⟨"tri3", 1, [2, 3, 5]⟩]⟩, ?_, rfl, ?_, ?_⟩
  · simp [HasTag, OnlyTag]
  · simp [taggedElements, febioType]
  · simp

/-- Two blocks of tetrahedra of different sizes, and a base made of triangles and of quads: the script stops. -/
theorem C148_concatenate_violated :
    write [⟨.triangle, [([0, 1, 2], 1), ([1, 2, 4], 2)]⟩, ⟨.tetra, [([0, 1, 2, 3], 4)]⟩, ⟨.tetra, [([1, 2, 3, 4], 4), ([2, 3, 4, 5], 4)]⟩] 1 2 4 = none ∧
    write [⟨.triangle, [([0, 1, 2], 1), ([1, 2, 4], 2)]⟩, ⟨.quad, [([0, 1, 2, 3], 1), ([1, 2, 4, 5], 2)]⟩, ⟨.tetra, [([0, 1, 2, 3], 4)]⟩] 1 2 4 = none :=
  ⟨rfl, rfl⟩

/-- The theorem applies to a mesh with two types of volume elements. -/
example : ∃ f, write mixedMesh 1 2 4 = some f ∧ f.volume.map (fun e => (some e.type, e.nodes)) = [(some "tet4", [1, 2, 3, 4]), (some "hex8", [1, 2, 3, 4, 5, 6, 7, 8])] := by
  obtain ⟨f, hf, hv, _⟩ := C148_write_partial mixedMesh 1 2 4 mixedMesh_ok
  exact ⟨f, hf, hv.trans rfl⟩

/-- A block with a tetrahedron of another material. -/
example : write [⟨.triangle, [([0, 1, 2], 1), ([1, 2, 4], 2)]⟩, ⟨.tetra, [([0, 1, 2, 3], 4), ([1, 2, 3, 4], 5)]⟩] 1 2 4 = none :=
  C148_volume_violated _ 1 2 4 (by decide) (by decide) ⟨.tetra, [([0, 1, 2, 3], 4), ([1, 2, 3, 4], 5)]⟩ (by simp) (by simp) (by simp [HasTag]) (by simp [OnlyTag])

/-- A base made of quads and a top made of triangles. -/
example : write [⟨.quad, [([0, 1, 2, 3], 1)]⟩, ⟨.triangle, [([1, 2, 4], 2)]⟩, ⟨.tetra, [([0, 1, 2, 3], 4)]⟩] 1 2 4 = none :=
  C148_surface_violated _ 1 2 4 (by decide) (by decide) ⟨.quad, [([0, 1, 2, 3], 1)]⟩ (by simp) 1 (Or.inl rfl) (by simp [HasTag]) (by simp [OnlyTag])

/-- The traction of the script. -/
example : loadAt ![0, -30, 0] 5 4 = some ![0, -30, 0] :=
  (C148_loads_partial ![0, -30, 0] (fun h => by simpa using congrFun h 1) 5 (by decide)).2.1

/-- A log file with two records of two nodes. -/
example : displacementLines (fun l => "Data Record".isPrefixOf l) ["Data Record #1", "===", "Step = 1", "Time = 1", "Data = ux;uy;uz", "1 0 0 0", "2 0 0 0",
    "Data Record #2", "===", "Step = 2", "Time = 2", "Data = ux;uy;uz", "1 0 -1 0", "2 0 -2 0"] 2 = some ["1 0 -1 0", "2 0 -2 0"] :=
  C148_log (fun l => "Data Record".isPrefixOf l) ["Data Record #1", "===", "Step = 1", "Time = 1", "Data = ux;uy;uz", "1 0 0 0", "2 0 0 0"] "Data Record #2"
    ["===", "Step = 2", "Time = 2", "Data = ux;uy;uz"] ["1 0 -1 0", "2 0 -2 0"] [] (by decide +kernel) rfl (by decide +kernel)

end Caribou
