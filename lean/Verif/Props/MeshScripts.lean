import Verif.Spec.MeshScripts
import Mathlib.Data.Fintype.Basic
import Mathlib.Tactic.FinCases
import Mathlib.Tactic.Ring
import Mathlib.Tactic.Linarith
import Mathlib.Tactic.FieldSimp
import Mathlib.Tactic.NormNum

/-!
# C139: the mesh scripts describe the body they are asked for
-/

set_option autoImplicit false
set_option linter.all false

namespace Caribou

open Spec

/-- The beam `[p0, p1]` asked for with `n` nodes along the axes. -/
def beamArgs (t : MeshKind) (p q : Fin 3 → ℚ) (n : Fin 3 → ℤ) (v : Bool) (g : String) : BeamArgs := ⟨t, [n 0, n 1, n 2], [p 0, p 1, p 2], [q 0, q 1, q 2], v, g⟩

theorem transfinite_corners (p s : Fin 3 → ℚ) (u v : ℚ) :
    transfinite ![p, p + ![0, s 1, 0], p + ![s 0, 0, 0] + ![0, s 1, 0], p + ![s 0, 0, 0]] u v = ![p 0 + u * s 0, p 1 + v * s 1, p 2] := by
  funext a
  fin_cases a <;> simp [transfinite] <;> ring

theorem createBeam_eq (t : MeshKind) (p q : Fin 3 → ℚ) (n : Fin 3 → ℤ) (v : Bool) (gm : String) (hn : ∀ a, 1 < n a) (hz : p 2 ≠ q 2) :
    createBeam (beamArgs t p q n v gm) = some ⟨"/usr/bin/gmsh", 3, ⟨![p, p + ![0, |q 1 - p 1|, 0], p + ![|q 0 - p 0|, 0, 0] + ![0, |q 1 - p 1|, 0], p + ![|q 0 - p 0|, 0, 0]], n 0, n 1, t.quads,
      some ⟨|q 2 - p 2|, n 2 - 1, t.quads⟩, t.order, 3⟩, v⟩ := by
  have e0 : (![p 0, p 1, p 2] : Fin 3 → ℚ) = p := by
    funext a
    fin_cases a <;> rfl
  have e1 : (![q 0, q 1, q 2] : Fin 3 → ℚ) = q := by
    funext a
    fin_cases a <;> rfl
  have hpos : 0 < |q 2 - p 2| := abs_pos.2 (sub_ne_zero.2 (Ne.symm hz))
  simp [createBeam, beamArgs, rectangle, corners3, spread3, e0, e1, geoToMsh, hn 0, hn 1, hn 2, hpos]

/-- **C139 (what is built).** The beam asked for between two corners with different heights: the nodes are those of the box from the first corner with the size of the one asked for, which extends in
the positive directions, with the numbers of nodes along x and y exchanged; the elements are of the type asked for. -/
theorem C139_beam (t : MeshKind) (p q : Fin 3 → ℚ) (n : Fin 3 → ℤ) (v : Bool) (gm : String) (hn : ∀ a, 1 < n a) (hz : p 2 ≠ q 2) :
    ∃ r, createBeam (beamArgs t p q n v gm) = some r ∧ r.program.IsVolume ∧ r.dimension = 3 ∧ r.verbose = v ∧ MakesElements r.program t ∧
      geoNodes r.program = boxNodes p (fun a => p a + |q a - p a|) ![n 1, n 0, n 2] := by
  refine ⟨_, createBeam_eq t p q n v gm hn hz, ⟨rfl, rfl⟩, rfl, rfl, by cases t <;> exact ⟨rfl, rfl, fun e he => by cases he; rfl⟩, ?_⟩
  have h2 : ((n 2 : ℚ) - 1) ≠ 0 := by
    have : (1 : ℚ) < n 2 := by exact_mod_cast hn 2
    linarith
  ext x
  simp only [geoNodes, boxNodes, Set.mem_setOf_eq]
  constructor
  · rintro ⟨i, j, k, hi, hj, hk, rfl⟩
    refine ⟨![i, j, k], fun a => ?_, fun a => ?_⟩
    · fin_cases a
      · exact hi
      · exact hj
      · show (k : ℤ) < n 2
        omega
    · rw [transfinite_corners p (fun a => |q a - p a|)]
      fin_cases a <;> simp [evenly]
  · rintro ⟨i, hi, hx⟩
    refine ⟨i 0, i 1, i 2, hi 0, hi 1, ?_, ?_⟩
    · have : (i 2 : ℤ) < n 2 := hi 2
      show (i 2 : ℤ) ≤ n 2 - 1
      omega
    · rw [transfinite_corners p (fun a => |q a - p a|)]
      funext a
      rw [hx a]
      fin_cases a <;> simp [evenly]

/-- **C139 (partial).** The nodes are those asked for when the numbers along x and y agree and the second corner is not below the first one along any axis. Missing: all other numbers and corners, see
`C139_counts_violated` and `C139_corners_violated`. -/
theorem C139_beam_partial (t : MeshKind) (p q : Fin 3 → ℚ) (n : Fin 3 → ℤ) (v : Bool) (gm : String) (hn : ∀ a, 1 < n a) (hxy : n 0 = n 1) (hpq : ∀ a, p a ≤ q a) (hz : p 2 ≠ q 2) :
    ∃ r, createBeam (beamArgs t p q n v gm) = some r ∧ r.program.IsVolume ∧ MakesElements r.program t ∧ geoNodes r.program = boxNodes p q n := by
  obtain ⟨r, h1, h2, -, -, h4, h3⟩ := C139_beam t p q n v gm hn hz
  refine ⟨r, h1, h2, h4, h3.trans ?_⟩
  have e1 : (fun a => p a + |q a - p a|) = q := by
    funext a
    rw [abs_of_nonneg (sub_nonneg.2 (hpq a))]
    ring
  have e2 : ![n 1, n 0, n 2] = n := by
    funext a
    fin_cases a
    · exact hxy.symm
    · exact hxy
    · rfl
  rw [e1, e2]

/-- **C139 (violated: numbers of nodes).** A beam asked for with two nodes along x and three along y has three along x. -/
theorem C139_counts_violated : ∃ (t : MeshKind) (p q : Fin 3 → ℚ) (n : Fin 3 → ℤ) (v : Bool) (gm : String) (r : GmshRun GeoBeam), (∀ a, 1 < n a) ∧ (∀ a, p a < q a) ∧
    createBeam (beamArgs t p q n v gm) = some r ∧ geoNodes r.program ≠ boxNodes p q n := by
  obtain ⟨r, h1, -, -, -, -, h2⟩ := C139_beam .p1 0 1 ![2, 3, 2] false "/usr/bin/gmsh" (by decide) (by decide)
  refine ⟨.p1, 0, 1, ![2, 3, 2], false, "/usr/bin/gmsh", r, by decide, fun a => by simp, h1, fun h => ?_⟩
  have hm : (![1 / 2, 0, 0] : Fin 3 → ℚ) ∈ geoNodes r.program := by
    rw [h2]
    refine ⟨![1, 0, 0], by decide, fun a => ?_⟩
    fin_cases a <;> norm_num [evenly]
  rw [h] at hm
  obtain ⟨i, hi, hx⟩ := hm
  have h0 := hx 0
  have hi0 : (i 0 : ℤ) < 2 := hi 0
  have : i 0 = 0 ∨ i 0 = 1 := by omega
  rcases this with k | k <;> rw [k] at h0 <;> norm_num [evenly] at h0

/-- **C139 (violated: corners).** A beam asked for from a corner down to a lower one along x is built on the other side of the first corner. -/
theorem C139_corners_violated : ∃ (t : MeshKind) (p q : Fin 3 → ℚ) (n : Fin 3 → ℤ) (v : Bool) (gm : String) (r : GmshRun GeoBeam), (∀ a, 1 < n a) ∧ n 0 = n 1 ∧ (∀ a, p a ≠ q a) ∧
    createBeam (beamArgs t p q n v gm) = some r ∧ q ∉ geoNodes r.program := by
  obtain ⟨r, h1, -, -, -, -, h2⟩ := C139_beam .p1 0 ![-1, 1, 1] ![2, 2, 2] false "/usr/bin/gmsh" (by decide) (by simp)
  refine ⟨.p1, 0, ![-1, 1, 1], ![2, 2, 2], false, "/usr/bin/gmsh", r, by decide, rfl, fun a => ?_, h1, fun h => ?_⟩
  · fin_cases a <;> simp
  · rw [h2] at h
    obtain ⟨i, hi, hx⟩ := h
    have h0 := hx 0
    have hi0 : (i 0 : ℤ) < 2 := hi 0
    have : i 0 = 0 ∨ i 0 = 1 := by omega
    rcases this with k | k <;> rw [k] at h0 <;> norm_num [evenly] at h0

/-- **C139 (rectangles).** With two numbers and corners in the plane: the nodes are those of the rectangle from the first corner in the positive directions, with the numbers exchanged. -/
theorem C139_rectangle (t : MeshKind) (a b c d : ℚ) (n m : ℤ) (v : Bool) (gm : String) (hn : 1 < n) (hm : 1 < m) :
    ∃ r, createBeam ⟨t, [n, m], [a, b], [c, d], v, gm⟩ = some r ∧ ¬r.program.IsVolume ∧ r.dimension = 2 ∧ MakesElements r.program t ∧ geoNodes r.program = rectangleNodes ![a, b, 0] ![a + |c - a|, b + |d - b|, 0] m n := by
  have e : createBeam ⟨t, [n, m], [a, b], [c, d], v, gm⟩ = some ⟨"/usr/bin/gmsh", 2, ⟨![![a, b, 0], ![a, b, 0] + ![0, |d - b|, 0], ![a, b, 0] + ![|c - a|, 0, 0] + ![0, |d - b|, 0],
      ![a, b, 0] + ![|c - a|, 0, 0]], n, m, t.quads, none, t.order, 2⟩, v⟩ := by
    simp [createBeam, rectangle, corners3, geoToMsh, hn, hm]
  refine ⟨_, e, fun h => by simp [GeoBeam.IsVolume] at h, rfl, by cases t <;> exact ⟨rfl, rfl, fun e he => by cases he⟩, ?_⟩
  have ht := transfinite_corners ![a, b, 0] ![|c - a|, |d - b|, 0]
  simp only [Matrix.cons_val_zero, Matrix.cons_val_one, Matrix.cons_val] at ht
  ext x
  simp only [geoNodes, rectangleNodes, Set.mem_setOf_eq, ht]
  constructor
  · rintro ⟨i, j, hi, hj, rfl⟩
    exact ⟨i, j, hi, hj, by simp, by simp, by simp⟩
  · rintro ⟨i, j, hi, hj, h0, h1, h2⟩
    refine ⟨i, j, hi, hj, ?_⟩
    funext k
    fin_cases k
    · simpa using h0
    · simpa using h1
    · simpa using h2

/-- **C139 (violated: flat beams).** With three numbers of nodes but corners at the same height, or in the plane, the script ends as if it had succeeded: it has Gmsh mesh a surface, and no volume element
is made. -/
theorem C139_flat_violated (t : MeshKind) (p q : Fin 3 → ℚ) (n : Fin 3 → ℤ) (v : Bool) (gm : String) (hn : ∀ a, 1 < n a) (hz : p 2 = q 2) :
    ∃ r, createBeam (beamArgs t p q n v gm) = some r ∧ r.dimension = 3 ∧ ¬r.program.IsVolume := by
  have : ¬0 < |q 2 - p 2| := by simp [hz]
  have e0 : (![p 0, p 1, p 2] : Fin 3 → ℚ) = p := by
    funext a
    fin_cases a <;> rfl
  have e1 : (![q 0, q 1, q 2] : Fin 3 → ℚ) = q := by
    funext a
    fin_cases a <;> rfl
  have e : createBeam (beamArgs t p q n v gm) = some ⟨"/usr/bin/gmsh", 3, ⟨![p, p + ![0, |q 1 - p 1|, 0], p + ![|q 0 - p 0|, 0, 0] + ![0, |q 1 - p 1|, 0], p + ![|q 0 - p 0|, 0, 0]], n 0, n 1, t.quads,
      none, t.order, 3⟩, v⟩ := by
    simp [createBeam, beamArgs, rectangle, corners3, spread3, e0, e1, geoToMsh, hn 0, hn 1, hn 2, this]
  exact ⟨_, e, rfl, fun h => by simp [GeoBeam.IsVolume] at h⟩

/-- **C139 (refused).** Less than two nodes along an axis, four numbers, or a corner with four coordinates end the script. -/
theorem C139_refused (a : BeamArgs) (h : a.n.length < 2 ∨ 3 < a.n.length ∨ (∃ k ∈ a.n, k ≤ 1) ∨ 3 < a.p0.length) : createBeam a = none := by
  obtain ⟨t, n, p0, p1, v, gm⟩ := a
  simp only at h
  unfold createBeam rectangle
  simp only
  cases hc : corners3 p0 p1 with
  | none => rfl
  | some q =>
    obtain ⟨q0, q1⟩ := q
    simp only
    by_cases k1 : n.length = 3 ∧ ¬(n.length = 3 ∧ 1 < n.getD 2 0)
    · rw [if_pos k1]
    rw [if_neg k1]
    by_cases k2 : ¬(n.length = 2 ∨ n.length = 3)
    · rw [if_pos k2]
    rw [if_neg k2]
    by_cases k3 : ¬(1 < n.getD 0 0 ∧ 1 < n.getD 1 0)
    · rw [if_pos k3]
    exfalso
    rcases h with h | h | ⟨k, hk, h⟩ | h
    · omega
    · omega
    · push Not at k2 k3
      match n, k1, k2, k3, hk with
      | [x, y], _, _, k3, hk =>
        simp at k3 hk
        omega
      | [x, y, z], k1, _, k3, hk =>
        simp at k1 k3 hk
        omega
    · match p0, h, hc with
      | _ :: _ :: _ :: _ :: _, _, hc => simp [corners3] at hc

/-- **C139 (violated: executable).** The path to Gmsh given with `--gmsh` is never used. -/
theorem C139_gmsh_violated (a : BeamArgs) (r : GmshRun GeoBeam) (h : createBeam a = some r) : r.gmsh = "/usr/bin/gmsh" := by
  unfold createBeam rectangle at h
  simp only at h
  split at h
  · cases h
  · split_ifs at h <;> first | cases h; rfl | (cases h)

/-- **C139 (violated: cylinders).** The cylinder of a type with hexahedra is the same as that of the type with tetrahedra of its order; the log is printed for those types, whatever `--verbose`. -/
theorem C139_cylinder_violated (a : CylinderArgs) :
    (createCylinder { a with type := .q1 }).program = (createCylinder { a with type := .p1 }).program ∧ (createCylinder { a with type := .q2 }).program = (createCylinder { a with type := .p2 }).program ∧
    (createCylinder a).verbose = madeOfQuads a.type ∧ (createCylinder a).gmsh = "/usr/bin/gmsh" :=
  ⟨rfl, rfl, by obtain ⟨t, s, r, l, v, g⟩ := a; cases t <;> rfl, rfl⟩

/-- **C139 (cylinders).** The radius, the length, the size of the elements and the order are those asked for. -/
theorem C139_cylinder (a : CylinderArgs) : (createCylinder a).program = ⟨a.radius, a.length, a.size, elementDegree a.type, 3⟩ ∧ (createCylinder a).dimension = 3 := by
  obtain ⟨t, s, r, l, v, g⟩ := a
  cases t <;> exact ⟨rfl, rfl⟩

/-- The beam of the README of the validation: 3 × 3 × 9 nodes from `(-7.5, -7.5, 0)` to `(7.5, 7.5, 80)`. -/
example := C139_beam_partial .q1 ![-15/2, -15/2, 0] ![15/2, 15/2, 80] ![3, 3, 9] false "/usr/bin/gmsh" (by decide) rfl (by intro a; fin_cases a <;> norm_num) (by decide)

/-- The cylinder of the README. -/
example := C139_cylinder ⟨.p1, 5, 15/2, 80, true, "/usr/bin/gmsh"⟩

end Caribou
