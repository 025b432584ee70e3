import Verif.Model.PyGrid
import Verif.Props.GridLocate

/-! # Lemmas for grids used from Python -/

set_option autoImplicit false
set_option linter.all false

namespace Caribou

open Spec

variable {d : ℕ} {K : Type*} [Field K] [LinearOrder K] [FloorRing K]

theorem listFn_ofFn {α : Type*} (f : Fin d → α) : listFn d (List.ofFn f) = some f := by
  unfold listFn
  rw [dif_pos (List.length_ofFn)]
  congr 1
  funext i
  simp

theorem listFn_none {α : Type*} (l : List α) (h : l.length ≠ d) : listFn d l = none := by
  unfold listFn
  rw [dif_neg h]

theorem asPoint_ofFn (p : Fin d → K) : asPoint d (.floats (List.ofFn p)) = some p := listFn_ofFn p

theorem asPoint_ints (c : Fin d → ℤ) : asPoint (K := K) d (.ints (List.ofFn c)) = some fun a => (c a : K) := by
  simp only [asPoint, List.map_ofFn]
  exact listFn_ofFn _

theorem asCoordinates_ofFn (c : Fin d → ℤ) (h : ∀ a, fits64 (c a) = true) :
    asCoordinates (K := K) d (.ints (List.ofFn c)) = some c := by
  simp only [asCoordinates]
  rw [if_pos (by
    rw [List.all_eq_true]
    intro x hx
    obtain ⟨i, rfl⟩ := (List.mem_ofFn' _ _).mp hx
    exact h i)]
  exact listFn_ofFn c

theorem fits64_of {z : ℤ} (h0 : 0 ≤ z) (h1 : z < 2 ^ 63) : fits64 z = true := by
  simp only [fits64, Bool.and_eq_true, decide_eq_true_eq]
  exact ⟨by omega, h1⟩

theorem node_fits (g : Grid d K) (hf : Fits g.n) {c : Fin d → ℤ} (hc : IsNode g.n c) (a : Fin d) : fits64 (c a) = true :=
  fits64_of (hc a).1 (by have := axis_lt g hf a; have := (hc a).2; omega)

theorem cell_fits (g : Grid d K) (hf : Fits g.n) {c : Fin d → ℤ} (hc : IsCell g.n c) (a : Fin d) : fits64 (c a) = true :=
  fits64_of (hc a).1 (by have := axis_lt g hf a; have := (hc a).2; omega)

theorem numberOfNodes_le (g : Grid d K) (hf : Fits g.n) : g.numberOfNodes ≤ 2 ^ 63 := by
  rw [numberOfNodes_eq g hf]; exact hf

theorem numberOfCells_le (g : Grid d K) (hf : Fits g.n) : g.numberOfCells ≤ 2 ^ 63 := by
  rw [numberOfCells_eq g hf]
  refine le_trans (Finset.prod_le_prod (fun a _ => by positivity) fun a _ => ?_) hf
  exact (by omega : (g.n a : ℤ) ≤ g.n a + 1)

theorem asIndex_of {z : ℤ} (h0 : 0 ≤ z) (h1 : z < 2 ^ 63) : asIndex (K := K) (.int z) = some z := by
  simp only [asIndex, fits64_of h0 h1, if_true]

/-- The functions of the class `Grid` on one argument. -/
theorem pyCall_cellCoordinatesAt (g : Grid d K) (geo : Bool) (args : List (PyVal K)) :
    g.pyCall geo .cellCoordinatesAt args
      = match take1 (d := d) asIndex .cellCoordinatesAt args with
        | some c => Grid.toPython geo (g.run c)
        | none => .typeError := by
  simp only [Grid.pyCall, Grid.pyCallAs, resolveCall, GridClass.mro, lookupName, gridOverloads, firstAccepting]
  cases take1 (d := d) asIndex .cellCoordinatesAt args <;> rfl

theorem pyCall_node (g : Grid d K) (geo : Bool) (args : List (PyVal K)) :
    g.pyCall geo .node args
      = match take1 (d := d) asIndex .node args with
        | some c => Grid.toPython geo (g.run c)
        | none => .typeError := by
  simp only [Grid.pyCall, Grid.pyCallAs, resolveCall, GridClass.mro, lookupName, gridOverloads, firstAccepting]
  cases take1 (d := d) asIndex .node args <;> rfl

theorem pyCall_index {g : Grid d K} {geo : Bool} {i : ℤ} (h0 : 0 ≤ i) (h1 : i < 2 ^ 63) :
    g.pyCall geo .cellCoordinatesAt [.int i] = .ok (.coordinates (g.cellCoordinatesAt i)) ∧
    g.pyCall geo .nodeCoordinatesAt [.int i] = .ok (.coordinates (g.nodeCoordinatesAt i)) ∧
    g.pyCall geo .node [.int i] = .ok (.point (g.node i)) ∧
    g.pyCall geo .nodeIndicesOf [.int i] = .ok (.indices (g.nodeIndicesList (g.cellCoordinatesAt i))) ∧
    g.pyCall geo .cellAt [.int i] = Grid.toPython geo (g.cellVal (g.cellCoordinatesAt i)) := by
  have h := asIndex_of (K := K) h0 h1
  refine ⟨?_, ?_, ?_, ?_, ?_⟩ <;>
    simp [Grid.pyCall, Grid.pyCallAs, resolveCall, GridClass.mro, lookupName, gridOverloads, firstAccepting, take1, h, Grid.run,
      Grid.toPython, asCoordinates]

theorem pyCall_coordinates {g : Grid d K} {geo : Bool} {c : Fin d → ℤ} (h : ∀ a, fits64 (c a) = true) :
    g.pyCall geo .nodeIndexAt [.ints (List.ofFn c)] = .ok (.int (g.nodeIndexAt c)) ∧
    g.pyCall geo .cellIndexAt [.ints (List.ofFn c)] = .ok (.int (g.cellIndexAt c)) ∧
    g.pyCall geo .nodeIndicesOf [.ints (List.ofFn c)] = .ok (.indices (g.nodeIndicesList c)) ∧
    g.pyCall geo .cellAt [.ints (List.ofFn c)] = Grid.toPython geo (g.cellVal c) ∧
    g.pyCallAs geo .base .node [.ints (List.ofFn c)] = .ok (.point (g.nodeAtCoordinates c)) := by
  have h := asCoordinates_ofFn (K := K) c h
  refine ⟨?_, ?_, ?_, ?_, ?_⟩ <;>
    simp [Grid.pyCall, Grid.pyCallAs, resolveCall, GridClass.mro, lookupName, gridOverloads, firstAccepting, take1, h, Grid.run,
      Grid.toPython]

theorem pyCall_point (g : Grid d K) (geo : Bool) (p : Fin d → K) :
    g.pyCall geo .cellIndexContaining [.floats (List.ofFn p)] = .ok (.int (g.cellIndexContaining p true)) ∧
    (∀ t, g.pyCall geo .cellIndexContaining [.floats (List.ofFn p), .flag t] = .ok (.int (g.cellIndexContaining p t))) ∧
    g.pyCall geo .cellsAround [.floats (List.ofFn p)] = .ok (.indices (g.cellsAround p)) ∧
    g.pyCall geo .contains [.floats (List.ofFn p)] = .ok (.flag (g.contains p (gridEps K))) ∧
    (∀ e, g.pyCall geo .contains [.floats (List.ofFn p), .float e] = .ok (.flag (g.contains p e))) ∧
    g.pyCallAs geo .base .cellCoordinatesAt [.floats (List.ofFn p)] = .ok (.coordinates (g.cellCoordinatesOfPoint p false)) ∧
    (∀ t, g.pyCallAs geo .base .cellCoordinatesAt [.floats (List.ofFn p), .flag t]
      = .ok (.coordinates (g.cellCoordinatesOfPoint p t))) := by
  have h := asPoint_ofFn p
  refine ⟨?_, fun t => ?_, ?_, ?_, fun e => ?_, ?_, fun t => ?_⟩ <;>
    simp [Grid.pyCall, Grid.pyCallAs, resolveCall, GridClass.mro, lookupName, gridOverloads, firstAccepting, take1, take2, h, Grid.run,
      Grid.toPython, asFlag, asNumber]

theorem pyCall_counts (g : Grid d K) (geo : Bool) :
    g.pyCall geo .numberOfCells [] = .ok (.int g.numberOfCells) ∧ g.pyCall geo .numberOfNodes [] = .ok (.int g.numberOfNodes) ∧
    g.pyCall geo .anchorPosition [] = .ok (.point g.anchor) ∧ g.pyCall geo .size [] = .ok (.point g.size) ∧
    g.pyCall geo .cellSize [] = .ok (.point g.H) ∧ g.pyCall geo .subdivisions [] = .ok (.coordinates fun a => (g.n a : ℤ)) := by
  refine ⟨?_, ?_, ?_, ?_, ?_, ?_⟩ <;>
    simp [Grid.pyCall, Grid.pyCallAs, resolveCall, GridClass.mro, lookupName, gridOverloads, firstAccepting, take0, Grid.run,
      Grid.toPython]

theorem pyCall_edge {g : Grid d K} (geo : Bool) {i : ℤ} (hd : 1 < d) (h0 : 0 ≤ i) (h1 : i < 2 ^ 63) :
    g.pyCall geo .numberOfEdges [] = .ok (.int g.edgeCount) ∧ g.pyCall geo .edge [.int i] = .ok (.indices (g.edgeList i)) := by
  have h := asIndex_of (K := K) h0 h1
  refine ⟨?_, ?_⟩ <;>
    simp [Grid.pyCall, Grid.pyCallAs, resolveCall, GridClass.mro, lookupName, gridOverloads, firstAccepting, take0, take1, Grid.run,
      Grid.toPython, h, hd]

theorem pyCall_face {g : Grid 3 K} (geo : Bool) {i : ℤ} (h0 : 0 ≤ i) (h1 : i < 2 ^ 63) :
    g.pyCall geo .numberOfFaces [] = .ok (.int g.faceCount) ∧ g.pyCall geo .face [.int i] = .ok (.indices (g.faceList i)) := by
  have h := asIndex_of (K := K) h0 h1
  refine ⟨?_, ?_⟩ <;>
    simp [Grid.pyCall, Grid.pyCallAs, resolveCall, GridClass.mro, lookupName, gridOverloads, firstAccepting, take0, take1, Grid.run,
      Grid.toPython, h]

theorem edgeList2 (g : Grid 2 K) (i : ℕ) : g.edgeList (i : ℤ) = [((g.edge2 i).1 : ℤ), ((g.edge2 i).2 : ℤ)] := rfl

theorem edgeList3 (g : Grid 3 K) (i : ℕ) : g.edgeList (i : ℤ) = [((g.edge3 i).1 : ℤ), ((g.edge3 i).2 : ℤ)] := rfl

theorem faceList3 (g : Grid 3 K) (i : ℕ) : g.faceList (i : ℤ) = List.ofFn (g.face3 i) := rfl

end Caribou
