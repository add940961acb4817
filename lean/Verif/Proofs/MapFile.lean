import Verif.Spec.MapFile
import Verif.Proofs.Project

/-! Lemmas about reading map files. -/

set_option linter.unusedSectionVars false

namespace Fm2prof.MapProof

open Fm2prof Spec

variable {K : Type} [Field K] [LinearOrder K] [IsStrictOrderedRing K] [FloorRing K]

theorem variable_ok {α : Type} {vars : Text → Option α} {name : String} {v : α} (h : variable' vars name = .ok v) :
    vars name.toList = some v := by
  unfold variable' at h
  cases hv : vars name.toList with
  | none => rw [hv] at h; cases h
  | some w => rw [hv] at h; rw [Except.ok.inj h]

theorem variable_some {α : Type} {vars : Text → Option α} {name : String} {v : α} (h : vars name.toList = some v) :
    variable' vars name = .ok v := by
  unfold variable'; rw [h]

theorem variable_none {α : Type} {vars : Text → Option α} {name : String} (h : vars name.toList = none) :
    variable' vars name = .error .keyError := by
  unfold variable'; rw [h]

theorem bindOk {α β : Type} {e : Except PyErr α} {k : α → Except PyErr β} {b : β} (h : (e >>= k) = .ok b) :
    ∃ a, e = .ok a ∧ k a = .ok b := by
  cases e with
  | error e => cases h
  | ok a => exact ⟨a, rfl, h⟩

/-- The imported data, from the variables. -/
def imported (f : NcFile K) (x y area bedlevel : Nat → K) (types : Nat → Int) (edgeX edgeY : Nat → K)
    (waterdepth waterlevel chezyMean chezyEdge velocityX velocityY : Nat → Nat → Stored K) : MapData K :=
  { faces := {
      x := columnOf f.nFaces x, y := columnOf f.nFaces y, area := columnOf f.nFaces area, bedlevel := columnOf f.nFaces bedlevel
      region := List.replicate f.nFaces [], islake := List.replicate f.nFaces false, sect := List.replicate f.nFaces "main".toList
      sclass := List.replicate f.nFaces []
      waterdepth := rowsOfResult f.nFaces f.nMaps waterdepth, waterlevel := rowsOfResult f.nFaces f.nMaps waterlevel
      velocityX := rowsOfResult f.nFaces f.nMaps velocityX, velocityY := rowsOfResult f.nFaces f.nMaps velocityY }
    edges := {
      x := selectMask (internalMask f.nEdges types) (columnOf f.nEdges edgeX)
      y := selectMask (internalMask f.nEdges types) (columnOf f.nEdges edgeY)
      sect := ((internalMask f.nEdges types).filter id).map fun _ => "main".toList
      sclass := ((internalMask f.nEdges types).filter id).map fun _ => []
      edgeFaces := f.edgeFaces.map fun v => selectMask (internalMask f.nEdges types) (columnOf f.nEdges v)
      chezy := selectMask (internalMask f.nEdges types) (rowsOfResult f.nEdges f.nMaps chezyEdge) }
    chezyMean := rowsOfResult f.nFaces f.nMaps chezyMean
    nMaps := f.nMaps }

theorem import_ok (f : NcFile K) (d : MapData K) (h : importDflow2d f = .ok d) :
    ∃ x y area bedlevel types edgeX edgeY waterdepth waterlevel chezyMean chezyEdge velocityX velocityY u1,
      f.face "mesh2d_face_x".toList = some x ∧ f.face "mesh2d_face_y".toList = some y ∧
      f.face "mesh2d_flowelem_ba".toList = some area ∧ f.face "mesh2d_flowelem_bl".toList = some bedlevel ∧
      f.edgeType = some types ∧ f.edge "mesh2d_edge_x".toList = some edgeX ∧ f.edge "mesh2d_edge_y".toList = some edgeY ∧
      f.faceResult "mesh2d_waterdepth".toList = some waterdepth ∧ f.faceResult "mesh2d_s1".toList = some waterlevel ∧
      f.faceResult "mesh2d_czs".toList = some chezyMean ∧ edgeChezyVariable f = .ok chezyEdge ∧
      f.faceResult "mesh2d_ucx".toList = some velocityX ∧ f.faceResult "mesh2d_ucy".toList = some velocityY ∧
      f.edgeResult "mesh2d_u1".toList = some u1 ∧
      d = imported f x y area bedlevel types edgeX edgeY waterdepth waterlevel chezyMean chezyEdge velocityX velocityY := by
  unfold importDflow2d at h
  obtain ⟨x, h1, h⟩ := bindOk h
  obtain ⟨y, h2, h⟩ := bindOk h
  obtain ⟨area, h3, h⟩ := bindOk h
  obtain ⟨bedlevel, h4, h⟩ := bindOk h
  obtain ⟨types, h5, h⟩ := bindOk h
  obtain ⟨edgeX, h6, h⟩ := bindOk h
  obtain ⟨edgeY, h7, h⟩ := bindOk h
  obtain ⟨waterdepth, h8, h⟩ := bindOk h
  obtain ⟨waterlevel, h9, h⟩ := bindOk h
  obtain ⟨chezyMean, h10, h⟩ := bindOk h
  obtain ⟨chezyEdge, h11, h⟩ := bindOk h
  obtain ⟨velocityX, h12, h⟩ := bindOk h
  obtain ⟨velocityY, h13, h⟩ := bindOk h
  obtain ⟨u1, h14, h⟩ := bindOk h
  refine ⟨x, y, area, bedlevel, types, edgeX, edgeY, waterdepth, waterlevel, chezyMean, chezyEdge, velocityX, velocityY, u1,
    variable_ok h1, variable_ok h2, variable_ok h3, variable_ok h4, ?_, variable_ok h6, variable_ok h7, variable_ok h8,
    variable_ok h9, variable_ok h10, h11, variable_ok h12, variable_ok h13, variable_ok h14, (Except.ok.inj h).symm⟩
  cases ht : f.edgeType with
  | none => rw [ht] at h5; cases h5
  | some t => rw [ht] at h5; rw [Except.ok.inj h5]

theorem import_of (f : NcFile K) {x y area bedlevel : Nat → K} {types : Nat → Int} {edgeX edgeY : Nat → K}
    {waterdepth waterlevel chezyMean chezyEdge velocityX velocityY u1 : Nat → Nat → Stored K}
    (h1 : f.face "mesh2d_face_x".toList = some x) (h2 : f.face "mesh2d_face_y".toList = some y)
    (h3 : f.face "mesh2d_flowelem_ba".toList = some area) (h4 : f.face "mesh2d_flowelem_bl".toList = some bedlevel)
    (h5 : f.edgeType = some types) (h6 : f.edge "mesh2d_edge_x".toList = some edgeX)
    (h7 : f.edge "mesh2d_edge_y".toList = some edgeY) (h8 : f.faceResult "mesh2d_waterdepth".toList = some waterdepth)
    (h9 : f.faceResult "mesh2d_s1".toList = some waterlevel) (h10 : f.faceResult "mesh2d_czs".toList = some chezyMean)
    (h11 : edgeChezyVariable f = .ok chezyEdge) (h12 : f.faceResult "mesh2d_ucx".toList = some velocityX)
    (h13 : f.faceResult "mesh2d_ucy".toList = some velocityY) (h14 : f.edgeResult "mesh2d_u1".toList = some u1) :
    importDflow2d f =
      .ok (imported f x y area bedlevel types edgeX edgeY waterdepth waterlevel chezyMean chezyEdge velocityX velocityY) := by
  unfold importDflow2d
  rw [variable_some h1, variable_some h2, variable_some h3, variable_some h4, h5, variable_some h6, variable_some h7,
    variable_some h8, variable_some h9, variable_some h10, h11, variable_some h12, variable_some h13, variable_some h14]
  rfl

/-- An import fails with `KeyError` only. -/
theorem bind_keyError {α β : Type} {e : Except PyErr α} {k : α → Except PyErr β} (h1 : ∀ x, e = .error x → x = .keyError)
    (h2 : ∀ a x, k a = .error x → x = .keyError) (x : PyErr) (h : (e >>= k) = .error x) : x = .keyError := by
  cases e with
  | error y => rw [show x = y from (Except.error.inj h).symm]; exact h1 y rfl
  | ok a => exact h2 a x h

theorem variable_keyError {α : Type} (vars : Text → Option α) (name : String) (x : PyErr)
    (h : variable' vars name = .error x) : x = .keyError := by
  unfold variable' at h
  cases hv : vars name.toList with
  | none => rw [hv] at h; exact (Except.error.inj h).symm
  | some w => rw [hv] at h; cases h

theorem import_keyError (f : NcFile K) (e : PyErr) (h : importDflow2d f = .error e) : e = .keyError := by
  revert h
  unfold importDflow2d
  revert e
  refine bind_keyError (variable_keyError _ _) fun _ => ?_
  refine bind_keyError (variable_keyError _ _) fun _ => ?_
  refine bind_keyError (variable_keyError _ _) fun _ => ?_
  refine bind_keyError (variable_keyError _ _) fun _ => ?_
  refine bind_keyError ?_ fun _ => ?_
  · intro x h
    cases ht : f.edgeType with
    | none => rw [ht] at h; exact (Except.error.inj h).symm
    | some t => rw [ht] at h; cases h
  refine bind_keyError (variable_keyError _ _) fun _ => ?_
  refine bind_keyError (variable_keyError _ _) fun _ => ?_
  refine bind_keyError (variable_keyError _ _) fun _ => ?_
  refine bind_keyError (variable_keyError _ _) fun _ => ?_
  refine bind_keyError (variable_keyError _ _) fun _ => ?_
  refine bind_keyError ?_ fun _ => ?_
  · intro x h
    unfold edgeChezyVariable at h
    split at h
    · cases h
    · exact variable_keyError _ _ x h
  refine bind_keyError (variable_keyError _ _) fun _ => ?_
  refine bind_keyError (variable_keyError _ _) fun _ => ?_
  refine bind_keyError (variable_keyError _ _) fun _ => ?_
  intro x h
  cases h

/-! ## Columns -/

theorem column_length {α : Type} (n : Nat) (v : Nat → α) : (columnOf n v).length = n := by
  unfold columnOf; rw [List.length_map, List.length_range]

theorem rows_length (n maps : Nat) (v : Nat → Nat → Stored K) : (rowsOfResult n maps v).length = n := by
  unfold rowsOfResult; rw [List.length_map, List.length_range]

theorem rows_column (n maps : Nat) (v : Nat → Nat → Stored K) :
    rowsOfResult n maps v = columnOf n fun i => (List.range maps).map fun t => (v t i).value := rfl

/-- Selecting the internal edges of a column. -/
theorem select_column {α : Type} (n : Nat) (types : Nat → Int) (v : Nat → α) :
    selectMask (internalMask n types) (columnOf n v) = ((List.range n).filter fun e => decide (types e = 1)).map v := by
  unfold selectMask internalMask columnOf
  rw [List.map_map]
  induction List.range n with
  | nil => rfl
  | cons a l ih =>
    simp only [List.map_cons, List.zip_cons_cons, List.filter_cons, Function.comp_apply]
    by_cases h : types a = 1
    · rw [if_pos (decide_eq_true h), if_pos (decide_eq_true h), List.map_cons, List.map_cons, ih]
    · rw [if_neg (by rw [decide_eq_false h]; exact Bool.false_ne_true),
        if_neg (by rw [decide_eq_false h]; exact Bool.false_ne_true), ih]

theorem internal_eq (f : NcFile K) (types : Nat → Int) (h : f.edgeType = some types) :
    ((List.range f.nEdges).filter fun e => decide (types e = 1)) = internalEdges f := by
  unfold internalEdges
  rw [h]
  simp only [Option.map_some, Option.some.injEq]

theorem holds_map (items : List Nat) (v : Nat → K) : HoldsAt items v (items.map v) :=
  ⟨List.length_map .., fun i e h => by rw [List.getElem?_map, h]; rfl⟩

theorem series_map (items : List Nat) (maps : Nat) (v : Nat → Nat → Stored K) :
    SeriesAt items maps v (items.map fun i => (List.range maps).map fun t => (v t i).value) := by
  refine ⟨List.length_map .., fun i e h => ⟨(List.range maps).map fun t => (v t e).value, ?_, ?_, fun t ht => ?_⟩⟩
  · rw [List.getElem?_map, h]; rfl
  · rw [List.length_map, List.length_range]
  · rw [List.getElem?_map, List.getElem?_range ht]; rfl

end Fm2prof.MapProof
