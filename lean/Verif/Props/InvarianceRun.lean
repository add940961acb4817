import Verif.Proofs.InvarianceRun
import Verif.Props.Invariance

/-!
# Properties of whole runs on the same river described in another way

C106 and C108 for whole runs: the result files are the same when the faces and edges are numbered in another way and when the axes
are turned and moved.
-/

set_option linter.unusedSectionVars false

namespace Fm2prof.Props

open Fm2prof Spec

variable {K : Type} [Field K] [LinearOrder K] [IsStrictOrderedRing K] [FloorRing K]

/-- **C106, whole runs.** Number the faces and edges of the 2D model in another way. If for each cross-section one of its faces is
nearer to its location than all others and the default way of finding the flowing part is used, the run ends in the same way and
all result files are the same. Missing: the other way of finding the flowing part, see `C106_mean_velocity_violated`, and
cross-sections with two nearest faces, see `C106_two_nearest_violated`. -/
theorem C106_run_partial (x : Tools K) (cfg : RunConfig K) (hm : cfg.pipeline.build.conveyanceDetectionMethod ≠ 0) (o : Surroundings)
    (faces faces' : List (InFace K)) (edges edges' : List (InEdge K)) (hf : faces.Perm faces') (he : edges.Perm edges')
    (edgeFaces edgeFaces' : Option (List (Int × Int))) (nMaps : Nat) (css : List (Loc K)) (regions : Option (List Text))
    (sections : Bool) (hone : ClearCentres x.nn (inputsOf faces edges edgeFaces nMaps css regions sections))
    (overwrite : Bool) (s : Store) :
    (run (jobOf x cfg (inputsOf faces' edges' edgeFaces' nMaps css regions sections) o) overwrite s).2 =
      (run (jobOf x cfg (inputsOf faces edges edgeFaces nMaps css regions sections) o) overwrite s).2 ∧
    ∀ f, IsResult f →
      (run (jobOf x cfg (inputsOf faces' edges' edgeFaces' nMaps css regions sections) o) overwrite s).1 f =
        (run (jobOf x cfg (inputsOf faces edges edgeFaces nMaps css regions sections) o) overwrite s).1 f :=
  have h := run_sim (sameJobs_perm x cfg hm o hf he edgeFaces edgeFaces' nMaps css regions sections hone) overwrite s
  ⟨h.1, fun f hf => h.2 f hf trivial⟩

/-- **C108, whole runs.** Turn and move the axes: the positions of faces, edges and cross-sections and the components of the
velocities change accordingly. If it is clear for all faces and edges to which cross-section they belong, and if for each
cross-section one of its faces is nearer to its location than all others, the run ends in the same way and all result files are the
same. -/
theorem C108_run (x : Tools K) (cfg : RunConfig K) (o : Surroundings)
    (c s p q : K) (hcs : c ^ 2 + s ^ 2 = 1) (faces : List (InFace K)) (edges : List (InEdge K))
    (edgeFaces : Option (List (Int × Int))) (nMaps : Nat) (css : List (Loc K)) (regions : Option (List Text)) (sections : Bool)
    (hclear : ClearCss faces edges css regions)
    (hone : ClearCentres x.nn (inputsOf faces edges edgeFaces nMaps css regions sections)) (overwrite : Bool) (st : Store) :
    (run (jobOf x cfg (inputsOf (faces.map (InFace.turn c s p q)) (edges.map (InEdge.turn c s p q)) edgeFaces nMaps
        (css.map (Loc.turn c s p q)) regions sections) o) overwrite st).2 =
      (run (jobOf x cfg (inputsOf faces edges edgeFaces nMaps css regions sections) o) overwrite st).2 ∧
    ∀ f, IsResult f →
      (run (jobOf x cfg (inputsOf (faces.map (InFace.turn c s p q)) (edges.map (InEdge.turn c s p q)) edgeFaces nMaps
          (css.map (Loc.turn c s p q)) regions sections) o) overwrite st).1 f =
        (run (jobOf x cfg (inputsOf faces edges edgeFaces nMaps css regions sections) o) overwrite st).1 f :=
  have h := run_sim (sameJobs_turn x cfg o c s p q hcs faces edges edgeFaces edgeFaces nMaps css regions sections hclear hone) overwrite st
  ⟨h.1, fun f hf => h.2 f hf trivial⟩

/-! ## The sample river -/

/-- The faces of the sample river. -/
def rowFaces : List (InFace ℚ) :=
  (List.range 13).map fun (i : Nat) =>
    let k := [0, 1, 2, 0, 1, 2, 0, 1, 2, 0, 0, 2, 2].getD i 0
    let level : List ℚ := [2, 3, 5 / 2, 5]
    let bed : ℚ := if k = 0 then 0 else if k = 1 then 3 else -7
    { row := ⟨(i : ℚ), 0, if k = 0 then 100 else if k = 1 then 300 else 50, bed, [], false, [], [],
        level.map fun z => some (max 0 (z - bed)), level.map fun z => some (max bed z),
        level.map fun z => some (if k = 1 then (if z = 5 then 1 else 0) else 1), level.map fun _ => some 0⟩
      chezyMean := level.map fun z => some (if k = 1 then (if z = 5 then 20 else 0) else 40)
      inRegion := []
      inSection := [] }

/-- The edges of the sample river. -/
def rowEdges : List (InEdge ℚ) :=
  [(1 / 2, [some 40, some 42, some 44, some 45]), (3 / 2, [some 0, some 0, some 0, some 20]), (5 / 2, [some 40, some 40, some 40, some 40]),
    (7 / 2, [some 38, some 38, some 40, some 41])].map fun p => ⟨⟨p.1, 0, [], [], p.2⟩, [], []⟩

/-- The cross-sections of the sample river. -/
def rowCss : List (Loc ℚ) :=
  [⟨"rhine_100".toList, 5, 0, 10, "rhine".toList, 100⟩, ⟨"rhine_900".toList, 20, 0, 10, "rhine".toList, 900⟩]

theorem rowInputs_eq : inputsOf rowFaces rowEdges none 4 rowCss none false = sampleInputs := by
  rfl

theorem faceRows_columns (rows : List (FaceRow ℚ)) : faceRows (faceColumns rows) = rows := by
  apply List.ext_getElem?
  intro i
  unfold faceRows faceColumns
  simp only [List.length_map, List.getElem?_map]
  by_cases h : i < rows.length
  · rw [List.getElem?_range h, Option.map_some, List.getElem?_eq_getElem h]
    rfl
  · rw [List.getElem?_eq_none (by simpa using h), List.getElem?_eq_none (by omega)]
    rfl

theorem sampleColumns : (sampleLoaded sampleInputs).faces = faceColumns (faceRows (sampleLoaded sampleInputs).faces) ∧
    (sampleLoaded sampleInputs).stations = rowCss := by
  have hok : setModelData firstNearest sampleInputs = .ok (sampleLoaded sampleInputs) := by
    have h : (setModelData firstNearest sampleInputs).toOption.isSome = true := by decide +kernel
    unfold sampleLoaded
    cases hm : setModelData firstNearest sampleInputs with
    | error e => rw [hm] at h; cases h
    | ok m => rfl
  rcases setModelData_perm firstNearest (List.Perm.refl rowFaces) (List.Perm.refl rowEdges) none none 4 rowCss none false with
    ⟨e, h1, _⟩ | ⟨m, m', h1, _, h3, h4, _⟩
  · rw [rowInputs_eq, hok] at h1; cases h1
  · rw [rowInputs_eq, hok] at h1
    obtain rfl := Except.ok.inj h1
    obtain ⟨rows, _, _, hr, _⟩ := h3.faces
    refine ⟨?_, h4⟩
    conv_rhs => rw [hr, faceRows_columns]
    exact hr

theorem rowInputs_clear : ClearCentres sampleTools.nn (inputsOf rowFaces rowEdges none 4 rowCss none false) := by
  rw [rowInputs_eq]
  intro m hm l hl hu
  have hload : m = sampleLoaded sampleInputs := by
    have hm : setModelData firstNearest sampleInputs = .ok m := hm
    unfold sampleLoaded
    rw [hm]
  subst hload
  rw [sampleColumns.2] at hl
  have hall : ∀ l ∈ rowCss, Usable (sampleLoaded sampleInputs) l → l = sampleLoc := by
    intro l hl hu
    rcases List.mem_cons.1 hl with rfl | hl
    · rfl
    · rw [List.mem_singleton.1 hl] at hu
      exact absurd hu (by decide +kernel)
  rw [hall l hl hu]
  exact ⟨_, sampleColumns.1, nearRow, nearRow_mem, by decide +kernel, nearRow_nearest⟩

/-- The sample river with its faces and edges in the opposite order. -/
example : sampleRunConfig.pipeline.build.conveyanceDetectionMethod ≠ 0 ∧ rowFaces.Perm rowFaces.reverse ∧
    rowEdges.Perm rowEdges.reverse ∧ ClearCentres sampleTools.nn (inputsOf rowFaces rowEdges none 4 rowCss none false) ∧
    (run (jobOf sampleTools sampleRunConfig (inputsOf rowFaces rowEdges none 4 rowCss none false) sampleSurroundings) false noFiles).2
      = .ok true :=
  ⟨by decide, (List.reverse_perm _).symm, (List.reverse_perm _).symm, rowInputs_clear, by rw [rowInputs_eq]; exact sampleRun_ok⟩

theorem rowClear : ClearCss rowFaces rowEdges rowCss none := by
  have h : (∀ f ∈ rowFaces, ∀ a ∈ rowCss, ∀ b ∈ rowCss, distance2 f.row.x f.row.y b = distance2 f.row.x f.row.y a → b.id = a.id) ∧
      ∀ f ∈ rowEdges, ∀ a ∈ rowCss, ∀ b ∈ rowCss, distance2 f.row.x f.row.y b = distance2 f.row.x f.row.y a → b.id = a.id := by
    decide +kernel
  exact ⟨fun f hf a ha b hb _ he => h.1 f hf a ha b hb he, fun f hf a ha b hb _ he => h.2 f hf a ha b hb he⟩

/-- The sample river, turned over an angle with cosine 3/5. -/
example : (3 / 5 : ℚ) ^ 2 + (4 / 5) ^ 2 = 1 ∧
    ClearCss rowFaces rowEdges rowCss none ∧ ClearCentres sampleTools.nn (inputsOf rowFaces rowEdges none 4 rowCss none false) ∧
    (run (jobOf sampleTools sampleRunConfig (inputsOf rowFaces rowEdges none 4 rowCss none false) sampleSurroundings) false noFiles).2
      = .ok true :=
  ⟨by norm_num, rowClear, rowInputs_clear, by rw [rowInputs_eq]; exact sampleRun_ok⟩

/-! ## Two nearest faces -/

/-- A location halfway between two faces of the sample river. -/
def halfway : Loc ℚ := ⟨"rhine_100".toList, 9 / 2, 0, 10, "rhine".toList, 100⟩

/-- **C106 does not hold** for a location with two nearest faces: which of them gives the water levels depends on the numbers of
the faces, and the profile with it. -/
theorem C106_two_nearest_violated :
    ∃ (m m' : Model2d ℚ) (l : Loc ℚ), sampleRunConfig.pipeline.build.conveyanceDetectionMethod ≠ 0 ∧ Renumbered m m' ∧
      ((buildCss sampleTools sampleRunConfig m l).toOption.map fun f => f.out.z) ≠
        ((buildCss sampleTools sampleRunConfig m' l).toOption.map fun f => f.out.z) ∧
      (buildCss sampleTools sampleRunConfig m l).toOption.isSome = true ∧
      (buildCss sampleTools sampleRunConfig m' l).toOption.isSome = true := by
  refine ⟨rowsModel, reversedModel, halfway, by decide, ⟨⟨_, _, (List.reverse_perm _).symm, rfl, rfl⟩,
    ⟨_, _, _, _, (List.reverse_perm _).symm, rfl, rfl⟩, rfl, rfl⟩, ?_, ?_, ?_⟩
  · decide +kernel
  · decide +kernel
  · decide +kernel

end Fm2prof.Props
