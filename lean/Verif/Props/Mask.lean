import Verif.Proofs.Mask
import Verif.Spec.Build

/-!
# Properties of point files: C68, C69, C95, C96
-/

namespace Fm2prof.Props

open Fm2prof Fm2prof.Spec

variable {K : Type}

/-! ## C68 -/

/-- C68: the face points of a cross-section are those of its faces, in grid order, without those that are not valid. -/
theorem C68_faces (g : GeoJson K) (d : MaskData K) (faces : List (FaceRecord K)) (edges : List (EdgeRecord K))
    (h : DataOf d faces edges) : facePoints g d = (faces.map (facePoint g.round d.name)).filter g.valid :=
  facePoints_eq g d faces edges h

/-- C68: the edge points of a cross-section are those of its edges, in grid order, without those that are not valid. -/
theorem C68_edges (g : GeoJson K) (d : MaskData K) (faces : List (FaceRecord K)) (edges : List (EdgeRecord K))
    (h : DataOf d faces edges) : edgePoints g d = (edges.map (edgePoint g.round d.name)).filter g.valid :=
  edgePoints_eq g d faces edges h

/-- C68: no point can be made without coordinates; with coordinates the point has each of them, rounded, and the properties given. -/
theorem C68_point (g : GeoJson K) (coords : List (Option K)) (properties : List (Text × Json K)) :
    (coords = [] → createMaskPoint g coords properties = .error .valueError) ∧
      (coords ≠ [] → ∃ p, createMaskPoint g coords properties = .ok p ∧ p.properties = properties ∧
        List.Forall₂ (fun c r => r = c.map g.round) coords p.coords) := by
  refine ⟨?_, fun h => ?_⟩
  · rintro rfl
    rfl
  · unfold createMaskPoint
    rw [if_neg (by rw [List.isEmpty_iff]; exact h)]
    refine ⟨_, rfl, rfl, ?_⟩
    rw [List.forall₂_map_right_iff]
    exact List.forall₂_same.2 fun _ _ => rfl

/-- Two faces and three edges. -/
def sampleFaces : List (FaceRecord ℚ) :=
  [⟨some 0, some 1, "r".toList, "main".toList, some (-2), false⟩,
    ⟨some 5, some 1, "r".toList, "floodplain1".toList, some 3, false⟩]

/-- Its edges. -/
def sampleEdges : List (EdgeRecord ℚ) :=
  [⟨some 1, some 1, "main".toList⟩, ⟨some 2, some 1, "main".toList⟩, ⟨some 3, some 1, "floodplain1".toList⟩]

/-- The data of a cross-section with them. -/
def sampleMask : MaskData ℚ :=
  ⟨"css".toList, [some 0, some 5], [some 1, some 1], ["r".toList, "r".toList], ["main".toList, "floodplain1".toList],
    [some (-2), some 3], [false, false], [some 1, some 2, some 3], [some 1, some 1, some 1],
    ["main".toList, "main".toList, "floodplain1".toList]⟩

theorem sampleMask_data : DataOf sampleMask sampleFaces sampleEdges := by
  unfold DataOf
  decide

/-- C68: the data selected from the grid for a cross-section are those of the faces and edges assigned to it. -/
theorem C68_selection [Field K] [LinearOrder K] (sqrt : K → K) (f : FaceData Text K) (e : EdgeData Text K) (name : Text)
    (faces : List (Text × FaceRecord K)) (edges : List (Text × EdgeRecord K))
    (hc : f.sclass = faces.map (·.1)) (hx : f.x.map some = faces.map (·.2.x)) (hy : f.y.map some = faces.map (·.2.y))
    (hb : f.bedlevel.map some = faces.map (·.2.bed)) (hr : f.region = faces.map (·.2.region))
    (hs : f.sect = faces.map (·.2.sect)) (hl : f.islake = faces.map (·.2.lake))
    (hec : e.sclass = edges.map (·.1)) (hex : e.x.map some = edges.map (·.2.x)) (hey : e.y.map some = edges.map (·.2.y))
    (hes : e.sect = edges.map (·.2.sect)) :
    DataOf (maskData name (getSelection sqrt f e name)) ((faces.filter fun p => p.1 = name).map (·.2))
      ((edges.filter fun p => p.1 = name).map (·.2)) := by
  refine ⟨?_, ?_, ?_, ?_, ?_, ?_, ?_, ?_, ?_⟩
  · change (maskSelect (f.sclass.map _) f.x).map some = _
    rw [← maskSelect_map, hc, hx]; exact select_labelled faces name (·.x)
  · change (maskSelect (f.sclass.map _) f.y).map some = _
    rw [← maskSelect_map, hc, hy]; exact select_labelled faces name (·.y)
  · change maskSelect (f.sclass.map _) f.region = _
    rw [hc, hr]; exact select_labelled faces name (·.region)
  · change maskSelect (f.sclass.map _) f.sect = _
    rw [hc, hs]; exact select_labelled faces name (·.sect)
  · change (maskSelect (f.sclass.map _) f.bedlevel).map some = _
    rw [← maskSelect_map, hc, hb]; exact select_labelled faces name (·.bed)
  · change maskSelect (f.sclass.map _) f.islake = _
    rw [hc, hl]; exact select_labelled faces name (·.lake)
  · change (maskSelect (e.sclass.map _) e.x).map some = _
    rw [← maskSelect_map, hec, hex]; exact select_labelled edges name (·.x)
  · change (maskSelect (e.sclass.map _) e.y).map some = _
    rw [← maskSelect_map, hec, hey]; exact select_labelled edges name (·.y)
  · change maskSelect (e.sclass.map _) e.sect = _
    rw [hec, hes]; exact select_labelled edges name (·.sect)

/-- Three faces and four edges, of two cross-sections. -/
def sampleGridFaces : FaceData Text ℚ :=
  { x := [0, 9, 5], y := [1, 9, 1], area := [1, 1, 1], bedlevel := [-2, 0, 3], region := ["r".toList, "q".toList, "r".toList],
    islake := [false, false, false], sect := ["main".toList, "main".toList, "floodplain1".toList],
    sclass := ["css".toList, "other".toList, "css".toList], waterdepth := [[some 1, some 1], [some 1, some 2], [some 0, some 0]],
    waterlevel := [[some 1, some 1], [some 1, some 2], [some 0, some 0]], velocityX := [[some 0, some 0], [some 0, some 0], [some 0, some 0]],
    velocityY := [[some 0, some 0], [some 0, some 0], [some 0, some 0]] }

/-- Its edges. -/
def sampleGridEdges : EdgeData Text ℚ :=
  { x := [1, 2, 8, 3], y := [1, 1, 9, 1], sect := ["main".toList, "main".toList, "main".toList, "floodplain1".toList],
    sclass := ["css".toList, "css".toList, "other".toList, "css".toList], edgeFaces := none, chezy := [] }

example : DataOf (maskData "css".toList (getSelection (fun x => x) sampleGridFaces sampleGridEdges "css".toList))
    sampleFaces sampleEdges :=
  C68_selection (fun x => x) sampleGridFaces sampleGridEdges "css".toList
    [("css".toList, ⟨some 0, some 1, "r".toList, "main".toList, some (-2), false⟩),
      ("other".toList, ⟨some 9, some 9, "q".toList, "main".toList, some 0, false⟩),
      ("css".toList, ⟨some 5, some 1, "r".toList, "floodplain1".toList, some 3, false⟩)]
    [("css".toList, ⟨some 1, some 1, "main".toList⟩), ("css".toList, ⟨some 2, some 1, "main".toList⟩),
      ("other".toList, ⟨some 8, some 9, "main".toList⟩), ("css".toList, ⟨some 3, some 1, "floodplain1".toList⟩)]
    rfl rfl rfl rfl rfl rfl rfl rfl rfl rfl rfl

/-- The path of a point file leads to a known name. -/
theorem leads_face (dir : Text) :
    LeadsTo (dir ++ '/' :: "face".toList ++ "_output.geojson".toList) "face_output.geojson".toList ∧
      Known "face_output.geojson".toList := by
  refine ⟨⟨by decide, by decide, by decide, Or.inr ⟨dir, ?_⟩⟩, "face_output".toList, by decide, Or.inr (by decide)⟩
  rw [List.append_assoc]
  rfl

theorem leads_edge (dir : Text) :
    LeadsTo (dir ++ '/' :: "edge".toList ++ "_output.geojson".toList) "edge_output.geojson".toList ∧
      Known "edge_output.geojson".toList := by
  refine ⟨⟨by decide, by decide, by decide, Or.inr ⟨dir, ?_⟩⟩, "edge_output".toList, by decide, Or.inr (by decide)⟩
  rw [List.append_assoc]
  rfl

theorem pointFile_face (g : GeoJson K) (w : WriteFaults) (dir : Text) (cs : List (MaskData K)) (s : Store) :
    pointFile g w dir cs "face".toList s =
      writeMaskFile g w (dir ++ '/' :: "face".toList ++ "_output.geojson".toList) (cs.flatMap (facePoints g)) s := by
  unfold pointFile
  rw [collect_ok (fun d => pointList g d "face".toList) (facePoints g) cs (fun _ _ => rfl)]
  rfl

theorem pointFile_edge (g : GeoJson K) (w : WriteFaults) (dir : Text) (cs : List (MaskData K)) (s : Store) :
    pointFile g w dir cs "edge".toList s =
      writeMaskFile g w (dir ++ '/' :: "edge".toList ++ "_output.geojson".toList) (cs.flatMap (edgePoints g)) s := by
  unfold pointFile
  rw [collect_ok (fun d => pointList g d "edge".toList) (edgePoints g) cs (fun _ _ => rfl)]
  rfl

theorem face_ne_edge (dir : Text) : dir ++ '/' :: "face".toList ++ "_output.geojson".toList ≠
    dir ++ '/' :: "edge".toList ++ "_output.geojson".toList := by
  intro h
  rw [List.append_assoc, List.append_assoc] at h
  exact absurd (List.append_cancel_left h) (by decide)

/-- C68: if nothing goes wrong with the files and no point has a NaN, the two point files of a run are read back as the points of
all cross-sections, one after the other. -/
theorem C68_files_partial (g : GeoJson K) (w : WriteFaults) (dir : Text) (cs : List (MaskData K)) (s : Store)
    (hf : cs.flatMap (facePoints g) ≠ []) (he : cs.flatMap (edgePoints g) ≠ [])
    (hfc : ∀ p ∈ cs.flatMap (facePoints g), p.compliant = true) (hec : ∀ p ∈ cs.flatMap (edgePoints g), p.compliant = true)
    (hwf : Sound w (dir ++ '/' :: "face".toList ++ "_output.geojson".toList))
    (hwe : Sound w (dir ++ '/' :: "edge".toList ++ "_output.geojson".toList)) :
    readMaskFile g (pointFiles g w dir cs s) (dir ++ '/' :: "face".toList ++ "_output.geojson".toList) =
        .ok (cs.flatMap (facePoints g)) ∧
      readMaskFile g (pointFiles g w dir cs s) (dir ++ '/' :: "edge".toList ++ "_output.geojson".toList) =
        .ok (cs.flatMap (edgePoints g)) := by
  have h1 := writeMaskFile_ok g w (leads_face dir).1 (leads_face dir).2 _ hf hfc hwf s
  have h2 : pointFiles g w dir cs s = (s.set (dir ++ '/' :: "face".toList ++ "_output.geojson".toList)
      (g.dump (cs.flatMap (facePoints g)))).set (dir ++ '/' :: "edge".toList ++ "_output.geojson".toList)
      (g.dump (cs.flatMap (edgePoints g))) := by
    unfold pointFiles
    rw [pointFile_face, h1, pointFile_edge, writeMaskFile_ok g w (leads_edge dir).1 (leads_edge dir).2 _ he hec hwe]
  rw [h2]
  constructor
  · refine readMaskFile_set g (leads_face dir).1 (leads_face dir).2 _ hfc _ ?_
    unfold Store.set
    rw [if_neg (face_ne_edge dir), if_pos rfl]
  · refine readMaskFile_set g (leads_edge dir).1 (leads_edge dir).2 _ hec _ ?_
    unfold Store.set
    rw [if_pos rfl]

example : [sampleMask].flatMap (facePoints sampleGeoJson) ≠ [] ∧ [sampleMask].flatMap (edgePoints sampleGeoJson) ≠ [] ∧
    (∀ p ∈ [sampleMask].flatMap (facePoints sampleGeoJson), p.compliant = true) ∧
    (∀ p ∈ [sampleMask].flatMap (edgePoints sampleGeoJson), p.compliant = true) := by
  have h1 : [sampleMask].flatMap (facePoints sampleGeoJson) =
      sampleFaces.map (facePoint sampleGeoJson.round sampleMask.name) := by
    rw [List.flatMap_cons, List.flatMap_nil, List.append_nil, C68_faces _ _ _ _ sampleMask_data]
    rfl
  have h2 : [sampleMask].flatMap (edgePoints sampleGeoJson) =
      sampleEdges.map (edgePoint sampleGeoJson.round sampleMask.name) := by
    rw [List.flatMap_cons, List.flatMap_nil, List.append_nil, C68_edges _ _ _ _ sampleMask_data]
    rfl
  rw [h1, h2]
  refine ⟨fun h => (by cases h), fun h => (by cases h), ?_, ?_⟩
  · intro p hp
    simp only [sampleFaces, List.map_cons, List.map_nil, List.mem_cons, List.not_mem_nil, or_false] at hp
    rcases hp with rfl | rfl <;> rfl
  · intro p hp
    simp only [sampleEdges, List.map_cons, List.map_nil, List.mem_cons, List.not_mem_nil, or_false] at hp
    rcases hp with rfl | rfl | rfl <;> rfl

/-- C68 is false of points with a NaN, such as a face whose bed level is not known: the point is accepted, and the file of all points
breaks off, whatever the other points are. -/
theorem C68_nan_violated (g : GeoJson K) (w : WriteFaults) (dir : Text) (cs : List (MaskData K)) (s : Store) (d : MaskData K)
    (faces : List (FaceRecord K)) (edges : List (EdgeRecord K)) (f : FaceRecord K) (hd : d ∈ cs) (h : DataOf d faces edges)
    (hf : f ∈ faces) (hb : f.bed = none) (hv : g.valid (facePoint g.round d.name f) = true)
    (hw : Sound w (dir ++ '/' :: "face".toList ++ "_output.geojson".toList)) :
    pointFile g w dir cs "face".toList s =
      (s.set (dir ++ '/' :: "face".toList ++ "_output.geojson".toList) (g.torn (cs.flatMap (facePoints g))),
        some .valueError) := by
  rw [pointFile_face]
  refine writeMaskFile_torn g w (leads_face dir).1 (leads_face dir).2 _ ⟨facePoint g.round d.name f, ?_, ?_⟩ hw s
  · refine List.mem_flatMap.mpr ⟨d, hd, ?_⟩
    rw [C68_faces g d faces edges h]
    exact List.mem_filter.mpr ⟨List.mem_map_of_mem hf, hv⟩
  · unfold facePoint PointFeature.compliant
    rw [hb]
    simp [Json.compliant]

example : sampleGeoJson.valid (facePoint sampleGeoJson.round "css".toList
    ⟨some 0, some 1, "r".toList, "main".toList, none, false⟩) = true := rfl

/-! ## C69 -/

/-- C69: points are read back as written, in order. -/
theorem C69_round_trip (g : GeoJson K) (w : WriteFaults) (path name : Text) (hp : LeadsTo path name) (hk : Known name)
    (points : List (PointFeature K)) (hne : points ≠ []) (hc : ∀ f ∈ points, f.compliant = true) (hw : Sound w path) (s : Store) :
    (writeMaskFile g w path points s).2 = none ∧
      readMaskFile g (writeMaskFile g w path points s).1 path = .ok points ∧
      ∀ other, other ≠ path → (writeMaskFile g w path points s).1 other = s other := by
  rw [writeMaskFile_ok g w hp hk points hne hc hw s]
  refine ⟨rfl, readMaskFile_set g hp hk points hc _ ?_, ?_⟩
  · exact if_pos rfl
  · intro other ho
    exact if_neg ho

example : LeadsTo "out/points.geojson".toList "points.geojson".toList ∧ Known "points.geojson".toList :=
  ⟨⟨by decide, by decide, by decide, Or.inr ⟨"out".toList, by decide⟩⟩, "points".toList, by decide, Or.inr (by decide)⟩

/-- C69: writing to a path with another extension is an error, and nothing is written. -/
theorem C69_write_refused (g : GeoJson K) (w : WriteFaults) (path name : Text) (hp : LeadsTo path name) (hk : ¬ Known name)
    (points : List (PointFeature K)) (s : Store) :
    ∃ e, writeMaskFile g w path points s = (s, some e) := by
  unfold writeMaskFile
  rw [if_neg (leads_ne hp)]
  split
  · exact ⟨_, rfl⟩
  · rw [validate_unknown hp hk]
    exact ⟨_, rfl⟩

/-- C69: reading from a path with another extension is an error. -/
theorem C69_read_refused (g : GeoJson K) (path name : Text) (hp : LeadsTo path name) (hk : ¬ Known name) (s : Store) :
    readMaskFile g s path = .error .osError := by
  unfold readMaskFile
  split
  · rfl
  · rw [validate_unknown hp hk]

/-- A name that ends otherwise, and one with nothing before the extension. -/
example : LeadsTo "out.json/points.csv".toList "points.csv".toList ∧ ¬ Known "points.csv".toList ∧ ¬ Known ".json".toList := by
  refine ⟨⟨by decide, by decide, by decide, Or.inr ⟨"out.json".toList, by decide⟩⟩, ?_, ?_⟩
  · rintro ⟨stem, _, h | h⟩
    · exact absurd ((congrArg List.getLast? h).trans List.getLast?_append) (by change ¬ (some 'v' = some 'n'); decide)
    · exact absurd ((congrArg List.getLast? h).trans List.getLast?_append) (by change ¬ (some 'v' = some 'n'); decide)
  · rintro ⟨stem, hs, h | h⟩
    · have := congrArg List.length h
      rw [List.length_append] at this
      exact hs (List.eq_nil_of_length_eq_zero (by change 5 = stem.length + 5 at this; omega))
    · have := congrArg List.length h
      rw [List.length_append] at this
      change 5 = stem.length + 8 at this
      omega

/-- C69: nothing is written for an empty list of points. -/
theorem C69_no_points (g : GeoJson K) (w : WriteFaults) (path : Text) (s : Store) :
    writeMaskFile g w path [] s = (s, some .valueError) := by
  unfold writeMaskFile
  split
  · rfl
  · rw [if_pos rfl]

/-- C69: whatever happens, only the file at the path can change. -/
theorem C69_other_files (g : GeoJson K) (w : WriteFaults) (path : Text) (points : List (PointFeature K)) (s : Store) (other : Text)
    (ho : other ≠ path) : (writeMaskFile g w path points s).1 other = s other := by
  have hw : ∀ text raises, (writeFile w path text raises s).1 other = s other := by
    intro text raises
    unfold writeFile
    split
    · rfl
    · split
      · exact if_neg ho
      · exact if_neg ho
  unfold writeMaskFile
  split
  · rfl
  · split
    · rfl
    · split
      · rfl
      · split
        · exact hw _ _
        · exact hw _ _

example : "a.json".toList ≠ "b.json".toList := by decide

/-! ## C95 -/

/-- C95 is false: no face is ever marked as a lake, as the mark is made on import and not when lakes are found. -/
theorem C95_violated [Field K] [LinearOrder K] (g : GeoJson K) (sqrt : K → K) (f : FaceData Text K) (e : EdgeData Text K) (name : Text)
    (himp : f.islake = importedIsLake f.bedlevel) :
    ∀ p ∈ facePoints g (maskData name (getSelection sqrt f e name)), ("is_lake".toList, Json.bool true) ∉ p.properties := by
  have hl : ∀ b ∈ (maskData name (getSelection sqrt f e name)).islake, b = false := by
    intro b hb
    have : b ∈ f.islake := (maskSelect_sublist _ _).subset hb
    rw [himp] at this
    exact List.eq_of_mem_replicate this
  revert hl
  generalize maskData name (getSelection sqrt f e name) = d
  intro hl
  have hp : ∀ i p, facePointAt g d i = .ok p → ("is_lake".toList, Json.bool true) ∉ p.properties := by
    intro i p h
    unfold facePointAt at?  at h
    simp only [bind, Except.bind] at h
    cases h1 : d.islake[i]? with
    | none => rw [h1] at h; cases h
    | some b =>
      have hb := hl b (List.mem_of_getElem? h1)
      rw [h1] at h
      simp only at h
      split at h
      · cases h
      split at h
      · cases h
      split at h
      · cases h
      split at h
      · cases h
      split at h
      · cases h
      cases h
      rw [hb]
      intro hm
      simp only [List.mem_cons, Prod.mk.injEq, reduceCtorEq, and_false, List.not_mem_nil, or_false, Json.bool.injEq,
        Bool.true_eq_false] at hm
  have hloop : ∀ is : List Nat, ∀ p ∈ pointLoop g (facePointAt g d) is, ("is_lake".toList, Json.bool true) ∉ p.properties := by
    intro is
    induction is with
    | nil => intro p hm; cases hm
    | cons i is ih =>
      intro p hm
      rw [pointLoop] at hm
      cases hi : facePointAt g d i with
      | error e => rw [hi] at hm; cases hm
      | ok q =>
        rw [hi] at hm
        simp only at hm
        split at hm
        · rcases List.mem_cons.mp hm with rfl | hm
          · exact hp i _ hi
          · exact ih p hm
        · exact ih p hm
  exact hloop _

/-- The first face of the sample is a lake: it is wet and its depth stays the same. -/
example : sampleGridFaces.islake = importedIsLake sampleGridFaces.bedlevel ∧
    IsLake (fun t => ((sampleGridFaces.waterdepth[0]?).bind fun row => row[t]?).join) 1 := by
  refine ⟨rfl, ?_⟩
  unfold IsLake
  exact ⟨1, 1, rfl, rfl, by norm_num, by norm_num⟩

/-! ## C96 -/

/-- C96, partial: if the hull of every cross-section is found, or its failure is an `IndexError`, the envelope file has one polygon
for every cross-section with a hull, in order, whose corners are among its face points. Missing: other failures, see
`C96_violated`. -/
theorem C96_envelopes_partial (g : GeoJson K) (hull : List (List (Option K)) → Except PyErr (List Nat)) (cs : List (MaskData K))
    (h : ∀ d ∈ cs, ∀ e, hull ((facePoints g d).map (·.coords)) = .error e → e = .indexError) :
    ∃ es, envelopes g hull cs = .ok es ∧
      es.map (·.1) = (cs.filter fun d => (hull ((facePoints g d).map (·.coords))).isOk).map (·.name) ∧
      ∀ env ∈ es, ∃ d ∈ cs, env.1 = d.name ∧ ∀ c ∈ env.2, c ∈ (facePoints g d).map (·.coords) := by
  unfold envelopes
  induction cs with
  | nil => exact ⟨[], rfl, rfl, by intro _ h; cases h⟩
  | cons d cs ih =>
    obtain ⟨es, h1, h2, h3⟩ := ih (fun d' hd' => h d' (List.mem_cons_of_mem _ hd'))
    cases hc : collect (fun d => envelopeOf hull d.name (facePoints g d)) cs with
    | error e => rw [hc] at h1; cases h1
    | ok os =>
      rw [hc] at h1
      have h1 := Except.ok.inj h1
      rw [collect]
      simp only [envelopeOf]
      cases hh : hull ((facePoints g d).map (·.coords)) with
      | error e =>
        have := h d List.mem_cons_self e hh
        subst this
        simp only
        have hc' := hc
        unfold envelopeOf at hc'
        rw [hc']
        refine ⟨es, ?_, ?_, ?_⟩
        · change Except.ok (List.filterMap id (none :: os)) = _
          rw [← h1]
          rfl
        · rw [h2, List.filter_cons_of_neg (by rw [hh]; simp [Except.isOk, Except.toBool])]
        · intro env henv
          obtain ⟨d', hd', hx⟩ := h3 env henv
          exact ⟨d', List.mem_cons_of_mem _ hd', hx⟩
      | ok vs =>
        simp only
        have hc' := hc
        unfold envelopeOf at hc'
        rw [hc']
        refine ⟨(d.name, vs.filterMap fun i => ((facePoints g d).map (·.coords))[i]?) :: es, ?_, ?_, ?_⟩
        · change Except.ok (List.filterMap id (some _ :: os)) = _
          rw [← h1]
          rfl
        · rw [List.map_cons, h2, List.filter_cons_of_pos (by rw [hh]; rfl)]
          rfl
        · intro env henv
          rcases List.mem_cons.mp henv with rfl | henv
          · refine ⟨d, List.mem_cons_self, rfl, ?_⟩
            intro c hcm
            obtain ⟨i, _, hi⟩ := List.mem_filterMap.mp hcm
            exact List.mem_of_getElem? hi
          · obtain ⟨d', hd', hx⟩ := h3 env henv
            exact ⟨d', List.mem_cons_of_mem _ hd', hx⟩

/-- C96 is false: if the hull of a single cross-section fails otherwise, as it does when all its faces are in line, no envelope of
any cross-section is exported. -/
theorem C96_violated (g : GeoJson K) (hull : List (List (Option K)) → Except PyErr (List Nat)) (cs : List (MaskData K))
    (d : MaskData K) (hd : d ∈ cs) (e : PyErr) (he : e ≠ .indexError)
    (hh : hull ((facePoints g d).map (·.coords)) = .error e) : ∃ e', envelopes g hull cs = .error e' := by
  have hde : envelopeOf hull d.name (facePoints g d) = .error e := by
    unfold envelopeOf
    rw [hh]
    cases e <;> first | rfl | exact absurd rfl he
  have : ∃ e', collect (fun d => envelopeOf hull d.name (facePoints g d)) cs = .error e' := by
    induction cs with
    | nil => cases hd
    | cons d' cs ih =>
      rw [collect]
      cases h' : envelopeOf hull d'.name (facePoints g d') with
      | error e' => exact ⟨e', rfl⟩
      | ok o =>
        simp only
        rcases List.mem_cons.mp hd with rfl | hd
        · rw [hde] at h'; cases h'
        · obtain ⟨e', he'⟩ := ih hd
          rw [he']
          exact ⟨e', rfl⟩
  obtain ⟨e', he'⟩ := this
  unfold envelopes
  rw [he']
  exact ⟨e', rfl⟩

/-- A hull that takes all points, unless there are fewer than three. -/
def sampleHull (points : List (List (Option ℚ))) : Except PyErr (List Nat) :=
  if points.length < 3 then .error .valueError else .ok (List.range points.length)

example : ∃ e, e ≠ PyErr.indexError ∧ sampleHull ((facePoints sampleGeoJson sampleMask).map (·.coords)) = .error e := by
  refine ⟨.valueError, by decide, ?_⟩
  rw [C68_faces _ _ _ _ sampleMask_data]
  rfl

end Fm2prof.Props
