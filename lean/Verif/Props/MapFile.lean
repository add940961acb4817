import Verif.Proofs.MapFile
import Verif.Props.Project

/-!
# Properties of reading map files: C151, C152, C153
-/

set_option linter.unusedSectionVars false

namespace Fm2prof.Props

open Fm2prof Spec ProjectProof MapProof

variable {K : Type} [Field K] [LinearOrder K] [IsStrictOrderedRing K] [FloorRing K]

/-! ## C151: every value at its place -/

/-- **C151, faces.** What is imported for a face are the values of this face, and for each map those of this map. Faces are in no region
and no cross-section, and not in a lake. -/
theorem C151_faces (f : NcFile K) (d : MapData K) (h : importDflow2d f = .ok d) :
    (∀ q ∈ faceColumnsOf (K := K), ∃ v, f.face q.1.toList = some v ∧ HoldsAt (List.range f.nFaces) v (q.2 d)) ∧
    (∀ q ∈ faceResultsOf (K := K), ∃ v, f.faceResult q.1.toList = some v ∧ SeriesAt (List.range f.nFaces) f.nMaps v (q.2 d)) ∧
    d.faces.region = List.replicate f.nFaces [] ∧ d.faces.sclass = List.replicate f.nFaces [] ∧
    d.faces.sect = List.replicate f.nFaces "main".toList ∧ d.faces.islake = List.replicate f.nFaces false ∧ d.nMaps = f.nMaps := by
  obtain ⟨x, y, area, bedlevel, types, edgeX, edgeY, waterdepth, waterlevel, chezyMean, chezyEdge, velocityX, velocityY, u1,
    h1, h2, h3, h4, h5, h6, h7, h8, h9, h10, h11, h12, h13, h14, rfl⟩ := import_ok f d h
  refine ⟨fun q hq => ?_, fun q hq => ?_, rfl, rfl, rfl, rfl, rfl⟩
  · unfold faceColumnsOf at hq
    rcases List.mem_cons.1 hq with rfl | hq
    · exact ⟨x, h1, holds_map _ _⟩
    rcases List.mem_cons.1 hq with rfl | hq
    · exact ⟨y, h2, holds_map _ _⟩
    rcases List.mem_cons.1 hq with rfl | hq
    · exact ⟨area, h3, holds_map _ _⟩
    rcases List.mem_cons.1 hq with rfl | hq
    · exact ⟨bedlevel, h4, holds_map _ _⟩
    cases hq
  · unfold faceResultsOf at hq
    rcases List.mem_cons.1 hq with rfl | hq
    · exact ⟨waterdepth, h8, series_map _ _ _⟩
    rcases List.mem_cons.1 hq with rfl | hq
    · exact ⟨waterlevel, h9, series_map _ _ _⟩
    rcases List.mem_cons.1 hq with rfl | hq
    · exact ⟨velocityX, h12, series_map _ _ _⟩
    rcases List.mem_cons.1 hq with rfl | hq
    · exact ⟨velocityY, h13, series_map _ _ _⟩
    rcases List.mem_cons.1 hq with rfl | hq
    · exact ⟨chezyMean, h10, series_map _ _ _⟩
    cases hq

/-- **C151, edges.** Only internal edges are imported, in the order of the file, each with its own coordinates, faces and roughness in
each map. The roughness is `mesh2d_czu`, and `mesh2d_cftrt` in files that do not have it. -/
theorem C151_edges (f : NcFile K) (d : MapData K) (h : importDflow2d f = .ok d) :
    (∀ q ∈ edgeColumnsOf (K := K), ∃ v, f.edge q.1.toList = some v ∧ HoldsAt (internalEdges f) v (q.2 d)) ∧
    (∃ v, (f.edgeResult "mesh2d_czu".toList).or (f.edgeResult "mesh2d_cftrt".toList) = some v ∧
      SeriesAt (internalEdges f) f.nMaps v d.edges.chezy) ∧
    d.edges.edgeFaces = f.edgeFaces.map fun v => (internalEdges f).map v := by
  obtain ⟨x, y, area, bedlevel, types, edgeX, edgeY, waterdepth, waterlevel, chezyMean, chezyEdge, velocityX, velocityY, u1,
    h1, h2, h3, h4, h5, h6, h7, h8, h9, h10, h11, h12, h13, h14, rfl⟩ := import_ok f d h
  refine ⟨fun q hq => ?_, ⟨chezyEdge, ?_, ?_⟩, ?_⟩
  · unfold edgeColumnsOf at hq
    rcases List.mem_cons.1 hq with rfl | hq
    · refine ⟨edgeX, h6, ?_⟩
      show HoldsAt _ _ (selectMask _ _)
      rw [select_column, internal_eq f types h5]
      exact holds_map _ _
    rcases List.mem_cons.1 hq with rfl | hq
    · refine ⟨edgeY, h7, ?_⟩
      show HoldsAt _ _ (selectMask _ _)
      rw [select_column, internal_eq f types h5]
      exact holds_map _ _
    cases hq
  · unfold edgeChezyVariable at h11
    cases hz : variable' f.edgeResult "mesh2d_czu" with
    | ok v =>
      rw [hz] at h11
      obtain rfl := Except.ok.inj h11
      rw [variable_ok hz]; rfl
    | error e =>
      rw [hz] at h11
      have hn : f.edgeResult "mesh2d_czu".toList = none := by
        cases hv : f.edgeResult "mesh2d_czu".toList with
        | none => rfl
        | some v => rw [variable_some hv] at hz; cases hz
      rw [hn, variable_ok h11]; rfl
  · show SeriesAt _ _ _ (selectMask _ _)
    rw [rows_column, select_column, internal_eq f types h5]
    exact series_map _ _ _
  · show f.edgeFaces.map _ = _
    cases f.edgeFaces with
    | none => rfl
    | some v => simp only [Option.map_some]; rw [select_column, internal_eq f types h5]

/-- **C151, the results.** So the columns of every map file fit together, and those of its first nodes as well: all that is proved about
the results of a run (C97 to C108) applies to the runs of a project on any map file, as long as no cache file is left. -/
theorem C151_consistent (ft : FloatText K) (g : Geometries K) (c : Settings K) (f : NcFile K) (d : ProjectFiles K)
    (hr : ¬ Cached d "region" c.mapPath (mapFileOf f)) (hs : ¬ Cached d "section" c.mapPath (mapFileOf f)) :
    Consistent (projectInputs ft g c (mapFileOf f) d).1 := by
  refine C143_consistent ft g c (mapFileOf f) d (fun a ha => ?_) hr hs
  obtain ⟨x, y, area, bedlevel, types, edgeX, edgeY, waterdepth, waterlevel, chezyMean, chezyEdge, velocityX, velocityY, u1,
    h1, h2, h3, h4, h5, h6, h7, h8, h9, h10, h11, h12, h13, h14, rfl⟩ := import_ok f a ha
  have hsel : ∀ {α β : Type} (v : Nat → α) (w : Nat → β), (selectMask (internalMask f.nEdges types) (columnOf f.nEdges v)).length =
      (selectMask (internalMask f.nEdges types) (columnOf f.nEdges w)).length := by
    intro α β v w
    rw [select_column, select_column, List.length_map, List.length_map]
  have hlen : ∀ v : Nat → K, (columnOf f.nFaces v).length = (columnOf f.nFaces x).length := fun v => by
    rw [column_length, column_length]
  have hrow : ∀ v : Nat → Nat → Stored K, (rowsOfResult f.nFaces f.nMaps v).length = (columnOf f.nFaces x).length := fun v => by
    rw [rows_length, column_length]
  have hrep : ∀ {α : Type} (a : α), (List.replicate f.nFaces a).length = (columnOf f.nFaces x).length := fun a => by
    rw [List.length_replicate, column_length]
  refine ⟨⟨hlen _, hlen _, hlen _, hrep _, hrep _, hrow _, hrow _, hrow _, hrow _, hrow _, hsel _ _, ?_⟩, ?_, ?_⟩
  · exact hsel _ _
  · show (columnOf f.nFaces f.faceNode).length = (columnOf f.nFaces x).length
    rw [column_length, column_length]
  · show (selectMask (internalMask f.nEdges (f.edgeType.getD fun _ => 0)) _).length = _
    rw [h5]
    exact hsel _ _

/-! ## C152: which files can be read -/

/-- **C152, partial.** A map file can be read if and only if it has the coordinates, areas, bed levels, edge types, depths, levels,
velocities and roughness, where the roughness of the edges can have its older name. Missing: a file that has all that a run uses can be
refused, see `C152_unused_violated`. -/
theorem C152_readable_iff_partial (f : NcFile K) :
    ((∃ d, importDflow2d f = .ok d) ↔ Complete f) ∧ ∀ e, importDflow2d f = .error e → e = .keyError := by
  refine ⟨⟨fun ⟨d, h⟩ => ?_, fun h => ?_⟩, import_keyError f⟩
  · obtain ⟨x, y, area, bedlevel, types, edgeX, edgeY, waterdepth, waterlevel, chezyMean, chezyEdge, velocityX, velocityY, u1,
      h1, h2, h3, h4, h5, h6, h7, h8, h9, h10, h11, h12, h13, h14, rfl⟩ := import_ok f d h
    refine ⟨?_, ?_, by rw [h5]; rfl, ?_, ?_, by rw [h14]; rfl⟩
    · intro name hn
      rcases List.mem_cons.1 hn with rfl | hn
      · rw [h1]; rfl
      rcases List.mem_cons.1 hn with rfl | hn
      · rw [h2]; rfl
      rcases List.mem_cons.1 hn with rfl | hn
      · rw [h3]; rfl
      rcases List.mem_cons.1 hn with rfl | hn
      · rw [h4]; rfl
      cases hn
    · intro name hn
      rcases List.mem_cons.1 hn with rfl | hn
      · rw [h6]; rfl
      rcases List.mem_cons.1 hn with rfl | hn
      · rw [h7]; rfl
      cases hn
    · intro name hn
      rcases List.mem_cons.1 hn with rfl | hn
      · rw [h8]; rfl
      rcases List.mem_cons.1 hn with rfl | hn
      · rw [h9]; rfl
      rcases List.mem_cons.1 hn with rfl | hn
      · rw [h10]; rfl
      rcases List.mem_cons.1 hn with rfl | hn
      · rw [h12]; rfl
      rcases List.mem_cons.1 hn with rfl | hn
      · rw [h13]; rfl
      cases hn
    · obtain ⟨-, ⟨v, hv, -⟩, -⟩ := C151_edges f _ h
      cases hz : f.edgeResult "mesh2d_czu".toList with
      | some w => exact .inl rfl
      | none => rw [hz] at hv; exact .inr (by rw [show f.edgeResult "mesh2d_cftrt".toList = some v from hv]; rfl)
  · have some_of : ∀ {α : Type} {o : Option α}, o.isSome = true → ∃ v, o = some v := fun h => Option.isSome_iff_exists.1 h
    have i0 : ∀ {a : String} {l : List String}, a ∈ a :: l := List.mem_cons_self
    have i1 : ∀ {a b : String} {l : List String}, b ∈ a :: b :: l := List.mem_cons_of_mem _ i0
    have i2 : ∀ {a b c : String} {l : List String}, c ∈ a :: b :: c :: l := List.mem_cons_of_mem _ i1
    have i3 : ∀ {a b c d : String} {l : List String}, d ∈ a :: b :: c :: d :: l := List.mem_cons_of_mem _ i2
    have i4 : ∀ {a b c d e : String} {l : List String}, e ∈ a :: b :: c :: d :: e :: l := List.mem_cons_of_mem _ i3
    obtain ⟨x, h1⟩ := some_of (h.face _ i0)
    obtain ⟨y, h2⟩ := some_of (h.face _ i1)
    obtain ⟨area, h3⟩ := some_of (h.face _ i2)
    obtain ⟨bl, h4⟩ := some_of (h.face _ i3)
    obtain ⟨types, h5⟩ := some_of h.types
    obtain ⟨ex, h6⟩ := some_of (h.edge _ i0)
    obtain ⟨ey, h7⟩ := some_of (h.edge _ i1)
    obtain ⟨wd, h8⟩ := some_of (h.results _ i0)
    obtain ⟨wl, h9⟩ := some_of (h.results _ i1)
    obtain ⟨cz, h10⟩ := some_of (h.results _ i2)
    obtain ⟨vx, h12⟩ := some_of (h.results _ i3)
    obtain ⟨vy, h13⟩ := some_of (h.results _ i4)
    obtain ⟨u, h14⟩ := some_of h.velocity
    have h11 : ∃ v, edgeChezyVariable f = .ok v := by
      unfold edgeChezyVariable
      cases hz : f.edgeResult "mesh2d_czu".toList with
      | some v => exact ⟨v, by rw [variable_some hz]⟩
      | none =>
        rcases h.roughness with hr | hr
        · rw [hz] at hr; cases hr
        · obtain ⟨v, hv⟩ := some_of hr
          exact ⟨v, by rw [variable_none hz]; exact variable_some hv⟩
    obtain ⟨v, h11⟩ := h11
    exact ⟨_, import_of f h1 h2 h3 h4 h5 h6 h7 h8 h9 h10 h11 h12 h13 h14⟩

/-- A run on a map file that cannot be read raises `KeyError` and leaves all files as they are. -/
theorem C152_incomplete_raises (x : Tools K) (g : Geometries K) (o : Surroundings) (c : Settings K) (overwrite : Bool)
    (d : ProjectFiles K) (s : Store) (f : NcFile K) (t : Text) (hm : d.maps c.mapPath = some (mapFileOf f))
    (ht : d.texts c.cssPath = some t) (ho : overwrite = true ∨ ¬ HasResults s) (hf : ¬ Complete f) :
    projectRun x g o c overwrite d s = (s, d, .error .keyError) := by
  cases hi : importDflow2d f with
  | ok a => exact absurd ((C152_readable_iff_partial f).1.1 ⟨a, hi⟩) hf
  | error e =>
    obtain rfl := import_keyError f e hi
    have hd : (mapFileOf f).data = .error .keyError := hi
    have hload : setModelData x.nn (projectInputs x.ft g c (mapFileOf f) d).1 = .error .keyError := by
      unfold projectInputs
      rw [hd]
      rfl
    have hcache : (projectInputs x.ft g c (mapFileOf f) d).2 = d.caches := by
      unfold projectInputs
      rw [hd]
    rw [projectRun_eq x g o c overwrite d s _ t hm ht, load_failed x c.run _ o overwrite s _ ho hload, hcache, ite_self,
      if_neg (by rintro (h | h) <;> cases h)]

private theorem name_ne {a b : String} (h : a ≠ b) : a.toList ≠ b.toList := fun e => h (String.toList_inj.1 e)

private theorem edge_self (f : NcFile K) (name : String) (v : Option (Nat → Nat → Stored K)) :
    (withEdgeResult f name v).edgeResult name.toList = v := by
  show (if name.toList = name.toList then v else _) = v
  rw [if_pos rfl]

private theorem edge_other (f : NcFile K) (name other : String) (v : Option (Nat → Nat → Stored K)) (h : other ≠ name) :
    (withEdgeResult f name v).edgeResult other.toList = f.edgeResult other.toList := by
  show (if other.toList = name.toList then v else _) = _
  rw [if_neg (name_ne h)]

private theorem face_self (f : NcFile K) (name : String) (v : Option (Nat → Nat → Stored K)) :
    (withFaceResult f name v).faceResult name.toList = v := by
  show (if name.toList = name.toList then v else _) = v
  rw [if_pos rfl]

/-- **C152, violated: velocities at edges.** Nothing of `mesh2d_u1` is used: with any values there what is imported stays the same.
Without the variable nothing can be imported. -/
theorem C152_unused_violated (f : NcFile K) :
    (∀ d v, importDflow2d f = .ok d → importDflow2d (withEdgeResult f "mesh2d_u1" (some v)) = .ok d) ∧
    importDflow2d (withEdgeResult f "mesh2d_u1" none) = .error .keyError := by
  constructor
  · intro d v h
    obtain ⟨x, y, area, bedlevel, types, edgeX, edgeY, waterdepth, waterlevel, chezyMean, chezyEdge, velocityX, velocityY, u1,
      h1, h2, h3, h4, h5, h6, h7, h8, h9, h10, h11, h12, h13, h14, rfl⟩ := import_ok f d h
    refine import_of (withEdgeResult f "mesh2d_u1" (some v)) h1 h2 h3 h4 h5 h6 h7 h8 h9 h10 ?_ h12 h13 (edge_self f _ _)
    have e1 : (withEdgeResult f "mesh2d_u1" (some v)).edgeResult "mesh2d_czu".toList = f.edgeResult "mesh2d_czu".toList :=
      edge_other f _ _ _ (by decide)
    have e2 : (withEdgeResult f "mesh2d_u1" (some v)).edgeResult "mesh2d_cftrt".toList = f.edgeResult "mesh2d_cftrt".toList :=
      edge_other f _ _ _ (by decide)
    rw [← h11]
    unfold edgeChezyVariable variable'
    rw [e1, e2]
  · cases hi : importDflow2d (withEdgeResult f "mesh2d_u1" none) with
    | error e => rw [import_keyError _ e hi]
    | ok d =>
      have hv := ((C152_readable_iff_partial _).1.1 ⟨d, hi⟩).velocity
      have hn : (withEdgeResult f "mesh2d_u1" none).edgeResult "mesh2d_u1".toList = none := edge_self f _ _
      rw [hn] at hv
      cases hv

/-- **C152, violated: roughness at faces.** With section polygons nothing of `mesh2d_czs` is used: with any values there a run has the
same data. Without the variable nothing can be imported. -/
theorem C152_face_roughness_violated (f : NcFile K) :
    (∀ d v, importDflow2d f = .ok d → ∃ d', importDflow2d (withFaceResult f "mesh2d_czs" (some v)) = .ok d' ∧
      ∀ (nn : NearestPicker K) css regions sections,
        setModelData nn ⟨.ok d', css, regions, some sections⟩ = setModelData nn ⟨.ok d, css, regions, some sections⟩) ∧
    importDflow2d (withFaceResult f "mesh2d_czs" none) = .error .keyError := by
  constructor
  · intro d v h
    obtain ⟨x, y, area, bedlevel, types, edgeX, edgeY, waterdepth, waterlevel, chezyMean, chezyEdge, velocityX, velocityY, u1,
      h1, h2, h3, h4, h5, h6, h7, h8, h9, h10, h11, h12, h13, h14, rfl⟩ := import_ok f d h
    have e : ∀ name : String, name ≠ "mesh2d_czs" →
        (withFaceResult f "mesh2d_czs" (some v)).faceResult name.toList = f.faceResult name.toList := fun name hn =>
      if_neg (name_ne hn)
    refine ⟨_, import_of (withFaceResult f "mesh2d_czs" (some v)) h1 h2 h3 h4 h5 h6 h7 ((e _ (by decide)).trans h8)
      ((e _ (by decide)).trans h9) (face_self f _ _) h11 ((e _ (by decide)).trans h12) ((e _ (by decide)).trans h13) h14, ?_⟩
    intro nn css regions sections
    unfold setModelData
    simp only
    cases css with
    | error e => rfl
    | ok css =>
      simp only
      cases readOptional regions with
      | error e => rfl
      | ok r =>
        simp only
        cases sections with
        | error e => rfl
        | ok s => cases r <;> rfl
  · cases hi : importDflow2d (withFaceResult f "mesh2d_czs" none) with
    | error e => rw [import_keyError _ e hi]
    | ok d =>
      have hv := ((C152_readable_iff_partial _).1.1 ⟨d, hi⟩).results "mesh2d_czs"
        (List.mem_cons_of_mem _ (List.mem_cons_of_mem _ List.mem_cons_self))
      have hn : (withFaceResult f "mesh2d_czs" none).faceResult "mesh2d_czs".toList = none := face_self f _ _
      rw [hn] at hv
      cases hv

/-! ## C153: missing values -/

/-- **C153, violated.** Where a result is missing in the file, the fill value stored there is imported as a number. -/
theorem C153_fill_value_violated (f : NcFile K) (d : MapData K) (h : importDflow2d f = .ok d)
    (q : String × (MapData K → List (List (Option K)))) (hq : q ∈ faceResultsOf (K := K)) (v : Nat → Nat → Stored K)
    (hv : f.faceResult q.1.toList = some v) (t i : Nat) (ht : t < f.nMaps) (hi : i < f.nFaces) (fill : K)
    (hfill : v t i = ⟨some fill, true⟩) :
    ∃ row, (q.2 d)[i]? = some row ∧ row[t]? = some (some fill) := by
  obtain ⟨-, h2, -⟩ := C151_faces f d h
  obtain ⟨v', hv', -, hs⟩ := h2 q hq
  rw [hv] at hv'
  obtain rfl := Option.some.inj hv'
  obtain ⟨row, hr, -, hrow⟩ := hs i i (List.getElem?_range hi)
  exact ⟨row, hr, by rw [hrow t ht, hfill]⟩

/-- **C153, violated.** Which values are marked as missing does not matter: two files with the same stored numbers give the same data,
and hence every run the same results. -/
theorem C153_marks_ignored_violated (f f' : NcFile K) (h : SameNumbers f f') : mapFileOf f' = mapFileOf f := by
  have hval : ∀ {o o' : Option (Nat → Nat → Stored K)},
      o'.map (fun v t i => (v t i).value) = o.map (fun v t i => (v t i).value) →
      (o = none ∧ o' = none) ∨ ∃ v v', o = some v ∧ o' = some v' ∧ ∀ t i, (v' t i).value = (v t i).value := by
    intro o o' he
    cases o with
    | none => cases o' with
      | none => exact .inl ⟨rfl, rfl⟩
      | some v' => cases he
    | some v => cases o' with
      | none => cases he
      | some v' => exact .inr ⟨v, v', rfl, rfl, fun t i => congrFun (congrFun (Option.some.inj he) t) i⟩
  have hrows : ∀ (n maps : Nat) (v v' : Nat → Nat → Stored K), (∀ t i, (v' t i).value = (v t i).value) →
      rowsOfResult n maps v' = rowsOfResult n maps v := by
    intro n maps v v' he
    unfold rowsOfResult
    simp only [he]
  have key : importDflow2d f' = importDflow2d f := by
    cases hi : importDflow2d f with
    | ok d =>
      obtain ⟨x, y, area, bedlevel, types, edgeX, edgeY, waterdepth, waterlevel, chezyMean, chezyEdge, velocityX, velocityY, u1,
        h1, h2, h3, h4, h5, h6, h7, h8, h9, h10, h11, h12, h13, h14, rfl⟩ := import_ok f d hi
      have some_face : ∀ {name : Text} {v}, f.faceResult name = some v →
          ∃ v', f'.faceResult name = some v' ∧ ∀ t i, (v' t i).value = (v t i).value := by
        intro name v hv
        rcases hval (h.face name) with ⟨e, -⟩ | ⟨w, w', e1, e2, e3⟩
        · rw [hv] at e; cases e
        · rw [hv] at e1; obtain rfl := Option.some.inj e1; exact ⟨w', e2, e3⟩
      obtain ⟨wd, k8, e8⟩ := some_face h8
      obtain ⟨wl, k9, e9⟩ := some_face h9
      obtain ⟨cz, k10, e10⟩ := some_face h10
      obtain ⟨vx, k12, e12⟩ := some_face h12
      obtain ⟨vy, k13, e13⟩ := some_face h13
      have k14 : ∃ u, f'.edgeResult "mesh2d_u1".toList = some u := by
        rcases hval (h.edge "mesh2d_u1".toList) with ⟨e, -⟩ | ⟨w, w', -, e2, -⟩
        · rw [h14] at e; cases e
        · exact ⟨w', e2⟩
      obtain ⟨u, k14⟩ := k14
      have k11 : ∃ ce, edgeChezyVariable f' = .ok ce ∧ ∀ t i, (ce t i).value = (chezyEdge t i).value := by
        unfold edgeChezyVariable at h11 ⊢
        rcases hval (h.edge "mesh2d_czu".toList) with ⟨e1, e2⟩ | ⟨w, w', e1, e2, e3⟩
        · rw [variable_none e1] at h11
          rw [variable_none e2]
          rcases hval (h.edge "mesh2d_cftrt".toList) with ⟨e1, e2⟩ | ⟨w, w', e1, e2, e3⟩
          · rw [variable_none e1] at h11; cases h11
          · rw [variable_some e1] at h11
            obtain rfl := Except.ok.inj h11
            exact ⟨w', variable_some e2, e3⟩
        · rw [variable_some e1] at h11
          obtain rfl := Except.ok.inj h11
          rw [variable_some e2]
          exact ⟨w', rfl, e3⟩
      obtain ⟨ce, k11, e11⟩ := k11
      have o := h.other
      have o1 : f'.face = f.face := by rw [o]
      have o2 : f'.edge = f.edge := by rw [o]
      have o3 : f'.edgeType = f.edgeType := by rw [o]
      have o4 : f'.nFaces = f.nFaces := by rw [o]
      have o5 : f'.nEdges = f.nEdges := by rw [o]
      have o6 : f'.nMaps = f.nMaps := by rw [o]
      have o7 : f'.edgeFaces = f.edgeFaces := by rw [o]
      rw [import_of f' (o1 ▸ h1) (o1 ▸ h2) (o1 ▸ h3) (o1 ▸ h4) (o3 ▸ h5) (o2 ▸ h6) (o2 ▸ h7) k8 k9 k10 k11 k12 k13 k14]
      unfold imported
      rw [o4, o5, o6, o7, hrows _ _ _ _ e8, hrows _ _ _ _ e9, hrows _ _ _ _ e10, hrows _ _ _ _ e11, hrows _ _ _ _ e12,
        hrows _ _ _ _ e13]
    | error e =>
      obtain rfl := import_keyError f e hi
      cases hi' : importDflow2d f' with
      | error e => rw [import_keyError f' e hi']
      | ok d' =>
        have hc := (C152_readable_iff_partial f').1.1 ⟨d', hi'⟩
        have hn : ¬ Complete f := fun hf => by
          obtain ⟨d, hd⟩ := (C152_readable_iff_partial f).1.2 hf
          rw [hi] at hd; cases hd
        refine absurd ?_ hn
        have o := h.other
        have some_iff : ∀ {o o' : Option (Nat → Nat → Stored K)},
            o'.map (fun v t i => (v t i).value) = o.map (fun v t i => (v t i).value) → o'.isSome = o.isSome := by
          intro o o' he
          rcases hval he with ⟨rfl, rfl⟩ | ⟨_, _, rfl, rfl, -⟩ <;> rfl
        have o1 : f'.face = f.face := by rw [o]
        have o2 : f'.edge = f.edge := by rw [o]
        have o3 : f'.edgeType = f.edgeType := by rw [o]
        refine ⟨fun n hn => o1 ▸ hc.face n hn, fun n hn => o2 ▸ hc.edge n hn, o3 ▸ hc.types,
          fun n hn => some_iff (h.face n.toList) ▸ hc.results n hn, ?_, some_iff (h.edge _) ▸ hc.velocity⟩
        rw [← some_iff (h.edge "mesh2d_czu".toList), ← some_iff (h.edge "mesh2d_cftrt".toList)]
        exact hc.roughness
  unfold mapFileOf
  rw [key]
  have o := h.other
  have o1 : f'.nNodes = f.nNodes := by rw [o]
  have o2 : f'.node = f.node := by rw [o]
  have o3 : f'.edgeType = f.edgeType := by rw [o]
  have o4 : f'.nFaces = f.nFaces := by rw [o]
  have o5 : f'.nEdges = f.nEdges := by rw [o]
  have o6 : f'.faceNode = f.faceNode := by rw [o]
  have o7 : f'.edgeNode = f.edgeNode := by rw [o]
  have o8 : f'.stamp = f.stamp := by rw [o]
  rw [o1, o2, o3, o4, o5, o6, o7, o8]

/-! ## Examples -/

/-- A file with two faces, three edges of which one is a boundary, and two maps; one depth is missing. -/
def sampleNc : NcFile ℚ :=
  { nFaces := 2, nEdges := 3, nNodes := 4, nMaps := 2
    face := fun n => if n = "mesh2d_face_x".toList then some fun i => i else if n = "mesh2d_face_y".toList then some fun i => 10 + i
      else if n = "mesh2d_flowelem_ba".toList then some fun i => 100 + i
      else if n = "mesh2d_flowelem_bl".toList then some fun i => -1 - i else none
    edge := fun n => if n = "mesh2d_edge_x".toList then some fun e => e + 1 / 2
      else if n = "mesh2d_edge_y".toList then some fun e => e else none
    edgeType := some fun e => if e = 1 then 2 else 1, edgeFaces := some fun e => ((e : Int), (e : Int) + 1)
    faceResult := fun n =>
      if n = "mesh2d_waterdepth".toList then some fun t i => if t = 1 ∧ i = 0 then ⟨some (-999), true⟩ else ⟨some (t + 10 * i), false⟩
      else if n ∈ ["mesh2d_s1".toList, "mesh2d_czs".toList, "mesh2d_ucx".toList, "mesh2d_ucy".toList] then
        some fun t _ => ⟨some t, false⟩
      else none
    edgeResult := fun n => if n = "mesh2d_cftrt".toList then some fun t e => ⟨some (40 + t + 10 * e), false⟩
      else if n = "mesh2d_u1".toList then some fun _ _ => ⟨none, false⟩ else none
    node := fun i => (i, 0), faceNode := fun i => i + 1, edgeNode := fun e => e + 1, stamp := (1, 2) }

/-- Everything is in place, the boundary edge is left out, the older name is used, and the fill value has become a depth. -/
example :
    ((importDflow2d sampleNc).toOption.map fun d => (d.faces.x, d.faces.y)) = some ([0, 1], [10, 11]) ∧
    ((importDflow2d sampleNc).toOption.map fun d => (d.faces.area, d.faces.bedlevel)) = some ([100, 101], [-1, -2]) ∧
    ((importDflow2d sampleNc).toOption.map fun d => (d.faces.waterdepth, d.edges.x)) =
      some ([[some 0, some (-999)], [some 10, some 11]], [1 / 2, 5 / 2]) ∧
    ((importDflow2d sampleNc).toOption.map fun d => (d.edges.chezy, d.edges.edgeFaces)) =
      some ([[some 40, some 41], [some 60, some 61]], some [(0, 1), (2, 3)]) ∧
    internalEdges sampleNc = [0, 2] ∧ (mapFileOf sampleNc).edgeNodes = [1, 3] :=
  ⟨by decide +kernel, by decide +kernel, by decide +kernel, by decide +kernel, by decide +kernel, by decide +kernel⟩

/-- Without the unused variable the file is incomplete. -/
example : (match importDflow2d (withEdgeResult sampleNc "mesh2d_u1" none) with | .error .keyError => true | _ => false) = true := by
  decide +kernel

/-- The same file with nothing marked. -/
example : SameNumbers sampleNc { sampleNc with
    faceResult := fun n => (sampleNc.faceResult n).map fun v t i => ⟨(v t i).value, false⟩ } :=
  ⟨rfl, fun name => by
    show ((sampleNc.faceResult name).map _).map _ = _
    rw [Option.map_map]; rfl, fun _ => rfl⟩

end Fm2prof.Props
