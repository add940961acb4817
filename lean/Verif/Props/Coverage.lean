import Verif.Proofs.Coverage
import Verif.Props.Project

/-!
# Properties of polygons that cover the same points

C184: how the area of a section or a region is cut up into polygons, in which order they are in the file, what they are called and
which other properties they have does not matter.
-/

set_option linter.unusedSectionVars false

namespace Fm2prof.Props

open Fm2prof Spec

variable {K : Type} [Field K] [LinearOrder K] [IsStrictOrderedRing K] [FloorRing K]

/-- **C184.** Replace the polygon files of a project by others that can be read too. If polygons with different labels do not overlap
at any node of the grid or, for regions, at any location, and the polygons of both files cover these points with the same labels, a run
does the same: it returns the same, and leaves the same results and the same cache files. -/
theorem C184_cover (x : Tools K) (g : Geometries K) (o : Surroundings) (c : Settings K) (overwrite : Bool) (d : ProjectFiles K)
    (polygons : Text → Option (PolygonFile K)) (s : Store)
    (hr : c.regionPath ≠ [] → ∃ rs rs', readPolygons d c.regionPath = .ok rs ∧
      readPolygons { d with polygons := polygons } c.regionPath = .ok rs' ∧
      ∀ m, d.maps c.mapPath = some m → OneLabel g.inside "region" rs m.nodes ∧ SameCover g.inside "region" rs rs' m.nodes ∧
        ∀ css, cssFile x.ft ',' (d.texts c.cssPath) = .ok css →
          OneLabel (fun r q => g.within q r) "region" rs css.xy ∧
          SameCover (fun r q => g.within q r) "region" rs rs' css.xy)
    (hs : c.sectionPath ≠ [] → ∃ ss ss', readSections d c.sectionPath = .ok ss ∧
      readSections { d with polygons := polygons } c.sectionPath = .ok ss' ∧
      ∀ m, d.maps c.mapPath = some m → OneLabel g.inside "section" ss m.nodes ∧ SameCover g.inside "section" ss ss' m.nodes) :
    (projectRun x g o c overwrite { d with polygons := polygons } s).1 = (projectRun x g o c overwrite d s).1 ∧
    (projectRun x g o c overwrite { d with polygons := polygons } s).2.1.caches = (projectRun x g o c overwrite d s).2.1.caches ∧
    (projectRun x g o c overwrite { d with polygons := polygons } s).2.2 = (projectRun x g o c overwrite d s).2.2 := by
  unfold projectRun
  simp only
  cases hm : d.maps c.mapPath with
  | none => exact ⟨rfl, rfl, rfl⟩
  | some m =>
    cases ht : d.texts c.cssPath with
    | none => exact ⟨rfl, rfl, rfl⟩
    | some t =>
      simp only
      rw [CoverageProof.projectInputs_cover x.ft g c m d polygons]
      · exact ⟨rfl, rfl, rfl⟩
      · intro h
        obtain ⟨rs, rs', h1, h2, h3⟩ := hr h
        obtain ⟨h4, h5, h6⟩ := h3 m hm
        refine ⟨rs, rs', h1, h2, h4, h5, fun css hcss => ?_⟩
        obtain ⟨cols, e1, e2⟩ := ProjectProof.locations_rows hcss
        rw [e2.points]
        exact h6 cols e1
      · intro h
        obtain ⟨ss, ss', h1, h2, h3⟩ := hs h
        exact ⟨ss, ss', h1, h2, h3 m hm⟩

/-- **C184, the order.** In particular the features of the polygon files can be put in another order, when the files can be read and
polygons with different labels do not overlap at any node of the grid or location. -/
theorem C184_order (x : Tools K) (g : Geometries K) (o : Surroundings) (c : Settings K) (overwrite : Bool) (d : ProjectFiles K)
    (polygons : Text → Option (PolygonFile K)) (s : Store) (hp : ∀ path, SameFeatures (d.polygons path) (polygons path))
    (hr : c.regionPath ≠ [] → ∃ rs, readPolygons d c.regionPath = .ok rs ∧
      ∀ m, d.maps c.mapPath = some m → OneLabel g.inside "region" rs m.nodes ∧
        ∀ css, cssFile x.ft ',' (d.texts c.cssPath) = .ok css → OneLabel (fun r q => g.within q r) "region" rs css.xy)
    (hs : c.sectionPath ≠ [] → ∃ ss, readSections d c.sectionPath = .ok ss ∧
      ∀ m, d.maps c.mapPath = some m → OneLabel g.inside "section" ss m.nodes) :
    (projectRun x g o c overwrite { d with polygons := polygons } s).1 = (projectRun x g o c overwrite d s).1 ∧
    (projectRun x g o c overwrite { d with polygons := polygons } s).2.1.caches = (projectRun x g o c overwrite d s).2.1.caches ∧
    (projectRun x g o c overwrite { d with polygons := polygons } s).2.2 = (projectRun x g o c overwrite d s).2.2 := by
  refine C184_cover x g o c overwrite d polygons s (fun h => ?_) (fun h => ?_)
  · obtain ⟨rs, h1, h2⟩ := hr h
    obtain ⟨rs', h3, h4⟩ := CoverageProof.readPolygons_perm d polygons _ (hp _) rs h1
    refine ⟨rs, rs', h1, h3, fun m hm => ?_⟩
    obtain ⟨h5, h6⟩ := h2 m hm
    exact ⟨h5, CoverageProof.sameCover_perm _ _ h4 _, fun css hc => ⟨h6 css hc, CoverageProof.sameCover_perm _ _ h4 _⟩⟩
  · obtain ⟨ss, h1, h2⟩ := hs h
    obtain ⟨ss', h3, h4⟩ := CoverageProof.readSections_perm d polygons _ (hp _) ss h1
    exact ⟨ss, ss', h1, h3, fun m hm => ⟨h2 m hm, CoverageProof.sameCover_perm _ _ h4 _⟩⟩

/-- **C184, files that cannot be used.** A polygon file can be read exactly if it can be read with its features in another order. -/
theorem C184_readable (d : ProjectFiles K) (polygons : Text → Option (PolygonFile K)) (path : Text)
    (hp : SameFeatures (d.polygons path) (polygons path)) :
    ((∃ ps, readPolygons { d with polygons := polygons } path = .ok ps) ↔ ∃ ps, readPolygons d path = .ok ps) ∧
    ((∃ ps, readSections { d with polygons := polygons } path = .ok ps) ↔ ∃ ps, readSections d path = .ok ps) := by
  refine ⟨⟨?_, ?_⟩, ?_, ?_⟩
  · rintro ⟨ps, h⟩
    obtain ⟨ps', h', _⟩ := CoverageProof.readPolygons_perm { d with polygons := polygons } d.polygons path
      (CoverageProof.sameFeatures_symm _ _ hp) ps h
    exact ⟨ps', h'⟩
  · rintro ⟨ps, h⟩
    obtain ⟨ps', h', _⟩ := CoverageProof.readPolygons_perm d polygons path hp ps h
    exact ⟨ps', h'⟩
  · rintro ⟨ps, h⟩
    obtain ⟨ps', h', _⟩ := CoverageProof.readSections_perm { d with polygons := polygons } d.polygons path
      (CoverageProof.sameFeatures_symm _ _ hp) ps h
    exact ⟨ps', h'⟩
  · rintro ⟨ps, h⟩
    obtain ⟨ps', h', _⟩ := CoverageProof.readSections_perm d polygons path hp ps h
    exact ⟨ps', h'⟩

/-! ## A sample project -/

/-- Sections and regions without overlap. -/
def plainPolygons : Text → Option (PolygonFile ℚ) := fun path =>
  if path = "sections.geojson".toList then
    some (.features [⟨[("Name", "channel"), ("Section", "1")], .polygon [[(2, 0), (5, 1)]]⟩,
      ⟨[("Name", "bank"), ("Section", "floodplain1")], .polygon [[(1, 0), (1, 1)]]⟩])
  else if path = "regions.json".toList then
    some (.features [⟨[("Name", "all"), ("Region", "west")], .polygon [[(0, 0), (99, 99)]]⟩])
  else none

/-- The channel cut into two, the other polygon first, with other names and one more property. -/
def cutPolygons : Text → Option (PolygonFile ℚ) := fun path =>
  if path = "sections.geojson".toList then
    some (.features [⟨[("Name", "left bank"), ("Section", "floodplain1"), ("Owner", "province")], .polygon [[(1, 0), (1, 1)]]⟩,
      ⟨[("Name", "upstream"), ("Section", "main")], .polygon [[(2, 0), (3, 1)]]⟩,
      ⟨[("Name", "downstream"), ("Section", "1")], .polygon [[(3, 0), (5, 1)]]⟩])
  else if path = "regions.json".toList then
    some (.features [⟨[("Name", "a"), ("Region", "west")], .polygon [[(0, 0), (99, 99)]]⟩])
  else none

/-- The project with these polygons. -/
def plainProject : ProjectFiles ℚ := { sampleProject with polygons := plainPolygons }

/-- Which labels cover a point, as a list. -/
def coverList (property : String) (ps : List (Polygon ℚ)) (p : Pt ℚ) : List (Option String) :=
  (containing inRectangle ps p).map fun q => q.properties.get property

theorem covers_iff (property : String) (ps : List (Polygon ℚ)) (p : Pt ℚ) (l : Option String) :
    Covers inRectangle property ps p l ↔ l ∈ coverList property ps p := by
  unfold Covers coverList
  rw [List.mem_map]
  constructor
  · rintro ⟨q, h1, h2, h3⟩
    exact ⟨q, CoverageProof.mem_containing.2 ⟨h1, h2⟩, h3⟩
  · rintro ⟨q, h1, h2⟩
    obtain ⟨h3, h4⟩ := CoverageProof.mem_containing.1 h1
    exact ⟨q, h3, h4, h2⟩

theorem oneLabel_of {property : String} {ps : List (Polygon ℚ)} {pts : List (Pt ℚ)}
    (h : ∀ p ∈ pts, ∀ l ∈ coverList property ps p, ∀ l' ∈ coverList property ps p, l = l') : OneLabel inRectangle property ps pts := by
  intro p hp l l' h1 h2
  exact h p hp l ((covers_iff _ _ _ _).1 h1) l' ((covers_iff _ _ _ _).1 h2)

theorem sameCover_of {property : String} {ps ps' : List (Polygon ℚ)} {pts : List (Pt ℚ)}
    (h : ∀ p ∈ pts, (∀ l ∈ coverList property ps' p, l ∈ coverList property ps p) ∧
      ∀ l ∈ coverList property ps p, l ∈ coverList property ps' p) : SameCover inRectangle property ps ps' pts := by
  intro p hp l
  rw [covers_iff, covers_iff]
  exact ⟨(h p hp).1 l, (h p hp).2 l⟩

/-- The polygons read. -/
def readOr (r : Except PyErr (List (Polygon ℚ))) : List (Polygon ℚ) :=
  match r with
  | .ok ps => ps
  | .error _ => []

theorem readOr_ok {r : Except PyErr (List (Polygon ℚ))} (h : r.toOption.isSome = true) : r = .ok (readOr r) := by
  cases r with
  | error e => cases h
  | ok ps => rfl

/-- The locations of the sample project. -/
def plainPoints : List (Pt ℚ) := [(5, 0), (20, 0)]

theorem plainPoints_eq (css : CssColumns ℚ)
    (h : cssFile (decimalText ℚ) ',' (plainProject.texts sampleSettings.cssPath) = .ok css) : css.xy = plainPoints := by
  have h2 : (cssFile (decimalText ℚ) ',' (plainProject.texts sampleSettings.cssPath)).toOption.map
      (fun css => css.xy) = some plainPoints := by decide +kernel
  rw [h] at h2
  exact Option.some.inj h2

/-- The sample project and the same with the channel cut into two. -/
example :
    (sampleSettings.regionPath ≠ [] → ∃ rs rs', readPolygons plainProject sampleSettings.regionPath = .ok rs ∧
      readPolygons { plainProject with polygons := cutPolygons } sampleSettings.regionPath = .ok rs' ∧
      ∀ m, plainProject.maps sampleSettings.mapPath = some m → OneLabel sampleGeometries.inside "region" rs m.nodes ∧
        SameCover sampleGeometries.inside "region" rs rs' m.nodes ∧
        ∀ css, cssFile sampleTools.ft ',' (plainProject.texts sampleSettings.cssPath) = .ok css →
          OneLabel (fun r q => sampleGeometries.within q r) "region" rs css.xy ∧
          SameCover (fun r q => sampleGeometries.within q r) "region" rs rs' css.xy) ∧
    (sampleSettings.sectionPath ≠ [] → ∃ ss ss', readSections plainProject sampleSettings.sectionPath = .ok ss ∧
      readSections { plainProject with polygons := cutPolygons } sampleSettings.sectionPath = .ok ss' ∧
      ∀ m, plainProject.maps sampleSettings.mapPath = some m → OneLabel sampleGeometries.inside "section" ss m.nodes ∧
        SameCover sampleGeometries.inside "section" ss ss' m.nodes) ∧
    (projectRun sampleTools sampleGeometries sampleSurroundings sampleSettings false plainProject noFiles).2.2.toOption = some true ∧
    ((setModelData sampleTools.nn (projectInputs sampleTools.ft sampleGeometries sampleSettings sampleMapFile plainProject).1).toOption.map
      fun m => m.faces.sect.take 4) = some ["floodplain2".toList, "floodplain1".toList, "main".toList, "main".toList] := by
  have hmap : ∀ m, plainProject.maps sampleSettings.mapPath = some m → m = sampleMapFile := fun m h => (Option.some.inj h).symm
  refine ⟨fun _ => ⟨readOr (readPolygons plainProject sampleSettings.regionPath),
      readOr (readPolygons { plainProject with polygons := cutPolygons } sampleSettings.regionPath),
      readOr_ok (by decide +kernel), readOr_ok (by decide +kernel), fun m hm => ?_⟩,
    fun _ => ⟨readOr (readSections plainProject sampleSettings.sectionPath),
      readOr (readSections { plainProject with polygons := cutPolygons } sampleSettings.sectionPath),
      readOr_ok (by decide +kernel), readOr_ok (by decide +kernel), fun m hm => ?_⟩, by decide +kernel, by decide +kernel⟩
  · obtain rfl := hmap m hm
    refine ⟨oneLabel_of (by decide +kernel), sameCover_of (by decide +kernel), fun css hcss => ?_⟩
    rw [plainPoints_eq css hcss]
    exact ⟨oneLabel_of (by decide +kernel), sameCover_of (by decide +kernel)⟩
  · obtain rfl := hmap m hm
    exact ⟨oneLabel_of (by decide +kernel), sameCover_of (by decide +kernel)⟩

/-- The features of the sample project in the opposite order. -/
example : ∀ path, SameFeatures (plainPolygons path)
    ((plainPolygons path).map fun f => match f with | .damaged => .damaged | .features l => .features l.reverse) := by
  intro path
  rcases plainPolygons path with _ | (_ | l)
  · trivial
  · trivial
  · exact (List.reverse_perm l).symm

/-- Where they overlap, the order matters: the point (1, 0) is in the channel and on the bank. -/
example : polygonLabel inRectangle "section" "x" (readOr (readSections sampleProject sampleSettings.sectionPath)) (1, 0) = some "floodplain1" ∧
    polygonLabel inRectangle "section" "x" (readOr (readSections sampleProject sampleSettings.sectionPath)).reverse (1, 0)
      = some "main" := by
  decide +kernel

end Fm2prof.Props
