import Verif.Proofs.Project

/-!
# Properties of projects: polygon files in a run

C143 to C146. A run of a project reads the map file, the location file and the polygon files, and the cache files beside the map file.
-/

set_option linter.unusedSectionVars false

namespace Fm2prof.Props

open Fm2prof Spec ProjectProof

variable {K : Type} [Field K] [LinearOrder K] [IsStrictOrderedRing K] [FloorRing K]

/-! ## C143: the polygons decide -/

private theorem sections_parts {ls : Labels} {r : SectionLabels} (h : sectionLabels ls = .ok r) :
    labelTexts ls.1 = .ok r.faces ∧ labelTexts ls.2 = .ok r.edges := by
  unfold sectionLabels at h
  cases h1 : labelTexts ls.1 with
  | error e => rw [h1] at h; cases h
  | ok f =>
    cases h2 : labelTexts ls.2 with
    | error e => rw [h1, h2] at h; cases h
    | ok e =>
      rw [h1, h2] at h
      obtain rfl := Except.ok.inj h
      exact ⟨rfl, rfl⟩

private theorem regions_parts {g : Geometries K} {default : String} {ps : List (Polygon K)} {css : List (Loc K)} {ls : Labels}
    {r : RegionLabels} (h : regionLabels g default ps css ls = .ok r) :
    labelTexts ls.1 = .ok r.faces ∧ labelTexts ls.2 = .ok r.edges ∧ locationLabels g default ps css = .ok r.css := by
  unfold regionLabels at h
  cases h1 : labelTexts ls.1 with
  | error e => rw [h1] at h; cases h
  | ok f =>
    cases h2 : labelTexts ls.2 with
    | error e => rw [h1, h2] at h; cases h
    | ok e =>
      cases h3 : locationLabels g default ps css with
      | error e => rw [h1, h2, h3] at h; cases h
      | ok l =>
        rw [h1, h2, h3] at h
        obtain rfl := Except.ok.inj h
        exact ⟨rfl, rfl, rfl⟩

/-- The labels of the locations. -/
private theorem location_label (within : Pt K → Ring K → Bool) (property default : String) (ps : List (Polygon K)) (p : Pt K) :
    pointLabel within property default ps p = locationLabel within property default ps p := by
  obtain ⟨h1, h2⟩ := C31_cross_sections within property default ps p
  unfold locationLabel
  cases hc : containing (fun r p => within p r) ps p with
  | nil => exact h1 hc
  | cons q qs => exact h2 q qs hc

private theorem location_labels {g : Geometries K} {default : String} {ps : List (Polygon K)} {css : List (Loc K)} {ts : List Text}
    (h : locationLabels g default ps css = .ok ts) :
    ts.length = css.length ∧ ∀ (i : Nat) l, css[i]? = some l → ∃ t, ts[i]? = some t ∧
      locationLabel g.within "region" default ps (l.x, l.y) = some (String.ofList t) := by
  have hs := labelTexts_spec _ _ h
  have hlen : ts.length = css.length := by
    have := congrArg List.length hs
    rw [List.length_map, List.length_map] at this
    exact this.symm
  refine ⟨hlen, fun i l hl => ?_⟩
  have hi := congrArg (fun l => l[i]?) hs
  simp only [List.getElem?_map, hl, Option.map_some] at hi
  cases ht : ts[i]? with
  | none => rw [ht] at hi; cases hi
  | some t =>
    rw [ht, location_label] at hi
    exact ⟨t, rfl, Option.some.inj hi⟩

/-- **C143, locations.** The cross-sections that a run uses are the rows of the location file, in order. -/
theorem C143_locations (x : Tools K) (g : Geometries K) (c : Settings K) (m : MapFile K) (d : ProjectFiles K) (m2 : Model2d K)
    (h : setModelData x.nn (projectInputs x.ft g c m d).1 = .ok m2) :
    ∃ cols, cssFile x.ft ',' (d.texts c.cssPath) = .ok cols ∧ RowsOf cols m2.stations := by
  obtain ⟨a, css, rs, ss, k, -, -, h3, h4, -⟩ := inputs_ok _ _ _ _ _ _ _ h
  obtain ⟨_, _, _, _, _, _, _, _, -, j2, -, -, -, -, -, -, -, j10⟩ := setModelData_ok _ _ _ h
  rw [h4] at j2
  obtain rfl := Except.ok.inj j2
  rw [j10]
  exact locations_rows h3

/-- **C143, sections.** When there is no cache file for the map file as it is, the sections of faces and edges that a run uses are
those of the polygons of the section file: that of the last polygon containing the first node, or `DefaultSection`. -/
theorem C143_sections (x : Tools K) (g : Geometries K) (c : Settings K) (m : MapFile K) (d : ProjectFiles K) (m2 : Model2d K)
    (h : setModelData x.nn (projectInputs x.ft g c m d).1 = .ok m2) (hs : c.sectionPath ≠ [])
    (hc : ¬ Cached d "section" c.mapPath m) :
    ∃ ps, readSections d c.sectionPath = .ok ps ∧
      LabelledBy g.inside "section" (String.ofList c.defaultSection) ps m.nodes m.faceNodes m2.faces.sect ∧
      LabelledBy g.inside "section" (String.ofList c.defaultSection) ps m.nodes m.edgeNodes m2.edges.sect := by
  obtain ⟨a, css, rs, ss, k, h1, h2, h3, h4, h5, h6, h7, h8⟩ := inputs_ok _ _ _ _ _ _ _ h
  have hss := optional_sections _ _ _ h6
  rcases h8 with ⟨rfl, -, -⟩ | ⟨ps, ls, r, rfl, -, hg, hr, h8⟩
  · exact absurd hss hs
  refine ⟨ps, hss.2, ?_⟩
  obtain ⟨g1, -, -⟩ := gridLabels_ok _ _ _ _ _ _ _ _ _ hg
  have hfresh : freshLabels g "section" (String.ofList c.defaultSection) ps m = .ok ls := by
    rcases g1 with ⟨g1, -⟩ | ⟨-, g1⟩
    · refine absurd ((cached_iff _ _ _ _).2 ?_) hc
      rcases h7 with ⟨-, -, rfl⟩ | ⟨ps', lr, r', -, -, hg', -, -⟩
      · exact ⟨ls, g1⟩
      · exact ⟨ls, uncached_stays _ _ _ _ _ _ _ _ _ hg' g1⟩
    · exact g1
  obtain ⟨f1, f2⟩ := fresh_parts _ _ _ _ _ _ hfresh
  obtain ⟨r1, r2⟩ := sections_parts hr
  obtain ⟨a', css', regions, sections, fc, ec, fs, es, -, -, -, i4, -, i6, i7, i8, -, -⟩ := setModelData_ok _ _ _ h
  rw [h8] at i4
  obtain rfl := Except.ok.inj i4
  obtain ⟨rfl, i9⟩ := Prod.mk.inj (Except.ok.inj i6)
  obtain ⟨rfl, -⟩ := Prod.mk.inj i9
  rw [i7, i8]
  exact ⟨labelled _ _ _ _ _ _ _ f1 _ r1, labelled _ _ _ _ _ _ _ f2 _ r2⟩

/-- **C143, regions.** The same for the regions of faces. A face is then assigned to the nearest of the locations in its region, if
there is one, where the region of a location is that of the first polygon containing it, or `DefaultRegion`. -/
theorem C143_regions (x : Tools K) (g : Geometries K) (c : Settings K) (m : MapFile K) (d : ProjectFiles K) (m2 : Model2d K)
    (h : setModelData x.nn (projectInputs x.ft g c m d).1 = .ok m2) (hs : c.regionPath ≠ [])
    (hc : ¬ Cached d "region" c.mapPath m) :
    ∃ ps, readPolygons d c.regionPath = .ok ps ∧
      LabelledBy g.inside "region" (String.ofList c.defaultRegion) ps m.nodes m.faceNodes m2.faces.region ∧
      ∀ (i : Nat) px py region id, m2.faces.x[i]? = some px → m2.faces.y[i]? = some py → m2.faces.region[i]? = some region →
        m2.faces.sclass[i]? = some id →
        (∃ l ∈ m2.stations, locationLabel g.within "region" (String.ofList c.defaultRegion) ps (l.x, l.y) =
          some (String.ofList region)) →
        ∃ l ∈ m2.stations, l.id = id ∧ locationLabel g.within "region" (String.ofList c.defaultRegion) ps (l.x, l.y) =
            some (String.ofList region) ∧
          ∀ l' ∈ m2.stations, locationLabel g.within "region" (String.ofList c.defaultRegion) ps (l'.x, l'.y) =
              some (String.ofList region) → squaredDistance (l.x, l.y) (px, py) ≤ squaredDistance (l'.x, l'.y) (px, py) := by
  obtain ⟨a, css, rs, ss, k, h1, h2, h3, h4, h5, h6, h7, h8⟩ := inputs_ok _ _ _ _ _ _ _ h
  have hrs := optional_read _ _ _ h5
  rcases h7 with ⟨rfl, -, -⟩ | ⟨ps, ls, r, rfl, -, hg, hr, h7⟩
  · exact absurd hrs hs
  refine ⟨ps, hrs.2, ?_⟩
  obtain ⟨g1, -, -⟩ := gridLabels_ok _ _ _ _ _ _ _ _ _ hg
  have hfresh : freshLabels g "region" (String.ofList c.defaultRegion) ps m = .ok ls := by
    rcases g1 with ⟨g1, -⟩ | ⟨-, g1⟩
    · exact absurd ((cached_iff _ _ _ _).2 ⟨ls, g1⟩) hc
    · exact g1
  obtain ⟨f1, f2⟩ := fresh_parts _ _ _ _ _ _ hfresh
  obtain ⟨r1, r2, r3⟩ := regions_parts hr
  obtain ⟨r4, r5⟩ := location_labels r3
  obtain ⟨a', css', regions, sections, fc, ec, fs, es, i1, i2, i3, -, i5, -, i7, -, -, i10⟩ := setModelData_ok _ _ _ h
  rw [h7] at i3
  obtain rfl := Except.ok.inj i3
  rw [h4] at i2
  obtain rfl := Except.ok.inj i2
  rw [i10, i7]
  refine ⟨labelled _ _ _ _ _ _ _ f1 _ r1, fun i px py region id hx hy hregion hid hl => ?_⟩
  simp only at hx hy hregion hid
  have hregion' : r.faces[i]? = some region := hregion
  have hp : (gridPoints a'.faces.x a'.faces.y r.faces)[i]? = some ⟨(px, py), region⟩ := by
    have hz : ((a'.faces.x.zip a'.faces.y).zip r.faces)[i]? = some ((px, py), region) :=
      List.getElem?_zip_eq_some.2 ⟨List.getElem?_zip_eq_some.2 ⟨hx, hy⟩, hregion'⟩
    unfold gridPoints
    rw [List.getElem?_map, hz]
    rfl
  -- the locations of a region
  have key : ∀ st, st ∈ inRegion (stationsOf css r.css) region ↔ ∃ l ∈ css, st = ⟨l.id, (l.x, l.y), region⟩ ∧
      locationLabel g.within "region" (String.ofList c.defaultRegion) ps (l.x, l.y) = some (String.ofList region) := by
    intro st
    unfold inRegion stationsOf
    rw [List.mem_filter, List.mem_map]
    constructor
    · rintro ⟨⟨q, hq, rfl⟩, hreg⟩
      have hreg' : q.2 = region := of_decide_eq_true hreg
      obtain ⟨j, hj⟩ := List.getElem?_of_mem hq
      obtain ⟨hj1, hj2⟩ := List.getElem?_zip_eq_some.1 hj
      obtain ⟨t, ht, hlab⟩ := r5 j q.1 hj1
      rw [hj2] at ht
      obtain rfl := Option.some.inj ht
      exact ⟨q.1, List.mem_of_getElem? hj1, by rw [← hreg'], by rw [hlab, hreg']⟩
    · rintro ⟨l, hl, rfl, hlab⟩
      obtain ⟨j, hj⟩ := List.getElem?_of_mem hl
      obtain ⟨t, ht, hlab'⟩ := r5 j l hj
      have htr : t = region := by
        rw [hlab'] at hlab
        have := congrArg String.toList (Option.some.inj hlab)
        rwa [String.toList_ofList, String.toList_ofList] at this
      subst htr
      exact ⟨⟨(l, t), List.mem_of_getElem? (List.getElem?_zip_eq_some.2 ⟨hj, ht⟩), rfl⟩, decide_eq_true rfl⟩
  obtain ⟨l, hl, hlab⟩ := hl
  have hne : inRegion (stationsOf css r.css) region ≠ [] := List.ne_nil_of_mem ((key _).2 ⟨l, hl, rfl, hlab⟩)
  obtain ⟨st, hst, hsid, hmin⟩ := C28_faces_in_regions x.nn _ _ _ _ _ _ _ i5 i _ id hp hid hne
  obtain ⟨l0, hl0, rfl, hlab0⟩ := (key st).1 hst
  exact ⟨l0, hl0, hsid, hlab0, fun l' hl' hlab' => hmin _ ((key _).2 ⟨l', hl', rfl, hlab'⟩)⟩

/-- **C143, regions without locations.** A face in a region in which there is no location belongs to none, unless that is called like
the region. -/
theorem C143_empty_regions (x : Tools K) (g : Geometries K) (c : Settings K) (m : MapFile K) (d : ProjectFiles K) (m2 : Model2d K)
    (h : setModelData x.nn (projectInputs x.ft g c m d).1 = .ok m2) (ps : List (Polygon K)) (hs : c.regionPath ≠ [])
    (hps : readPolygons d c.regionPath = .ok ps) (i : Nat) (px py : K) (region id : Text) (hx : m2.faces.x[i]? = some px)
    (hy : m2.faces.y[i]? = some py) (hregion : m2.faces.region[i]? = some region) (hid : m2.faces.sclass[i]? = some id)
    (hno : ∀ l ∈ m2.stations, locationLabel g.within "region" (String.ofList c.defaultRegion) ps (l.x, l.y) ≠
      some (String.ofList region)) :
    id = region := by
  obtain ⟨a, css, rs, ss, k, h1, h2, h3, h4, h5, h6, h7, h8⟩ := inputs_ok _ _ _ _ _ _ _ h
  have hrs := optional_read _ _ _ h5
  rcases h7 with ⟨rfl, -, -⟩ | ⟨ps', ls, r, rfl, -, hg, hr, h7⟩
  · exact absurd hrs hs
  have hrs : c.regionPath ≠ [] ∧ readPolygons d c.regionPath = .ok ps' := hrs
  rw [hps] at hrs
  obtain rfl := Except.ok.inj hrs.2
  obtain ⟨r1, r2, r3⟩ := regions_parts hr
  obtain ⟨r4, r5⟩ := location_labels r3
  obtain ⟨a', css', regions, sections, fc, ec, fs, es, i1, i2, i3, -, i5, -, i7, -, -, i10⟩ := setModelData_ok _ _ _ h
  rw [h7] at i3
  obtain rfl := Except.ok.inj i3
  rw [h4] at i2
  obtain rfl := Except.ok.inj i2
  rw [i7] at hx hy hregion hid
  rw [i10] at hno
  simp only at hx hy hregion hid
  have hregion' : r.faces[i]? = some region := hregion
  have hp : (gridPoints a'.faces.x a'.faces.y r.faces)[i]? = some ⟨(px, py), region⟩ := by
    have hz : ((a'.faces.x.zip a'.faces.y).zip r.faces)[i]? = some ((px, py), region) :=
      List.getElem?_zip_eq_some.2 ⟨List.getElem?_zip_eq_some.2 ⟨hx, hy⟩, hregion'⟩
    unfold gridPoints
    rw [List.getElem?_map, hz]
    rfl
  have hnil : inRegion (stationsOf css r.css) region = [] := by
    refine List.eq_nil_iff_forall_not_mem.2 fun st hst => ?_
    unfold inRegion stationsOf at hst
    obtain ⟨hst, hreg⟩ := List.mem_filter.1 hst
    obtain ⟨q, hq, rfl⟩ := List.mem_map.1 hst
    have hreg' : q.2 = region := of_decide_eq_true hreg
    obtain ⟨j, hj⟩ := List.getElem?_of_mem hq
    obtain ⟨hj1, hj2⟩ := List.getElem?_zip_eq_some.1 hj
    obtain ⟨t, ht, hlab⟩ := r5 j q.1 hj1
    rw [hj2] at ht
    obtain rfl := Option.some.inj ht
    exact hno _ (List.mem_of_getElem? hj1) (by rw [hlab, hreg'])
  exact (C28_regions_without_cross_section_partial x.nn _ _ _ _ _ _ _ i5).2.2.1 i _ id hp hid hnil

/-- **C143, the results.** When the numbers of first nodes fit the faces and edges of the map file, and no cache file is left, all that
is proved about the results of a run (C97 to C108) applies to the runs of the project. -/
theorem C143_consistent (ft : FloatText K) (g : Geometries K) (c : Settings K) (m : MapFile K) (d : ProjectFiles K)
    (ha : ∀ a, m.data = .ok a → Columns a ∧ m.faceNodes.length = a.faces.x.length ∧ m.edgeNodes.length = a.edges.x.length)
    (hr : ¬ Cached d "region" c.mapPath m) (hs : ¬ Cached d "section" c.mapPath m) :
    Consistent (projectInputs ft g c m d).1 := by
  obtain ⟨h1, h2, h3⟩ := inputs_labels ft g c m d
  have hlen : ∀ property default ps ls ts, freshLabels g property default ps m = .ok ls →
      (labelTexts ls.1 = .ok ts → ts.length = m.faceNodes.length) ∧ (labelTexts ls.2 = .ok ts → ts.length = m.edgeNodes.length) := by
    intro property default ps ls ts hf
    obtain ⟨f1, f2⟩ := fresh_parts _ _ _ _ _ _ hf
    exact ⟨fun ht => (labelled _ _ _ _ _ _ _ f1 _ ht).1, fun ht => (labelled _ _ _ _ _ _ _ f2 _ ht).1⟩
  refine ⟨fun a hm => (ha a (h1 ▸ hm)).1, fun a css r hm hc hrr => ?_, fun a r hm hss => ?_⟩
  · obtain ⟨-, n1, n2⟩ := ha a (h1 ▸ hm)
    obtain ⟨css', ps, ls, k, hc', hg, hrl⟩ := h2 r hrr
    rw [hc] at hc'
    obtain rfl := Except.ok.inj hc'
    obtain ⟨r1, r2, r3⟩ := regions_parts hrl
    have hfresh : freshLabels g "region" (String.ofList c.defaultRegion) ps m = .ok ls := by
      rcases (gridLabels_ok _ _ _ _ _ _ _ _ _ hg).1 with ⟨g1, -⟩ | ⟨-, g1⟩
      · exact absurd ((cached_iff _ _ _ _).2 ⟨ls, g1⟩) hr
      · exact g1
    exact ⟨((hlen _ _ _ _ _ hfresh).1 r1).trans n1, ((hlen _ _ _ _ _ hfresh).2 r2).trans n2, (location_labels r3).1⟩
  · obtain ⟨-, n1, n2⟩ := ha a (h1 ▸ hm)
    obtain ⟨ps, ls, k, k', hk, hg, hrl⟩ := h3 r hss
    obtain ⟨r1, r2⟩ := sections_parts hrl
    have hfresh : freshLabels g "section" (String.ofList c.defaultSection) ps m = .ok ls := by
      rcases (gridLabels_ok _ _ _ _ _ _ _ _ _ hg).1 with ⟨g1, -⟩ | ⟨-, g1⟩
      · refine absurd ((cached_iff _ _ _ _).2 ?_) hs
        rcases hk with rfl | ⟨rs, lr, hg'⟩
        · exact ⟨ls, g1⟩
        · exact ⟨ls, uncached_stays _ _ _ _ _ _ _ _ _ hg' g1⟩
      · exact g1
    exact ⟨((hlen _ _ _ _ _ hfresh).1 r1).trans n1, ((hlen _ _ _ _ _ hfresh).2 r2).trans n2⟩

/-! ## C144: edited polygons -/

/-- **C144, violated: sections.** After a run, the polygons of the section file can be replaced and `DefaultSection` changed: as long as
the map file stays, another run does what it would have done without. -/
theorem C144_edited_sections_violated (x : Tools K) (g : Geometries K) (o : Surroundings) (c : Settings K) (overwrite : Bool)
    (d : ProjectFiles K) (s : Store) (d1 : ProjectFiles K)
    (h : (projectRun x g o c overwrite d s).2 = (d1, .ok true)) (hs : c.sectionPath ≠ []) (t : Text)
    (polygons : Text → Option (PolygonFile K)) (hp : polygons c.regionPath = d.polygons c.regionPath) (ps : List (Polygon K))
    (hps : readSections { d1 with polygons := polygons } c.sectionPath = .ok ps) (overwrite' : Bool) (s' : Store) :
    projectRun x g o { c with defaultSection := t } overwrite' { d1 with polygons := polygons } s' =
      ((projectRun x g o c overwrite' d1 s').1, { d1 with polygons := polygons }, (projectRun x g o c overwrite' d1 s').2.2) := by
  obtain ⟨m, tx, m2, hm, ht, hl, rfl⟩ := run_true _ _ _ _ _ _ _ _ h
  obtain ⟨a, css, rs, ss, k, h1, h2, h3, h4, h5, h6, h7, h8⟩ := inputs_ok _ _ _ _ _ _ _ hl
  have hss := optional_sections _ _ _ h6
  rcases h8 with ⟨rfl, -, -⟩ | ⟨ss, ls, r, rfl, hpath, hg, hr, h8⟩
  · exact absurd hss hs
  have hsec := (gridLabels_ok _ _ _ _ _ _ _ _ _ hg).2.1
  have hreg : ∃ lr, rs = none ∨ CachedIn (projectInputs x.ft g c m d).2 "region" c.mapPath m lr := by
    rcases h7 with ⟨h7, -⟩ | ⟨ps', lr, r', -, -, hg', -, -⟩
    · exact ⟨ls, .inl h7⟩
    · exact ⟨lr, .inr (cached_stays _ _ _ _ _ _ _ _ _ hg (gridLabels_ok _ _ _ _ _ _ _ _ _ hg').2.1)⟩
  obtain ⟨lr, hreg⟩ := hreg
  generalize (projectInputs x.ft g c m d).2 = caches at hsec hreg hps ⊢
  have hr' : optionalRegions ({ d with caches := caches, polygons := polygons } : ProjectFiles K) c.regionPath = .ok rs := by
    rw [← h5]
    unfold optionalRegions readPolygons
    simp only [hp]
  have hs' : optionalSections ({ d with caches := caches, polygons := polygons } : ProjectFiles K) c.sectionPath = .ok (some ps) := by
    unfold optionalSections
    rw [if_neg hs, hps]; rfl
  have e1 := inputs_from_cache x.ft g { c with defaultSection := t } m { d with caches := caches, polygons := polygons } a css rs ps
    lr ls h1 h3 hr' hs' hreg hsec hpath
  have e2 := inputs_from_cache x.ft g c m { d with caches := caches } a css rs ss lr ls h1 h3 h5 h6 hreg hsec hpath
  rw [projectRun_eq x g o { c with defaultSection := t } overwrite' { d with caches := caches, polygons := polygons } s' m tx hm ht,
    projectRun_eq x g o c overwrite' { d with caches := caches } s' m tx hm ht, e1, e2]
  simp only [ite_self]

/-- **C144, violated: regions.** Likewise for the regions of faces and edges. Those of the locations are those of the new polygons, so
that the two no longer belong together. -/
theorem C144_edited_regions_violated (x : Tools K) (g : Geometries K) (o : Surroundings) (c : Settings K) (overwrite : Bool)
    (d : ProjectFiles K) (s : Store) (m : MapFile K) (hm : d.maps c.mapPath = some m) (d1 : ProjectFiles K)
    (h : (projectRun x g o c overwrite d s).2 = (d1, .ok true)) (hr : c.regionPath ≠ [])
    (polygons : Text → Option (PolygonFile K)) (m2 m2' : Model2d K)
    (h1 : setModelData x.nn (projectInputs x.ft g c m d).1 = .ok m2)
    (h2 : setModelData x.nn (projectInputs x.ft g c m { d1 with polygons := polygons }).1 = .ok m2') :
    m2'.faces.region = m2.faces.region ∧ ∃ ps r, readPolygons { d1 with polygons := polygons } c.regionPath = .ok ps ∧
      (projectInputs x.ft g c m { d1 with polygons := polygons }).1.regions = some (.ok r) ∧
      List.Forall₂ (fun (l : Loc K) t => locationLabel g.within "region" (String.ofList c.defaultRegion) ps (l.x, l.y) =
        some (String.ofList t)) m2'.stations r.css := by
  obtain ⟨m', tx, m2'', hm', ht, hl, rfl⟩ := run_true _ _ _ _ _ _ _ _ h
  rw [hm] at hm'
  obtain rfl := Option.some.inj hm'
  obtain ⟨a, css, rs, ss, k, -, -, h3, h4, h5, -, h7, h8⟩ := inputs_ok _ _ _ _ _ _ _ h1
  have hrs := optional_read _ _ _ h5
  rcases h7 with ⟨rfl, -, -⟩ | ⟨rs, ls, r, rfl, -, hg, hrl, h7⟩
  · exact absurd hrs hr
  have hreg : CachedIn (projectInputs x.ft g c m d).2 "region" c.mapPath m ls := by
    have hk := (gridLabels_ok _ _ _ _ _ _ _ _ _ hg).2.1
    rcases h8 with ⟨-, -, h8⟩ | ⟨ps', ls', r', -, -, hg', -, -⟩
    · rw [h8]; exact hk
    · exact cached_stays _ _ _ _ _ _ _ _ _ hg' hk
  obtain ⟨a', css', rs', ss', k', -, -, h3', h4', h5', -, h7', -⟩ := inputs_ok _ _ _ _ _ _ _ h2
  have hrs' := optional_read _ _ _ h5'
  rcases h7' with ⟨rfl, -, -⟩ | ⟨rs', ls', r', rfl, -, hg', hrl', h7'⟩
  · exact absurd hrs' hr
  rw [gridLabels_cached _ _ _ _ _ _ _ ls hreg] at hg'
  obtain ⟨e1, rfl⟩ := Prod.mk.inj hg'
  obtain rfl := Except.ok.inj e1
  obtain ⟨p1, -, -⟩ := regions_parts hrl
  obtain ⟨p1', -, p3'⟩ := regions_parts hrl'
  have hfaces : r'.faces = r.faces := by
    rw [p1] at p1'
    exact (Except.ok.inj p1').symm
  obtain ⟨_, _, _, _, _, _, _, _, -, -, i3, -, -, -, i7, -, -, -⟩ := setModelData_ok _ _ _ h1
  obtain ⟨_, _, _, _, _, _, _, _, -, i2', i3', -, -, -, i7', -, -, i10'⟩ := setModelData_ok _ _ _ h2
  rw [h7] at i3
  obtain rfl := Except.ok.inj i3
  rw [h7'] at i3'
  obtain rfl := Except.ok.inj i3'
  rw [h4'] at i2'
  obtain rfl := Except.ok.inj i2'
  refine ⟨?_, rs', r', hrs'.2, h7', ?_⟩
  · rw [i7, i7']; exact hfaces
  · rw [i10']
    obtain ⟨q1, q2⟩ := location_labels p3'
    refine List.forall₂_iff_get.2 ⟨q1.symm, fun i hi hj => ?_⟩
    obtain ⟨t, ht, hlab⟩ := q2 i _ (List.getElem?_eq_getElem hi)
    rw [List.getElem?_eq_getElem hj] at ht
    obtain rfl := Option.some.inj ht
    exact hlab

/-! ## C145: polygon files that cannot be used -/

/-- **C145, partial.** When a polygon file has no features, lacks names, has other geometries or unknown sections, or is not JSON, a run
returns false and leaves all files as they are. Missing: the other ways in which a file can be wrong, see
`C145_raises_violated`. -/
theorem C145_refused_partial (x : Tools K) (g : Geometries K) (o : Surroundings) (c : Settings K) (overwrite : Bool)
    (d : ProjectFiles K) (s : Store) (m : MapFile K) (a : MapData K) (t : Text) (css : CssColumns K)
    (hm : d.maps c.mapPath = some m) (ha : m.data = .ok a) (ht : d.texts c.cssPath = some t)
    (hc : cssFile x.ft ',' (some t) = .ok css)
    (hp : (c.regionPath ≠ [] ∧ readPolygons d c.regionPath = .error .polygonError) ∨
      (c.sectionPath ≠ [] ∧ readSections d c.sectionPath = .error .polygonError ∧
        (c.regionPath = [] ∨ ∃ ps, readPolygons d c.regionPath = .ok ps))) :
    projectRun x g o c overwrite d s = (s, d, .ok false) := by
  have hcss : (cssFile x.ft ',' (d.texts c.cssPath)).map locationsOf = .ok (locationsOf css) := by rw [ht, hc]; rfl
  obtain ⟨e1, e2⟩ := inputs_failed x.ft g c m d a _ ha hcss .polygonError hp x.nn
  rw [projectRun_eq x g o c overwrite d s m t hm ht, e2]
  by_cases ho : overwrite = true ∨ ¬ HasResults s
  · rw [load_failed x c.run _ o overwrite s _ ho e1, ite_self]
    rfl
  · push Not at ho
    have : overwrite = false := Bool.eq_false_iff.2 ho.1
    subst this
    rw [C49_refused _ s ho.2, ite_self]

/-- **C145, violated.** A run that is not refused raises when a polygon file is missing, has another extension or has two polygons of
the same name. It leaves all files as they are. -/
theorem C145_raises_violated (x : Tools K) (g : Geometries K) (o : Surroundings) (c : Settings K) (overwrite : Bool)
    (d : ProjectFiles K) (s : Store) (m : MapFile K) (a : MapData K) (t : Text) (css : CssColumns K)
    (hm : d.maps c.mapPath = some m) (ha : m.data = .ok a) (ht : d.texts c.cssPath = some t)
    (hc : cssFile x.ft ',' (some t) = .ok css) (ho : overwrite = true ∨ ¬ HasResults s) (path : Text) (hne : path ≠ [])
    (hp : path = c.regionPath ∨ (path = c.sectionPath ∧ (c.regionPath = [] ∨ ∃ ps, readPolygons d c.regionPath = .ok ps))) :
    (d.polygons path = none ∨ (pathSuffix path ≠ ".json".toList ∧ pathSuffix path ≠ ".geojson".toList) →
      projectRun x g o c overwrite d s = (s, d, .error .osError)) ∧
    (∀ features, (pathSuffix path = ".json".toList ∨ pathSuffix path = ".geojson".toList) →
      d.polygons path = some (.features features) →
      (∀ f ∈ features, ∃ name ring, propertyOf f.properties "name" = some name ∧ name ≠ "" ∧ SinglePolygon f.geometry ring) →
      ¬ (features.map fun f => propertyOf f.properties "name").Nodup →
      projectRun x g o c overwrite d s = (s, d, .error .valueError)) := by
  have hcss : (cssFile x.ft ',' (d.texts c.cssPath)).map locationsOf = .ok (locationsOf css) := by rw [ht, hc]; rfl
  have key : ∀ e, e ≠ .polygonError → e ≠ .initializationError → readPolygons d path = .error e →
      projectRun x g o c overwrite d s = (s, d, .error e) := by
    intro e he he' hr
    have hsec : readSections d path = .error e := by unfold readSections; rw [hr]
    obtain ⟨e1, e2⟩ := inputs_failed x.ft g c m d a _ ha hcss e (by
      rcases hp with rfl | ⟨rfl, hp⟩
      · exact .inl ⟨hne, hr⟩
      · exact .inr ⟨hne, hsec, hp⟩) x.nn
    rw [projectRun_eq x g o c overwrite d s m t hm ht, e2, load_failed x c.run _ o overwrite s _ ho e1, ite_self,
      if_neg (by rintro (h | h) <;> contradiction)]
  refine ⟨fun h => key _ (by decide) (by decide) ?_, fun features hx hf h1 h2 => key _ (by decide) (by decide) ?_⟩
  · unfold readPolygons validateExtension
    by_cases hx : pathSuffix path = ".json".toList ∨ pathSuffix path = ".geojson".toList
    · rw [if_pos hx]
      simp only
      rcases h with h | h
      · rw [h]
      · exact absurd hx (by rintro (h' | h'); exacts [h.1 h', h.2 h'])
    · rw [if_neg hx]
  · unfold readPolygons validateExtension
    rw [if_pos hx]
    simp only
    rw [hf]
    exact duplicate_names features h1 h2

/-! ## C146: polygons without a region -/

/-- **C146, violated.** Region polygons are said to need a region. A file whose polygons have distinct names is accepted whatever else
they have, and a node that is only in polygons without a region gets no region, not even the default one. -/
theorem C146_no_region_violated (d : ProjectFiles K) (path : Text) (features : List (Feature K))
    (hx : pathSuffix path = ".json".toList ∨ pathSuffix path = ".geojson".toList)
    (hf : d.polygons path = some (.features features)) (hne : features ≠ [])
    (h1 : ∀ f ∈ features, ∃ name ring, propertyOf f.properties "name" = some name ∧ name ≠ "" ∧ SinglePolygon f.geometry ring)
    (h2 : (features.map fun f => propertyOf f.properties "name").Nodup)
    (h3 : ∀ f ∈ features, propertyOf f.properties "region" = none) :
    ∃ ps, readPolygons d path = .ok ps ∧ ∀ inside default p, containing inside ps p ≠ [] →
      polygonLabel inside "region" default ps p = none := by
  obtain ⟨ps, hps⟩ := (C33_accepted_iff_partial features fun f hf => .inr ⟨_, (h1 f hf).choose_spec.choose_spec.2.2⟩).2 ⟨hne, h1, h2⟩
  refine ⟨ps, ?_, fun inside default p hp => ?_⟩
  · unfold readPolygons validateExtension
    rw [if_pos hx]
    simp only
    rw [hf]
    exact hps
  · unfold polygonLabel
    cases hq : (containing inside ps p).getLast? with
    | none => exact absurd (List.getLast?_eq_none_iff.1 hq) hp
    | some q =>
      simp only
      have hmem : q ∈ ps := List.mem_of_mem_filter (List.mem_of_getLast? hq)
      obtain ⟨i, hi⟩ := List.getElem?_of_mem hmem
      obtain ⟨c1, c2, -, -⟩ := C33_complete features ps hps
      have hlt := (List.getElem?_eq_some_iff.1 hi).1
      rw [c1] at hlt
      rw [(c2 i _ q (List.getElem?_eq_getElem hlt) hi).1]
      exact h3 _ (List.getElem_mem hlt)

/-! ## C147: a section that has no file -/

private theorem tryBlock_stops (w : WriteFaults) (xs ys : List ExportStep) (e : PyErr) (s : Store) :
    tryBlock w (xs ++ .fail e :: ys) s = tryBlock w xs s := by
  induction xs generalizing s with
  | nil => rfl
  | cons x xs ih =>
    rw [List.cons_append, tryBlock, tryBlock]
    cases x.run w s with
    | mk s' r =>
      cases r with
      | none => exact ih s'
      | some e' => rfl

private theorem roughness_file_name : ∀ q ∈ roughnessFiles, sectionFile q.1.toList = some (q.2.1.toList, q.2.2.toList) ∧
    q.2.1.toList ∉ ["geometry.csv".toList, "roughness.csv".toList] ∧
    q.2.1.toList ∉ ["geometry_test.csv".toList, "volumes.csv".toList] ∧
    q.2.1.toList ≠ "CrossSectionLocations.ini".toList ∧ q.2.1.toList ≠ "CrossSectionDefinitions.ini".toList ∧
    q.2.1 ∈ resultFiles := by
  decide +kernel

private theorem sectionFile_of_name (t : Text) (q : String × String × String) (hq : q ∈ roughnessFiles) (id : Text)
    (h : sectionFile t = some (q.2.1.toList, id)) : t = q.1.toList := by
  unfold sectionFile at h
  have hn : ∀ q ∈ roughnessFiles, ∀ q' ∈ roughnessFiles, q.2.1.toList = q'.2.1.toList → q.1.toList = q'.1.toList := by decide +kernel
  split at h
  · rename_i ht
    rw [ht]
    exact hn ("main", "roughness-Main.ini", "Main") (by decide) q hq (Prod.mk.inj (Option.some.inj h)).1
  · split at h
    · rename_i ht
      rw [ht]
      exact hn ("floodplain1", "roughness-FloodPlain1.ini", "FloodPlain1") (by decide) q hq (Prod.mk.inj (Option.some.inj h)).1
    · split at h
      · rename_i ht
        rw [ht]
        exact hn ("floodplain2", "roughness-FloodPlain2.ini", "FloodPlain2") (by decide) q hq (Prod.mk.inj (Option.some.inj h)).1
      · cases h

/-- The files of sections that come after one without a file are not written. -/
private theorem dimr_stops {C : Type} (w : WriteFaults) (x : Exporter C) (cs : List C) (s : Store) (t : Text)
    (ht : t ∈ cs.flatMap x.sections) (hu : sectionFile t = none) (q : String × String × String) (hq : q ∈ roughnessFiles)
    (hlt : t < q.1.toList) : tryBlock w (dimrBlock x cs) s q.2.1.toList = s q.2.1.toList := by
  obtain ⟨-, -, -, n1, n2, -⟩ := roughness_file_name q hq
  have hmem := (mem_npUnique _ _).2 ht
  obtain ⟨pre, post, hsplit⟩ := List.append_of_mem hmem
  have hsorted := npUnique_sorted (cs.flatMap x.sections)
  rw [hsplit] at hsorted
  have hpre : ∀ u ∈ pre, u < t := fun u hu => (List.pairwise_append.1 hsorted).2.2 u hu t List.mem_cons_self
  unfold dimrBlock
  rw [hsplit, List.map_append, List.map_cons]
  have hstep : roughnessStep x cs t = .fail .keyError := by unfold roughnessStep; rw [hu]
  rw [hstep, ← List.cons_append, ← List.cons_append, tryBlock_stops]
  apply tryBlock_other
  intro hf
  unfold blockFiles at hf
  rw [List.filterMap_cons, List.filterMap_cons] at hf
  simp only [ExportStep.file?] at hf
  rcases List.mem_cons.1 hf with e | hf
  · exact n1 e
  rcases List.mem_cons.1 hf with e | hf
  · exact n2 e
  obtain ⟨st, hst, hfile⟩ := List.mem_filterMap.1 hf
  obtain ⟨u, hu', rfl⟩ := List.mem_map.1 hst
  unfold roughnessStep at hfile
  cases hsf : sectionFile u with
  | none => rw [hsf] at hfile; cases hfile
  | some p =>
    rw [hsf] at hfile
    have hp : p.1 = q.2.1.toList := Option.some.inj hfile
    have := sectionFile_of_name u q hq p.2 (by rw [hsf, ← hp])
    rw [this] at hu'
    exact absurd (hpre _ hu') (not_lt.2 hlt.le)

private theorem forall₂_left {α β : Type} {R : α → β → Prop} {as : List α} {bs : List β} (h : List.Forall₂ R as bs) :
    ∀ a ∈ as, ∃ b ∈ bs, R a b := by
  induction h with
  | nil => intro a ha; cases ha
  | cons hr _ ih =>
    intro a ha
    rcases List.mem_cons.1 ha with rfl | ha
    · exact ⟨_, List.mem_cons_self, hr⟩
    · obtain ⟨b, hb, hab⟩ := ih a ha
      exact ⟨b, List.mem_cons_of_mem _ hb, hab⟩

/-- **C147, violated.** When a requested location has an edge in a section with another name than the three known ones, such as `Main`
(which is accepted in a section file) or a `DefaultSection` of one's own, a run that returns true leaves the roughness files of all
sections whose names come later in the alphabet as they were. Capitals come before all other letters. -/
theorem C147_unknown_section_violated (x : Tools K) (cfg : RunConfig K) (i : Inputs K) (hi : Consistent i) (o : Surroundings)
    (overwrite : Bool) (s : Store) (h : (run (jobOf x cfg i o) overwrite s).2 = .ok true) (m : Model2d K)
    (hm : setModelData x.nn i = .ok m) (xs : List (Loc K)) (hx : Requested cfg.cssSelection m.stations xs) (l : Loc K) (hl : l ∈ xs)
    (hu : Usable m l) (t : Text) (he : HasEdge m l t) (ht : ∀ q ∈ roughnessFiles, t ≠ q.1.toList) :
    ∀ q ∈ roughnessFiles, t < q.1.toList → (run (jobOf x cfg i o) overwrite s).1 q.2.1.toList = s q.2.1.toList := by
  intro q hq hlt
  obtain ⟨-, n1, n2, -, -, n3⟩ := roughness_file_name q hq
  obtain ⟨cs, hcs, hfiles⟩ := run_exports_of x cfg i o overwrite s hi m hm xs hx (C52_in_order (jobOf x cfg i o) overwrite s h)
  rw [hfiles _ ⟨q.2.1, n3, rfl⟩]
  obtain ⟨c, hc, hb⟩ := forall₂_left hcs l (List.mem_filter.2 ⟨hl, decide_eq_true hu⟩)
  have hsec := (hasEdge_sections x cfg m (loaded2d x.nn i hi m hm) l c hb t).2 he
  have hnone : sectionFile t = none := by
    unfold sectionFile
    rw [if_neg (ht ("main", "roughness-Main.ini", "Main") (by decide)),
      if_neg (ht ("floodplain1", "roughness-FloodPlain1.ini", "FloodPlain1") (by decide)),
      if_neg (ht ("floodplain2", "roughness-FloodPlain2.ini", "FloodPlain2") (by decide))]
  have hin : t ∈ (harmoniseCss cs).flatMap (exporterOf x).sections := by
    have hres := harmonise_sections (cs.map fun c => c.out.tables)
    rw [← harmoniseCss_tables, List.map_map, List.map_map] at hres
    have hk : c.out.tables.map (·.1) ∈ (harmoniseCss cs).map ((fun tb => tb.map (·.1)) ∘ fun c => c.out.tables) := by
      rw [hres]; exact List.mem_map.2 ⟨c, hc, rfl⟩
    obtain ⟨c', hc', e⟩ := List.mem_map.1 hk
    exact List.mem_flatMap.2 ⟨c', hc', by show t ∈ c'.out.tables.map (·.1); rw [show c'.out.tables.map (·.1) = _ from e]; exact hsec⟩
  have hne : harmoniseCss cs ≠ [] := by
    intro e
    rw [e] at hin
    cases hin
  cases hd : o.dirExists with
  | false =>
    unfold writeOutput
    rw [if_pos (by rw [Bool.not_false, Bool.or_true])]
  | true =>
    rw [writeOutput_dimr _ _ _ hne _ _ n1 n2]
    exact dimr_stops _ _ _ _ t hin hnone q hq hlt

/-! ## Examples -/

/-- A map file of thirteen faces with their first nodes. -/
def sampleMapFile : MapFile ℚ :=
  { data := .ok sampleMap, nodes := (List.range 13).map fun (i : Nat) => ((i : ℚ), 0)
    faceNodes := (List.range 13).map (· + 1), edgeNodes := [1, 2, 3, 4], stamp := (7, 100) }

/-- Sections and regions. -/
def samplePolygons : Text → Option (PolygonFile ℚ) := fun path =>
  if path = "sections.geojson".toList then
    some (.features [⟨[("Name", "channel"), ("Section", "1")], .polygon [[(0, 0), (5, 1)]]⟩,
      ⟨[("Name", "bank"), ("Section", "floodplain1")], .polygon [[(1, 0), (1, 1)]]⟩])
  else if path = "regions.json".toList then
    some (.features [⟨[("Name", "all"), ("Region", "west")], .polygon [[(0, 0), (99, 99)]]⟩])
  else if path = "double.json".toList then
    some (.features [⟨[("Name", "a"), ("Section", "1")], .polygon [[(0, 0), (5, 1)]]⟩,
      ⟨[("Name", "a"), ("Section", "2")], .polygon [[(1, 0), (1, 1)]]⟩])
  else if path = "empty.json".toList then some (.features [])
  else none

/-- The files of a project. -/
def sampleProject : ProjectFiles ℚ :=
  { maps := fun path => if path = "map.nc".toList then some sampleMapFile else none
    texts := fun path => if path = "css.xyz".toList then
      some "rhine_100,5,0,10,rhine,100\nrhine_900,20,0,10,rhine,900\n".toList else none
    polygons := samplePolygons, caches := fun _ => none }

/-- Containment in rectangles. -/
def sampleGeometries : Geometries ℚ := ⟨inRectangle, fun p r => inRectangle r p⟩

/-- The settings of a project with sections and regions. -/
def sampleSettings : Settings ℚ :=
  { run := sampleRunConfig, defaultRegion := "somewhere".toList, defaultSection := "floodplain2".toList, mapPath := "map.nc".toList
    cssPath := "css.xyz".toList, regionPath := "regions.json".toList, sectionPath := "sections.geojson".toList, mapIsText := false }

/-- There are no cache files, a run succeeds, and leaves both; sections and regions are those of the polygons. -/
example : ¬ Cached sampleProject "section" "map.nc".toList sampleMapFile ∧
    (projectRun sampleTools sampleGeometries sampleSurroundings sampleSettings false sampleProject noFiles).2.2.toOption = some true ∧
    ((projectRun sampleTools sampleGeometries sampleSurroundings sampleSettings false sampleProject noFiles).2.1.caches
      "map.section_cache.json".toList).map (fun c => match c with | .damaged => [] | .labels c => c.result.2) =
        some [some "main", some "floodplain1", some "main", some "main"] ∧
    ((projectRun sampleTools sampleGeometries sampleSurroundings sampleSettings false sampleProject noFiles).2.1.caches
      "map.region_cache.json".toList).isSome = true ∧
    (setModelData sampleTools.nn (projectInputs sampleTools.ft sampleGeometries sampleSettings sampleMapFile sampleProject).1).toOption.map
      (fun m => (m.faces.sect.take 3, m.faces.sect.drop 11, m.faces.region.take 1)) =
        some (["main".toList, "floodplain1".toList, "main".toList], ["floodplain2".toList, "floodplain2".toList], ["west".toList]) := by
  refine ⟨?_, by decide +kernel, by decide +kernel, by decide +kernel, by decide +kernel⟩
  rintro ⟨_, _, _, h, _⟩
  cases h

/-- The cross-sections of this run. -/
example : (setModelData sampleTools.nn (projectInputs sampleTools.ft sampleGeometries sampleSettings sampleMapFile sampleProject).1).toOption.map
      (fun m => m.stations.map fun l => (l.id, l.x, l.length, l.chainage)) =
    some [("rhine_100".toList, 5, 10, 100), ("rhine_900".toList, 20, 10, 900)] := by decide +kernel

/-- With `Main` for the channel instead of its number. -/
def capitalInputs : Inputs ℚ :=
  { sampleSectionInputs with
    sections := some (.ok {
      faces := [0, 1, 2, 0, 1, 2, 0, 1, 2, 0, 0, 2, 2].map fun k => if k = 1 then "floodplain1".toList else "Main".toList
      edges := ["Main".toList, "floodplain1".toList, "Main".toList, "Main".toList] }) }

/-- A run succeeds, with a location that has an edge in this section, and there is no roughness file at all. -/
example :
    (run (jobOf sampleTools sampleRunConfig capitalInputs sampleSurroundings) false noFiles).2.toOption = some true ∧
    (∃ m, setModelData sampleTools.nn capitalInputs = .ok m ∧ ∃ l ∈ m.stations, Usable m l ∧ HasEdge m l "Main".toList) ∧
    (∀ q ∈ roughnessFiles, "Main".toList ≠ q.1.toList ∧ "Main".toList < q.1.toList) ∧
    ∀ q ∈ roughnessFiles,
      (run (jobOf sampleTools sampleRunConfig capitalInputs sampleSurroundings) false noFiles).1 q.2.1.toList = none := by
  refine ⟨by decide +kernel, ?_, by decide +kernel, by decide +kernel⟩
  cases hm : setModelData sampleTools.nn capitalInputs with
  | error e =>
    have : (setModelData sampleTools.nn capitalInputs).toOption.isSome = true := by decide +kernel
    rw [hm] at this
    cases this
  | ok m =>
    have hl : ((setModelData sampleTools.nn capitalInputs).toOption.map fun m =>
        (m.stations.head?.map (·.id), decide (∃ l ∈ m.stations.head?, Usable m l), m.edges.sclass[0]?, m.edges.sect[0]?)) =
        some (some "rhine_100".toList, true, some "rhine_100".toList, some "Main".toList) := by decide +kernel
    rw [hm] at hl
    have hl' := Option.some.inj hl
    simp only [Prod.mk.injEq, decide_eq_true_eq] at hl'
    obtain ⟨h1, ⟨l, h2, h3⟩, h4, h5⟩ := hl'
    rw [h2] at h1
    refine ⟨m, rfl, l, List.mem_of_head? h2, h3, 0, ?_, h5⟩
    rw [h4]
    exact h1.symm

/-- Features without a region. -/
example : ∀ f ∈ twoFeatures, propertyOf f.properties "region" = none := by decide +kernel

/-- The map file fits. -/
example : ∀ a, sampleMapFile.data = .ok a → Columns a ∧ sampleMapFile.faceNodes.length = a.faces.x.length ∧
    sampleMapFile.edgeNodes.length = a.edges.x.length := by
  intro a ha
  obtain rfl := Except.ok.inj ha
  exact ⟨sampleInputs_consistent.map _ rfl, rfl, rfl⟩

/-- Files that cannot be used: no features, two polygons of one name, another extension, missing. -/
example :
    (match readSections sampleProject "empty.json".toList with | .error .polygonError => true | _ => false) = true ∧
    (match readPolygons sampleProject "double.json".toList with | .error .valueError => true | _ => false) = true ∧
    (match readPolygons sampleProject "sections.txt".toList with | .error .osError => true | _ => false) = true ∧
    (match readPolygons sampleProject "others.json".toList with | .error .osError => true | _ => false) = true := by
  decide +kernel

end Fm2prof.Props
