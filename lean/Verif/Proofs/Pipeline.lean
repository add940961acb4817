import Verif.Spec.Pipeline
import Verif.Proofs.Runner
import Verif.Proofs.Roughness
import Verif.Proofs.Export
import Verif.Proofs.VolumeFile
import Verif.Proofs.Classify

/-! Helper lemmas on runs with their data. -/

set_option linter.unusedSectionVars false

namespace Fm2prof

open Spec

variable {K : Type} [Field K] [LinearOrder K] [IsStrictOrderedRing K] [FloorRing K]

/-! ## Loading -/

theorem gridPoints_length (x y : List K) (r : List Text) (hy : y.length = x.length) (hr : r.length = x.length) :
    (gridPoints x y r).length = x.length := by
  simp [gridPoints, hy, hr]

theorem predict_length {ι : Type} [DecidableEq ι] (nn : NearestPicker K) (css : List (Station ι K))
    (pts : List (GridPoint ι K)) (l : List ι) (h : predict nn css pts = .ok l) : l.length = pts.length := by
  unfold predict at h
  split at h
  · cases h
  · rename_i hc
    rw [not_or] at hc
    have hl := Except.ok.inj h
    rw [← hl]
    have : ∀ p : GridPoint ι K, ∃ i, (css[nn.pick (css.map (·.pos)) p.pos]?).map (·.id) = some i := by
      intro p
      have hlt := nn.pick_lt (css.map (·.pos)) p.pos (by simpa using hc.1)
      rw [List.length_map] at hlt
      exact ⟨_, by rw [List.getElem?_eq_getElem hlt]; rfl⟩
    clear h hl hc
    induction pts with
    | nil => rfl
    | cons p ps ih =>
      obtain ⟨i, hi⟩ := this p
      rw [List.filterMap_cons, hi]
      simp only [List.length_cons, ih]

theorem classifyRegions_length {ι : Type} [DecidableEq ι] (nn : NearestPicker K) (trunc : ι → ι)
    (css : List (Station ι K)) (faces edges : List (GridPoint ι K)) (rs : List ι) (a b : List ι × List ι)
    (h : classifyRegions nn trunc css faces edges rs a = .ok b) :
    b.1.length = a.1.length ∧ b.2.length = a.2.length := by
  induction rs generalizing a with
  | nil => rw [classifyRegions] at h; cases h; exact ⟨rfl, rfl⟩
  | cons r rs ih =>
    rw [classifyRegions] at h
    cases hr : classifyRegion nn trunc css faces edges r a with
    | error e => rw [hr] at h; cases h
    | ok a' =>
      rw [hr] at h
      simp only at h
      have h1 := ih a' h
      have h2 : a'.1.length = a.1.length ∧ a'.2.length = a.2.length := by
        unfold classifyRegion at hr
        split at hr
        · cases hr; exact ⟨rfl, rfl⟩
        · split at hr
          · cases hr
          · split at hr
            · cases hr
            · cases hr
              exact ⟨length_scatter _ _ _, length_scatter _ _ _⟩
      exact ⟨h1.1.trans h2.1, h1.2.trans h2.2⟩

theorem assignCss_length (nn : NearestPicker K) (d : MapData K) (css : List (Loc K)) (r : Option RegionLabels)
    (hd : Columns d) (hr : ∀ r', r = some r' → r'.faces.length = d.faces.x.length ∧ r'.edges.length = d.edges.x.length)
    (f e : List Text) (h : assignCss nn d css r = .ok (f, e)) :
    f.length = d.faces.x.length ∧ e.length = d.edges.x.length := by
  cases r with
  | none =>
    unfold assignCss classifyWithoutRegions at h
    simp only at h
    split at h
    · cases h
    · rename_i f' hf
      split at h
      · cases h
      · rename_i e' he
        cases h
        rw [predict_length _ _ _ _ hf, predict_length _ _ _ _ he, gridPoints_length _ _ _ hd.y (by simp),
          gridPoints_length _ _ _ hd.edgeY (by simp)]
        exact ⟨rfl, rfl⟩
  | some r =>
    obtain ⟨h1, h2⟩ := hr r rfl
    unfold assignCss classifyWithRegions at h
    simp only at h
    have := classifyRegions_length _ _ _ _ _ _ _ _ h
    simp only [List.length_map] at this
    rw [gridPoints_length _ _ _ hd.y h1, gridPoints_length _ _ _ hd.edgeY h2] at this
    exact this

theorem allSome_length {α : Type} (l : List (Option α)) (r : List α) (h : allSome l = some r) : r.length = l.length := by
  induction l generalizing r with
  | nil => cases h; rfl
  | cons x xs ih =>
    cases x with
    | none => cases h
    | some x =>
      rw [allSome] at h
      cases hx : allSome xs with
      | none => rw [hx] at h; cases h
      | some ys => rw [hx] at h; cases h; simp [ih ys hx]

theorem classifySections_length (values : List K) (l : List Nat) (h : classifySections values = .ok l) :
    l.length = values.length := by
  unfold classifySections at h
  split at h
  · split at h
    · cases h; simp
    · split at h
      · cases h
      · split at h
        · cases h
        · cases h; simp
  · cases h

theorem sectionsByVariance_length (series : List (List (Option K))) (l : List Nat)
    (h : sectionsByVariance series = .ok l) : l.length = series.length := by
  unfold sectionsByVariance at h
  split at h
  · cases h
  · rename_i v hv
    rw [classifySections_length _ _ h, allSome_length _ _ hv, List.length_map]

/-- What loading has done when it succeeds. -/
theorem setModelData_ok (nn : NearestPicker K) (i : Inputs K) (m : Model2d K) (h : setModelData nn i = .ok m) :
    ∃ d css regions sections faceCss edgeCss faceSect edgeSect, i.map = .ok d ∧ i.css = .ok css ∧
      readOptional i.regions = .ok regions ∧ readOptional i.sections = .ok sections ∧
      assignCss nn d css regions = .ok (faceCss, edgeCss) ∧
      assignSections d sections = .ok (faceSect, edgeSect, m.numbered) ∧
      m.faces = { d.faces with sclass := faceCss, sect := faceSect
                               region := (regions.map fun r => r.faces).getD d.faces.region } ∧
      m.edges = { d.edges with sclass := edgeCss, sect := edgeSect } ∧ m.nMaps = d.nMaps ∧ m.stations = css := by
  unfold setModelData at h
  split at h
  · cases h
  · rename_i d hd
    split at h
    · cases h
    · rename_i css hc
      split at h
      · cases h
      · rename_i r hr
        split at h
        · cases h
        · rename_i sec hs
          split at h
          · cases h
          · rename_i fc ec ha
            split at h
            · cases h
            · rename_i fs es nb hb
              cases h
              exact ⟨d, css, r, sec, fc, ec, fs, es, hd, hc, hr, hs, ha, hb, rfl, rfl, rfl, rfl⟩

theorem readOptional_some {α : Type} (o : Option (Except PyErr α)) (a : α) (h : readOptional o = .ok (some a)) :
    o = some (.ok a) := by
  cases o with
  | none => cases h
  | some r =>
    cases r with
    | error e => cases h
    | ok b => cases h; rfl

theorem readOptional_none {α : Type} (o : Option (Except PyErr α)) (h : readOptional o = .ok none) : o = none := by
  cases o with
  | none => rfl
  | some r => cases r <;> cases h

/-- All columns of the loaded data have one entry per face or per edge. -/
structure Loaded2d (m : Model2d K) : Prop where
  x : m.faces.x.length = m.faces.sclass.length
  y : m.faces.y.length = m.faces.sclass.length
  area : m.faces.area.length = m.faces.sclass.length
  bedlevel : m.faces.bedlevel.length = m.faces.sclass.length
  sect : m.faces.sect.length = m.faces.sclass.length
  waterdepth : m.faces.waterdepth.length = m.faces.sclass.length
  waterlevel : m.faces.waterlevel.length = m.faces.sclass.length
  velocityX : m.faces.velocityX.length = m.faces.sclass.length
  velocityY : m.faces.velocityY.length = m.faces.sclass.length
  edgeSect : m.edges.sect.length = m.edges.sclass.length
  edgeChezy : m.edges.chezy.length = m.edges.sclass.length

theorem loaded2d (nn : NearestPicker K) (i : Inputs K) (hi : Consistent i) (m : Model2d K) (h : setModelData nn i = .ok m) :
    Loaded2d m := by
  obtain ⟨d, css, r, sec, fc, ec, fs, es, hd, hc, hr, hs, ha, hb, hf, he, hn, hst⟩ := setModelData_ok nn i m h
  have hcol := hi.map d hd
  have hlab : ∀ r', r = some r' → r'.faces.length = d.faces.x.length ∧ r'.edges.length = d.edges.x.length := by
    intro r' hr'
    subst hr'
    have := hi.regions d css r' hd hc (readOptional_some _ _ hr)
    exact ⟨this.1, this.2.1⟩
  obtain ⟨h1, h2⟩ := assignCss_length nn d css r hcol hlab fc ec ha
  have h3 : fs.length = d.faces.x.length ∧ es.length = d.edges.x.length := by
    cases sec with
    | some sec =>
      unfold assignSections at hb
      have hb := Except.ok.inj hb
      rw [← (Prod.mk.inj hb).1, ← (Prod.mk.inj (Prod.mk.inj hb).2).1]
      exact hi.sections d sec hd (readOptional_some _ _ hs)
    | none =>
      unfold assignSections at hb
      simp only at hb
      split at hb
      · cases hb
      · rename_i e' he'
        split at hb
        · cases hb
        · rename_i f' hf'
          have hb := Except.ok.inj hb
          have e1 : fs = f'.map natText := (Prod.mk.inj hb).1.symm
          have e2 : es = e'.map natText := (Prod.mk.inj (Prod.mk.inj hb).2).1.symm
          rw [e1, e2, List.length_map, List.length_map, sectionsByVariance_length _ _ he',
            sectionsByVariance_length _ _ hf']
          exact ⟨hcol.chezyMean, hcol.edgeChezy⟩
  rw [← h1, ← h2] at h3
  constructor <;> simp only [hf, he]
  · exact h1.symm
  · rw [hcol.y, h1]
  · rw [hcol.area, h1]
  · rw [hcol.bedlevel, h1]
  · exact h3.1
  · rw [hcol.waterdepth, h1]
  · rw [hcol.waterlevel, h1]
  · rw [hcol.velocityX, h1]
  · rw [hcol.velocityY, h1]
  · exact h3.2
  · rw [hcol.edgeChezy, h2]

theorem selection_x (x : Tools K) (m : Model2d K) (hm : Loaded2d m) (id : Text) :
    (getSelection x.sqrt m.faces m.edges id).x.length = (rowsOf m.faces.sclass id).length := by
  show (maskSelect _ _).length = _
  rw [maskSelect_rows _ _ _ hm.x]
  unfold atRows
  have : ∀ r ∈ rowsOf m.faces.sclass id, ∃ v, m.faces.x[r]? = some v := by
    intro r hr
    have := (List.mem_range.1 (List.mem_filter.1 hr).1)
    rw [← hm.x] at this
    exact ⟨_, List.getElem?_eq_getElem this⟩
  generalize rowsOf m.faces.sclass id = rows at this
  induction rows with
  | nil => rfl
  | cons r rs ih =>
    obtain ⟨v, hv⟩ := this r List.mem_cons_self
    rw [List.filterMap_cons, hv]
    simp only [List.length_cons, ih fun r hr => this r (List.mem_cons_of_mem _ hr)]

/-! ## Harmonised tables -/

theorem resampleAll_length {σ : Type} [LinearOrder σ] (s : σ) (z : List K) (l : List (Tables σ K)) :
    (resampleAll s z l).1.length = l.length := by
  induction l with
  | nil => rfl
  | cons c cs ih =>
    rw [resampleAll]
    split
    · rfl
    · simp only [List.length_cons, ih]

theorem harmoniseSection_length {σ : Type} [LinearOrder σ] (s : σ) (l : List (Tables σ K)) :
    (harmoniseSection s l).1.length = l.length := by
  unfold harmoniseSection
  split
  · rfl
  · exact resampleAll_length _ _ _

theorem harmoniseSections_length {σ : Type} [LinearOrder σ] (ss : List σ) (l : List (Tables σ K)) :
    (harmoniseSections ss l).1.length = l.length := by
  induction ss generalizing l with
  | nil => rfl
  | cons s ss ih =>
    rw [harmoniseSections]
    split
    · rw [ih, harmoniseSection_length]
    · exact harmoniseSection_length _ _

theorem harmonise_length {σ : Type} [LinearOrder σ] (l : List (Tables σ K)) : (harmonise l).1.length = l.length :=
  harmoniseSections_length _ _

theorem resampleCss_keys {σ : Type} [LinearOrder σ] (s : σ) (z : List K) (c c' : Tables σ K) (h : resampleCss s z c = .ok c') :
    c'.map (·.1) = c.map (·.1) := by
  unfold resampleCss at h
  split at h
  · cases h; rfl
  · split at h
    · cases h
    · cases h
      unfold Tables.setTable
      rw [List.map_map]
      refine List.map_congr_left fun p _ => ?_
      simp only [Function.comp_apply]
      split <;> rfl

theorem resampleAll_keys {σ : Type} [LinearOrder σ] (s : σ) (z : List K) (l : List (Tables σ K)) :
    (resampleAll s z l).1.map (fun c => c.map (·.1)) = l.map fun c => c.map (·.1) := by
  induction l with
  | nil => rfl
  | cons c cs ih =>
    rw [resampleAll]
    split
    · rfl
    · rename_i c' hc
      simp only [List.map_cons, ih, resampleCss_keys s z c c' hc]

theorem harmoniseSection_keys {σ : Type} [LinearOrder σ] (s : σ) (l : List (Tables σ K)) :
    (harmoniseSection s l).1.map (fun c => c.map (·.1)) = l.map fun c => c.map (·.1) := by
  unfold harmoniseSection
  split
  · rfl
  · exact resampleAll_keys _ _ _

/-- Harmonising keeps the sections of each cross-section, whether it succeeds or not. -/
theorem harmonise_sections {σ : Type} [LinearOrder σ] (l : List (Tables σ K)) :
    (harmonise l).1.map (fun c => c.map (·.1)) = l.map fun c => c.map (·.1) := by
  have : ∀ (ss : List σ) (l : List (Tables σ K)),
      (harmoniseSections ss l).1.map (fun c => c.map (·.1)) = l.map fun c => c.map (·.1) := by
    intro ss
    induction ss with
    | nil => intro l; rfl
    | cons s ss ih =>
      intro l
      rw [harmoniseSections]
      split
      · rw [ih, harmoniseSection_keys]
      · exact harmoniseSection_keys _ _
  exact this _ l

theorem harmoniseCss_length (cs : List (Finished K)) : (harmoniseCss cs).length = cs.length := by
  unfold harmoniseCss
  rw [List.length_zipWith, harmonise_length, List.length_map, Nat.min_self]

theorem zipWith_map_left {α β γ : Type} (f : α → β → α) (g : α → γ) (hg : ∀ a b, g (f a b) = g a) (as : List α)
    (bs : List β) (hl : as.length ≤ bs.length) : (List.zipWith f as bs).map g = as.map g := by
  induction as generalizing bs with
  | nil => rfl
  | cons a as ih =>
    cases bs with
    | nil => simp at hl
    | cons b bs => simp only [List.zipWith_cons_cons, List.map_cons, hg, ih bs (by simpa using hl)]

/-- Everything but the tables is as before harmonising. -/
theorem harmoniseCss_map {γ : Type} (g : Finished K → γ) (hg : ∀ c t, g (Finished.withTables c t) = g c)
    (cs : List (Finished K)) : (harmoniseCss cs).map g = cs.map g := by
  unfold harmoniseCss
  refine zipWith_map_left _ _ hg _ _ ?_
  rw [harmonise_length, List.length_map]

theorem harmoniseCss_tables (cs : List (Finished K)) :
    (harmoniseCss cs).map (fun c => c.out.tables) = (harmonise (cs.map fun c => c.out.tables)).1 := by
  have h : (harmonise (cs.map fun c => c.out.tables)).1.length = cs.length := by rw [harmonise_length, List.length_map]
  unfold harmoniseCss
  generalize (harmonise (cs.map fun c => c.out.tables)).1 = ts at h
  induction cs generalizing ts with
  | nil =>
    cases ts with
    | nil => rfl
    | cons t ts => simp at h
  | cons c cs ih =>
    cases ts with
    | nil => simp at h
    | cons t ts =>
      simp only [List.zipWith_cons_cons, List.map_cons, Finished.withTables]
      rw [ih ts (by simpa using h)]

theorem definitions_harmonised (ft : FloatText K) (cs : List (Finished K)) :
    exportDefinitions ft ((harmoniseCss cs).map (·.out)) = exportDefinitions ft (cs.map (·.out)) := by
  unfold exportDefinitions
  rw [List.map_map, List.map_map]
  have := harmoniseCss_map (definitionBlock ft ∘ fun c => c.out) (fun c t => rfl) cs
  rw [this]

theorem locations_harmonised (ft : FloatText K) (cs : List (Finished K)) :
    exportLocations ft ((harmoniseCss cs).map (·.out)) = exportLocations ft (cs.map (·.out)) := by
  unfold exportLocations
  rw [List.map_map, List.map_map]
  have := harmoniseCss_map (locationBlock ft ∘ fun c => c.out) (fun c t => rfl) cs
  rw [this]

/-! ## Building -/

/-- What building a cross-section has done when it succeeds. -/
theorem buildCss_ok (x : Tools K) (cfg : RunConfig K) (m : Model2d K) (l : Loc K) (c : Finished K)
    (h : buildCss x cfg m l = .ok c) :
    buildCrossSectionGeometry (x.opt l.id) cfg.pipeline x.bump x.release (x.log l.id) l.length
        (centreOf x.nn (getSelection x.sqrt m.faces m.edges l.id) l)
        (controlVolumeOf m.nMaps (getSelection x.sqrt m.faces m.edges l.id)) = .ok c.css ∧
      assignRoughness cfg m (getSelection x.sqrt m.faces m.edges l.id) l.length c.css =
        .ok (c.out.tables, c.out.widths, c.out.floodplainBase) ∧
      c.css.crestLevel = some c.out.crestLevel ∧ c.css.extraFlowArea = some c.out.extraFlowArea ∧
      c.css.extraTotalArea = some c.out.extraTotalArea ∧ c.css.extraTotalVolume = some c.out.extraTotalVolume ∧
      c.out.name = l.id ∧ c.out.branch = l.branch ∧ c.out.chainage = l.chainage ∧ c.out.z = c.css.z ∧
      c.out.flowWidth = c.css.flowWidth ∧ c.out.totalWidth = c.css.totalWidth ∧ c.out.volumes = volumeTableOf c.css ∧
      c.points = maskData l.id (getSelection x.sqrt m.faces m.edges l.id) := by
  unfold buildCss at h
  simp only at h
  split at h
  · cases h
  · rename_i css hcss
    split at h
    · cases h
    · rename_i t w b hr
      split at h
      · rename_i h1 h2 h3 h4
        cases h
        exact ⟨hcss, hr, h1, h2, h3, h4, rfl, rfl, rfl, rfl, rfl, rfl, rfl, rfl⟩
      · cases h

theorem assignRoughness_ok (cfg : RunConfig K) (m : Model2d K) (s : Selection Text K) (len : K) (css : Css K)
    (t : Tables Text K) (w : SectionWidths K) (b : Option K) (h : assignRoughness cfg m s len css = .ok (t, w, b)) :
    ∃ level, allSome css.raw.zRoughness = some level ∧
      buildRoughnessTables cfg.frictionWeighing none (sliceStart m.nMaps cfg.pipeline.build.skipMaps) m.nMaps level
        (linksOf s) = .ok t ∧
      computeSectionWidths len (sectionFacesOf m.numbered s) css.flowWidth css.raw.flowWidth = .ok w ∧
      b = floodplainBase css.crestLevel cfg.floodplainTolerance (sectionFacesOf m.numbered s) := by
  unfold assignRoughness at h
  split at h
  · cases h
  · rename_i level hl
    split at h
    · cases h
    · rename_i t' ht
      split at h
      · cases h
      · rename_i w' hw
        cases h
        exact ⟨level, hl, ht, hw, rfl⟩

/-! ## Writing -/

theorem writeOutput_unfold {C : Type} (w : WriteFaults) (x : Exporter C) (cs : List C) (hcs : cs ≠ []) (s : Store) :
    writeOutput w x true cs s =
      tryBlock w (otherBlock x cs) (tryBlock w (sobekBlock' x cs) (tryBlock w (dimrBlock x cs) s)) := by
  unfold writeOutput
  cases cs with
  | nil => exact absurd rfl hcs
  | cons c cs => rfl

theorem not_mem_sobek {C : Type} (x : Exporter C) (cs : List C) (f : Text)
    (h : f ∉ ["geometry.csv".toList, "roughness.csv".toList]) : f ∉ blockFiles (sobekBlock' x cs) := h

theorem not_mem_other {C : Type} (x : Exporter C) (cs : List C) (f : Text)
    (h : f ∉ ["geometry_test.csv".toList, "volumes.csv".toList]) : f ∉ blockFiles (otherBlock x cs) := h

theorem writeOutput_dimr {C : Type} (w : WriteFaults) (x : Exporter C) (cs : List C) (hcs : cs ≠ []) (s : Store) (f : Text)
    (h1 : f ∉ ["geometry.csv".toList, "roughness.csv".toList]) (h2 : f ∉ ["geometry_test.csv".toList, "volumes.csv".toList]) :
    writeOutput w x true cs s f = tryBlock w (dimrBlock x cs) s f := by
  rw [writeOutput_unfold w x cs hcs, tryBlock_other w _ _ f (not_mem_other x cs f h2),
    tryBlock_other w _ _ f (not_mem_sobek x cs f h1)]

theorem writeOutput_locations {C : Type} (w : WriteFaults) (x : Exporter C) (cs : List C) (hcs : cs ≠ []) (s : Store)
    (hw : ∀ f, IsResult f → Sound w f) :
    writeOutput w x true cs s "CrossSectionLocations.ini".toList = some (x.locations cs).1 := by
  rw [writeOutput_dimr w x cs hcs s _ (by decide) (by decide)]
  refine tryBlock_written w [] _ _ _ _ s (by simp) (hw _ ⟨"CrossSectionLocations.ini", by decide, rfl⟩) fun h => ?_
  exact absurd h (not_mem_rest x cs _ (by decide) (by decide))

theorem writeOutput_definitions {C : Type} (w : WriteFaults) (x : Exporter C) (cs : List C) (hcs : cs ≠ []) (s : Store)
    (hw : ∀ f, IsResult f → Sound w f) (hl : (x.locations cs).2 = none) :
    writeOutput w x true cs s "CrossSectionDefinitions.ini".toList = some (x.definitions cs).1 := by
  rw [writeOutput_dimr w x cs hcs s _ (by decide) (by decide)]
  refine tryBlock_written w [_] _ _ _ _ s ?_ (hw _ ⟨"CrossSectionDefinitions.ini", by decide, rfl⟩) ?_
  · intro y hy
    rw [List.mem_singleton.1 hy]
    exact ⟨_, _, by rw [hl], hw _ ⟨"CrossSectionLocations.ini", by decide, rfl⟩⟩
  · exact not_mem_roughness x cs _ (by decide)

/-! ## The sections of the tables -/

theorem buildTablesFor_keys {σ : Type} [LinearOrder σ] (method : Int) (areaFull : Option (Int → Option K)) (skip nMaps : Nat)
    (level : List K) (links : List (Link σ K)) (ss : List σ) (ts : List (σ × FrictionTable K))
    (h : buildTablesFor method areaFull skip nMaps level links ss = .ok ts) :
    ts.map (·.1) = ss ∧ ∀ p ∈ ts, p.2.level = level ∧ p.2.level.length = p.2.friction.length := by
  induction ss generalizing ts with
  | nil => cases h; exact ⟨rfl, fun p hp => by cases hp⟩
  | cons s ss ih =>
    rw [buildTablesFor] at h
    split at h
    · cases h
    · rename_i fr hfr
      split at h
      · cases h
      · rename_i t ht
        split at h
        · cases h
        · rename_i ts' hts
          cases h
          obtain ⟨h1, h2⟩ := ih ts' hts
          refine ⟨by rw [List.map_cons, h1], fun p hp => ?_⟩
          rcases List.mem_cons.1 hp with rfl | hp
          · unfold FrictionTable.make at ht
            split at ht
            · rename_i hlen
              cases ht
              exact ⟨rfl, hlen⟩
            · cases ht
          · exact h2 p hp

/-- The sections of the tables of a cross-section are the labels of its edges. -/
theorem buildCss_sections (x : Tools K) (cfg : RunConfig K) (m : Model2d K) (l : Loc K) (c : Finished K)
    (h : buildCss x cfg m l = .ok c) :
    c.out.tables.map (·.1) = npUnique ((linksOf (getSelection x.sqrt m.faces m.edges l.id)).map (·.sect)) := by
  obtain ⟨_, hr, _⟩ := buildCss_ok x cfg m l c h
  obtain ⟨level, _, ht, _⟩ := assignRoughness_ok _ _ _ _ _ _ _ _ hr
  exact (buildTablesFor_keys _ _ _ _ _ _ _ _ ht).1

theorem linksOf_sections (x : Tools K) (m : Model2d K) (hm : Loaded2d m) (id : Text) :
    (linksOf (getSelection x.sqrt m.faces m.edges id)).map (·.sect) = atRows (rowsOf m.edges.sclass id) m.edges.sect := by
  have h1 : (getSelection x.sqrt m.faces m.edges id).edgeSection =
      maskSelect (m.edges.sclass.map fun c => decide (c = id)) m.edges.sect := rfl
  have h2 : (getSelection x.sqrt m.faces m.edges id).chezy =
      maskSelect (m.edges.sclass.map fun c => decide (c = id)) m.edges.chezy := rfl
  unfold linksOf
  rw [List.map_map, h1, h2, ← maskSelect_rows _ _ _ hm.edgeSect]
  have : ((fun l : Link Text K => l.sect) ∘ fun p : Text × List (Option K) => ⟨p.1, (0, 0), mapSeries p.2⟩) =
      Prod.fst := rfl
  rw [this]
  apply List.map_fst_zip
  have : ∀ {α β : Type} (ms : List Bool) (a : List α) (b : List β), a.length = b.length →
      (maskSelect ms a).length = (maskSelect ms b).length := by
    intro α β ms
    induction ms with
    | nil => intro a b h; cases a <;> cases b <;> first | rfl | simp [maskSelect]
    | cons t ms ih =>
      intro a b h
      cases a with
      | nil => cases b with
        | nil => cases t <;> rfl
        | cons _ _ => simp at h
      | cons u a =>
        cases b with
        | nil => simp at h
        | cons v b =>
          have := ih a b (by simpa using h)
          unfold maskSelect at this ⊢
          rw [List.length_map, List.length_map] at this
          cases t <;> simpa using this
  rw [this _ _ _ (hm.edgeSect.trans hm.edgeChezy.symm)]

theorem classifySections_labels (values : List K) (l : List Nat) (h : classifySections values = .ok l) :
    ∀ n ∈ l, n = 1 ∨ n = 2 := by
  unfold classifySections at h
  split at h
  · split at h
    · cases h
      intro n hn
      obtain ⟨_, _, rfl⟩ := List.mem_map.1 hn
      exact .inl rfl
    · split at h
      · cases h
      · split at h
        · cases h
        · cases h
          intro n hn
          obtain ⟨v, _, rfl⟩ := List.mem_map.1 hn
          split
          · exact .inl rfl
          · exact .inr rfl
  · cases h

/-- Without section polygons the labels of the edges are numbers. -/
theorem edge_labels (nn : NearestPicker K) (i : Inputs K) (m : Model2d K) (h : setModelData nn i = .ok m)
    (hs : i.sections = none) : ∀ t ∈ m.edges.sect, t = natText 1 ∨ t = natText 2 := by
  obtain ⟨d, css, r, sec, fc, ec, fs, es, hd, hc, hr, hse, ha, hb, hf, he, hn, hst⟩ := setModelData_ok nn i m h
  rw [hs] at hse
  cases hse
  unfold assignSections at hb
  simp only at hb
  split at hb
  · cases hb
  · rename_i e' he'
    split at hb
    · cases hb
    · rename_i f' hf'
      have hb := Except.ok.inj hb
      have e2 : es = e'.map natText := (Prod.mk.inj (Prod.mk.inj hb).2).1.symm
      rw [he]
      simp only
      rw [e2]
      intro t ht
      obtain ⟨n, hn, rfl⟩ := List.mem_map.1 ht
      unfold sectionsByVariance at he'
      split at he'
      · cases he'
      · rcases classifySections_labels _ _ he' n hn with rfl | rfl
        · exact .inl rfl
        · exact .inr rfl

theorem mem_atRows {α : Type} (rows : List Nat) (l : List α) (a : α) (h : a ∈ atRows rows l) : a ∈ l := by
  unfold atRows at h
  obtain ⟨r, _, hr⟩ := List.mem_filterMap.1 h
  exact List.mem_of_getElem? hr

theorem tryBlock_fails (w : WriteFaults) (xs : List ExportStep) (hx : ∀ x ∈ xs, ∃ e, x = .fail e) (s : Store) :
    tryBlock w xs s = s := by
  cases xs with
  | nil => rfl
  | cons x xs =>
    obtain ⟨e, rfl⟩ := hx x List.mem_cons_self
    rfl

/-- The cross-sections of a successful run, and what its result files are. -/
theorem run_exports_of (x : Tools K) (cfg : RunConfig K) (i : Inputs K) (o : Surroundings)
    (overwrite : Bool) (s : Store) (hi : Consistent i) (m : Model2d K) (hm : setModelData x.nn i = .ok m)
    (xs : List (Loc K)) (hx : Requested cfg.cssSelection m.stations xs)
    (hrun : ∃ m' xs' cs, (jobOf x cfg i o).load = .ok m' ∧ Requested (jobOf x cfg i o).cssSelection m'.stations xs' ∧
      List.Forall₂ (fun l c => (jobOf x cfg i o).build l = .ok c) (xs'.filter (Eligible (jobOf x cfg i o))) cs ∧
      ∀ f, IsResult f → (run (jobOf x cfg i o) overwrite s).1 f =
        writeOutput (jobOf x cfg i o).faults (jobOf x cfg i o).exporter (jobOf x cfg i o).dirExists
          ((jobOf x cfg i o).harmonise cs) s f) :
    ∃ cs, List.Forall₂ (fun l c => buildCss x cfg m l = .ok c) (xs.filter fun l => decide (Usable m l)) cs ∧
      ∀ f, IsResult f → (run (jobOf x cfg i o) overwrite s).1 f =
        writeOutput o.faults (exporterOf x) o.dirExists (harmoniseCss cs) s f := by
  obtain ⟨m', xs', cs, h1, h2, h3, h4⟩ := hrun
  have e1 : m' = ⟨m.stations, m.nMaps⟩ := by
    have : (jobOf x cfg i o).load = .ok ⟨m.stations, m.nMaps⟩ := by
      show (setModelData x.nn i).map _ = _
      rw [hm]; rfl
    rw [this] at h1
    exact (Except.ok.inj h1).symm
  subst e1
  have e2 : xs' = xs := by
    have a := (requested_iff _ _ _).2 h2
    have b := (requested_iff _ _ _).2 hx
    exact Except.ok.inj (a.symm.trans b)
  subst e2
  have e3 : Eligible (jobOf x cfg i o) = fun l => decide (Usable m l) := by
    funext l
    have hf : (jobOf x cfg i o).faces l = (rowsOf m.faces.sclass l.id).length := by
      rw [← selection_x x m (loaded2d x.nn i hi m hm) l.id]
      show (match setModelData x.nn i with | .error _ => 0 | .ok m => _) = _
      rw [hm]
    show (decide (l.id ≠ []) && decide (10 ≤ (jobOf x cfg i o).faces l)) = _
    rw [hf, ← Bool.decide_and]
    rfl
  rw [e3] at h3
  refine ⟨cs, h3.imp fun l c h => ?_, h4⟩
  have hb : (jobOf x cfg i o).build l = buildCss x cfg m l := by
    show (match setModelData x.nn i with | .error e => Except.error e | .ok m => buildCss x cfg m l) = _
    rw [hm]
  rw [← hb]; exact h

/-! ## Volumes -/

theorem linesUntil_ok {α β : Type} (f : α → Except PyErr β) (g : α → β) (l : List α) (h : ∀ a ∈ l, f a = .ok (g a)) :
    linesUntil f l = (l.map g, none) := by
  induction l with
  | nil => rfl
  | cons a as ih =>
    rw [linesUntil, h a List.mem_cons_self, ih fun b hb => h b (List.mem_cons_of_mem _ hb)]
    rfl

theorem testText_ok (ft : FloatText K) (cs : List (ExportCss K))
    (h : ∀ c ∈ cs, c.totalWidth.length = c.z.length ∧ c.flowWidth.length = c.z.length) : (testText ft cs).2 = none := by
  unfold testText
  simp only
  rw [linesUntil_ok _ fun p => match testLine ft p with | .ok t => t | .error _ => []]
  intro p hp
  obtain ⟨c, hc, hp⟩ := List.mem_flatMap.1 hp
  obtain ⟨i, hi, rfl⟩ := List.mem_map.1 hp
  have hi := List.mem_range.1 hi
  obtain ⟨h1, h2⟩ := h c hc
  unfold testLine
  simp only
  rw [List.getElem?_eq_getElem hi, List.getElem?_eq_getElem (by omega : i < c.totalWidth.length),
    List.getElem?_eq_getElem (by omega : i < c.flowWidth.length)]

theorem writeOutput_volumes {C : Type} (w : WriteFaults) (x : Exporter C) (cs : List C) (hcs : cs ≠ []) (s : Store)
    (hw : ∀ f, IsResult f → Sound w f) (ht : (x.testGeometry cs).2 = none) :
    writeOutput w x true cs s "volumes.csv".toList = some (x.volumes cs).1 := by
  rw [writeOutput_unfold w x cs hcs]
  refine tryBlock_written w [_] [] _ _ _ _ ?_ (hw _ ⟨"volumes.csv", by decide, rfl⟩) (by simp [blockFiles])
  intro y hy
  rw [List.mem_singleton.1 hy]
  exact ⟨_, _, by rw [ht], hw _ ⟨"geometry_test.csv", by decide, rfl⟩⟩

theorem volumesText_ok (ft : FloatText K) (cs : List (Finished K))
    (hc : ∀ c ∈ cs, c.css.totalVolumeCorrected.isSome ∧ c.css.flowVolumeCorrected.isSome)
    (hz : ∀ c ∈ cs, c.out.volumes = volumeTableOf c.css) (hr : ∀ c ∈ cs, VolumeTable.Rectangular (volumeTableOf c.css)) :
    exportVolumes ft (cs.map (·.out)) = .ok (volumesText ft cs).1 := by
  rw [exportVolumes_ok ft _ (by
    intro c h
    obtain ⟨c, h', rfl⟩ := List.mem_map.1 h
    rw [hz c h']; exact hr c h')]
  unfold volumesText
  simp only
  rw [linesUntil_ok _ fun p => rowText ft p.1.out.name (p.1.out.volumes.entry p.2)]
  · simp only
    congr 3
    rw [List.map_map, List.map_flatMap]
    rw [List.flatMap_def]
    congr 1
    refine List.map_congr_left fun c h => ?_
    simp only [Function.comp_apply, List.map_map]
    rw [hz c h]
    have : (volumeTableOf c.css).z.length = c.css.raw.z.length := by simp [volumeTableOf]
    rw [this]
    refine List.map_congr_left fun i _ => ?_
    simp only [Function.comp_apply]
    rw [hz c h]
  · intro p hp
    obtain ⟨c, h, hp⟩ := List.mem_flatMap.1 hp
    obtain ⟨i, hi, rfl⟩ := List.mem_map.1 hp
    have hi := List.mem_range.1 hi
    obtain ⟨h1, h2⟩ := hc c h
    obtain ⟨v1, h1⟩ := Option.isSome_iff_exists.1 h1
    obtain ⟨v2, h2⟩ := Option.isSome_iff_exists.1 h2
    unfold volumesLine
    simp only
    rw [h1, h2]
    simp only
    refine volumeRow_ok ft _ _ ?_ i ?_
    · rw [hz c h]; exact hr c h
    · rw [hz c h]; simpa [volumeTableOf] using hi

theorem forall_harmonised (P : Finished K → Prop) (hP : ∀ c t, P c → P (Finished.withTables c t)) (cs : List (Finished K))
    (h : ∀ c ∈ cs, P c) : ∀ c ∈ harmoniseCss cs, P c := by
  unfold harmoniseCss
  generalize (harmonise (cs.map fun c => c.out.tables)).1 = ts
  induction cs generalizing ts with
  | nil => intro c hc; cases hc
  | cons c cs ih =>
    cases ts with
    | nil => intro c hc; cases hc
    | cons t ts =>
      intro d hd
      rw [List.zipWith_cons_cons] at hd
      rcases List.mem_cons.1 hd with rfl | hd
      · exact hP _ _ (h c List.mem_cons_self)
      · exact ih (fun c hc => h c (List.mem_cons_of_mem _ hc)) ts d hd

/-! ## Cells -/

theorem atRows_map {α : Type} (d : α) (rows : List Nat) (l : List α) (h : ∀ r ∈ rows, r < l.length) :
    atRows rows l = rows.map fun r => l[r]?.getD d := by
  unfold atRows
  induction rows with
  | nil => rfl
  | cons r rs ih =>
    have hr := h r List.mem_cons_self
    rw [List.filterMap_cons, List.getElem?_eq_getElem hr, List.map_cons, List.getElem?_eq_getElem hr,
      ih fun r hr => h r (List.mem_cons_of_mem _ hr)]
    rfl

theorem rowsOf_lt {ι : Type} [DecidableEq ι] (labels : List ι) (name : ι) : ∀ r ∈ rowsOf labels name, r < labels.length :=
  fun _ hr => List.mem_range.1 (List.mem_filter.1 hr).1

theorem mapSeries_zipWith (f : Option K → Option K → Option K) (a b : List (Option K)) (t : Nat) :
    mapSeries (List.zipWith f a b) t = a[t]?.bind fun x => b[t]?.bind fun y => f x y := by
  unfold mapSeries
  rw [List.getElem?_zipWith]
  cases a[t]? with
  | none => rfl
  | some x =>
    cases b[t]? with
    | none => rfl
    | some y => rfl

/-- The cells of a control volume are the faces with its label. -/
theorem controlVolume_cells (x : Tools K) (m : Model2d K) (hm : Loaded2d m) (n : Nat) (id : Text) :
    (controlVolumeOf n (getSelection x.sqrt m.faces m.edges id)).cells =
      (rowsOf m.faces.sclass id).filterMap (gridCell x.sqrt m.faces) := by
  have hlt := rowsOf_lt m.faces.sclass id
  have h : ∀ {α : Type} (d : α) (col : List α), col.length = m.faces.sclass.length →
      maskSelect (m.faces.sclass.map fun c => decide (c = id)) col =
        (rowsOf m.faces.sclass id).map fun r => col[r]?.getD d := by
    intro α d col hc
    rw [maskSelect_rows _ _ _ hc, atRows_map d _ _ (by rw [hc]; exact hlt)]
  simp only [controlVolumeOf, getSelection]
  rw [h 0 _ hm.area, h 0 _ hm.bedlevel, h [] _ hm.waterdepth, h [] _ hm.waterlevel, h [] _ hm.velocityX, h [] _ hm.velocityY]
  simp only [List.zipWith_map_left, List.zipWith_map_right, List.zipWith_self, List.zip_map', List.map_map]
  generalize rowsOf m.faces.sclass id = rows at hlt
  induction rows with
  | nil => rfl
  | cons r rs ih =>
    have hr := hlt r List.mem_cons_self
    rw [List.map_cons, List.filterMap_cons, ih fun r hr => hlt r (List.mem_cons_of_mem _ hr)]
    unfold gridCell
    have e1 := List.getElem?_eq_getElem (l := m.faces.area) (i := r) (by rw [hm.area]; exact hr)
    have e2 := List.getElem?_eq_getElem (l := m.faces.bedlevel) (i := r) (by rw [hm.bedlevel]; exact hr)
    have e3 := List.getElem?_eq_getElem (l := m.faces.waterdepth) (i := r) (by rw [hm.waterdepth]; exact hr)
    have e4 := List.getElem?_eq_getElem (l := m.faces.waterlevel) (i := r) (by rw [hm.waterlevel]; exact hr)
    have e5 := List.getElem?_eq_getElem (l := m.faces.velocityX) (i := r) (by rw [hm.velocityX]; exact hr)
    have e6 := List.getElem?_eq_getElem (l := m.faces.velocityY) (i := r) (by rw [hm.velocityY]; exact hr)
    simp only [Function.comp_apply, e1, e2, e3, e4, e5, e6, Option.bind_some, Option.map_some, Option.getD_some]
    congr 2
    · funext t
      rw [mapSeries_zipWith]
      rfl
    · funext t
      rw [mapSeries_zipWith]
      have : ∀ u v : Option K, speed x.sqrt u v = u.bind fun a => v.map fun b => x.sqrt (a ^ 2 + b ^ 2) := by
        intro u v; cases u <;> cases v <;> rfl
      simp only [this]

theorem perm_rows (labels ids : List Text) (hn : ids.Nodup) (h : ∀ l ∈ labels, l ∈ ids) :
    (ids.flatMap fun id => rowsOf labels id).Perm (List.range labels.length) := by
  rw [List.perm_ext_iff_of_nodup]
  · intro r
    rw [List.mem_flatMap]
    constructor
    · rintro ⟨id, _, hr⟩
      exact List.mem_range.2 (rowsOf_lt _ _ r hr)
    · intro hr
      have hr := List.mem_range.1 hr
      exact ⟨labels[r], h _ (List.getElem_mem hr),
        List.mem_filter.2 ⟨List.mem_range.2 hr, by simp [List.getElem?_eq_getElem hr]⟩⟩
  · rw [List.nodup_flatMap]
    refine ⟨fun id _ => List.nodup_range.filter _, hn.imp fun {a b} hab => ?_⟩
    intro r h1 h2
    have h1 := (List.mem_filter.1 h1).2
    have h2 := (List.mem_filter.1 h2).2
    simp only [decide_eq_true_eq] at h1 h2
    exact hab (Option.some.inj (h1.symm.trans h2))
  · exact List.nodup_range

/-! ## Leaving out maps -/

theorem mapSeries_drop (s : Nat) (r : List (Option K)) (t : Nat) : mapSeries (r.drop s) t = mapSeries r (s + t) := by
  unfold mapSeries; rw [List.getElem?_drop]

theorem maskSelect_drop (s : Nat) (mask : List Bool) (l : List (List (Option K))) :
    maskSelect mask (l.map (List.drop s)) = (maskSelect mask l).map (List.drop s) := by
  unfold maskSelect
  rw [List.zip_map_right, List.filter_map, List.map_map, List.map_map]
  rfl

theorem zipWith_drop (s : Nat) (f : Option K → Option K → Option K) (a b : List (List (Option K))) :
    List.zipWith (List.zipWith f) (a.map (List.drop s)) (b.map (List.drop s)) =
      (List.zipWith (List.zipWith f) a b).map (List.drop s) := by
  induction a generalizing b with
  | nil => rfl
  | cons x xs ih =>
    cases b with
    | nil => rfl
    | cons y ys =>
      simp only [List.map_cons, List.zipWith_cons_cons, ih, List.drop_zipWith]

/-- The selected data with the first maps left out. -/
def Selection.dropMaps (s : Nat) (c : Selection Text K) : Selection Text K :=
  { c with waterdepth := c.waterdepth.map (List.drop s), waterlevel := c.waterlevel.map (List.drop s)
           velocity := c.velocity.map (List.drop s), chezy := c.chezy.map (List.drop s) }

/-- Loaded data with the first maps left out. -/
def Model2d.dropMaps (s : Nat) (m : Model2d K) : Model2d K :=
  { m with
    faces := { m.faces with
      waterdepth := m.faces.waterdepth.map (List.drop s), waterlevel := m.faces.waterlevel.map (List.drop s)
      velocityX := m.faces.velocityX.map (List.drop s), velocityY := m.faces.velocityY.map (List.drop s) }
    edges := { m.edges with chezy := m.edges.chezy.map (List.drop s) }
    nMaps := m.nMaps - s }

theorem selection_drop (sqrt : K → K) (s : Nat) (m : Model2d K) (id : Text) :
    getSelection sqrt (m.dropMaps s).faces (m.dropMaps s).edges id = (getSelection sqrt m.faces m.edges id).dropMaps s := by
  unfold getSelection Selection.dropMaps Model2d.dropMaps
  simp only [maskSelect_drop, zipWith_drop]

theorem getTimeseries_drop (n s : Nat) (hs : s ≤ n) (c : Selection Text K) :
    getTimeseries (0 : Nat) (controlVolumeOf (n - s) (c.dropMaps s)) = getTimeseries s (controlVolumeOf n c) := by
  have h1 : ∀ k : Nat, sliceStart k ((0 : Nat) : Int) = 0 := by
    intro k; unfold sliceStart; rw [if_pos (by omega)]; simp
  have h2 : sliceStart n (s : Int) = s := by
    unfold sliceStart; rw [if_pos (by omega)]; simp only [Int.toNat_natCast]; omega
  unfold getTimeseries controlVolumeOf Selection.dropMaps
  simp only [h1, h2, Nat.sub_zero, Nat.zero_add]
  congr 1
  simp only [List.zip_map, List.map_map]
  have : (c.area.zip c.bedlevel).zip ((c.waterdepth.zip (c.waterlevel.zip c.velocity)).map
      (Prod.map (List.drop s) (Prod.map (List.drop s) (List.drop s)))) =
      ((c.area.zip c.bedlevel).zip (c.waterdepth.zip (c.waterlevel.zip c.velocity))).map
        (Prod.map id (Prod.map (List.drop s) (Prod.map (List.drop s) (List.drop s)))) := by
    rw [List.zip_map_right]
  rw [this, List.map_map]
  refine List.map_congr_left fun p _ => ?_
  simp only [Function.comp_apply, Prod.map, id, mapSeries_drop]

theorem buildGeometry_drop (cfg : BuildConfig K) (len : K) (centre : Nat) (n s : Nat) (hs : s ≤ n) (c : Selection Text K) :
    buildGeometry { cfg with skipMaps := (0 : Nat) } len centre (controlVolumeOf (n - s) (c.dropMaps s)) =
      buildGeometry { cfg with skipMaps := s } len centre (controlVolumeOf n c) := by
  unfold buildGeometry
  simp only [getTimeseries_drop n s hs c]
  rfl

theorem linksOf_drop (s : Nat) (c : Selection Text K) :
    linksOf (c.dropMaps s) = (linksOf c).map fun l => { l with chezy := fun t => l.chezy (s + t) } := by
  unfold linksOf Selection.dropMaps
  simp only
  rw [List.zip_map_right, List.map_map, List.map_map]
  refine List.map_congr_left fun p _ => ?_
  simp only [Function.comp_apply, Prod.map, id]
  congr 1
  funext t
  exact mapSeries_drop s p.2 t

theorem sectionFriction_drop {S : Type} (method : Int) (n s : Nat) (links : List (Link S K)) :
    sectionFriction method none 0 (n - s) (links.map fun l => { l with chezy := fun t => l.chezy (s + t) }) =
      sectionFriction method none s n links := by
  unfold sectionFriction
  split
  · congr 1
    rw [Nat.sub_zero]
    refine List.map_congr_left fun t _ => ?_
    unfold frictionSimple
    rw [List.map_map, Nat.zero_add]
    rfl
  · rfl

theorem buildTablesFor_drop {S : Type} [LinearOrder S] (method : Int) (n s : Nat) (level : List K) (links : List (Link S K))
    (ss : List S) :
    buildTablesFor method none 0 (n - s) level (links.map fun l => { l with chezy := fun t => l.chezy (s + t) }) ss =
      buildTablesFor method none s n level links ss := by
  induction ss with
  | nil => rfl
  | cons t ss ih =>
    rw [buildTablesFor, buildTablesFor, ih, List.filter_map]
    have key := sectionFriction_drop method n s (links.filter fun l => decide (l.sect = t))
    rw [← key]
    rfl

theorem buildRoughnessTables_drop (method : Int) (n s : Nat) (level : List K) (c : Selection Text K) :
    buildRoughnessTables method none 0 (n - s) level (linksOf (c.dropMaps s)) =
      buildRoughnessTables method none s n level (linksOf c) := by
  unfold buildRoughnessTables
  rw [linksOf_drop, buildTablesFor_drop, List.map_map]
  rfl

theorem buildCss_drop (x : Tools K) (cfg : RunConfig K) (m : Model2d K) (s : Nat) (hs : s ≤ m.nMaps) (l : Loc K) :
    buildCss x (skipping 0 cfg) (m.dropMaps s) l = buildCss x (skipping s cfg) m l := by
  have h1 : ∀ k : Nat, sliceStart k ((0 : Nat) : Int) = 0 := by
    intro k; unfold sliceStart; rw [if_pos (by omega)]; simp
  have h2 : sliceStart m.nMaps (s : Int) = s := by
    unfold sliceStart; rw [if_pos (by omega)]; simp only [Int.toNat_natCast]; omega
  have hg : ∀ c : Selection Text K,
      buildCrossSectionGeometry (x.opt l.id) (skipping 0 cfg).pipeline x.bump x.release (x.log l.id) l.length
        (centreOf x.nn (c.dropMaps s) l) (controlVolumeOf (m.nMaps - s) (c.dropMaps s)) =
      buildCrossSectionGeometry (x.opt l.id) (skipping s cfg).pipeline x.bump x.release (x.log l.id) l.length
        (centreOf x.nn c l) (controlVolumeOf m.nMaps c) := by
    intro c
    unfold buildCrossSectionGeometry
    have := buildGeometry_drop cfg.pipeline.build l.length (centreOf x.nn c l) m.nMaps s hs c
    have e : centreOf x.nn (c.dropMaps s) l = centreOf x.nn c l := rfl
    rw [e]
    show (match buildGeometry { cfg.pipeline.build with skipMaps := (0 : Nat) } l.length (centreOf x.nn c l)
      (controlVolumeOf (m.nMaps - s) (c.dropMaps s)) with | .error e => _ | .ok b => _) = _
    rw [this]
    rfl
  have hr : ∀ (c : Selection Text K) (css : Css K),
      assignRoughness (skipping 0 cfg) (m.dropMaps s) (c.dropMaps s) l.length css =
        assignRoughness (skipping s cfg) m c l.length css := by
    intro c css
    unfold assignRoughness
    have e1 : sliceStart (m.dropMaps s).nMaps (skipping 0 cfg).pipeline.build.skipMaps = 0 := h1 _
    have e2 : sliceStart m.nMaps (skipping s cfg).pipeline.build.skipMaps = s := h2
    rw [e1, e2]
    have e3 : ∀ level, buildRoughnessTables (skipping 0 cfg).frictionWeighing none 0 (m.dropMaps s).nMaps level
        (linksOf (c.dropMaps s)) = buildRoughnessTables (skipping s cfg).frictionWeighing none s m.nMaps level (linksOf c) :=
      fun level => buildRoughnessTables_drop cfg.frictionWeighing m.nMaps s level c
    simp only [e3]
    rfl
  unfold buildCss
  simp only [selection_drop, hr]
  have e : (m.dropMaps s).nMaps = m.nMaps - s := rfl
  rw [e, hg]
  rfl

theorem attempt_agree {S C : Type} (j : Job S C) (h : j.exportCssData = false) (skip : Int) (load : Except PyErr (Loaded S))
    (pickle : S → Text) (mask : S → Option Text) (x : S) (s : Store) :
    attempt { j with skipMaps := skip, load := load, pickle := pickle, mask := mask } x s = attempt j x s := by
  unfold attempt storeData storeMask
  simp only [h, Bool.false_eq_true, if_false]

theorem attemptAll_agree {S C : Type} (j : Job S C) (h : j.exportCssData = false) (skip : Int)
    (load : Except PyErr (Loaded S)) (pickle : S → Text) (mask : S → Option Text) (xs : List S) (s : Store) :
    attemptAll { j with skipMaps := skip, load := load, pickle := pickle, mask := mask } xs s = attemptAll j xs s := by
  induction xs generalizing s with
  | nil => rfl
  | cons x xs ih =>
    unfold attemptAll
    rw [attempt_agree j h skip load pickle mask x s]
    split
    · rfl
    · rw [ih]

theorem run_agree {S C : Type} (j : Job S C) (h : j.exportCssData = false) (skip : Int)
    (load : Except PyErr (Loaded S)) (pickle : S → Text) (mask : S → Option Text)
    (hi : (initialise { j with skipMaps := skip, load := load }).map (·.stations) = (initialise j).map (·.stations))
    (overwrite : Bool) (s : Store) :
    run { j with skipMaps := skip, load := load, pickle := pickle, mask := mask } overwrite s = run j overwrite s := by
  have key : runInifile { j with skipMaps := skip, load := load, pickle := pickle, mask := mask } s = runInifile j s := by
    unfold runInifile
    have e : initialise { j with skipMaps := skip, load := load, pickle := pickle, mask := mask } =
        initialise { j with skipMaps := skip, load := load } := rfl
    rw [e]
    generalize initialise { j with skipMaps := skip, load := load } = a at hi
    generalize initialise j = b at hi
    cases a with
    | error ea =>
      cases b with
      | error eb =>
        have : ea = eb := Except.error.inj hi
        subst this
        cases ea <;> rfl
      | ok b => cases hi
    | ok a =>
      cases b with
      | error eb => cases hi
      | ok b =>
        have hs : a.stations = b.stations := Except.ok.inj hi
        have hg : generate { j with skipMaps := skip, load := load, pickle := pickle, mask := mask } a s = generate j b s := by
          unfold generate
          rw [hs]
          split
          · split <;> simp_all
          · rename_i xs hxs
            have : requested j.cssSelection b.stations = .ok xs := hxs
            rw [this]
            exact attemptAll_agree j h skip load pickle mask xs s
        simp only [hg]
        rfl
  unfold run
  rw [key]

theorem getLast_drop {α : Type} (s : Nat) (r : List α) (h : s < r.length) : (r.drop s).getLast? = r.getLast? := by
  rw [List.getLast?_drop, if_neg (by omega)]

theorem sectionsByVariance_drop (s : Nat) (series : List (List (Option K))) (h : ∀ r ∈ series, s < r.length) :
    sectionsByVariance (series.map (List.drop s)) = sectionsByVariance series := by
  unfold sectionsByVariance
  rw [List.map_map]
  have : series.map ((fun r : List (Option K) => r.getLast?.join) ∘ List.drop s) =
      series.map fun r => r.getLast?.join := by
    refine List.map_congr_left fun r hr => ?_
    simp only [Function.comp_apply, getLast_drop s r (h r hr)]
  rw [this]

theorem setModelData_drop (nn : NearestPicker K) (s : Nat) (i : Inputs K)
    (h : ∀ d, i.map = .ok d → ∀ r ∈ d.edges.chezy ++ d.chezyMean, s < r.length) :
    setModelData nn (Spec.Inputs.dropMaps s i) = (setModelData nn i).map (Model2d.dropMaps s) := by
  obtain ⟨map, css, regions, sections⟩ := i
  unfold setModelData Spec.Inputs.dropMaps
  cases map with
  | error e => rfl
  | ok d =>
    cases css with
    | error e => rfl
    | ok css =>
      have hd := h d rfl
      simp only [Except.map]
      have ha : ∀ r, assignCss nn (Spec.MapData.dropMaps s d) css r = assignCss nn d css r := by
        intro r; cases r <;> rfl
      have hb : ∀ r, assignSections (Spec.MapData.dropMaps s d) r = assignSections d r := by
        intro r
        cases r with
        | some r => rfl
        | none =>
          unfold assignSections
          have e1 : sectionsByVariance (Spec.MapData.dropMaps s d).edges.chezy = sectionsByVariance d.edges.chezy :=
            sectionsByVariance_drop s _ fun r hr => hd r (List.mem_append.2 (Or.inl hr))
          have e2 : sectionsByVariance (Spec.MapData.dropMaps s d).chezyMean = sectionsByVariance d.chezyMean :=
            sectionsByVariance_drop s _ fun r hr => hd r (List.mem_append.2 (Or.inr hr))
          simp only [e1, e2]
      simp only [ha, hb]
      cases readOptional regions with
      | error e => rfl
      | ok regions =>
        cases readOptional sections with
        | error e => rfl
        | ok sections =>
          dsimp only
          cases assignCss nn d css regions with
          | error e => rfl
          | ok p =>
            dsimp only
            cases assignSections d sections with
            | error e => rfl
            | ok q => rfl

/-- The run with the first maps skipped is the run without them. -/
theorem jobOf_drop (x : Tools K) (cfg : RunConfig K) (i : Inputs K) (o : Surroundings) (s : Nat)
    (h : ∀ d, i.map = .ok d → s < d.nMaps ∧ ∀ r ∈ d.edges.chezy ++ d.chezyMean, s < r.length) :
    jobOf x (skipping 0 cfg) (Spec.Inputs.dropMaps s i) o =
      { jobOf x (skipping s cfg) i o with
        skipMaps := (0 : Nat)
        load := (setModelData x.nn i).map fun m => ⟨m.stations, m.nMaps - s⟩
        pickle := (jobOf x (skipping 0 cfg) (Spec.Inputs.dropMaps s i) o).pickle
        mask := (jobOf x (skipping 0 cfg) (Spec.Inputs.dropMaps s i) o).mask } := by
  have hm := setModelData_drop x.nn s i fun d hd => (h d hd).2
  have hl : ∀ m, setModelData x.nn i = .ok m → s ≤ m.nMaps := by
    intro m hm
    obtain ⟨d, css, r, sec, fc, ec, fs, es, hd, -, -, -, -, -, -, -, h9, -⟩ := setModelData_ok x.nn i m hm
    rw [h9]
    exact (h d hd).1.le
  unfold jobOf
  simp only [hm]
  cases he : setModelData x.nn i with
  | error e => rfl
  | ok m =>
    have hb : ∀ l, buildCss x (skipping 0 cfg) (m.dropMaps s) l = buildCss x (skipping s cfg) m l :=
      buildCss_drop x cfg m s (hl m he)
    have hf : ∀ l : Loc K, (getSelection x.sqrt (m.dropMaps s).faces (m.dropMaps s).edges l.id).x.length =
        (getSelection x.sqrt m.faces m.edges l.id).x.length := by
      intro l; rw [selection_drop]; rfl
    simp only [Except.map, hb, hf]
    rfl

/-! ## Data of one cross-section -/

theorem buildCss_selection (x : Tools K) (cfg : RunConfig K) (m m' : Model2d K) (l : Loc K)
    (hn : m.nMaps = m'.nMaps) (hb : m.numbered = m'.numbered) (s s' : Selection Text K)
    (hs : getSelection x.sqrt m.faces m.edges l.id = s) (hs' : getSelection x.sqrt m'.faces m'.edges l.id = s')
    (e1 : s.x = s'.x) (e2 : s.y = s'.y) (e3 : s.area = s'.area) (e4 : s.bedlevel = s'.bedlevel) (e5 : s.sect = s'.sect)
    (e6 : s.waterdepth = s'.waterdepth) (e7 : s.waterlevel = s'.waterlevel) (e8 : s.velocity = s'.velocity)
    (e9 : s.edgeSection = s'.edgeSection) (e10 : s.chezy = s'.chezy) :
    (buildCss x cfg m l).map (fun c => (c.out, c.css)) = (buildCss x cfg m' l).map fun c => (c.out, c.css) := by
  have k1 : controlVolumeOf m.nMaps s = controlVolumeOf m'.nMaps s' := by
    unfold controlVolumeOf; rw [hn, e3, e4, e6, e7, e8]
  have k2 : centreOf x.nn s l = centreOf x.nn s' l := by unfold centreOf; rw [e1, e2]
  have k3 : ∀ css, assignRoughness cfg m s l.length css = assignRoughness cfg m' s' l.length css := by
    intro css
    unfold assignRoughness linksOf sectionFacesOf
    rw [hn, hb, e3, e4, e5, e9, e10]
  unfold buildCss
  simp only [hs, hs', k1, k2, k3]
  split
  · rfl
  · split
    · rfl
    · split <;> rfl

theorem atRows_congr {α β : Type} (rows rows' : List Nat) (f g : Nat → β) (h : rows.map f = rows'.map g) (p : β → Option α)
    (c c' : List α) (hc : ∀ r, p (f r) = c[r]?) (hc' : ∀ r, p (g r) = c'[r]?) : atRows rows c = atRows rows' c' := by
  unfold atRows
  have e1 : rows.filterMap (fun i => c[i]?) = (rows.map f).filterMap p := by
    rw [List.filterMap_map]
    exact congrArg (fun q => rows.filterMap q) (funext fun r => (hc r).symm)
  have e2 : rows'.filterMap (fun i => c'[i]?) = (rows'.map g).filterMap p := by
    rw [List.filterMap_map]
    exact congrArg (fun q => rows'.filterMap q) (funext fun r => (hc' r).symm)
  rw [e1, e2, h]

theorem buildCss_same (x : Tools K) (cfg : RunConfig K) (m m' : Model2d K) (hm : Loaded2d m) (hm' : Loaded2d m') (l : Loc K)
    (h : SameData m m' l.id) :
    (buildCss x cfg m l).map (fun c => (c.out, c.css)) = (buildCss x cfg m' l).map fun c => (c.out, c.css) := by
  have hw : atRows (rowsOf m.faces.sclass l.id) m.faces.waterdepth = atRows (rowsOf m'.faces.sclass l.id) m'.faces.waterdepth :=
    atRows_congr _ _ _ _ h.faces (fun p => p.waterdepth) _ _ (fun _ => rfl) fun _ => rfl
  have hl : atRows (rowsOf m.faces.sclass l.id) m.faces.waterlevel = atRows (rowsOf m'.faces.sclass l.id) m'.faces.waterlevel :=
    atRows_congr _ _ _ _ h.faces (fun p => p.waterlevel) _ _ (fun _ => rfl) fun _ => rfl
  have hx : atRows (rowsOf m.faces.sclass l.id) m.faces.velocityX = atRows (rowsOf m'.faces.sclass l.id) m'.faces.velocityX :=
    atRows_congr _ _ _ _ h.faces (fun p => p.velocityX) _ _ (fun _ => rfl) fun _ => rfl
  have hy : atRows (rowsOf m.faces.sclass l.id) m.faces.velocityY = atRows (rowsOf m'.faces.sclass l.id) m'.faces.velocityY :=
    atRows_congr _ _ _ _ h.faces (fun p => p.velocityY) _ _ (fun _ => rfl) fun _ => rfl
  refine buildCss_selection x cfg m m' l h.nMaps h.numbered _ _ rfl rfl ?_ ?_ ?_ ?_ ?_ ?_ ?_ ?_ ?_ ?_ <;> simp only [getSelection]
  · rw [maskSelect_rows _ _ _ hm.x, maskSelect_rows _ _ _ hm'.x]
    exact atRows_congr _ _ _ _ h.faces (fun p => p.x) _ _ (fun _ => rfl) fun _ => rfl
  · rw [maskSelect_rows _ _ _ hm.y, maskSelect_rows _ _ _ hm'.y]
    exact atRows_congr _ _ _ _ h.faces (fun p => p.y) _ _ (fun _ => rfl) fun _ => rfl
  · rw [maskSelect_rows _ _ _ hm.area, maskSelect_rows _ _ _ hm'.area]
    exact atRows_congr _ _ _ _ h.faces (fun p => p.area) _ _ (fun _ => rfl) fun _ => rfl
  · rw [maskSelect_rows _ _ _ hm.bedlevel, maskSelect_rows _ _ _ hm'.bedlevel]
    exact atRows_congr _ _ _ _ h.faces (fun p => p.bedlevel) _ _ (fun _ => rfl) fun _ => rfl
  · rw [maskSelect_rows _ _ _ hm.sect, maskSelect_rows _ _ _ hm'.sect]
    exact atRows_congr _ _ _ _ h.faces (fun p => p.sect) _ _ (fun _ => rfl) fun _ => rfl
  · rw [maskSelect_rows _ _ _ hm.waterdepth, maskSelect_rows _ _ _ hm'.waterdepth, hw]
  · rw [maskSelect_rows _ _ _ hm.waterdepth, maskSelect_rows _ _ _ hm'.waterdepth, maskSelect_rows _ _ _ hm.waterlevel,
      maskSelect_rows _ _ _ hm'.waterlevel, hw, hl]
  · rw [maskSelect_rows _ _ _ hm.velocityX, maskSelect_rows _ _ _ hm'.velocityX, maskSelect_rows _ _ _ hm.velocityY,
      maskSelect_rows _ _ _ hm'.velocityY, hx, hy]
  · rw [maskSelect_rows _ _ _ hm.edgeSect, maskSelect_rows _ _ _ hm'.edgeSect]
    exact atRows_congr _ _ _ _ h.edges (fun p => p.1) _ _ (fun _ => rfl) fun _ => rfl
  · rw [maskSelect_rows _ _ _ hm.edgeChezy, maskSelect_rows _ _ _ hm'.edgeChezy]
    exact atRows_congr _ _ _ _ h.edges (fun p => p.2) _ _ (fun _ => rfl) fun _ => rfl

/-! ## Roughness tables of a run -/

theorem zipWith_map_self {α β γ : Type} (f : α → β → γ) (g : α → β) (l : List α) :
    List.zipWith f l (l.map g) = l.map fun a => f a (g a) := by
  induction l with
  | nil => rfl
  | cons a l ih => simp only [List.map_cons, List.zipWith_cons_cons, ih]

theorem harmoniseCss_eq (cs : List (Finished K)) (hn : ∀ c ∈ cs, (c.out.tables.map (·.1)).Nodup)
    (hwf : ∀ c ∈ cs, ∀ p ∈ c.out.tables, WellFormedTable p.2) :
    harmoniseCss cs = cs.map fun c => c.withTables (c.out.tables.map fun p =>
      (p.1, resampled (gridOf p.1 (cs.map fun c => c.out.tables)) p.2)) := by
  unfold harmoniseCss
  rw [harmonise_eq _ (by intro t ht; obtain ⟨c, hc, rfl⟩ := List.mem_map.1 ht; exact hn c hc)
    (by intro t ht; obtain ⟨c, hc, rfl⟩ := List.mem_map.1 ht; exact hwf c hc)]
  show List.zipWith Finished.withTables cs _ = _
  rw [List.map_map]
  exact zipWith_map_self Finished.withTables _ cs

theorem tableOf_resampled (c : Finished K) (g : Text → List K) (sec : Text) :
    tableOf (c.withTables (c.out.tables.map fun p => (p.1, resampled (g p.1) p.2))).out sec =
      (tableOf c.out sec).map (resampled (g sec)) := by
  unfold tableOf Finished.withTables
  simp only
  induction c.out.tables with
  | nil => rfl
  | cons p ps ih =>
    rw [List.map_cons, List.find?_cons, List.find?_cons]
    by_cases h : p.1 = sec
    · simp only [h, decide_true, Option.map_some]
    · simp only [h, decide_false]
      exact ih

theorem gridOf_uniform {σ : Type} [LinearOrder σ] (l : List (Tables σ K)) (hn : ∀ css ∈ l, (css.map (·.1)).Nodup)
    (hwf : ∀ css ∈ l, ∀ p ∈ css, WellFormedTable p.2) (s : σ) (hs : ∃ css ∈ l, s ∈ css.map (·.1)) :
    ∃ lo hi, UniformGrid lo hi (gridOf s l) := by
  obtain ⟨css, hc, hp⟩ := hs
  obtain ⟨p, hp', rfl⟩ := List.mem_map.1 hp
  have hne : levelsOf p.1 l ≠ [] := by
    obtain ⟨z, hz⟩ := List.exists_mem_of_ne_nil _ (hwf _ hc _ hp').nonempty
    exact List.ne_nil_of_mem (mem_levelsOf.2 ⟨css, hc, p.2, hp', hz⟩)
  obtain ⟨lo, hi, h5, h6, h7⟩ := levelRange_bounds p.1 l (fun c hc' => ⟨hn c hc', fun t ht => hwf c hc' _ ht⟩) hne
  refine ⟨lo, hi, ?_⟩
  have : gridOf p.1 l = arange01 lo hi := by
    unfold gridOf; rw [h5]
  rw [this]
  exact arange01_grid lo hi

theorem links_roughness (x : Tools K) (m : Model2d K) (hm : Loaded2d m) (l : Loc K) (sec : Text) (t : Nat) :
    ((linksOf (getSelection x.sqrt m.faces m.edges l.id)).filter fun k => k.sect = sec).map (fun k => k.chezy t) =
      edgeRoughness m l sec t := by
  have hlt := rowsOf_lt m.edges.sclass l.id
  have h : ∀ {α : Type} (d : α) (col : List α), col.length = m.edges.sclass.length →
      maskSelect (m.edges.sclass.map fun c => decide (c = l.id)) col =
        (rowsOf m.edges.sclass l.id).map fun r => col[r]?.getD d := by
    intro α d col hc
    rw [maskSelect_rows _ _ _ hc, atRows_map d _ _ (by rw [hc]; exact hlt)]
  unfold linksOf edgeRoughness edgesIn
  simp only [getSelection]
  rw [h [] _ hm.edgeSect, h [] _ hm.edgeChezy, List.zip_map', List.map_map]
  generalize rowsOf m.edges.sclass l.id = rows at hlt
  induction rows with
  | nil => rfl
  | cons r rs ih =>
    have hr := hlt r List.mem_cons_self
    have e1 := List.getElem?_eq_getElem (l := m.edges.sect) (i := r) (by rw [hm.edgeSect]; exact hr)
    have e2 := List.getElem?_eq_getElem (l := m.edges.chezy) (i := r) (by rw [hm.edgeChezy]; exact hr)
    have ih := ih fun r hr => hlt r (List.mem_cons_of_mem _ hr)
    rw [List.map_cons, List.filter_cons, List.filter_cons]
    simp only [Function.comp_apply, e1, e2, Option.getD_some, Option.some.injEq]
    by_cases hs : m.edges.sect[r]'(by rw [hm.edgeSect]; exact hr) = sec
    · simp only [hs, decide_true, if_true, List.map_cons, e2, Option.bind_some]
      rw [ih]
      rfl
    · simp only [hs, decide_false, Bool.false_eq_true, if_false]
      exact ih

theorem hasEdge_sections (x : Tools K) (cfg : RunConfig K) (m : Model2d K) (hm : Loaded2d m) (l : Loc K) (c : Finished K)
    (h : buildCss x cfg m l = .ok c) (sec : Text) : sec ∈ c.out.tables.map (·.1) ↔ HasEdge m l sec := by
  rw [buildCss_sections x cfg m l c h, mem_npUnique, linksOf_sections x m hm]
  unfold atRows HasEdge rowsOf
  rw [List.mem_filterMap]
  refine exists_congr fun e => ?_
  rw [List.mem_filter, List.mem_range]
  simp only [decide_eq_true_eq]
  constructor
  · exact fun h => ⟨h.1.2, h.2⟩
  · exact fun h => ⟨⟨(List.getElem?_eq_some_iff.1 h.1).1, h.1⟩, h.2⟩

theorem tableOf_isSome (c : ExportCss K) (sec : Text) : (∃ t, tableOf c sec = some t) ↔ sec ∈ c.tables.map (·.1) := by
  unfold tableOf
  constructor
  · rintro ⟨t, ht⟩
    obtain ⟨p, hp, _⟩ := Option.map_eq_some_iff.1 ht
    have h1 := List.mem_of_find?_eq_some hp
    have h2 := List.find?_some hp
    simp only [decide_eq_true_eq] at h2
    exact List.mem_map.2 ⟨p, h1, h2⟩
  · intro h
    obtain ⟨p, hp, e⟩ := List.mem_map.1 h
    cases hf : c.tables.find? fun p => decide (p.1 = sec) with
    | none =>
      rw [List.find?_eq_none] at hf
      exact absurd (decide_eq_true e) (hf p hp)
    | some q => exact ⟨q.2, rfl⟩

theorem tableOf_mem (c : ExportCss K) (sec : Text) (t : FrictionTable K) (h : tableOf c sec = some t) :
    (sec, t) ∈ c.tables := by
  unfold tableOf at h
  obtain ⟨p, hp, rfl⟩ := Option.map_eq_some_iff.1 h
  have h1 := List.mem_of_find?_eq_some hp
  have h2 := List.find?_some hp
  simp only [decide_eq_true_eq] at h2
  rw [← h2]
  exact h1

end Fm2prof
