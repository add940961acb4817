import Verif.Spec.Renamed
import Verif.Proofs.Territory
import Verif.Proofs.OneSetting
import Verif.Proofs.InvarianceRun

/-!
# Runs with other names for the cross-sections

Helper lemmas for the properties in `Props/Renamed.lean`.
-/

set_option linter.unusedSectionVars false

namespace Fm2prof.RenamedProof

open Fm2prof Spec TerritoryProof OneSettingProof Props

section

variable {K : Type} [Field K] [LinearOrder K] [IsStrictOrderedRing K]

/-- A station with another name. -/
def other (name : Text → Text) (c : Station Text K) : Station Text K := { c with id := name c.id }

theorem placed_renamed (name : Text → Text) (b : Loc K → Text) (q : Loc K → K) (css : List (Loc K)) (regions : Option RegionLabels) :
    placed (css.map (Loc.renamed name b q)) regions = (placed css regions).map (other name) := by
  cases regions with
  | none =>
    unfold placed
    simp only [List.map_map]
    rfl
  | some r =>
    unfold placed
    simp only [List.map_map, List.zip_map_left]
    rfl

theorem inRegion_other (name : Text → Text) (css : List (Station Text K)) (r : Text) :
    inRegion (css.map (other name)) r = (inRegion css r).map (other name) := by
  unfold inRegion
  rw [List.filter_map]
  rfl

theorem labelAt_other (nn : NearestPicker K) (name : Text → Text) (css : List (Station Text K)) (p : Pt K) :
    labelAt nn (css.map (other name)) p = (labelAt nn css p).map name := by
  unfold labelAt
  have e : (css.map (other name)).map (·.pos) = css.map (·.pos) := by rw [List.map_map]; rfl
  rw [e, List.getElem?_map, Option.map_map, Option.map_map]
  rfl

theorem labelD_other (nn : NearestPicker K) (name : Text → Text) (css : List (Station Text K)) (o o' : Text) (p : Pt K) (hne : css ≠ []) :
    labelD nn (css.map (other name)) o' p = name (labelD nn css o p) := by
  obtain ⟨l, h1, _⟩ := labelAt_some nn css hne p
  unfold labelD
  rw [labelAt_other, h1]
  rfl

theorem mem_placed {css : List (Loc K)} {regions : Option RegionLabels} {c : Station Text K} (h : c ∈ placed css regions) :
    ∃ l ∈ css, l.id = c.id := by
  cases regions with
  | none =>
    obtain ⟨l, hl, rfl⟩ := List.mem_map.1 h
    exact ⟨l, hl, rfl⟩
  | some r =>
    obtain ⟨p, hp, rfl⟩ := List.mem_map.1 h
    exact ⟨p.1, (List.of_mem_zip hp).1, rfl⟩

theorem label_station (nn : NearestPicker K) {css : List (Loc K)} {regions : Option RegionLabels} (r o : Text) (p : Pt K)
    (hne : inRegion (placed css regions) r ≠ []) : ∃ l ∈ css, l.id = labelD nn (inRegion (placed css regions) r) o p := by
  obtain ⟨c, hc, hid⟩ := labelD_mem nn r o p hne
  obtain ⟨l, hl, h⟩ := mem_placed hc
  exact ⟨l, hl, h.trans hid⟩

theorem face_renamed (nn : NearestPicker K) (name : Text → Text) (d : MapData K) (css : List (Loc K)) (regions : Option RegionLabels)
    (hn : Renaming name d css regions) (rs : List Text) (p : GridPoint Text K) (hp : p ∈ placedFaces d regions) (l : Loc K) (hl : l ∈ css)
    (hid : l.id ≠ []) :
    faceLabel nn ((placed css regions).map (other name)) rs p p.region = name l.id ↔ faceLabel nn (placed css regions) rs p p.region = l.id := by
  unfold faceLabel
  rw [inRegion_other]
  simp only [ne_eq, List.map_eq_nil_iff]
  split
  · rename_i h
    rw [labelD_other nn name _ p.region p.region p.pos h.2]
    obtain ⟨l', hl', e⟩ := label_station nn p.region p.region p.pos h.2
    rw [← e]
    exact ⟨fun h => hn.injective _ hl' _ hl h, fun h => by rw [h]⟩
  · obtain ⟨h1, h2⟩ := hn.free p hp l hl hid
    exact ⟨fun h => absurd h h2, fun h => absurd h h1⟩

theorem edge_renamed (nn : NearestPicker K) (name : Text → Text) (d : MapData K) (css : List (Loc K)) (regions : Option RegionLabels)
    (hn : Renaming name d css regions) (rs : List Text) (trunc trunc' : Text → Text)
    (ht : trunc = id ∨ (regions ≠ none ∧ trunc = List.take 99)) (ht' : trunc' = id ∨ (regions ≠ none ∧ trunc' = List.take 99))
    (p : GridPoint Text K) (l : Loc K) (hl : l ∈ css) (hid : l.id ≠ []) :
    edgeLabel nn trunc' ((placed css regions).map (other name)) rs p [] = name l.id ↔
      edgeLabel nn trunc (placed css regions) rs p [] = l.id := by
  unfold edgeLabel
  rw [inRegion_other]
  simp only [ne_eq, List.map_eq_nil_iff]
  split
  · rename_i h
    rw [labelD_other nn name _ p.region p.region p.pos h.2]
    obtain ⟨l', hl', e⟩ := label_station nn p.region p.region p.pos h.2
    rw [← e, take_short trunc regions ht fun h => (hn.short h _ hl').1, take_short trunc' regions ht' fun h => (hn.short h _ hl').2]
    exact ⟨fun h => hn.injective _ hl' _ hl h, fun h => by rw [h]⟩
  · exact ⟨fun h => absurd ((hn.blank l hl).1 h.symm) hid, fun h => absurd h.symm hid⟩

theorem predict_empty (nn : NearestPicker K) (st : List (Station Text K)) (pts : List (GridPoint Text K)) (h : st = [] ∨ pts = []) :
    predict nn st pts = .error .valueError := by unfold predict; rw [if_pos h]

/-- Whether the classification works does not depend on the names. -/
theorem assignCss_renamed (nn : NearestPicker K) (name : Text → Text) (b : Loc K → Text) (q : Loc K → K) (d : MapData K)
    (css : List (Loc K)) (regions : Option RegionLabels) :
    (∃ fs es fs' es', assignCss nn d css regions = .ok (fs, es) ∧
      assignCss nn d (css.map (Loc.renamed name b q)) regions = .ok (fs', es')) ∨
    ∃ e, assignCss nn d css regions = .error e ∧ assignCss nn d (css.map (Loc.renamed name b q)) regions = .error e := by
  cases regions with
  | none =>
    have e : ∀ css : List (Loc K), assignCss nn d css none =
        classifyWithoutRegions nn (placed css none) (placedFaces d none) (placedEdges d none) := by
      intro css
      show classifyWithoutRegions nn (stationsOf css (css.map fun _ => []))
        (gridPoints d.faces.x d.faces.y (d.faces.x.map fun _ => [])) (gridPoints d.edges.x d.edges.y (d.edges.x.map fun _ => [])) = _
      rw [stationsOf_none, gridPoints_none, gridPoints_none]
      rfl
    rw [e, e, placed_renamed]
    generalize placed css none = st
    unfold classifyWithoutRegions
    by_cases hc : st = []
    · rw [predict_empty nn st _ (.inl hc), predict_empty nn (st.map (other name)) _ (.inl (by rw [hc]; rfl))]
      exact .inr ⟨_, rfl, rfl⟩
    have hc' : st.map (other name) ≠ [] := by simpa using hc
    by_cases hf : placedFaces d none = []
    · rw [predict_empty nn st _ (.inr hf), predict_empty nn (st.map (other name)) _ (.inr hf)]
      exact .inr ⟨_, rfl, rfl⟩
    rw [predict_eq nn _ _ hc hf [], predict_eq nn _ _ hc' hf []]
    by_cases he : placedEdges d none = []
    · rw [predict_empty nn st _ (.inr he), predict_empty nn (st.map (other name)) _ (.inr he)]
      exact .inr ⟨_, rfl, rfl⟩
    rw [predict_eq nn _ _ hc he [], predict_eq nn _ _ hc' he []]
    exact .inl ⟨_, _, _, _, rfl, rfl⟩
  | some r =>
    show (∃ fs es fs' es', classifyWithRegions nn (List.take 99) [] (placed css (some r)) (placedFaces d (some r))
        (placedEdges d (some r)) = .ok (fs, es) ∧
        classifyWithRegions nn (List.take 99) [] (placed (css.map (Loc.renamed name b q)) (some r)) (placedFaces d (some r))
        (placedEdges d (some r)) = .ok (fs', es')) ∨
      ∃ e, classifyWithRegions nn (List.take 99) [] (placed css (some r)) (placedFaces d (some r)) (placedEdges d (some r)) = .error e ∧
        classifyWithRegions nn (List.take 99) [] (placed (css.map (Loc.renamed name b q)) (some r)) (placedFaces d (some r))
        (placedEdges d (some r)) = .error e
    rw [placed_renamed]
    unfold classifyWithRegions
    by_cases hok : ∀ q ∈ pdUnique ((placedFaces d (some r)).map (·.region)), inRegion (placed css (some r)) q = [] ∨
        ((placedFaces d (some r)).filter (fun p => p.region = q) ≠ [] ∧ (placedEdges d (some r)).filter (fun p => p.region = q) ≠ [])
    · rw [classifyRegions_eq nn (List.take 99) _ _ _ _ (nodup_pdUnique _) _ _ (by simp) (by simp) hok,
        classifyRegions_eq nn (List.take 99) ((placed css (some r)).map (other name)) _ _ _ (nodup_pdUnique _) _ _ (by simp) (by simp) (by
        intro q hq
        rw [inRegion_other]
        rcases hok q hq with h | h
        · exact .inl (by rw [h]; rfl)
        · exact .inr h)]
      exact .inl ⟨_, _, _, _, rfl, rfl⟩
    · push Not at hok
      obtain ⟨q, hq, h1, h2⟩ := hok
      have hbad : (placedFaces d (some r)).filter (fun p => p.region = q) = [] ∨
          (placedEdges d (some r)).filter (fun p => p.region = q) = [] := by
        by_cases h' : (placedFaces d (some r)).filter (fun p => p.region = q) = []
        · exact .inl h'
        · exact .inr (h2 h')
      rw [classifyRegions_error nn (List.take 99) _ _ _ _ _ _ (by simp) (by simp) q hq h1 hbad,
        classifyRegions_error nn (List.take 99) ((placed css (some r)).map (other name)) _ _ _ _ _ (by simp) (by simp) q hq
          (by rw [inRegion_other]; simpa using h1) hbad]
      exact .inr ⟨_, rfl, rfl⟩

end

variable {K : Type} [Field K] [LinearOrder K] [IsStrictOrderedRing K] [FloorRing K]

/-- Loaded data that are the same but for the labels of the points, which select the same points. -/
structure Twin (name : Text → Text) (css : List (Loc K)) (m m' : Model2d K) : Prop where
  faces : ∃ fs, m'.faces = { m.faces with sclass := fs } ∧
    ∀ l ∈ css, l.id ≠ [] → fs.map (fun c => decide (c = name l.id)) = m.faces.sclass.map fun c => decide (c = l.id)
  edges : ∃ es, m'.edges = { m.edges with sclass := es } ∧
    ∀ l ∈ css, l.id ≠ [] → es.map (fun c => decide (c = name l.id)) = m.edges.sclass.map fun c => decide (c = l.id)
  nMaps : m'.nMaps = m.nMaps
  numbered : m'.numbered = m.numbered

theorem load_renamed (nn : NearestPicker K) (name : Text → Text) (b : Loc K → Text) (q : Loc K → K) (i : Inputs K)
    (css : List (Loc K)) (regions : Option RegionLabels) (hcss : i.css = .ok css) (hreg : i.regions = regions.map .ok)
    (hn : ∀ d, i.map = .ok d → Renaming name d css regions) :
    (∃ e, setModelData nn i = .error e ∧ setModelData nn (Inputs.renamed name b q i) = .error e) ∨
    ∃ m m', setModelData nn i = .ok m ∧ setModelData nn (Inputs.renamed name b q i) = .ok m' ∧ m.stations = css ∧
      m'.stations = css.map (Loc.renamed name b q) ∧ Twin name css m m' ∧ ∃ d, i.map = .ok d := by
  have hr : readOptional i.regions = .ok regions := by
    rw [hreg]
    cases regions <;> rfl
  have e1 : (Inputs.renamed name b q i).map = i.map := rfl
  have e2 : (Inputs.renamed name b q i).css = .ok (css.map (Loc.renamed name b q)) := by
    show i.css.map _ = _
    rw [hcss]; rfl
  have e3 : readOptional (Inputs.renamed name b q i).regions = .ok regions := hr
  have e4 : (Inputs.renamed name b q i).sections = i.sections := rfl
  unfold setModelData
  rw [e1, e2, e3, e4, hcss, hr]
  cases hd : i.map with
  | error e => exact .inl ⟨e, rfl, rfl⟩
  | ok d =>
    cases hs : readOptional i.sections with
    | error e => exact .inl ⟨e, rfl, rfl⟩
    | ok sections =>
      rcases assignCss_renamed nn name b q d css regions with ⟨fs, es, fs', es', ha, ha'⟩ | ⟨e, ha, ha'⟩
      · simp only
        rw [ha, ha']
        simp only
        cases hsec : assignSections d sections with
        | error e => exact .inl ⟨e, rfl, rfl⟩
        | ok triple =>
          obtain ⟨fsect, esect, numbered⟩ := triple
          obtain ⟨trunc, ht, hfs, hes⟩ := assignCss_labels nn d css regions fs es ha
          obtain ⟨trunc', ht', hfs', hes'⟩ := assignCss_labels nn d _ regions fs' es' ha'
          rw [placed_renamed] at hfs' hes'
          refine .inr ⟨_, _, rfl, rfl, rfl, rfl, ⟨⟨fs', rfl, ?_⟩, ⟨es', rfl, ?_⟩, rfl, rfl⟩, d, rfl⟩
          · intro l hl hid
            show fs'.map _ = fs.map _
            rw [hfs, hfs', List.map_map, List.map_map]
            apply List.map_congr_left
            intro p hp
            exact decide_eq_decide.2 (face_renamed nn name d css regions (hn d hd) _ p hp l hl hid)
          · intro l hl hid
            show es'.map _ = es.map _
            rw [hes, hes', List.map_map, List.map_map]
            apply List.map_congr_left
            intro p _
            exact decide_eq_decide.2 (edge_renamed nn name d css regions (hn d hd) _ trunc trunc' ht ht' p l hl hid)
      · simp only
        rw [ha, ha']
        exact .inl ⟨e, rfl, rfl⟩

theorem selection_twin {name : Text → Text} {css : List (Loc K)} {m m' : Model2d K} (h : Twin name css m m') (sqrt : K → K) (l : Loc K)
    (hl : l ∈ css) (hid : l.id ≠ []) :
    getSelection sqrt m'.faces m'.edges (name l.id) = getSelection sqrt m.faces m.edges l.id := by
  obtain ⟨fs, hf, hf'⟩ := h.faces
  obtain ⟨es, he, he'⟩ := h.edges
  unfold getSelection
  rw [hf, he]
  simp only
  rw [hf' l hl hid, he' l hl hid]

/-- What is built for a cross-section with another name. -/
theorem build_twin {name : Text → Text} {css : List (Loc K)} {m m' : Model2d K} (h : Twin name css m m') (b : Loc K → Text) (q : Loc K → K)
    (x y : Tools K) (hy : SameHelp name css x y) (cfg : RunConfig K) (l : Loc K) (hl : l ∈ css) (hid : l.id ≠ []) :
    (buildCss y cfg m' (Loc.renamed name b q l)).map (·.out) =
      (buildCss x cfg m l).map fun c => { c.out with name := name l.id, branch := b l, chainage := q l } := by
  have ho : y.opt (name l.id) = x.opt l.id := hy.opt l hl
  have hlog : y.log (name l.id) = x.log l.id := hy.log l hl
  obtain ⟨opt, log, rfl⟩ := hy.rest
  have ho : opt (name l.id) = x.opt l.id := ho
  have hlog : log (name l.id) = x.log l.id := hlog
  have hs : getSelection x.sqrt m'.faces m'.edges (Loc.renamed name b q l).id = getSelection x.sqrt m.faces m.edges l.id :=
    selection_twin h x.sqrt l hl hid
  have hr : ∀ s c, assignRoughness cfg m' s l.length c = assignRoughness cfg m s l.length c := by
    intro s c
    unfold assignRoughness
    rw [h.nMaps, h.numbered]
  unfold buildCss
  show Except.map _ (
    match buildCrossSectionGeometry (opt (name l.id)) cfg.pipeline x.bump x.release (log (name l.id)) l.length
      (centreOf x.nn (getSelection x.sqrt m'.faces m'.edges (Loc.renamed name b q l).id) l)
      (controlVolumeOf m'.nMaps (getSelection x.sqrt m'.faces m'.edges (Loc.renamed name b q l).id)) with
    | .error e => .error e
    | .ok c =>
      match assignRoughness cfg m' (getSelection x.sqrt m'.faces m'.edges (Loc.renamed name b q l).id) l.length c with
      | .error e => .error e
      | .ok (tables, widths, base) => _) = _
  rw [ho, hlog, hs, h.nMaps]
  simp only [hr]
  generalize buildCrossSectionGeometry (x.opt l.id) cfg.pipeline x.bump x.release (x.log l.id) l.length
    (centreOf x.nn (getSelection x.sqrt m.faces m.edges l.id) l)
    (controlVolumeOf m.nMaps (getSelection x.sqrt m.faces m.edges l.id)) = g
  cases g with
  | error e => rfl
  | ok c =>
    simp only
    generalize assignRoughness cfg m (getSelection x.sqrt m.faces m.edges l.id) l.length c = r
    cases r with
    | error e => rfl
    | ok t =>
      obtain ⟨tables, widths, base⟩ := t
      simp only
      cases c.crestLevel <;> cases c.extraFlowArea <;> cases c.extraTotalArea <;> cases c.extraTotalVolume <;> rfl

theorem usable_twin {name : Text → Text} {css : List (Loc K)} {m m' : Model2d K} {d : MapData K} {regions : Option RegionLabels}
    (h : Twin name css m m') (hn : Renaming name d css regions)
    (b : Loc K → Text) (q : Loc K → K) (l : Loc K) (hl : l ∈ css) : Usable m' (Loc.renamed name b q l) ↔ Usable m l := by
  by_cases hid : l.id = []
  · constructor
    · intro h'; exact absurd ((hn.blank l hl).2 hid) h'.1
    · intro h'; exact absurd hid h'.1
  · obtain ⟨fs, hf, hf'⟩ := h.faces
    have e : (rowsOf m'.faces.sclass (name l.id)).length = (rowsOf m.faces.sclass l.id).length := by
      rw [hf]
      show (rowsOf fs (name l.id)).length = _
      have key : ∀ (t : List Text) (n : Text), (rowsOf t n).length = ((t.map fun c => decide (c = n)).filter id).length := by
        intro t n
        rw [rowsOf_length_filter, List.filter_map, List.length_map]
        rfl
      rw [key, key, hf' l hl hid]
    constructor
    · intro h'; exact ⟨hid, by rw [← e]; exact h'.2⟩
    · intro h'; exact ⟨fun h0 => hid ((hn.blank l hl).1 h0), by
        show 10 ≤ (rowsOf m'.faces.sclass (name l.id)).length
        rw [e]; exact h'.2⟩

/-- A cross-section without its name. -/
def nameless (c : ExportCss K) : ExportCss K := { c with name := [] }

theorem roughness_nameless (ft : FloatText K) (sig : K → Text) (os : List (ExportCss K)) (sec : Text) :
    exportRoughness ft sig (os.map nameless) sec = exportRoughness ft sig os sec := by
  have h1 : ∀ (s : Text) (os : List (ExportCss K)) (seen : List Text), branchSec s seen (os.map nameless) = branchSec s seen os := by
    intro s os
    induction os with
    | nil => intro seen; rfl
    | cons c cs ih =>
      intro seen
      rw [List.map_cons, branchSec, branchSec]
      simp only [ih]
      rfl
  have h2 : ∀ (s : Text) (os : List (ExportCss K)), definitionSec ft sig s (os.map nameless) = definitionSec ft sig s os := by
    intro s os
    induction os with
    | nil => rfl
    | cons c cs ih =>
      rw [List.map_cons, definitionSec, definitionSec]
      simp only [ih]
      rfl
  unfold exportRoughness
  rw [h1, h2]

theorem isAt_map {α β : Type} (g : α → β) (l : List α) (k : Int) (a : α) (h : IsAt l k a) : IsAt (l.map g) k (g a) := by
  rcases h with ⟨h1, h2⟩ | ⟨h1, h2⟩
  · exact .inl ⟨h1, by rw [List.getElem?_map, h2]; rfl⟩
  · exact .inr ⟨h1, by rw [List.length_map]; exact h2.1, by rw [List.length_map, List.getElem?_map, h2.2]; rfl⟩

theorem requested_map {α β : Type} (g : α → β) (sel : List Int) (l xs : List α) (h : Requested sel l xs) :
    Requested sel (l.map g) (xs.map g) := by
  rcases h with ⟨h1, h2⟩ | ⟨h1, h2⟩
  · exact .inl ⟨h1, by rw [h2]⟩
  · refine .inr ⟨h1, ?_⟩
    induction h2 with
    | nil => exact .nil
    | cons ha _ ih => exact .cons (isAt_map g l _ _ ha) (by
        rename_i k a ks as hk
        cases ks with
        | nil => cases hk; exact .nil
        | cons _ _ => exact ih (by simp))

theorem requested_mem {α : Type} (sel : List Int) (l xs : List α) (h : Requested sel l xs) : ∀ a ∈ xs, a ∈ l := by
  rcases h with ⟨_, h2⟩ | ⟨_, h2⟩
  · rw [h2]; exact fun a h => h
  · intro a ha
    obtain ⟨k, _, hk⟩ := forall₂_mem h2 a ha
    rcases hk with ⟨_, h⟩ | ⟨_, h⟩
    · exact List.mem_of_getElem? h
    · exact List.mem_of_getElem? h.2

/-- The two runs do the same for the files `P`, if what matters of a cross-section does. -/
theorem sameJobs {V : Type} (v v' : ExportCss K → V) (P : Text → Prop) (name : Text → Text) (b : Loc K → Text) (q : Loc K → K)
    (i : Inputs K) (css : List (Loc K)) (regions : Option RegionLabels) (hcss : i.css = .ok css) (hreg : i.regions = regions.map .ok)
    (hn : ∀ d, i.map = .ok d → Renaming name d css regions) (x y : Tools K) (hy : SameHelp name css x y) (cfg : RunConfig K)
    (o : Surroundings)
    (hp : cfg.exportCssData = true → ∀ l ∈ css, Sound o.faults (l.id ++ ".pickle".toList) ∧ Sound o.faults (name l.id ++ ".pickle".toList) ∧
      Sound o.faults (l.id ++ "_flowmask.pickle".toList) ∧ Sound o.faults (name l.id ++ "_flowmask.pickle".toList))
    (hv : ∀ l ∈ css, ∀ c : ExportCss K, c.branch = l.branch → c.chainage = l.chainage →
      v' { c with name := name l.id, branch := b l, chainage := q l } = v c)
    (hout : ∀ cs cs' : List (Finished K), cs'.map (fun c => v' c.out) = cs.map (fun c => v c.out) → ∀ s f, P f →
      writeOutput o.faults (exporterOf y) o.dirExists (harmoniseCss cs') s f
        = writeOutput o.faults (exporterOf x) o.dirExists (harmoniseCss cs) s f) :
    SameJobs (jobOf x cfg i o) (jobOf y cfg (Inputs.renamed name b q i) o) (Loc.renamed name b q) (fun c => v c.out) (fun c => v' c.out) P := by
  have hnn : y.nn = x.nn := by obtain ⟨opt, log, rfl⟩ := hy.rest; rfl
  have hsq : y.sqrt = x.sqrt := by obtain ⟨opt, log, rfl⟩ := hy.rest; rfl
  have hset := load_renamed x.nn name b q i css regions hcss hreg hn
  have hload : ∀ m, (jobOf x cfg i o).load = .ok m → ∃ d d', setModelData x.nn i = .ok d ∧
      setModelData y.nn (Inputs.renamed name b q i) = .ok d' ∧ m.stations = css ∧ Twin name css d d' ∧ ∃ e, i.map = .ok e := by
    intro m h
    have h : (setModelData x.nn i).map (fun m => (⟨m.stations, m.nMaps⟩ : Loaded (Loc K))) = .ok m := h
    rcases hset with ⟨e, h1, _⟩ | ⟨d, d', h1, h2, h3, h4, h5, h6⟩
    · rw [h1] at h; cases h
    · rw [h1] at h
      obtain rfl := Except.ok.inj h
      exact ⟨d, d', h1, by rw [hnn]; exact h2, h3, h5, h6⟩
  constructor
  · rfl
  · rfl
  · rfl
  · rfl
  · rfl
  · rfl
  · rfl
  · show (setModelData y.nn _).map _ = ((setModelData x.nn _).map _).map _
    rw [hnn]
    rcases hset with ⟨e, h1, h2⟩ | ⟨d, d', h1, h2, h3, h4, h5, h6⟩
    · rw [h1, h2]; rfl
    · rw [h1, h2]
      simp only [Except.map, h3, h4, h5.nMaps]
  · intro m h l hl
    obtain ⟨d, d', h1, h2, h3, h4, e, h5⟩ := hload m h
    rw [h3] at hl
    show decide (name l.id ≠ []) = decide (l.id ≠ [])
    exact decide_eq_decide.2 (not_congr ((hn e h5).blank l hl))
  · intro m h l hl s s'
    obtain ⟨d, d', h1, h2, h3, h4, e, h5⟩ := hload m h
    rw [h3] at hl
    unfold storeData
    show (if cfg.exportCssData = true then writeFile o.faults (name l.id ++ ".pickle".toList) _ none s' else (s', none)).2
      = (if cfg.exportCssData = true then writeFile o.faults (l.id ++ ".pickle".toList) _ none s else (s, none)).2
    by_cases he : cfg.exportCssData = true
    · obtain ⟨⟨p1, p2⟩, ⟨p3, p4⟩, _⟩ := hp he l hl
      rw [if_pos he, if_pos he]
      unfold writeFile
      rw [p1, p2, p3, p4]
      rfl
    · rw [if_neg he, if_neg he]
  · intro m h h' l hl s s'
    obtain ⟨d, d', h1, h2, h3, h4, e, h5⟩ := hload m h
    rw [h3] at hl
    have k1 := jobOf_mask x cfg i o m h l
    have k2 := jobOf_mask y cfg _ o _ h' (Loc.renamed name b q l)
    have k : ((jobOf y cfg (Inputs.renamed name b q i) o).mask (Loc.renamed name b q l)).isSome = ((jobOf x cfg i o).mask l).isSome := by
      rw [k1, k2]
    unfold storeMask
    show (if cfg.exportCssData = true then _ else (s', none)).2 = (if cfg.exportCssData = true then _ else (s, none)).2
    by_cases he : cfg.exportCssData = true
    · obtain ⟨_, _, ⟨p1, p2⟩, p3, p4⟩ := hp he l hl
      rw [if_pos he, if_pos he]
      revert k
      cases (jobOf y cfg (Inputs.renamed name b q i) o).mask (Loc.renamed name b q l) <;> cases (jobOf x cfg i o).mask l <;> intro k
      · rfl
      · cases k
      · cases k
      · show (writeFile o.faults (name l.id ++ "_flowmask.pickle".toList) _ none s').2
          = (writeFile o.faults (l.id ++ "_flowmask.pickle".toList) _ none s).2
        unfold writeFile
        rw [p1, p2, p3, p4]
        rfl
    · rw [if_neg he, if_neg he]
  · intro m h l hl hval
    obtain ⟨d, d', h1, h2, h3, h4, e, h5⟩ := hload m h
    rw [h3] at hl
    show (match setModelData y.nn _ with | .error _ => 0 | .ok m => (getSelection y.sqrt m.faces m.edges (name l.id)).x.length)
      = (match setModelData x.nn _ with | .error _ => 0 | .ok m => (getSelection x.sqrt m.faces m.edges l.id).x.length)
    rw [h1, h2, hsq]
    simp only
    rw [selection_twin h4 x.sqrt l hl (of_decide_eq_true hval)]
  · intro m h l hl hval hfaces
    obtain ⟨d, d', h1, h2, h3, h4, e, h5⟩ := hload m h
    rw [h3] at hl
    have hid : l.id ≠ [] := of_decide_eq_true hval
    have key := build_twin h4 b q x y hy cfg l hl hid
    show (match setModelData y.nn _ with | .error e => Except.error e | .ok m => buildCss y cfg m (Loc.renamed name b q l)).map _
      = (match setModelData x.nn _ with | .error e => Except.error e | .ok m => buildCss x cfg m l).map _
    rw [h1, h2]
    simp only
    cases hc' : buildCss y cfg d' (Loc.renamed name b q l) <;> cases hc : buildCss x cfg d l <;> rw [hc, hc'] at key
    · exact congrArg Except.error (Except.error.inj key)
    · cases key
    · cases key
    · rename_i c' c
      have key : c'.out = { c.out with name := name l.id, branch := b l, chainage := q l } := Except.ok.inj key
      have hok := buildCss_ok x cfg d l c hc
      show Except.ok (v' c'.out) = Except.ok (v c.out)
      rw [key, hv l hl c.out hok.2.2.2.2.2.2.2.1 hok.2.2.2.2.2.2.2.2.1]
  · intro cs cs' h s f hf
    exact hout cs cs' h s f hf

end Fm2prof.RenamedProof
