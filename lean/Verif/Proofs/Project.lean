import Verif.Spec.Project
import Verif.Props.Polygons
import Verif.Props.Classify
import Verif.Props.Pipeline
import Verif.Props.Locations
import Verif.Proofs.IniParse

/-! Helper lemmas about projects: cache files, labels and what is read. -/

set_option linter.unusedSectionVars false

namespace Fm2prof.ProjectProof

open Fm2prof Spec Props

variable {K : Type} [Field K] [LinearOrder K] [IsStrictOrderedRing K] [FloorRing K]

/-! ## Locations -/

theorem rows_of_file (ft : FloatText K) (file : Option Text) (cols : CssColumns K) (h : cssFile ft ',' file = .ok cols) :
    RowsOf cols (locationsOf cols) := by
  obtain ⟨h1, h2, h3, h4⟩ := C35_columns_aligned ft ',' file cols h
  have e1 : (cols.id.zip cols.xy).length = cols.xy.length := by rw [List.length_zip, h1, min_self]
  have e2 : (cols.branchid.zip cols.chainage).length = cols.xy.length := by rw [List.length_zip, h2, h4, min_self]
  have e3 : (cols.length.zip (cols.branchid.zip cols.chainage)).length = cols.xy.length := by
    rw [List.length_zip, h3, e2, min_self]
  have a1 : ((cols.id.zip cols.xy).zip (cols.length.zip (cols.branchid.zip cols.chainage))).map (·.1) = cols.id.zip cols.xy :=
    List.map_fst_zip (by rw [e1, e3])
  have a2 : ((cols.id.zip cols.xy).zip (cols.length.zip (cols.branchid.zip cols.chainage))).map (·.2) =
      cols.length.zip (cols.branchid.zip cols.chainage) := List.map_snd_zip (by rw [e1, e3])
  have b1 : (cols.id.zip cols.xy).map (·.1) = cols.id := List.map_fst_zip (by rw [h1])
  have b2 : (cols.id.zip cols.xy).map (·.2) = cols.xy := List.map_snd_zip (by rw [h1])
  have b3 : (cols.length.zip (cols.branchid.zip cols.chainage)).map (·.1) = cols.length := List.map_fst_zip (by rw [h3, e2])
  have b4 : (cols.length.zip (cols.branchid.zip cols.chainage)).map (·.2) = cols.branchid.zip cols.chainage :=
    List.map_snd_zip (by rw [h3, e2])
  have c1 : (cols.branchid.zip cols.chainage).map (·.1) = cols.branchid := List.map_fst_zip (by rw [h2, h4])
  have c2 : (cols.branchid.zip cols.chainage).map (·.2) = cols.chainage := List.map_snd_zip (by rw [h2, h4])
  rw [← a1, List.map_map] at b1 b2
  rw [← b4, List.map_map] at c1 c2
  rw [← a2, List.map_map] at b3 c1 c2
  unfold locationsOf
  exact ⟨by rw [List.map_map]; exact b1, by rw [List.map_map]; exact b2, by rw [List.map_map]; exact b3,
    by rw [List.map_map]; exact c1, by rw [List.map_map]; exact c2⟩

/-- The locations that a run uses. -/
theorem locations_rows {ft : FloatText K} {file : Option Text} {ls : List (Loc K)} (h : (cssFile ft ',' file).map locationsOf = .ok ls) :
    ∃ cols, cssFile ft ',' file = .ok cols ∧ RowsOf cols ls := by
  cases hc : cssFile ft ',' file with
  | error e => rw [hc] at h; cases h
  | ok cols =>
    rw [hc] at h
    obtain rfl := Except.ok.inj h
    exact ⟨cols, rfl, rows_of_file ft file cols hc⟩

/-! ## Names of cache files -/

theorem withSuffix_append (path : Text) :
    (∃ e, ∀ suffix, withSuffix suffix path = .error e) ∨ ∃ pre, ∀ suffix, withSuffix suffix path = .ok (pre ++ suffix) := by
  unfold withSuffix
  simp only
  cases hg : (splitSep '/' path).getLast? with
  | none => exact .inl ⟨_, fun _ => rfl⟩
  | some name =>
    simp only
    by_cases hn : name = []
    · exact .inl ⟨.valueError, fun _ => by rw [if_pos hn]⟩
    · refine .inr ?_
      cases hd : (splitSep '/' path).dropLast with
      | nil => exact ⟨nameStem name, fun suffix => by rw [if_neg hn]; rfl⟩
      | cons w ws =>
        refine ⟨joinWith ['/'] (w :: ws) ++ ['/'] ++ nameStem name, fun suffix => ?_⟩
        rw [if_neg hn, joinWith_snoc _ _ (by exact List.cons_ne_nil _ _), List.append_assoc, List.append_assoc, List.append_assoc]

theorem keys_differ (path k k' : Text) (h : withSuffix ('.' :: "region".toList ++ "_cache.json".toList) path = .ok k)
    (h' : withSuffix ('.' :: "section".toList ++ "_cache.json".toList) path = .ok k') : k' ≠ k := by
  rcases withSuffix_append path with ⟨e, he⟩ | ⟨pre, hp⟩
  · rw [he] at h; cases h
  · rw [hp] at h h'
    obtain rfl := Except.ok.inj h
    obtain rfl := Except.ok.inj h'
    intro heq
    exact absurd (List.append_cancel_left heq) (by decide +kernel)

/-! ## Labels -/

theorem labelTexts_spec (ls : List (Option String)) (ts : List Text) (h : labelTexts ls = .ok ts) :
    ls = ts.map fun t => some (String.ofList t) := by
  induction ls generalizing ts with
  | nil => obtain rfl := Except.ok.inj h; rfl
  | cons l ls ih =>
    cases l with
    | none => cases h
    | some l =>
      unfold labelTexts at h
      cases hl : labelTexts ls with
      | error e => rw [hl] at h; cases h
      | ok ts' =>
        rw [hl] at h
        obtain rfl := Except.ok.inj h
        rw [List.map_cons, ← ih ts' hl, String.ofList_toList]

theorem node_label (inside : Ring K → Pt K → Bool) (property default : String) (ps : List (Polygon K)) (nodes : List (Pt K))
    (i : Nat) (p : Pt K) (hp : nodes[i]? = some p) :
    (nodeLabels inside property default ps nodes)[i]? = some (polygonLabel inside property default ps p) := by
  obtain ⟨_, h⟩ := C31_nodes inside property default ps nodes
  obtain ⟨h1, h2, _⟩ := h i p hp
  unfold polygonLabel
  cases hc : (containing inside ps p).getLast? with
  | none => exact h1 (List.getLast?_eq_none_iff.1 hc)
  | some q => exact h2 q hc

theorem labelled (inside : Ring K → Pt K → Bool) (property default : String) (ps : List (Polygon K)) (nodes : List (Pt K))
    (firstNodes : List Nat) (ls : List (Option String)) (h : gridPointLabels inside property default ps nodes firstNodes = .ok ls)
    (ts : List Text) (ht : labelTexts ls = .ok ts) : LabelledBy inside property default ps nodes firstNodes ts := by
  obtain ⟨h1, h2⟩ := C31_grid_points inside property default ps nodes firstNodes ls h
  have hs := labelTexts_spec ls ts ht
  refine ⟨by rw [← h1, hs, List.length_map], fun i n hn => ?_⟩
  obtain ⟨h3, h4⟩ := h2 i n hn
  have hp := List.getElem?_eq_getElem h4
  refine ⟨nodes[n - 1], ?_⟩
  rw [node_label inside property default ps nodes _ _ hp, hs, List.getElem?_map] at h3
  cases hti : ts[i]? with
  | none => rw [hti] at h3; cases h3
  | some t =>
    rw [hti] at h3
    refine ⟨String.ofList t, hp, (Option.some.inj h3).symm, ?_⟩
    rw [String.toList_ofList]

theorem fresh_parts (g : Geometries K) (property default : String) (ps : List (Polygon K)) (m : MapFile K) (ls : Labels)
    (h : freshLabels g property default ps m = .ok ls) :
    gridPointLabels g.inside property default ps m.nodes m.faceNodes = .ok ls.1 ∧
      gridPointLabels g.inside property default ps m.nodes m.edgeNodes = .ok ls.2 := by
  unfold freshLabels at h
  cases h1 : gridPointLabels g.inside property default ps m.nodes m.faceNodes with
  | error e => rw [h1] at h; cases h
  | ok f =>
    rw [h1] at h
    simp only at h
    cases h2 : gridPointLabels g.inside property default ps m.nodes m.edgeNodes with
    | error e => rw [h2] at h; cases h
    | ok e =>
      rw [h2] at h
      obtain rfl := Except.ok.inj h
      exact ⟨rfl, rfl⟩

/-- A cache file for the map file as it is now. -/
def CachedIn (caches : Caches) (property : String) (path : Text) (m : MapFile K)
    (ls : Labels) : Prop :=
  ∃ key c, withSuffix ('.' :: property.toList ++ "_cache.json".toList) path = .ok key ∧ caches key = some (.labels c) ∧ c.stamp = m.stamp ∧
    c.result = ls

theorem gridLabels_ok (g : Geometries K) (property default : String) (ps : List (Polygon K)) (path : Text) (m : MapFile K)
    (caches k : Caches) (ls : Labels)
    (h : gridLabels g property default ps path m caches = (.ok ls, k)) :
    ((CachedIn caches property path m ls ∧ k = caches) ∨
      ((∀ l, ¬ CachedIn caches property path m l) ∧ freshLabels g property default ps m = .ok ls)) ∧
    CachedIn k property path m ls ∧
    ∀ key', withSuffix ('.' :: property.toList ++ "_cache.json".toList) path ≠ .ok key' → k key' = caches key' := by
  unfold gridLabels at h
  cases hk : withSuffix ('.' :: property.toList ++ "_cache.json".toList) path with
  | error e => rw [hk] at h; cases h
  | ok key =>
    rw [hk] at h
    simp only at h
    cases hrc : readCache (caches key) with
    | error e => rw [hrc] at h; cases h
    | ok kept =>
    rw [hrc] at h
    simp only at h
    cases hc : kept.filter fun c => c.stamp = m.stamp with
    | some c =>
      rw [hc] at h
      obtain ⟨h1, rfl⟩ := Prod.mk.inj h
      obtain ⟨hc0, hc2⟩ := Option.filter_eq_some_iff.1 hc
      have hc1 : caches key = some (.labels c) := by
        rw [hc0] at hrc
        revert hrc
        cases caches key with
        | none => exact fun h => by cases h
        | some q =>
          cases q with
          | damaged => exact fun h => by cases h
          | labels c' => exact fun h => by rw [Option.some.inj (Except.ok.inj h)]
      have hci : CachedIn caches property path m ls := ⟨key, c, hk, hc1, of_decide_eq_true hc2, Except.ok.inj h1⟩
      exact ⟨.inl ⟨hci, rfl⟩, hci, fun _ _ => rfl⟩
    | none =>
      rw [hc] at h
      simp only at h
      cases hf : freshLabels g property default ps m with
      | error e => rw [hf] at h; cases h
      | ok l =>
        rw [hf] at h
        obtain ⟨h1, rfl⟩ := Prod.mk.inj h
        obtain rfl := Except.ok.inj h1
        refine ⟨.inr ⟨fun l' ⟨key', c, hk', h2, h3, _⟩ => ?_, rfl⟩, ⟨key, _, hk, if_pos rfl, rfl, rfl⟩, fun key' hne => ?_⟩
        · rw [hk] at hk'
          obtain rfl := Except.ok.inj hk'
          rw [h2] at hrc
          obtain rfl := Except.ok.inj hrc
          rw [Option.filter_some, if_pos (decide_eq_true h3)] at hc
          cases hc
        · exact if_neg fun e => hne (by rw [e])

theorem gridLabels_cached (g : Geometries K) (property default : String) (ps : List (Polygon K)) (path : Text) (m : MapFile K)
    (caches : Caches) (ls : Labels) (h : CachedIn caches property path m ls) :
    gridLabels g property default ps path m caches = (.ok ls, caches) := by
  obtain ⟨key, c, hk, h1, h2, h3⟩ := h
  unfold gridLabels
  rw [hk]
  simp only
  rw [h1]
  show (match (some c).filter (fun c => decide (c.stamp = m.stamp)) with
    | some c => ((.ok c.result : Except PyErr Labels), caches)
    | none => _) = _
  rw [Option.filter_some, if_pos (decide_eq_true h2), ← h3]

/-! ## What is read -/

theorem optional_read (d : ProjectFiles K) (path : Text) (r : Option (List (Polygon K))) (h : optionalRegions d path = .ok r) :
    match r with
    | none => path = []
    | some ps => path ≠ [] ∧ readPolygons d path = .ok ps := by
  unfold optionalRegions at h
  by_cases hp : path = []
  · rw [if_pos hp] at h
    obtain rfl := Except.ok.inj h
    exact hp
  · rw [if_neg hp] at h
    cases hr : readPolygons d path with
    | error e => rw [hr] at h; cases h
    | ok ps => rw [hr] at h; obtain rfl := Except.ok.inj h; exact ⟨hp, rfl⟩

theorem optional_sections (d : ProjectFiles K) (path : Text) (r : Option (List (Polygon K)))
    (h : optionalSections d path = .ok r) :
    match r with
    | none => path = []
    | some ps => path ≠ [] ∧ readSections d path = .ok ps := by
  unfold optionalSections at h
  by_cases hp : path = []
  · rw [if_pos hp] at h
    obtain rfl := Except.ok.inj h
    exact hp
  · rw [if_neg hp] at h
    cases hr : readSections d path with
    | error e => rw [hr] at h; cases h
    | ok ps => rw [hr] at h; obtain rfl := Except.ok.inj h; exact ⟨hp, rfl⟩

theorem read_some {α : Type} (e : Except PyErr α) (o : Option α) (h : readOptional (some e) = .ok o) : ∃ r, e = .ok r := by
  cases e with
  | error e => cases h
  | ok r => exact ⟨r, rfl⟩

theorem bound_sections (e : Except PyErr Labels) (o : Option SectionLabels)
    (h : readOptional (some (e.bind sectionLabels)) = .ok o) : ∃ ls r, e = .ok ls ∧ sectionLabels ls = .ok r := by
  cases e with
  | error e => cases h
  | ok ls =>
    obtain ⟨r, hr⟩ := read_some _ _ h
    exact ⟨ls, r, rfl, hr⟩

theorem gridLabelsAt_ok {isText : Bool} {g : Geometries K} {property default : String} {ps : List (Polygon K)} {path : Text}
    {m : MapFile K} {caches k : Caches} {ls : Labels}
    (h : gridLabelsAt isText g property default ps path m caches = (.ok ls, k)) :
    isText = false ∧ gridLabels g property default ps path m caches = (.ok ls, k) := by
  unfold gridLabelsAt at h
  cases isText with
  | true => rw [if_pos rfl] at h; cases (Prod.mk.inj h).1
  | false => exact ⟨rfl, h⟩

/-- What has been read when loading succeeds. -/
theorem inputs_ok (ft : FloatText K) (g : Geometries K) (c : Settings K) (m : MapFile K) (d : ProjectFiles K) (nn : NearestPicker K)
    (m2 : Model2d K) (h : setModelData nn (projectInputs ft g c m d).1 = .ok m2) :
    ∃ a css rs ss k, m.data = .ok a ∧ (projectInputs ft g c m d).1.map = .ok a ∧
      (cssFile ft ',' (d.texts c.cssPath)).map locationsOf = .ok css ∧ (projectInputs ft g c m d).1.css = .ok css ∧
      optionalRegions d c.regionPath = .ok rs ∧ optionalSections d c.sectionPath = .ok ss ∧
      ((rs = none ∧ (projectInputs ft g c m d).1.regions = none ∧ k = d.caches) ∨
        ∃ ps ls r, rs = some ps ∧ c.mapIsText = false ∧ gridLabels g "region" (String.ofList c.defaultRegion) ps c.mapPath m d.caches = (.ok ls, k) ∧
          regionLabels g (String.ofList c.defaultRegion) ps css ls = .ok r ∧
          (projectInputs ft g c m d).1.regions = some (.ok r)) ∧
      ((ss = none ∧ (projectInputs ft g c m d).1.sections = none ∧ (projectInputs ft g c m d).2 = k) ∨
        ∃ ps ls r, ss = some ps ∧ c.mapIsText = false ∧
          gridLabels g "section" (String.ofList c.defaultSection) ps c.mapPath m k = (.ok ls, (projectInputs ft g c m d).2) ∧
          sectionLabels ls = .ok r ∧ (projectInputs ft g c m d).1.sections = some (.ok r)) := by
  obtain ⟨a, css, regions, sections, fc, ec, fs, es, hi1, hi2, hi3, hi4, -, -, -, -, -, -⟩ := setModelData_ok nn _ m2 h
  clear h
  cases hd : m.data with
  | error e => unfold projectInputs at hi1; rw [hd] at hi1; cases hi1
  | ok a' =>
  cases hc : (cssFile ft ',' (d.texts c.cssPath)).map locationsOf with
  | error e => unfold projectInputs at hi2; rw [hd, hc] at hi2; cases hi2
  | ok l =>
  cases hr : optionalRegions d c.regionPath with
  | error e => unfold projectInputs at hi3; rw [hd, hc, hr] at hi3; cases hi3
  | ok rs =>
  cases hs : optionalSections d c.sectionPath with
  | error e => unfold projectInputs at hi4; rw [hd, hc, hr, hs] at hi4; cases hi4
  | ok ss =>
  cases rs with
  | none =>
    cases ss with
    | none =>
      have e : projectInputs ft g c m d = (⟨.ok a', .ok l, none, none⟩, d.caches) := by
        unfold projectInputs; rw [hd, hc, hr, hs]
      rw [e]
      exact ⟨a', l, none, none, d.caches, rfl, rfl, rfl, rfl, rfl, rfl, .inl ⟨rfl, rfl, rfl⟩, .inl ⟨rfl, rfl, rfl⟩⟩
    | some ss =>
      cases hg : gridLabelsAt c.mapIsText g "section" (String.ofList c.defaultSection) ss c.mapPath m d.caches with
      | mk ls k =>
        have e : projectInputs ft g c m d = (⟨.ok a', .ok l, none, some (ls.bind sectionLabels)⟩, k) := by
          unfold projectInputs; rw [hd, hc, hr, hs]; simp only; rw [hg]
        rw [e] at hi4 ⊢
        obtain ⟨ls, r, rfl, hb⟩ := bound_sections _ _ hi4
        exact ⟨a', l, none, some ss, d.caches, rfl, rfl, rfl, rfl, rfl, rfl, .inl ⟨rfl, rfl, rfl⟩, .inr ⟨ss, ls, r, rfl, (gridLabelsAt_ok hg).1, (gridLabelsAt_ok hg).2, hb,
          congrArg some hb⟩⟩
  | some rs =>
    cases hg : gridLabelsAt c.mapIsText g "region" (String.ofList c.defaultRegion) rs c.mapPath m d.caches with
    | mk lr k =>
      cases lr with
      | error e =>
        have e : projectInputs ft g c m d = (⟨.ok a', .ok l, some (.error e), none⟩, k) := by
          unfold projectInputs; rw [hd, hc, hr, hs]; simp only; rw [hg]
        rw [e] at hi3
        cases hi3
      | ok labels =>
        cases ss with
        | none =>
          have e : projectInputs ft g c m d =
              (⟨.ok a', .ok l, some (regionLabels g (String.ofList c.defaultRegion) rs l labels), none⟩, k) := by
            unfold projectInputs; rw [hd, hc, hr, hs]; simp only; rw [hg]
          rw [e] at hi3 ⊢
          obtain ⟨r, hb⟩ := read_some _ _ hi3
          exact ⟨a', l, some rs, none, k, rfl, rfl, rfl, rfl, rfl, rfl, .inr ⟨rs, labels, r, rfl, (gridLabelsAt_ok hg).1, (gridLabelsAt_ok hg).2, hb, congrArg some hb⟩,
            .inl ⟨rfl, rfl, rfl⟩⟩
        | some ss =>
          cases hg' : gridLabelsAt c.mapIsText g "section" (String.ofList c.defaultSection) ss c.mapPath m k with
          | mk ls k' =>
            have e : projectInputs ft g c m d = (⟨.ok a', .ok l, some (regionLabels g (String.ofList c.defaultRegion) rs l labels),
                some (ls.bind sectionLabels)⟩, k') := by
              unfold projectInputs; rw [hd, hc, hr, hs]; simp only; rw [hg]; simp only; rw [hg']
            rw [e] at hi3 hi4 ⊢
            obtain ⟨r, hb⟩ := read_some _ _ hi3
            obtain ⟨ls, r', rfl, hb'⟩ := bound_sections _ _ hi4
            exact ⟨a', l, some rs, some ss, k, rfl, rfl, rfl, rfl, rfl, rfl, .inr ⟨rs, labels, r, rfl, (gridLabelsAt_ok hg).1, (gridLabelsAt_ok hg).2, hb, congrArg some hb⟩,
              .inr ⟨ss, ls, r', rfl, (gridLabelsAt_ok hg').1, (gridLabelsAt_ok hg').2, hb', congrArg some hb'⟩⟩

/-- A cache of regions stays when that of the sections is written, and the other way round. -/
theorem cached_stays (g : Geometries K) (default : String) (ps : List (Polygon K)) (path : Text) (m : MapFile K)
    (caches k : Caches) (ls l : Labels)
    (h : gridLabels g "section" default ps path m caches = (.ok ls, k)) (hc : CachedIn caches "region" path m l) :
    CachedIn k "region" path m l := by
  obtain ⟨key, c, h1, h2, h3, h4⟩ := hc
  refine ⟨key, c, h1, ?_, h3, h4⟩
  rw [(gridLabels_ok _ _ _ _ _ _ _ _ _ h).2.2 key, h2]
  exact fun h' => keys_differ path key key h1 h' rfl

theorem uncached_stays (g : Geometries K) (default : String) (ps : List (Polygon K)) (path : Text) (m : MapFile K)
    (caches k : Caches) (ls l : Labels)
    (h : gridLabels g "region" default ps path m caches = (.ok ls, k)) (hc : CachedIn k "section" path m l) :
    CachedIn caches "section" path m l := by
  obtain ⟨key, c, h1, h2, h3, h4⟩ := hc
  refine ⟨key, c, h1, ?_, h3, h4⟩
  rw [← (gridLabels_ok _ _ _ _ _ _ _ _ _ h).2.2 key, h2]
  exact fun h' => keys_differ path key key h' h1 rfl

theorem cached_iff (d : ProjectFiles K) (property : String) (path : Text) (m : MapFile K) :
    Cached d property path m ↔ ∃ l, CachedIn d.caches property path m l :=
  ⟨fun ⟨key, c, h1, h2, h3⟩ => ⟨c.result, key, c, h1, h2, h3, rfl⟩, fun ⟨_, key, c, h1, h2, h3, _⟩ => ⟨key, c, h1, h2, h3⟩⟩

/-! ## A run whose input cannot be loaded -/

theorem load_failed (x : Tools K) (cfg : RunConfig K) (i : Inputs K) (o : Surroundings) (overwrite : Bool) (s : Store) (e : PyErr)
    (ho : overwrite = true ∨ ¬ HasResults s) (h : setModelData x.nn i = .error e) :
    run (jobOf x cfg i { o with configured := true, mapIsFile := true, cssIsFile := true }) overwrite s =
      (s, if e = .polygonError ∨ e = .initializationError then .ok false else .error e) := by
  rw [run_spec _ _ _ rfl ho]
  have hl : (jobOf x cfg i { o with configured := true, mapIsFile := true, cssIsFile := true }).load = .error e := by
    show (setModelData x.nn i).map _ = _
    rw [h]; rfl
  unfold runInifile initialise
  rw [hl]
  cases e <;> rfl

theorem refused_iff (s : Store) (overwrite : Bool) : (outputExists s && !overwrite) = false ↔ overwrite = true ∨ ¬ HasResults s := by
  rw [← outputExists_iff]
  cases outputExists s <;> cases overwrite <;> decide

/-- A project run on its files. -/
theorem projectRun_eq (x : Tools K) (g : Geometries K) (o : Surroundings) (c : Settings K) (overwrite : Bool) (d : ProjectFiles K)
    (s : Store) (m : MapFile K) (t : Text) (hm : d.maps c.mapPath = some m) (ht : d.texts c.cssPath = some t) :
    projectRun x g o c overwrite d s =
      ((run (jobOf x c.run (projectInputs x.ft g c m d).1 { o with configured := true, mapIsFile := true, cssIsFile := true })
          overwrite s).1,
        { d with caches := if outputExists s && !overwrite then d.caches else (projectInputs x.ft g c m d).2 },
        (run (jobOf x c.run (projectInputs x.ft g c m d).1 { o with configured := true, mapIsFile := true, cssIsFile := true })
          overwrite s).2) := by
  unfold projectRun
  rw [hm, ht]

/-- What a run that returns true has done with the files it reads. -/
theorem run_true (x : Tools K) (g : Geometries K) (o : Surroundings) (c : Settings K) (overwrite : Bool) (d : ProjectFiles K)
    (s : Store) (d1 : ProjectFiles K) (h : (projectRun x g o c overwrite d s).2 = (d1, .ok true)) :
    ∃ m t m2, d.maps c.mapPath = some m ∧ d.texts c.cssPath = some t ∧
      setModelData x.nn (projectInputs x.ft g c m d).1 = .ok m2 ∧
      d1 = { d with caches := (projectInputs x.ft g c m d).2 } := by
  cases hm : d.maps c.mapPath with
  | none =>
    unfold projectRun at h
    rw [hm] at h
    cases (Prod.mk.inj h).2
  | some m =>
    cases ht : d.texts c.cssPath with
    | none =>
      unfold projectRun at h
      rw [hm, ht] at h
      cases (Prod.mk.inj h).2
    | some t =>
      rw [projectRun_eq x g o c overwrite d s m t hm ht] at h
      obtain ⟨h1, h2⟩ := Prod.mk.inj h
      obtain ⟨-, ho, -, -, ml, xs, hl, -⟩ := (C53_returns_partial _ _ _).2.1 h2
      rw [(refused_iff s overwrite).2 ho] at h1
      have hl' : (setModelData x.nn (projectInputs x.ft g c m d).1).map (fun m => (⟨m.stations, m.nMaps⟩ : Loaded (Loc K))) =
        .ok ml := hl
      cases hs : setModelData x.nn (projectInputs x.ft g c m d).1 with
      | error e => rw [hs] at hl'; cases hl'
      | ok m2 => exact ⟨m, t, m2, rfl, rfl, hs ▸ rfl, h1.symm⟩

theorem cachedAt {isText : Bool} (hp : isText = false) (g : Geometries K) (property default : String) (ps : List (Polygon K))
    (path : Text) (m : MapFile K) (caches : Caches) (l : Labels)
    (h : CachedIn caches property path m l) :
    gridLabelsAt isText g property default ps path m caches = (.ok l, caches) := by
  subst hp
  exact gridLabels_cached _ _ _ _ _ _ _ _ h

/-- Everything from the cache. -/
theorem inputs_from_cache (ft : FloatText K) (g : Geometries K) (c : Settings K) (m : MapFile K) (d : ProjectFiles K) (a : MapData K)
    (css : List (Loc K)) (rs : Option (List (Polygon K))) (ss : List (Polygon K)) (lr ls : Labels) (ha : m.data = .ok a)
    (hc : (cssFile ft ',' (d.texts c.cssPath)).map locationsOf = .ok css) (hr : optionalRegions d c.regionPath = .ok rs)
    (hs : optionalSections d c.sectionPath = .ok (some ss)) (h1 : rs = none ∨ CachedIn d.caches "region" c.mapPath m lr)
    (h2 : CachedIn d.caches "section" c.mapPath m ls) (hp : c.mapIsText = false) :
    projectInputs ft g c m d = (⟨.ok a, .ok css, rs.map fun ps => regionLabels g (String.ofList c.defaultRegion) ps css lr,
      some (sectionLabels ls)⟩, d.caches) := by
  unfold projectInputs
  rw [ha, hc, hr, hs]
  simp only
  cases rs with
  | none =>
    simp only
    rw [cachedAt hp _ _ _ _ _ _ _ _ h2]
    rfl
  | some rs =>
    simp only
    rcases h1 with h1 | h1
    · cases h1
    · rw [cachedAt hp _ _ _ _ _ _ _ _ h1]
      simp only
      rw [cachedAt hp _ _ _ _ _ _ _ _ h2]
      rfl

/-- A polygon file that cannot be read. -/
theorem inputs_failed (ft : FloatText K) (g : Geometries K) (c : Settings K) (m : MapFile K) (d : ProjectFiles K) (a : MapData K)
    (css : List (Loc K)) (ha : m.data = .ok a) (hc : (cssFile ft ',' (d.texts c.cssPath)).map locationsOf = .ok css) (e : PyErr)
    (h : (c.regionPath ≠ [] ∧ readPolygons d c.regionPath = .error e) ∨
      (c.sectionPath ≠ [] ∧ readSections d c.sectionPath = .error e ∧
        (c.regionPath = [] ∨ ∃ ps, readPolygons d c.regionPath = .ok ps))) (nn : NearestPicker K) :
    setModelData nn (projectInputs ft g c m d).1 = .error e ∧ (projectInputs ft g c m d).2 = d.caches := by
  rcases h with ⟨h1, h2⟩ | ⟨h1, h2, h3⟩
  · have e1 : optionalRegions d c.regionPath = .error e := by unfold optionalRegions; rw [if_neg h1, h2]; rfl
    unfold projectInputs
    rw [ha, hc, e1]
    exact ⟨rfl, rfl⟩
  · have e1 : ∃ rs, optionalRegions d c.regionPath = .ok rs := by
      unfold optionalRegions
      rcases h3 with h3 | ⟨ps, h3⟩
      · exact ⟨none, by rw [if_pos h3]⟩
      · by_cases hp : c.regionPath = []
        · exact ⟨none, by rw [if_pos hp]⟩
        · exact ⟨some ps, by rw [if_neg hp, h3]; rfl⟩
    obtain ⟨rs, e1⟩ := e1
    have e2 : optionalSections d c.sectionPath = .error e := by unfold optionalSections; rw [if_neg h1, h2]; rfl
    unfold projectInputs
    rw [ha, hc, e1, e2]
    exact ⟨rfl, rfl⟩

/-- The map file is a text and there are polygons. -/
theorem inputs_text (ft : FloatText K) (g : Geometries K) (c : Settings K) (m : MapFile K) (d : ProjectFiles K) (a : MapData K)
    (css : List (Loc K)) (ha : m.data = .ok a) (hc : (cssFile ft ',' (d.texts c.cssPath)).map locationsOf = .ok css)
    (rs ss : Option (List (Polygon K))) (hr : optionalRegions d c.regionPath = .ok rs)
    (hs : optionalSections d c.sectionPath = .ok ss) (ht : c.mapIsText = true) :
    projectInputs ft g c m d =
      (⟨.ok a, .ok css, rs.map fun _ => .error .attributeError, if rs.isSome then none else ss.map fun _ => .error .attributeError⟩,
        d.caches) := by
  unfold projectInputs
  rw [ha, hc, hr, hs, ht]
  simp only
  cases rs with
  | none => cases ss <;> rfl
  | some rs => rfl

/-- What is read of regions and sections, also when something else fails. -/
theorem inputs_labels (ft : FloatText K) (g : Geometries K) (c : Settings K) (m : MapFile K) (d : ProjectFiles K) :
    (projectInputs ft g c m d).1.map = m.data ∧
    (∀ r, (projectInputs ft g c m d).1.regions = some (.ok r) → ∃ css ps ls k, (projectInputs ft g c m d).1.css = .ok css ∧
      gridLabels g "region" (String.ofList c.defaultRegion) ps c.mapPath m d.caches = (.ok ls, k) ∧
      regionLabels g (String.ofList c.defaultRegion) ps css ls = .ok r) ∧
    (∀ r, (projectInputs ft g c m d).1.sections = some (.ok r) → ∃ ps ls k k',
      (k = d.caches ∨ ∃ rs lr, gridLabels g "region" (String.ofList c.defaultRegion) rs c.mapPath m d.caches = (.ok lr, k)) ∧
      gridLabels g "section" (String.ofList c.defaultSection) ps c.mapPath m k = (.ok ls, k') ∧ sectionLabels ls = .ok r) := by
  have bind_ok : ∀ (e : Except PyErr Labels) (r : SectionLabels), some (e.bind sectionLabels) = some (.ok r) →
      ∃ ls, e = .ok ls ∧ sectionLabels ls = .ok r := by
    intro e r h
    cases e with
    | error e => cases h
    | ok ls => exact ⟨ls, rfl, Option.some.inj h⟩
  cases hd : m.data with
  | error e =>
    have e : (projectInputs ft g c m d).1 = ⟨.error e, (cssFile ft ',' (d.texts c.cssPath)).map locationsOf, none, none⟩ := by
      unfold projectInputs; rw [hd]
    rw [e]
    exact ⟨rfl, fun r h => (by cases h), fun r h => by cases h⟩
  | ok a' =>
  cases hc : (cssFile ft ',' (d.texts c.cssPath)).map locationsOf with
  | error e =>
    have e : (projectInputs ft g c m d).1 = ⟨.ok a', .error e, none, none⟩ := by unfold projectInputs; rw [hd, hc]
    rw [e]
    exact ⟨rfl, fun r h => (by cases h), fun r h => by cases h⟩
  | ok l =>
  cases hr : optionalRegions d c.regionPath with
  | error e =>
    have e : (projectInputs ft g c m d).1 = ⟨.ok a', .ok l, some (.error e), none⟩ := by unfold projectInputs; rw [hd, hc, hr]
    rw [e]
    exact ⟨rfl, fun r h => (by cases h), fun r h => by cases h⟩
  | ok rs =>
  cases hs : optionalSections d c.sectionPath with
  | error e =>
    have e : (projectInputs ft g c m d).1 = ⟨.ok a', .ok l, none, some (.error e)⟩ := by unfold projectInputs; rw [hd, hc, hr, hs]
    rw [e]
    exact ⟨rfl, fun r h => (by cases h), fun r h => by cases h⟩
  | ok ss =>
  cases rs with
  | none =>
    cases ss with
    | none =>
      have e : (projectInputs ft g c m d).1 = ⟨.ok a', .ok l, none, none⟩ := by
        unfold projectInputs; rw [hd, hc, hr, hs]
      rw [e]
      exact ⟨rfl, fun r h => (by cases h), fun r h => by cases h⟩
    | some ss =>
      cases hg : gridLabelsAt c.mapIsText g "section" (String.ofList c.defaultSection) ss c.mapPath m d.caches with
      | mk ls k =>
        have e : (projectInputs ft g c m d).1 = ⟨.ok a', .ok l, none, some (ls.bind sectionLabels)⟩ := by
          unfold projectInputs; rw [hd, hc, hr, hs]; simp only; rw [hg]
        rw [e]
        refine ⟨rfl, fun r h => (by cases h), fun r h => ?_⟩
        obtain ⟨ls, rfl, hb⟩ := bind_ok ls r h
        exact ⟨ss, ls, d.caches, k, .inl rfl, (gridLabelsAt_ok hg).2, hb⟩
  | some rs =>
    cases hg : gridLabelsAt c.mapIsText g "region" (String.ofList c.defaultRegion) rs c.mapPath m d.caches with
    | mk lr k =>
      cases lr with
      | error e =>
        have e : (projectInputs ft g c m d).1 = ⟨.ok a', .ok l, some (.error e), none⟩ := by
          unfold projectInputs; rw [hd, hc, hr, hs]; simp only; rw [hg]
        rw [e]
        exact ⟨rfl, fun r h => (by cases h), fun r h => by cases h⟩
      | ok labels =>
        cases ss with
        | none =>
          have e : (projectInputs ft g c m d).1 =
              ⟨.ok a', .ok l, some (regionLabels g (String.ofList c.defaultRegion) rs l labels), none⟩ := by
            unfold projectInputs; rw [hd, hc, hr, hs]; simp only; rw [hg]
          rw [e]
          exact ⟨rfl, fun r h => ⟨l, rs, labels, k, rfl, (gridLabelsAt_ok hg).2, Option.some.inj h⟩, fun r h => by cases h⟩
        | some ss =>
          cases hg' : gridLabelsAt c.mapIsText g "section" (String.ofList c.defaultSection) ss c.mapPath m k with
          | mk ls k' =>
            have e : (projectInputs ft g c m d).1 = ⟨.ok a', .ok l, some (regionLabels g (String.ofList c.defaultRegion) rs l labels),
                some (ls.bind sectionLabels)⟩ := by
              unfold projectInputs; rw [hd, hc, hr, hs]; simp only; rw [hg]; simp only; rw [hg']
            rw [e]
            refine ⟨rfl, fun r h => ⟨l, rs, labels, k, rfl, (gridLabelsAt_ok hg).2, Option.some.inj h⟩, fun r h => ?_⟩
            obtain ⟨ls, rfl, hb⟩ := bind_ok ls r h
            exact ⟨ss, ls, k, k', .inr ⟨rs, labels, (gridLabelsAt_ok hg).2⟩, (gridLabelsAt_ok hg').2, hb⟩

end Fm2prof.ProjectProof
