import Verif.Proofs.Program
import Verif.Props.Project
import Verif.Props.Pipeline

/-!
# The whole program: C171, C172, C173
-/

set_option linter.unusedSectionVars false

namespace Fm2prof.Props

open Fm2prof Spec ProgramProof ProjectProof

variable {K : Type} [Field K] [LinearOrder K] [IsStrictOrderedRing K] [FloorRing K]

/-! ## C171: a run from the command line does what the configuration file says -/

/-- **C171, the settings.** A plain configuration file that is loaded gives a run the settings that are written in it, and the documented
defaults for the others. -/
theorem C171_settings (ft : FloatText K) (creatable : Text → Bool) (dir : Text) (disk : Disk) (f : FileContent) (hf : PlainFile f)
    (s' : IniState K) (h : loadConfiguration ft creatable dir (some (fileText f)) ⟨template, disk⟩ = (s', none)) :
    settingsOf ft s'.config = some (settingsIn ft dir disk.files f) := loaded_settings hf h

/-- **C171.** `run` of a project whose map file and location file exist leaves in its output directory what a run with the settings of
its configuration file leaves there, and the cache files as well. No other output directory and no other file is changed. The exit
status is 0 unless the run raises an exception. -/
theorem C171_run (e : Computer K) (hm : ∀ d, e.mkdir d = .made) (w : AllFiles K) (name path : Text) (f : FileContent) (out : Text)
    (h : ProjectAt w name path f out) (overwrite : Bool) (mapPath cssPath t : Text) (m : MapFile K)
    (h1 : namedFile (parentPath path) w.disk.files f "2DMapOutput" = some mapPath) (h2 : w.inputs.maps mapPath = some m)
    (h3 : namedFile (parentPath path) w.disk.files f "CrossSectionLocationFile" = some cssPath) (h4 : w.inputs.texts cssPath = some t) :
    let r := projectRun e.tools e.geometries (ready e.faults) (settingsIn e.tools.ft (parentPath path) w.disk.files f) overwrite w.inputs
      (opened e.logText (w.results out))
    let p := program e w (.run name overwrite false)
    p.1.results out = r.1 ∧ (∀ d, d ≠ out → p.1.results d = w.results d) ∧ p.1.inputs = r.2.1 ∧ p.1.disk.files = w.disk.files ∧
      (p.2 = 0 ↔ ∃ b, r.2.2 = .ok b) := by
  obtain ⟨dirs, j, caches, g1, g2, g3, g4, g5, g6⟩ := program_run e hm w name path f out h overwrite false
  have hp : (settingsIn e.tools.ft (parentPath path) w.disk.files f).mapPath = mapPath := by
    show (namedFile (parentPath path) w.disk.files f "2DMapOutput").getD [] = _
    rw [h1]; rfl
  have hc : (settingsIn e.tools.ft (parentPath path) w.disk.files f).cssPath = cssPath := by
    show (namedFile (parentPath path) w.disk.files f "CrossSectionLocationFile").getD [] = _
    rw [h3]; rfl
  rw [hp, h2, h1, h3] at g3 g4
  simp only [Option.isSome_some, Bool.and_self, if_true] at g3 g4
  simp only
  rw [projectRun_eq e.tools e.geometries _ (settingsIn e.tools.ft (parentPath path) w.disk.files f) overwrite w.inputs _ m t
    (by rw [hp]; exact h2) (by rw [hc]; exact h4)]
  simp only
  rw [g5, g6, g4]
  have hj : j = jobOf e.tools (settingsIn e.tools.ft (parentPath path) w.disk.files f).run
      (projectInputs e.tools.ft e.geometries (settingsIn e.tools.ft (parentPath path) w.disk.files f) m w.inputs).1
      { ready e.faults with configured := true, mapIsFile := true, cssIsFile := true } := g3
  rw [← hj]
  refine ⟨if_pos rfl, fun d hd => if_neg hd, rfl, rfl, ?_⟩
  cases (run j overwrite (opened e.logText (w.results out))).2 with
  | error er => exact ⟨fun h => (by cases h), fun ⟨b, h⟩ => (by cases h)⟩
  | ok b => exact ⟨fun _ => ⟨b, rfl⟩, fun _ => rfl⟩

/-- **C171, without input.** When the map file or the location file is not named or does not exist, `run` leaves everything as it is
except for the log file, with exit status 0. -/
theorem C171_no_input (e : Computer K) (hm : ∀ d, e.mkdir d = .made) (w : AllFiles K) (name path : Text) (f : FileContent) (out : Text)
    (h : ProjectAt w name path f out) (overwrite : Bool)
    (hn : namedFile (parentPath path) w.disk.files f "2DMapOutput" = none ∨
      namedFile (parentPath path) w.disk.files f "CrossSectionLocationFile" = none) :
    let p := program e w (.run name overwrite false)
    p.1.results out = opened e.logText (w.results out) ∧ (∀ d, d ≠ out → p.1.results d = w.results d) ∧ p.1.inputs = w.inputs ∧
      p.1.disk.files = w.disk.files ∧ p.2 = 0 := by
  obtain ⟨dirs, j, caches, g1, g2, g3, g4, g5, g6⟩ := program_run e hm w name path f out h overwrite false
  have hfiles : (j.mapIsFile = false ∨ j.cssIsFile = false) ∧ j.configured = true := by
    rw [g3]
    rcases hn with hn | hn
    · rw [hn]
      cases w.inputs.maps (settingsIn e.tools.ft (parentPath path) w.disk.files f).mapPath <;> exact ⟨.inl rfl, rfl⟩
    · rw [hn]
      cases w.inputs.maps (settingsIn e.tools.ft (parentPath path) w.disk.files f).mapPath <;> exact ⟨.inr rfl, rfl⟩
  have hinit : initialise j = .error .initializationError := by
    unfold initialise
    rcases hfiles.1 with hf | hf <;> rw [hf]
    · rw [Bool.not_false, Bool.true_or, if_pos rfl]
    · rw [Bool.not_false, Bool.or_true, if_pos rfl]
  have hrun : run j overwrite (opened e.logText (w.results out)) = (opened e.logText (w.results out), .ok false) := by
    unfold run runInifile
    rw [hfiles.2, hinit]
    simp only [Bool.not_true, Bool.false_eq_true, if_false, ite_self]
  have hcaches : caches = w.inputs.caches := by
    rw [g4]
    have : ((namedFile (parentPath path) w.disk.files f "2DMapOutput").isSome &&
        (namedFile (parentPath path) w.disk.files f "CrossSectionLocationFile").isSome) = false := by
      rcases hn with hn | hn <;> rw [hn]
      · rfl
      · exact Bool.and_false _
    rw [this]
    simp only [Bool.false_eq_true, if_false, ite_self]
  simp only
  rw [g5, g6, hrun, hcaches]
  exact ⟨if_pos rfl, fun d hd => if_neg hd, rfl, rfl, rfl⟩

/-- A log file is no result. -/
theorem opened_results (t : Text) (s : Store) (h : ¬ HasResults s) : ¬ HasResults (opened t s) := by
  intro hr
  refine h (hasResults_same _ _ (fun f hf => ?_) hr)
  show s f = if f = "fm2prof.log".toList then _ else s f
  rw [if_neg hf]

/-- **C171, the profiles.** From the command line to the results: when the map file and the location file of the project can be read, some
of its maps are not skipped, and no cache file is left from other runs, then after a command with exit status 0 the output directory has
a definition file. It has one profile for each of the locations that the configuration file selects and that have ten faces or more. The
levels and widths of the profiles strictly increase, flow widths do not exceed total widths, and no width is below the minimum in the
configuration file. -/
theorem C171_profiles (e : Computer K) (hb : ∀ y, y < e.tools.bump y) (hm : ∀ d, e.mkdir d = .made)
    (hw : ∀ f, IsResult f → Sound e.faults f) (w : AllFiles K) (name path : Text) (f : FileContent) (out : Text)
    (h : ProjectAt w name path f out) (overwrite : Bool) (ho : overwrite = true ∨ ¬ HasResults (w.results out))
    (mapPath cssPath t : Text) (m : MapFile K)
    (h1 : namedFile (parentPath path) w.disk.files f "2DMapOutput" = some mapPath) (h2 : w.inputs.maps mapPath = some m)
    (h3 : namedFile (parentPath path) w.disk.files f "CrossSectionLocationFile" = some cssPath) (h4 : w.inputs.texts cssPath = some t)
    (ha : ∀ a, m.data = .ok a → Columns a ∧ m.faceNodes.length = a.faces.x.length ∧ m.edgeNodes.length = a.edges.x.length)
    (hr : ¬ Cached w.inputs "region" mapPath m) (hs : ¬ Cached w.inputs "section" mapPath m) (m2 : Model2d K)
    (h5 : setModelData e.tools.nn (projectInputs e.tools.ft e.geometries
      (settingsIn e.tools.ft (parentPath path) w.disk.files f) m w.inputs).1 = .ok m2)
    (h6 : wholeNumberIn f "SkipMaps" 0 < m2.nMaps) (xs : List (Loc K)) (hx : Requested (selectionIn f) m2.stations xs)
    (hu : ∃ l ∈ xs, Usable m2 l) (hn : ∀ l ∈ xs, PlainName l.id)
    (hfull : ∀ l ∈ xs, ∀ c, buildCss e.tools (settingsIn e.tools.ft (parentPath path) w.disk.files f).run m2 l = .ok c →
      FullNumbers e.tools.ft c)
    (h0 : (program e w (.run name overwrite false)).2 = 0) :
    (∃ cols, cssFile e.tools.ft ',' (some t) = .ok cols ∧ RowsOf cols m2.stations) ∧
    ∃ text defs, (program e w (.run name overwrite false)).1.results out "CrossSectionDefinitions.ini".toList = some text ∧
      readDefinitions e.tools.ft text = .ok defs ∧
      List.Forall₂ (fun l d => d.id = l.id ∧ ∃ z total flow,
          ValidProfile (numberIn e.tools.ft f "MinimumTotalWidth" (1 / 2)) z total flow ∧
          d.levels = z.map (as4 e.tools.ft) ∧ d.totalWidth = total.map (as4 e.tools.ft) ∧ d.flowWidth = flow.map (as4 e.tools.ft))
        (xs.filter fun l => decide (Usable m2 l)) defs := by
  obtain ⟨p1, -, -, -, p5⟩ := C171_run e hm w name path f out h overwrite mapPath cssPath t m h1 h2 h3 h4
  have hp : (settingsIn e.tools.ft (parentPath path) w.disk.files f).mapPath = mapPath := by
    show (namedFile (parentPath path) w.disk.files f "2DMapOutput").getD [] = _
    rw [h1]; rfl
  have hc : (settingsIn e.tools.ft (parentPath path) w.disk.files f).cssPath = cssPath := by
    show (namedFile (parentPath path) w.disk.files f "CrossSectionLocationFile").getD [] = _
    rw [h3]; rfl
  rw [projectRun_eq e.tools e.geometries _ (settingsIn e.tools.ft (parentPath path) w.disk.files f) overwrite w.inputs _ m t
    (by rw [hp]; exact h2) (by rw [hc]; exact h4)] at p1 p5
  simp only at p1 p5
  obtain ⟨b, hb'⟩ := p5.1 h0
  have ho' : overwrite = true ∨ ¬ HasResults (opened e.logText (w.results out)) := ho.imp_right (opened_results _ _)
  have hcons : Consistent (projectInputs e.tools.ft e.geometries (settingsIn e.tools.ft (parentPath path) w.disk.files f) m w.inputs).1 :=
    C143_consistent _ _ _ _ _ ha (by rw [hp]; exact hr) (by rw [hp]; exact hs)
  obtain ⟨a, css, rs, ss, k, i1, i2, i3, i4, -⟩ := inputs_ok _ _ _ _ _ _ _ h5
  have hst : m2.stations = css := by
    obtain ⟨_, _, _, _, _, _, _, _, -, j2, -, -, -, -, -, -, -, j10⟩ := setModelData_ok _ _ _ h5
    rw [i4] at j2
    obtain rfl := Except.ok.inj j2
    exact j10
  have htrue : (run (jobOf e.tools (settingsIn e.tools.ft (parentPath path) w.disk.files f).run
      (projectInputs e.tools.ft e.geometries (settingsIn e.tools.ft (parentPath path) w.disk.files f) m w.inputs).1
      { ready e.faults with configured := true, mapIsFile := true, cssIsFile := true }) overwrite
      (opened e.logText (w.results out))).2 = .ok true := by
    rw [hb']
    rw [run_spec _ _ _ rfl ho'] at hb'
    have hload : (jobOf e.tools (settingsIn e.tools.ft (parentPath path) w.disk.files f).run
        (projectInputs e.tools.ft e.geometries (settingsIn e.tools.ft (parentPath path) w.disk.files f) m w.inputs).1
        { ready e.faults with configured := true, mapIsFile := true, cssIsFile := true }).load = .ok ⟨m2.stations, m2.nMaps⟩ := by
      show (setModelData e.tools.nn _).map _ = _
      rw [h5]; rfl
    have hinit : initialise (jobOf e.tools (settingsIn e.tools.ft (parentPath path) w.disk.files f).run
        (projectInputs e.tools.ft e.geometries (settingsIn e.tools.ft (parentPath path) w.disk.files f) m w.inputs).1
        { ready e.faults with configured := true, mapIsFile := true, cssIsFile := true }) = .ok ⟨m2.stations, m2.nMaps⟩ := by
      unfold initialise
      rw [hload]
      show (if (!true || !true) = true then _ else if (m2.nMaps : Int) ≤ wholeNumberIn f "SkipMaps" 0 then _ else _) = _
      rw [if_neg (by decide), if_neg (not_le.2 h6)]
    unfold runInifile at hb'
    rw [hinit] at hb'
    simp only at hb'
    revert hb'
    rcases generate _ _ _ with ⟨s1, g⟩
    cases g with
    | error er => intro h; cases h
    | ok cs => intro h; exact h.symm
  refine ⟨?_, ?_⟩
  · rw [hst]
    rw [hc, h4] at i3
    exact ProjectProof.locations_rows i3
  · obtain ⟨text, defs, q1, q2, q3⟩ := C97_profiles e.tools hb _ _ hcons _ rfl hw overwrite _ htrue m2 h5 xs hx hu hn hfull
    exact ⟨text, defs, by rw [p1]; exact q1, q2, q3⟩

/-! ## C172: a run uses the polygons that the configuration file names -/

/-- **C172, partial.** When the section polygon file that a configuration file names exists, and no cache file is left from other runs, the
sections that a run uses are those of its polygons. Missing: files that do not exist, see `C172_missing_violated`. -/
theorem C172_sections_partial (e : Computer K) (w : AllFiles K) (path : Text) (f : FileContent) (hreal : [] ∉ w.disk.files)
    (mapPath sectionPath : Text) (m : MapFile K) (h1 : namedFile (parentPath path) w.disk.files f "2DMapOutput" = some mapPath)
    (h2 : namedFile (parentPath path) w.disk.files f "SectionPolygonFile" = some sectionPath)
    (hc : ¬ Cached w.inputs "section" mapPath m) (m2 : Model2d K)
    (h : setModelData e.tools.nn (projectInputs e.tools.ft e.geometries
      (settingsIn e.tools.ft (parentPath path) w.disk.files f) m w.inputs).1 = .ok m2) :
    ∃ ps, readSections w.inputs sectionPath = .ok ps ∧
      LabelledBy e.geometries.inside "section" (String.ofList (textIn f "DefaultSection" "floodplain1")) ps m.nodes m.faceNodes
        m2.faces.sect ∧
      LabelledBy e.geometries.inside "section" (String.ofList (textIn f "DefaultSection" "floodplain1")) ps m.nodes m.edgeNodes
        m2.edges.sect := by
  have hp : (settingsIn e.tools.ft (parentPath path) w.disk.files f).mapPath = mapPath := by
    show (namedFile (parentPath path) w.disk.files f "2DMapOutput").getD [] = _
    rw [h1]; rfl
  have hs : (settingsIn e.tools.ft (parentPath path) w.disk.files f).sectionPath = sectionPath := by
    show (namedFile (parentPath path) w.disk.files f "SectionPolygonFile").getD [] = _
    rw [h2]; rfl
  have hmem : sectionPath ∈ w.disk.files := by
    unfold namedFile at h2
    exact of_decide_eq_true (Option.filter_eq_some_iff.1 h2).2
  have := C143_sections e.tools e.geometries _ m w.inputs m2 h (by rw [hs]; intro e; exact hreal (e ▸ hmem)) (by rw [hp]; exact hc)
  rw [hs] at this
  exact this

/-- **C172, partial, regions.** Likewise for the regions of faces, which decide, with the regions of the locations, to which location a
face belongs. -/
theorem C172_regions_partial (e : Computer K) (w : AllFiles K) (path : Text) (f : FileContent) (hreal : [] ∉ w.disk.files)
    (mapPath regionPath : Text) (m : MapFile K) (h1 : namedFile (parentPath path) w.disk.files f "2DMapOutput" = some mapPath)
    (h2 : namedFile (parentPath path) w.disk.files f "RegionPolygonFile" = some regionPath)
    (hc : ¬ Cached w.inputs "region" mapPath m) (m2 : Model2d K)
    (h : setModelData e.tools.nn (projectInputs e.tools.ft e.geometries
      (settingsIn e.tools.ft (parentPath path) w.disk.files f) m w.inputs).1 = .ok m2) :
    ∃ ps, readPolygons w.inputs regionPath = .ok ps ∧
      let default := String.ofList (textIn f "DefaultRegion" "undefined")
      let RegionOf := fun (l : Loc K) => locationLabel e.geometries.within "region" default ps (l.x, l.y)
      LabelledBy e.geometries.inside "region" default ps m.nodes m.faceNodes m2.faces.region ∧
      ∀ (i : Nat) px py region id, m2.faces.x[i]? = some px → m2.faces.y[i]? = some py → m2.faces.region[i]? = some region →
        m2.faces.sclass[i]? = some id → (∃ l ∈ m2.stations, RegionOf l = some (String.ofList region)) →
        ∃ l ∈ m2.stations, l.id = id ∧ RegionOf l = some (String.ofList region) ∧
          ∀ l' ∈ m2.stations, RegionOf l' = some (String.ofList region) → squaredDistance (l.x, l.y) (px, py) ≤ squaredDistance (l'.x, l'.y) (px, py) := by
  have hp : (settingsIn e.tools.ft (parentPath path) w.disk.files f).mapPath = mapPath := by
    show (namedFile (parentPath path) w.disk.files f "2DMapOutput").getD [] = _
    rw [h1]; rfl
  have hs : (settingsIn e.tools.ft (parentPath path) w.disk.files f).regionPath = regionPath := by
    show (namedFile (parentPath path) w.disk.files f "RegionPolygonFile").getD [] = _
    rw [h2]; rfl
  have hmem : regionPath ∈ w.disk.files := by
    unfold namedFile at h2
    exact of_decide_eq_true (Option.filter_eq_some_iff.1 h2).2
  have := C143_regions e.tools e.geometries _ m w.inputs m2 h (by rw [hs]; intro e; exact hreal (e ▸ hmem)) (by rw [hp]; exact hc)
  rw [hs] at this
  exact this

/-- **C172, violated.** A configuration file that names a polygon file that does not exist, for example with a mistake in the name, is not
refused: `run` leaves the same files, with the same exit status, as with a configuration file without this line. -/
theorem C172_missing_violated (e : Computer K) (hm : ∀ d, e.mkdir d = .made) (w : AllFiles K) (name path : Text) (f : FileContent)
    (out : Text) (h : ProjectAt w name path f out) (key : String) (hk : key = "RegionPolygonFile" ∨ key = "SectionPolygonFile")
    (t : Text) (ht : fileValue f "input".toList key.toList = some t) (hn : joinPath (parentPath path) t ∉ w.disk.files)
    (hc : namedFile (parentPath path) w.disk.files f "CrossSectionLocationFile" ≠ some path) (overwrite post : Bool) :
    let w' := withText w path (fileText (withoutInput key f))
    (program e w (.run name overwrite post)).2 = (program e w' (.run name overwrite post)).2 ∧
    (program e w (.run name overwrite post)).1.results = (program e w' (.run name overwrite post)).1.results ∧
    (program e w (.run name overwrite post)).1.inputs.caches = (program e w' (.run name overwrite post)).1.inputs.caches := by
  intro w'
  obtain ⟨hset, hnamed⟩ := settings_missing e.tools.ft (parentPath path) w.disk.files f key hk t ht hn
  obtain ⟨o, hv, ho⟩ := h.directory
  have h' : ProjectAt w' name path (withoutInput key f) out :=
    { named := h.named, plain := withoutInput_plain key f h.plain, text := store_set_same _ _ _
      input := withoutInput_section key f _ h.input, output := withoutInput_section key f _ h.output
      directory := ⟨o, by rw [withoutInput_value, if_neg fun e => absurd e.1 (by decide)]; exact hv, ho⟩
      free := h.free, real := h.real }
  have hpath : (settingsIn e.tools.ft (parentPath path) w.disk.files f).cssPath ≠ path := by
    intro hp
    have hp' : (namedFile (parentPath path) w.disk.files f "CrossSectionLocationFile").getD [] = path := hp
    cases hcss : namedFile (parentPath path) w.disk.files f "CrossSectionLocationFile" with
    | some q => rw [hcss] at hp'; exact hc (by rw [hcss]; exact congrArg some hp')
    | none =>
      rw [hcss] at hp'
      have hnil : path = [] := hp'.symm
      rcases withSuffix_append name with ⟨er, he⟩ | ⟨pre, hpre⟩
      · have := h.named; rw [he] at this; cases this
      · have := h.named
        rw [hpre] at this
        have e := Except.ok.inj this
        rw [hnil] at e
        exact absurd (List.append_eq_nil_iff.1 e).2 (by decide)
  have hin : ∀ m, projectInputs e.tools.ft e.geometries (settingsIn e.tools.ft (parentPath path) w.disk.files f) m w'.inputs =
      projectInputs e.tools.ft e.geometries (settingsIn e.tools.ft (parentPath path) w.disk.files f) m w.inputs :=
    fun m => inputs_texts _ _ _ m w.inputs _ (store_set_other _ _ _ _ hpath)
  obtain ⟨dirs, j, caches, -, -, g3, g4, g5, g6⟩ := program_run e hm w name path f out h overwrite post
  obtain ⟨dirs', j', caches', -, -, g3', g4', g5', g6'⟩ := program_run e hm w' name path (withoutInput key f) out h' overwrite post
  have e1 : w'.disk = w.disk := rfl
  have e2 : w'.inputs.maps = w.inputs.maps := rfl
  have e3 : w'.inputs.caches = w.inputs.caches := rfl
  have e4 : w'.results = w.results := rfl
  rw [e1, hset] at g3' g4'
  simp only [hnamed, hin] at g3' g4'
  have hj : j' = j := by rw [g3, g3']; rfl
  have hcc : caches' = caches := by rw [g4, g4']; rfl
  rw [g5, g5', g6, g6', hj, hcc]
  exact ⟨rfl, rfl, rfl⟩

/-! ## Examples -/

/-- A computer on which everything can be written. -/
noncomputable def sampleComputer : Computer ℚ where
  tools := sampleTools
  geometries := sampleGeometries
  faults := ⟨fun _ => false, fun _ => none⟩
  mkdir _ := .made
  writable _ := true
  cwd := "home".toList
  logText := "FM2PROF\n".toList
  figures _ := none
  compare := sampleCompare
  other := jobOf sampleTools sampleRunConfig ⟨.error .osError, .ok [], none, none⟩ sampleSurroundings

/-- A configuration file with sections, and with regions in a file that does not exist. -/
def rhineContent : FileContent :=
  [("input".toList, [("2DMapOutput ".toList, " map.nc".toList), ("CrossSectionLocationFile".toList, " css.xyz".toList),
      ("RegionPolygonFile".toList, " regoins.json".toList), ("SectionPolygonFile".toList, " sections.geojson # 2024".toList)]),
    ("parameters".toList, [("lakeTimesteps".toList, " 2".toList), ("DefaultSection".toList, " floodplain2".toList),
      ("MinimumTotalWidth".toList, "0.25".toList)]),
    ("output".toList, [("OutputDirectory".toList, " rhine".toList)])]

/-- A configuration file for another map file. -/
def waalContent : FileContent :=
  [("input".toList, [("2DMapOutput ".toList, " other.nc".toList), ("CrossSectionLocationFile".toList, " css.xyz".toList),
      ("SectionPolygonFile".toList, " channel.geojson".toList)]),
    ("output".toList, [("OutputDirectory".toList, " waal".toList)])]

/-- A configuration file for the same map file, with other sections. -/
def maasContent : FileContent :=
  [("input".toList, [("2DMapOutput ".toList, " map.nc".toList), ("CrossSectionLocationFile".toList, " css.xyz".toList),
      ("SectionPolygonFile".toList, " channel.geojson".toList)]),
    ("parameters".toList, [("LakeTimesteps".toList, " 2".toList)]), ("output".toList, [("OutputDirectory".toList, " maas".toList)])]

theorem plainFile_of (f : FileContent) (h : (∀ s ∈ f, s.1 ≠ [] ∧ '\n' ∉ s.1 ∧ s.1 ≠ "DEFAULT".toList) ∧
    (f.map fun s => lower s.1).Nodup ∧ ∀ s ∈ f, (s.2.map fun i => lower (rstrip i.1)).Nodup ∧ ∀ i ∈ s.2,
      (i.1 ≠ [] ∧ (i.1.headD '#' ≠ '#' ∧ isSpace (i.1.headD '#') = false ∧ i.1.headD '#' ≠ ';' ∧
        i.1.headD '#' ≠ '[') ∧ '=' ∉ i.1 ∧ ':' ∉ i.1 ∧ '\n' ∉ i.1) ∧ '\n' ∉ i.2 ∧ '%' ∉ i.2) : PlainFile f := by
  have key : ∀ t : Text, (t ≠ [] ∧ (t.headD '#' ≠ '#' ∧ isSpace (t.headD '#') = false ∧ t.headD '#' ≠ ';' ∧
      t.headD '#' ≠ '[') ∧ '=' ∉ t ∧ ':' ∉ t ∧ '\n' ∉ t) → PlainKey t := by
    intro t ⟨h1, h2, h3⟩
    refine ⟨h1, ?_, h3⟩
    intro c hc
    cases t with
    | nil => cases hc
    | cons d l =>
      cases hc
      exact ⟨h2.2.1, h2.1, h2.2.2⟩
  exact ⟨h.1, h.2.1, fun s hs => ⟨(h.2.2 s hs).1, fun i hi => ⟨key _ ((h.2.2 s hs).2 i hi).1, ((h.2.2 s hs).2 i hi).2⟩⟩⟩

/-- A directory with three projects, of which two share a map file. -/
def sampleAllFiles : AllFiles ℚ where
  inputs :=
    { maps := fun path => if path = "p/map.nc".toList ∨ path = "p/other.nc".toList then some sampleMapFile else none
      texts := fun path => if path = "p/rhine.ini".toList then some (fileText rhineContent)
        else if path = "p/maas.ini".toList then some (fileText maasContent)
        else if path = "p/waal.ini".toList then some (fileText waalContent)
        else if path = "p/css.xyz".toList then some "rhine_100,5,0,10,rhine,100\nrhine_900,20,0,10,rhine,900\n".toList else none
      polygons := fun path => if path = "p/sections.geojson".toList then samplePolygons "sections.geojson".toList
        else if path = "p/channel.geojson".toList then
          some (.features [⟨[("Name", "channel"), ("Section", "1")], .polygon [[(0, 0), (99, 99)]]⟩])
        else none
      caches := fun _ => none }
  disk := ⟨["p/map.nc".toList, "p/css.xyz".toList, "p/sections.geojson".toList, "p/channel.geojson".toList, "p/rhine.ini".toList,
    "p/maas.ini".toList, "p/waal.ini".toList, "p/other.nc".toList], ["p".toList]⟩
  results _ := noFiles

theorem rhineAt : ProjectAt sampleAllFiles "p/rhine".toList "p/rhine.ini".toList rhineContent "p/rhine".toList :=
  { named := by decide +kernel, plain := plainFile_of _ (by decide +kernel), text := by decide +kernel, input := by decide +kernel
    output := by decide +kernel, directory := ⟨"rhine".toList, by decide +kernel, by decide +kernel⟩, free := by decide +kernel
    real := by decide +kernel }

theorem maasAt : ProjectAt sampleAllFiles "p/maas".toList "p/maas.ini".toList maasContent "p/maas".toList :=
  { named := by decide +kernel, plain := plainFile_of _ (by decide +kernel), text := by decide +kernel, input := by decide +kernel
    output := by decide +kernel, directory := ⟨"maas".toList, by decide +kernel, by decide +kernel⟩, free := by decide +kernel
    real := by decide +kernel }

theorem waalAt : ProjectAt sampleAllFiles "p/waal".toList "p/waal.ini".toList waalContent "p/waal".toList :=
  { named := by decide +kernel, plain := plainFile_of _ (by decide +kernel), text := by decide +kernel, input := by decide +kernel
    output := by decide +kernel, directory := ⟨"waal".toList, by decide +kernel, by decide +kernel⟩, free := by decide +kernel
    real := by decide +kernel }

/-- The hypotheses of `C171_run`, `C172_sections_partial` and `C172_missing_violated` are met. -/
example : (∀ d, sampleComputer.mkdir d = .made) ∧
    namedFile (parentPath "p/rhine.ini".toList) sampleAllFiles.disk.files rhineContent "2DMapOutput" = some "p/map.nc".toList ∧
    sampleAllFiles.inputs.maps "p/map.nc".toList = some sampleMapFile ∧
    namedFile (parentPath "p/rhine.ini".toList) sampleAllFiles.disk.files rhineContent "CrossSectionLocationFile" =
      some "p/css.xyz".toList ∧
    (sampleAllFiles.inputs.texts "p/css.xyz".toList).isSome = true ∧
    namedFile (parentPath "p/rhine.ini".toList) sampleAllFiles.disk.files rhineContent "SectionPolygonFile" =
      some "p/sections.geojson".toList ∧
    ¬ Cached sampleAllFiles.inputs "section" "p/map.nc".toList sampleMapFile ∧
    fileValue rhineContent "input".toList "RegionPolygonFile".toList = some "regoins.json".toList ∧
    joinPath (parentPath "p/rhine.ini".toList) "regoins.json".toList ∉ sampleAllFiles.disk.files ∧
    namedFile (parentPath "p/rhine.ini".toList) sampleAllFiles.disk.files rhineContent "CrossSectionLocationFile" ≠
      some "p/rhine.ini".toList := by
  refine ⟨fun _ => rfl, by decide +kernel, rfl, by decide +kernel, by decide +kernel, by decide +kernel, ?_, by decide +kernel,
    by decide +kernel, by decide +kernel⟩
  rintro ⟨_, _, _, h, _⟩
  cases h

/-- A configuration file that names a file of region polygons. -/
def regionContent : FileContent :=
  [("input".toList, [("2DMapOutput ".toList, " map.nc".toList), ("CrossSectionLocationFile".toList, " css.xyz".toList),
      ("RegionPolygonFile".toList, " channel.geojson".toList), ("SectionPolygonFile".toList, " sections.geojson".toList)]),
    ("output".toList, [("OutputDirectory".toList, " rhine".toList)])]

/-- The polygon file contains regions. -/
def regionFiles : AllFiles ℚ :=
  { sampleAllFiles with
    inputs := { sampleAllFiles.inputs with
      polygons := fun path => if path = "p/channel.geojson".toList then
        samplePolygons "regions.json".toList else sampleAllFiles.inputs.polygons path } }

/-- The hypotheses of `C172_regions_partial` are met. -/
example :
    namedFile (parentPath "p/rhine.ini".toList) regionFiles.disk.files regionContent "2DMapOutput" = some "p/map.nc".toList ∧
    namedFile (parentPath "p/rhine.ini".toList) regionFiles.disk.files regionContent "RegionPolygonFile" =
      some "p/channel.geojson".toList ∧
    ((setModelData sampleComputer.tools.nn (projectInputs sampleComputer.tools.ft sampleComputer.geometries (settingsIn
      sampleComputer.tools.ft (parentPath "p/rhine.ini".toList) regionFiles.disk.files regionContent) sampleMapFile
      regionFiles.inputs).1).toOption.map fun m2 => m2.faces.region) = some (List.replicate 13 "west".toList) := by
  decide +kernel

/-- `run` has exit status 0 and leaves a definition file and a cache file. -/
example :
    (program sampleComputer sampleAllFiles (.run "p/rhine".toList false false)).2 = 0 ∧
    ((program sampleComputer sampleAllFiles (.run "p/rhine".toList false false)).1.results "p/rhine".toList
      "CrossSectionDefinitions.ini".toList).isSome = true ∧
    ((program sampleComputer sampleAllFiles (.run "p/rhine".toList false false)).1.inputs.caches
      "p/map.section_cache.json".toList).isSome = true := by
  decide +kernel

/-- The settings of the sample project. -/
example :
    (settingsIn (decimalText ℚ) "p".toList sampleAllFiles.disk.files rhineContent).run.pipeline.build.lakeTimesteps = 2 ∧
    (settingsIn (decimalText ℚ) "p".toList sampleAllFiles.disk.files rhineContent).run.pipeline.minimumWidth = 1 / 4 ∧
    (settingsIn (decimalText ℚ) "p".toList sampleAllFiles.disk.files rhineContent).run.pipeline.maximumPoints = 20 ∧
    (settingsIn (decimalText ℚ) "p".toList sampleAllFiles.disk.files rhineContent).regionPath = [] := by
  decide +kernel

/-- The data that the sample project loads. -/
noncomputable def rhineLoaded (w : AllFiles ℚ) : Except PyErr (Model2d ℚ) :=
  setModelData sampleComputer.tools.nn (projectInputs sampleComputer.tools.ft sampleComputer.geometries
    (settingsIn sampleComputer.tools.ft "p".toList w.disk.files rhineContent) sampleMapFile w.inputs).1

/-- The remaining hypotheses of `C171_profiles` are met: of the two locations the first has a cross-section. -/
example : (∀ y, y < sampleComputer.tools.bump y) ∧ (∀ f, IsResult f → Sound sampleComputer.faults f) ∧
    ¬ HasResults (sampleAllFiles.results "p/rhine".toList) ∧
    ∃ m2, rhineLoaded sampleAllFiles = .ok m2 ∧ wholeNumberIn rhineContent "SkipMaps" 0 < m2.nMaps ∧
      Requested (selectionIn rhineContent) m2.stations m2.stations ∧
      (m2.stations.map fun l => decide (Usable m2 l)) = [true, false] ∧ (∀ l ∈ m2.stations, PlainName l.id) ∧
      ∀ l ∈ m2.stations, ∀ c, buildCss sampleComputer.tools
        (settingsIn sampleComputer.tools.ft "p".toList sampleAllFiles.disk.files rhineContent).run m2 l = .ok c →
          FullNumbers sampleComputer.tools.ft c := by
  refine ⟨fun y => by show y < y + 1 / 1000; linarith, fun f _ => ⟨rfl, rfl⟩, ?_, ?_⟩
  · rintro ⟨f, -, h⟩
    cases h
  · have h : ((rhineLoaded sampleAllFiles).toOption.map fun m2 =>
        (decide (wholeNumberIn rhineContent "SkipMaps" 0 < (m2.nMaps : Int)), m2.stations.map fun l => decide (Usable m2 l),
          m2.stations.map (·.id), decide (∀ l ∈ m2.stations, ((buildCss sampleComputer.tools
            (settingsIn sampleComputer.tools.ft "p".toList sampleAllFiles.disk.files rhineContent).run m2 l).toOption.all fun c =>
              decide (roundTo 6 c.out.extraFlowArea = c.out.extraFlowArea) &&
                c.out.floodplainBase.all fun b => decide (roundTo 6 b = b)) = true))) =
        some (true, [true, false], ["rhine_100".toList, "rhine_900".toList], true) := by decide +kernel
    cases hm : rhineLoaded sampleAllFiles with
    | error e => rw [hm] at h; cases h
    | ok m2 =>
      rw [hm] at h
      have h := Option.some.inj h
      obtain ⟨h1, h2⟩ := Prod.mk.inj h
      obtain ⟨h2, h3⟩ := Prod.mk.inj h2
      obtain ⟨h3, h4⟩ := Prod.mk.inj h3
      refine ⟨m2, rfl, of_decide_eq_true h1, .inl ⟨by decide +kernel, rfl⟩, h2, fun l hl => ?_, fun l hl c hc => ?_⟩
      rotate_left
      · have h5 := of_decide_eq_true h4 l hl
        rw [hc] at h5
        have h5 : (decide (roundTo 6 c.out.extraFlowArea = c.out.extraFlowArea) &&
                c.out.floodplainBase.all fun b => decide (roundTo 6 b = b)) = true := h5
        rw [Bool.and_eq_true] at h5
        refine ⟨of_decide_eq_true (p := roundTo 6 _ = _) h5.1, fun b hb => ?_⟩
        have h6 := h5.2
        rw [hb] at h6
        exact of_decide_eq_true (p := roundTo 6 _ = _) h6
      have : l.id ∈ ["rhine_100".toList, "rhine_900".toList] := h3 ▸ List.mem_map_of_mem hl
      rcases List.mem_cons.1 this with e | e
      · rw [e]; decide +kernel
      · rw [List.mem_singleton.1 e]; decide +kernel

/-- The hypotheses of `C171_no_input` are met when the map file is missing. -/
example : ProjectAt { sampleAllFiles with disk := ⟨[], []⟩ } "p/rhine".toList "p/rhine.ini".toList rhineContent "p/rhine".toList ∧
    namedFile (parentPath "p/rhine.ini".toList) [] rhineContent "2DMapOutput" = none :=
  ⟨{ rhineAt with free := by decide +kernel, real := by decide +kernel }, by decide +kernel⟩

end Fm2prof.Props
