import Verif.Spec.Program
import Verif.Props.Cli
import Verif.Props.Settings
import Verif.Proofs.Project

/-! Lemmas on the whole program. -/

set_option linter.unusedSectionVars false

namespace Fm2prof.ProgramProof

open Fm2prof Spec Props SettingsProof

variable {K : Type} [Field K] [LinearOrder K] [IsStrictOrderedRing K] [FloorRing K]

/-! ## The settings of a loaded file -/

section Loaded

variable {ft : FloatText K} {creatable : Text → Bool} {dir : Text} {disk : Disk} {f : FileContent} {s' : IniState K}

theorem loaded_find (hf : PlainFile f) (h : loadConfiguration ft creatable dir (some (fileText f)) ⟨template, disk⟩ = (s', none))
    (k : Text) (e : Entry K) (he : findEntry k (parameterTemplate (K := K)) = some e) :
    getParameter k s'.config = .ok (some (loadedValue ft e (fileValue f "parameters".toList e.key))) := by
  have h1 := List.find?_some he
  exact (C40_loaded ft creatable dir disk f hf s' h).1 e (List.mem_of_find?_eq_some he) k (of_decide_eq_true h1).symm

theorem loaded_debug (hf : PlainFile f) (h : loadConfiguration ft creatable dir (some (fileText f)) ⟨template, disk⟩ = (s', none))
    (k : Text) (e : Entry K) (he : findEntry k (debugTemplate (K := K)) = some e) :
    getParameter k s'.config = .ok (some (loadedValue ft e (fileValue f "debug".toList e.key))) := by
  have h1 := List.find?_some he
  exact (C40_loaded ft creatable dir disk f hf s' h).2.1 e (List.mem_of_find?_eq_some he) k (of_decide_eq_true h1).symm

theorem loaded_whole (hf : PlainFile f) (h : loadConfiguration ft creatable dir (some (fileText f)) ⟨template, disk⟩ = (s', none))
    (k key : String) (hint : Text) (n : Int)
    (he : findEntry k.toList (parameterTemplate (K := K)) = some ⟨key.toList, .int, hint, .int n⟩) :
    intSetting k s'.config = some (wholeNumberIn f key n) := by
  unfold intSetting wholeNumberIn
  rw [loaded_find hf h k.toList _ he]
  cases fileValue f "parameters".toList key.toList with
  | none => rfl
  | some t =>
    show (match Except.ok (some (((parseInt t).map ConfigValue.int).getD (.int n))) with
      | .ok (some (ConfigValue.int n)) => some n
      | (_ : Except PyErr (Option (ConfigValue K))) => none) = some ((parseInt t).getD n)
    cases parseInt t <;> rfl

theorem loaded_number (hf : PlainFile f) (h : loadConfiguration ft creatable dir (some (fileText f)) ⟨template, disk⟩ = (s', none))
    (k key : String) (hint : Text) (v : K)
    (he : findEntry k.toList (parameterTemplate (K := K)) = some ⟨key.toList, .float, hint, .float v⟩) :
    numberSetting k s'.config = some (numberIn ft f key v) := by
  unfold numberSetting numberIn
  rw [loaded_find hf h k.toList _ he]
  cases fileValue f "parameters".toList key.toList with
  | none => rfl
  | some t =>
    show (match Except.ok (some (((ft.parse t).map ConfigValue.float).getD (.float v))) with
      | .ok (some (ConfigValue.float x)) => some x
      | .ok (some (.int n)) => some (n : K)
      | (_ : Except PyErr (Option (ConfigValue K))) => none) = some ((ft.parse t).getD v)
    cases ft.parse t <;> rfl

theorem loaded_switch (hf : PlainFile f) (h : loadConfiguration ft creatable dir (some (fileText f)) ⟨template, disk⟩ = (s', none))
    (k key : String) (hint : Text) (b : Bool)
    (he : findEntry k.toList (parameterTemplate (K := K)) = some ⟨key.toList, .bool, hint, .bool b⟩) :
    switchSetting k s'.config = some (switchIn f "parameters" key b) := by
  unfold switchSetting switchIn
  rw [loaded_find hf h k.toList _ he]
  cases fileValue f "parameters".toList key.toList <;> rfl

theorem loaded_debugSwitch (hf : PlainFile f)
    (h : loadConfiguration ft creatable dir (some (fileText f)) ⟨template, disk⟩ = (s', none))
    (k key : String) (hint : Text) (b : Bool)
    (he : findEntry k.toList (debugTemplate (K := K)) = some ⟨key.toList, .bool, hint, .bool b⟩) :
    switchSetting k s'.config = some (switchIn f "debug" key b) := by
  unfold switchSetting switchIn
  rw [loaded_debug hf h k.toList _ he]
  cases fileValue f "debug".toList key.toList <;> rfl

theorem loaded_text (hf : PlainFile f) (h : loadConfiguration ft creatable dir (some (fileText f)) ⟨template, disk⟩ = (s', none))
    (k key : String) (hint : Text) (d : String)
    (he : findEntry k.toList (parameterTemplate (K := K)) = some ⟨key.toList, .str, hint, .str d.toList⟩) :
    textSetting k s'.config = some (textIn f key d) := by
  unfold textSetting textIn
  rw [loaded_find hf h k.toList _ he]
  cases fileValue f "parameters".toList key.toList <;> rfl

theorem loaded_selection (hf : PlainFile f)
    (h : loadConfiguration ft creatable dir (some (fileText f)) ⟨template, disk⟩ = (s', none)) :
    selectionSetting s'.config = some (selectionIn f) := by
  unfold selectionSetting selectionIn
  rw [loaded_debug hf h "CssSelection".toList ⟨"CssSelection".toList, .list,
      "provide comma separated list of ints; e.g. 38, 39, 40. Leave empty to generate all cross-sections".toList, .str []⟩ rfl]
  simp only
  cases fileValue f "debug".toList "CssSelection".toList with
  | none => rfl
  | some t =>
    rw [Option.bind_some]
    unfold loadedValue castValue
    simp only
    cases parseInts (splitSep ',' (stripBrackets t)) <;> rfl

theorem loaded_input (hf : PlainFile f) (h : loadConfiguration ft creatable dir (some (fileText f)) ⟨template, disk⟩ = (s', none))
    (key : String) (hint : Text) (he : findEntry key.toList (inputTemplate (K := K)) = some ⟨key.toList, .str, hint, .str []⟩) :
    getInputFile key.toList s'.config = .ok (match namedFile dir disk.files f key with
      | some p => .path p
      | none => .str []) := by
  rw [loadConfiguration_iff ft creatable dir _ _ _ rfl] at h
  obtain ⟨sup1, p1, _, _, _, _, _, k1, _, l1⟩ := readInifile_spec ft creatable dir _ _ s' h
  have p1' := p1
  rw [iniParams_file f hf] at p1
  obtain rfl := Except.ok.inj p1
  have hl := l1 "input".toList key.toList
  have ht : look (template (K := K)) "input".toList key.toList = some (.str []) := by
    rw [look_template _ _ template_input, he]
    rfl
  have hkey : findEntry (lower key.toList) (inputTemplate (K := K)) = some ⟨key.toList, .str, hint, .str []⟩ := by
    rw [← he]
    unfold findEntry
    rw [lower_lower]
  have hsup : suppliedValue ft dir disk.files (contentOf f) "input".toList key.toList =
      (namedFile dir disk.files f key).map ConfigValue.path := by
    unfold suppliedValue
    rw [if_pos rfl, newest_supplied _ _ _ p1', contentOf_value]
    unfold namedFile
    cases fileValue f "input".toList key.toList with
    | none => rfl
    | some t =>
      rw [Option.bind_some]
      unfold inputValue
      rw [hkey, Option.bind_some]
      simp only [Option.map_some]
      by_cases hm : joinPath dir t ∈ disk.files
      · rw [if_pos hm]
        unfold Option.filter
        simp only [hm, decide_true, if_true, Option.map_some]
      · rw [if_neg hm]
        unfold Option.filter
        simp only [hm, decide_false, Bool.false_eq_true, if_false, Option.map_none]
  rw [ht, hsup] at hl
  unfold getInputFile
  rw [getValue_look _ _ _ (section_known _ k1 _ List.mem_cons_self), hl]
  cases namedFile dir disk.files f key <;> rfl

theorem loaded_settings (hf : PlainFile f)
    (h : loadConfiguration ft creatable dir (some (fileText f)) ⟨template, disk⟩ = (s', none)) :
    settingsOf ft s'.config = some (settingsIn ft dir disk.files f) := by
  have hin : ∀ key hint, findEntry key.toList (inputTemplate (K := K)) = some ⟨key.toList, .str, hint, .str []⟩ →
      inputPath ft key s'.config = some ((namedFile dir disk.files f key).getD []) := by
    intro key hint he
    unfold inputPath
    rw [loaded_input hf h key hint he]
    cases namedFile dir disk.files f key <;> rfl
  refine (settingsOf_iff ft _ _).2 ⟨(runConfigOf_iff _ _).2 ⟨loaded_whole hf h _ "SkipMaps" _ _ rfl,
    loaded_whole hf h _ "LakeTimesteps" _ _ rfl, loaded_number hf h _ "AbsoluteVelocityThreshold" _ _ rfl,
    loaded_number hf h _ "RelativeVelocityThreshold" _ _ rfl, loaded_whole hf h _ "ConveyanceDetectionMethod" _ _ rfl,
    loaded_switch hf h _ "ExtrapolateStorage" _ _ rfl, loaded_switch hf h _ "SDCorrection" _ _ rfl,
    loaded_whole hf h _ "SDOptimisationMethod" _ _ rfl, loaded_number hf h _ "SDTransitionHeight" _ _ rfl,
    loaded_number hf h _ "MinimumTotalWidth" _ _ rfl, loaded_whole hf h _ "MaximumPointsInProfile" _ _ rfl,
    loaded_whole hf h _ "FrictionWeighingMethod" _ _ rfl, loaded_number hf h _ "SDFloodplainBase" _ _ rfl,
    loaded_selection hf h, loaded_debugSwitch hf h _ "ExportCSSData" _ _ rfl, loaded_debugSwitch hf h _ "ExportMapFiles" _ _ rfl⟩,
    loaded_text hf h _ "DefaultRegion" _ "undefined" rfl, loaded_text hf h _ "DefaultSection" _ "floodplain1" rfl,
    hin "2DMapOutput" _ rfl, hin "CrossSectionLocationFile" _ rfl, hin "RegionPolygonFile" _ rfl, hin "SectionPolygonFile" _ rfl, ?_⟩
  unfold inputIsText
  rw [loaded_input hf h "2DMapOutput" _ rfl]
  show _ = (namedFile dir disk.files f "2DMapOutput").isNone
  cases namedFile dir disk.files f "2DMapOutput" <;> rfl

end Loaded

/-! ## Opening a project -/

theorem loaded_isFile {ft : FloatText K} {creatable : Text → Bool} {dir : Text} {disk disk' : Disk} {f : FileContent} {s' : IniState K}
    (hf : PlainFile f) (h : loadConfiguration ft creatable dir (some (fileText f)) ⟨template, disk⟩ = (s', none))
    (hd : disk'.files = disk.files) (hr : [] ∉ disk.files) (key : String) (hint : Text)
    (he : findEntry key.toList (inputTemplate (K := K)) = some ⟨key.toList, .str, hint, .str []⟩) :
    inputIsFile ft key s'.config disk' = (namedFile dir disk.files f key).isSome := by
  unfold inputIsFile
  rw [loaded_input hf h key hint he, hd]
  simp only
  cases hn : namedFile dir disk.files f key with
  | none => exact decide_eq_false hr
  | some p =>
    unfold namedFile at hn
    exact decide_eq_true (of_decide_eq_true (Option.filter_eq_some_iff.1 hn).2)

theorem opened_project (e : Computer K) (hm : ∀ d, e.mkdir d = .made) (w : AllFiles K) (name path : Text) (f : FileContent) (out : Text)
    (h : ProjectAt w name path f out) :
    ∃ w' c, openRunner (e.setup w.inputs) path w.world = (w', .ok (some (parentPath path, c))) ∧ w'.texts = w.inputs.texts ∧
      w'.disk.files = w.disk.files ∧ (∀ d ∈ w.disk.dirs, d ∈ w'.disk.dirs) ∧ out ∈ w'.disk.dirs ∧
      w'.results = (fun d => if d = out then opened e.logText (w.results out) else w.results d) ∧
      settingsOf e.tools.ft c = some (settingsIn e.tools.ft (parentPath path) w.disk.files f) ∧
      getOutputDirectory e.tools.ft (parentPath path) c = .ok out ∧
      inputIsFile e.tools.ft "2DMapOutput" c w'.disk = (namedFile (parentPath path) w.disk.files f "2DMapOutput").isSome ∧
      inputIsFile e.tools.ft "CrossSectionLocationFile" c w'.disk =
        (namedFile (parentPath path) w.disk.files f "CrossSectionLocationFile").isSome := by
  obtain ⟨o, hv, rfl⟩ := h.directory
  obtain ⟨s, hs⟩ := C40_succeeds e.tools.ft (fun d => decide (e.mkdir d = .made)) (parentPath path) f h.plain ⟨template, w.disk⟩ rfl
    h.input h.output fun d _ => .inr (.inr (decide_eq_true (hm d)))
  have hg := loaded_output e.tools.ft _ _ w.disk f h.plain s o hv hs
  have hgrow := loadConfiguration_grows e.tools.ft (fun d => decide (e.mkdir d = .made)) (parentPath path) (some (fileText f))
    ⟨template, w.disk⟩
  rw [hs] at hgrow
  have hnf : joinPath (parentPath path) o ∉ s.disk.files := by
    rw [hgrow.1]
    exact h.free
  have hset := loaded_settings h.plain hs
  have hmap : ∀ disk' : Disk, disk'.files = w.disk.files → inputIsFile e.tools.ft "2DMapOutput" s.config disk' =
      (namedFile (parentPath path) w.disk.files f "2DMapOutput").isSome :=
    fun disk' hd => loaded_isFile h.plain hs hd h.real "2DMapOutput" _ rfl
  have hcss : ∀ disk' : Disk, disk'.files = w.disk.files → inputIsFile e.tools.ft "CrossSectionLocationFile" s.config disk' =
      (namedFile (parentPath path) w.disk.files f "CrossSectionLocationFile").isSome :=
    fun disk' hd => loaded_isFile h.plain hs hd h.real "CrossSectionLocationFile" _ rfl
  have hl : loadProject (e.setup w.inputs) path w.world = (parentPath path, s, none) := by
    unfold loadProject
    show (match w.inputs.texts path with
      | none => _
      | some t => _) = _
    rw [h.text]
    show (parentPath path, loadConfiguration e.tools.ft (fun d => decide (e.mkdir d = .made)) (parentPath path) (some (fileText f))
      ⟨template, w.disk⟩) = _
    rw [hs]
  unfold openRunner
  rw [hl]
  simp only
  by_cases hd : joinPath (parentPath path) o ∈ s.disk.dirs
  · have : hasOutputDirectory (e.setup w.inputs).ft (e.setup w.inputs).mkdir (parentPath path) s = .ok (true, s) := by
      unfold hasOutputDirectory
      show (match getOutputDirectory e.tools.ft (parentPath path) s.config with
        | .error e => _
        | .ok d => _) = _
      rw [hg]
      simp only
      rw [if_pos (.inr hd)]
    rw [this]
    simp only
    have hg' : getOutputDirectory (e.setup w.inputs).ft (parentPath path) s.config = .ok (joinPath (parentPath path) o) := hg
    rw [hg']
    simp only
    rw [if_pos hd]
    exact ⟨_, _, rfl, rfl, hgrow.1, hgrow.2, hd, rfl, hset, hg, hmap _ hgrow.1, hcss _ hgrow.1⟩
  · have : hasOutputDirectory (e.setup w.inputs).ft (e.setup w.inputs).mkdir (parentPath path) s =
        .ok (true, { s with disk := { s.disk with dirs := s.disk.dirs ++ [joinPath (parentPath path) o] } }) := by
      unfold hasOutputDirectory
      show (match getOutputDirectory e.tools.ft (parentPath path) s.config with
        | .error e => _
        | .ok d => _) = _
      rw [hg]
      simp only
      rw [if_neg (not_or.2 ⟨hnf, hd⟩)]
      show (match e.mkdir (joinPath (parentPath path) o) with
        | .made => _
        | .notFound => _
        | .refused => _) = _
      rw [hm]
    rw [this]
    simp only
    have hg' : getOutputDirectory (e.setup w.inputs).ft (parentPath path) s.config = .ok (joinPath (parentPath path) o) := hg
    rw [hg']
    simp only
    rw [if_pos (List.mem_append_right _ List.mem_cons_self)]
    exact ⟨_, _, rfl, rfl, hgrow.1, fun d hd => List.mem_append_left _ (hgrow.2 d hd),
      List.mem_append_right _ List.mem_cons_self, rfl, hset, hg, hmap _ hgrow.1, hcss _ hgrow.1⟩

/-! ## A run from the command line -/

/-- What `run` does with a project: the run of the configured job on the opened output directory. -/
theorem program_run (e : Computer K) (hm : ∀ d, e.mkdir d = .made) (w : AllFiles K) (name path : Text) (f : FileContent) (out : Text)
    (h : ProjectAt w name path f out) (overwrite post : Bool) :
    ∃ dirs j caches, (∀ d ∈ w.disk.dirs, d ∈ dirs) ∧ out ∈ dirs ∧
      j = (match w.inputs.maps (settingsIn e.tools.ft (parentPath path) w.disk.files f).mapPath with
        | none => jobOf e.tools (settingsIn e.tools.ft (parentPath path) w.disk.files f).run ⟨.error .osError, .ok [], none, none⟩
        | some m => jobOf e.tools (settingsIn e.tools.ft (parentPath path) w.disk.files f).run
            (projectInputs e.tools.ft e.geometries (settingsIn e.tools.ft (parentPath path) w.disk.files f) m w.inputs).1)
        ⟨true, (namedFile (parentPath path) w.disk.files f "2DMapOutput").isSome,
          (namedFile (parentPath path) w.disk.files f "CrossSectionLocationFile").isSome, true, e.faults⟩ ∧
      caches = (if outputExists (opened e.logText (w.results out)) && !overwrite then w.inputs.caches
        else if (namedFile (parentPath path) w.disk.files f "2DMapOutput").isSome &&
            (namedFile (parentPath path) w.disk.files f "CrossSectionLocationFile").isSome then
          match w.inputs.maps (settingsIn e.tools.ft (parentPath path) w.disk.files f).mapPath with
          | some m => (projectInputs e.tools.ft e.geometries (settingsIn e.tools.ft (parentPath path) w.disk.files f) m w.inputs).2
          | none => w.inputs.caches
        else w.inputs.caches) ∧
      (program e w (.run name overwrite post)).1 = ⟨{ w.inputs with caches := caches }, ⟨w.disk.files, dirs⟩,
        fun d => if d = out then (run j overwrite (opened e.logText (w.results out))).1 else w.results d⟩ ∧
      (program e w (.run name overwrite post)).2 = (match (run j overwrite (opened e.logText (w.results out))).2 with
        | .error _ => 1
        | .ok _ => if post then
            match e.figures (run j overwrite (opened e.logText (w.results out))).1 with
            | some _ => 1
            | none => 0
          else 0) := by
  obtain ⟨w', c, h1, h2, h3, h4, h5, h6, h7, h8, h9, h10⟩ := opened_project e hm w name path f out h
  have hsur : e.surroundings (parentPath path) c w'.disk =
      ⟨true, (namedFile (parentPath path) w.disk.files f "2DMapOutput").isSome,
          (namedFile (parentPath path) w.disk.files f "CrossSectionLocationFile").isSome, true, e.faults⟩ := by
    unfold Computer.surroundings
    rw [h9, h10, h8]
    simp only
    rw [decide_eq_true h5]
  refine ⟨w'.disk.dirs, _, _, h4, h5, rfl, rfl, ?_⟩
  have hj : e.job w.inputs (parentPath path) c w'.disk =
      (match w.inputs.maps (settingsIn e.tools.ft (parentPath path) w.disk.files f).mapPath with
        | none => jobOf e.tools (settingsIn e.tools.ft (parentPath path) w.disk.files f).run ⟨.error .osError, .ok [], none, none⟩
        | some m => jobOf e.tools (settingsIn e.tools.ft (parentPath path) w.disk.files f).run
            (projectInputs e.tools.ft e.geometries (settingsIn e.tools.ft (parentPath path) w.disk.files f) m w.inputs).1)
        ⟨true, (namedFile (parentPath path) w.disk.files f "2DMapOutput").isSome,
          (namedFile (parentPath path) w.disk.files f "CrossSectionLocationFile").isSome, true, e.faults⟩ := by
    unfold Computer.job
    rw [h7]
    simp only
    rw [hsur]
    cases w.inputs.maps (settingsIn e.tools.ft (parentPath path) w.disk.files f).mapPath <;> rfl
  have hout : w'.results out = opened e.logText (w.results out) := by rw [h6]; exact if_pos rfl
  have hc : e.cachesAfter w (.run name overwrite post) = (if outputExists (opened e.logText (w.results out)) && !overwrite then
        w.inputs.caches
        else if (namedFile (parentPath path) w.disk.files f "2DMapOutput").isSome &&
            (namedFile (parentPath path) w.disk.files f "CrossSectionLocationFile").isSome then
          match w.inputs.maps (settingsIn e.tools.ft (parentPath path) w.disk.files f).mapPath with
          | some m => (projectInputs e.tools.ft e.geometries (settingsIn e.tools.ft (parentPath path) w.disk.files f) m w.inputs).2
          | none => w.inputs.caches
        else w.inputs.caches) := by
    unfold Computer.cachesAfter
    simp only
    rw [h.named]
    simp only
    rw [h1]
    simp only
    unfold Computer.cachesAfterRun
    simp only
    rw [h7, h8]
    simp only
    rw [hout, hsur]
    rfl
  rw [← hj, ← hc]
  unfold program
  simp only
  rw [command_run]
  unfold cliRun
  rw [h.named]
  simp only
  rw [h1]
  simp only
  have hr : runProject (e.setup w.inputs) (some (parentPath path, c)) overwrite w' =
      ({ w' with results := fun d => if d = out then (run (e.job w.inputs (parentPath path) c w'.disk) overwrite
        (opened e.logText (w.results out))).1 else w.results d },
        (run (e.job w.inputs (parentPath path) c w'.disk) overwrite (opened e.logText (w.results out))).2) := by
    unfold runProject
    simp only
    have h8' : getOutputDirectory (e.setup w.inputs).ft (parentPath path) c = .ok out := h8
    rw [h8']
    simp only
    rw [hout]
    have : (e.setup w.inputs).job = e.job w.inputs := rfl
    rw [this]
    have hf : (fun d => if d = out then (run (e.job w.inputs (parentPath path) c w'.disk) overwrite
        (opened e.logText (w.results out))).1 else w'.results d) = (fun d => if d = out then (run (e.job w.inputs (parentPath path) c w'.disk) overwrite
        (opened e.logText (w.results out))).1 else w.results d) := by
      funext d
      by_cases hd : d = out
      · rw [if_pos hd, if_pos hd]
      · rw [if_neg hd, if_neg hd, h6]
        simp only
        rw [if_neg hd]
    rw [hf]
  rw [hr]
  have hdisk : w'.disk = ⟨w.disk.files, w'.disk.dirs⟩ := by rw [← h3]
  have hpp : ∀ ww : World, postProcess (e.setup w.inputs) (some (parentPath path, c)) ww = e.figures (ww.results out) := by
    intro ww
    unfold postProcess
    simp only
    have h8' : getOutputDirectory (e.setup w.inputs).ft (parentPath path) c = .ok out := h8
    rw [h8']
    rfl
  cases (run (e.job w.inputs (parentPath path) c w'.disk) overwrite (opened e.logText (w.results out))).2 with
  | error er =>
    simp only
    rw [h2, ← hdisk]
    exact ⟨rfl, trivial⟩
  | ok b =>
    simp only
    cases post with
    | false => simp only [Bool.false_eq_true, if_false]; rw [h2, ← hdisk]; exact ⟨rfl, trivial⟩
    | true =>
      simp only [if_true]
      rw [hpp]
      simp only [if_true]
      cases e.figures (run (e.job w.inputs (parentPath path) c w'.disk) overwrite (opened e.logText (w.results out))).1 with
      | none => simp only; rw [h2, ← hdisk]; exact ⟨rfl, trivial⟩
      | some er => simp only; rw [h2, ← hdisk]; exact ⟨rfl, trivial⟩

/-! ## Leaving out a line -/

theorem withoutInput_value (key : String) (f : FileContent) (sec k : Text) :
    fileValue (withoutInput key f) sec k =
      if sec = "input".toList ∧ lower k = lower key.toList then none else fileValue f sec k := by
  unfold fileValue withoutInput
  rw [List.find?_map]
  have hp : ((fun s : Text × List (Text × Text) => decide (lower s.1 = sec)) ∘ fun s => if lower s.1 = "input".toList then
      (s.1, s.2.filter fun i => decide (lower (rstrip i.1) ≠ lower key.toList)) else s) = fun s => decide (lower s.1 = sec) := by
    funext s
    show decide (lower (if lower s.1 = "input".toList then _ else s).1 = sec) = _
    split <;> rfl
  rw [hp]
  cases hs : f.find? fun s => decide (lower s.1 = sec) with
  | none => simp only [Option.map_none, Option.bind_none, ite_self]
  | some s =>
    have hsec : lower s.1 = sec := of_decide_eq_true (List.find?_some (p := fun s : Text × List (Text × Text) => decide (lower s.1 = sec)) hs)
    simp only [Option.map_some, Option.bind_some]
    by_cases hi : sec = "input".toList
    · rw [if_pos (hsec.trans hi)]
      simp only
      by_cases hk : lower k = lower key.toList
      · rw [if_pos ⟨hi, hk⟩, Option.map_eq_none_iff, List.find?_eq_none]
        intro i hi
        have := of_decide_eq_true (List.mem_filter.1 hi).2
        intro hd
        exact this ((of_decide_eq_true hd).trans hk)
      · rw [if_neg fun h => hk h.2, List.find?_filter]
        congr 1
        congr 1
        funext i
        by_cases he : lower (rstrip i.1) = lower k
        · have : lower (rstrip i.1) ≠ lower key.toList := fun h => hk (he.symm.trans h)
          simp [he, hk]
        · simp [he]
    · rw [if_neg fun h => hi (hsec.symm.trans h), if_neg fun h => hi h.1]

theorem withoutInput_plain (key : String) (f : FileContent) (h : PlainFile f) : PlainFile (withoutInput key f) := by
  obtain ⟨h1, h2, h3⟩ := h
  have hname : ∀ s : Text × List (Text × Text), (if lower s.1 = "input".toList then
      (s.1, s.2.filter fun i => decide (lower (rstrip i.1) ≠ lower key.toList)) else s).1 = s.1 := by
    intro s; split <;> rfl
  have hsub : ∀ s : Text × List (Text × Text), (if lower s.1 = "input".toList then
      (s.1, s.2.filter fun i => decide (lower (rstrip i.1) ≠ lower key.toList)) else s).2.Sublist s.2 := by
    intro s
    split
    · exact List.filter_sublist
    · exact List.Sublist.refl _
  refine ⟨?_, ?_, ?_⟩
  · intro s hs
    obtain ⟨t, ht, rfl⟩ := List.mem_map.1 hs
    simp only [hname]
    exact h1 t ht
  · unfold withoutInput
    rw [List.map_map]
    have : ((fun s : Text × List (Text × Text) => lower s.1) ∘ fun s => if lower s.1 = "input".toList then
        (s.1, s.2.filter fun i => decide (lower (rstrip i.1) ≠ lower key.toList)) else s) = fun s => lower s.1 := by
      funext s
      show lower (if lower s.1 = "input".toList then _ else s).1 = _
      split <;> rfl
    rw [this]
    exact h2
  · intro s hs
    obtain ⟨t, ht, rfl⟩ := List.mem_map.1 hs
    obtain ⟨g1, g2⟩ := h3 t ht
    exact ⟨g1.sublist ((hsub t).map _), fun i hi => g2 i ((hsub t).subset hi)⟩

theorem withoutInput_section (key : String) (f : FileContent) (n : Text) (h : ∃ t ∈ f, lower t.1 = n) :
    ∃ t ∈ withoutInput key f, lower t.1 = n := by
  obtain ⟨t, ht, e⟩ := h
  refine ⟨_, List.mem_map.2 ⟨t, ht, rfl⟩, ?_⟩
  split <;> exact e

theorem inputs_texts (ft : FloatText K) (g : Geometries K) (c : Settings K) (m : MapFile K) (d : ProjectFiles K)
    (t : Text → Option Text) (h : t c.cssPath = d.texts c.cssPath) :
    projectInputs ft g c m { d with texts := t } = projectInputs ft g c m d := by
  have hr : optionalRegions { d with texts := t } c.regionPath = optionalRegions d c.regionPath := rfl
  have hs : optionalSections { d with texts := t } c.sectionPath = optionalSections d c.sectionPath := rfl
  unfold projectInputs
  simp only
  rw [hr, hs, h]

/-- A missing polygon file and no polygon file give the same settings. -/
theorem settings_missing (ft : FloatText K) (dir : Text) (files : List Text) (f : FileContent) (key : String)
    (hk : key = "RegionPolygonFile" ∨ key = "SectionPolygonFile") (t : Text)
    (ht : fileValue f "input".toList key.toList = some t) (hn : joinPath dir t ∉ files) :
    settingsIn ft dir files (withoutInput key f) = settingsIn ft dir files f ∧
      ∀ k, namedFile dir files (withoutInput key f) k = namedFile dir files f k := by
  have hval : ∀ sec k : String, sec ≠ "input" →
      fileValue (withoutInput key f) sec.toList k.toList = fileValue f sec.toList k.toList := by
    intro sec k hs
    rw [withoutInput_value, if_neg fun h => hs (String.toList_injective h.1)]
  have hnamed : ∀ k, namedFile dir files (withoutInput key f) k = namedFile dir files f k := by
    intro k
    unfold namedFile
    rw [withoutInput_value]
    by_cases h : lower k.toList = lower key.toList
    · rw [if_pos ⟨rfl, h⟩]
      have hv : fileValue f "input".toList k.toList = some t := by
        rw [← ht]; unfold fileValue; rw [h]
      rw [hv]
      simp only [Option.map_none, Option.map_some]
      unfold Option.filter
      simp only [hn, decide_false, Bool.false_eq_true, if_false]
    · rw [if_neg fun e => h e.2]
  refine ⟨?_, hnamed⟩
  unfold settingsIn wholeNumberIn numberIn switchIn textIn selectionIn
  simp only [hnamed]
  have h1 : ∀ k : String, fileValue (withoutInput key f) "parameters".toList k.toList = fileValue f "parameters".toList k.toList :=
    fun k => hval _ _ (by decide)
  have h2 : ∀ k : String, fileValue (withoutInput key f) "debug".toList k.toList = fileValue f "debug".toList k.toList :=
    fun k => hval _ _ (by decide)
  simp only [h1, h2]

end Fm2prof.ProgramProof
