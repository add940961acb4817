import Verif.Proofs.Settings

/-!
# What parameters do: C140, C141, C142
-/

set_option linter.unusedSectionVars false

namespace Fm2prof.Props

open Fm2prof Spec SettingsProof

variable {K : Type} [Field K] [LinearOrder K] [IsStrictOrderedRing K] [FloorRing K]

/-! ## C140: a loaded configuration can be run -/

/-- **C140.** Whatever is written in a configuration file: if it loads, all settings of a run have a value of their kind. So have the
defaults. -/
theorem C140_usable (ft : FloatText K) :
    (∃ p, settingsOf ft (template (K := K)) = some p) ∧
    ∀ creatable dir text disk s', loadConfiguration ft creatable dir (some text) ⟨template, disk⟩ = (s', none) →
      ∃ p, settingsOf ft s'.config = some p :=
  ⟨settings_some ft _ fitting_template rfl, fun creatable dir text disk s' h =>
    settings_some ft _ (fitting_loaded ft creatable dir text disk s' h).1 (fitting_loaded ft creatable dir text disk s' h).2⟩

/-! ## C141: setting a parameter changes what it is documented to change -/

/-- **C141, numbers and switches.** Setting a parameter of a usable configuration, in any capitalisation, changes the setting that
belongs to it and no other. -/
theorem C141_parameters (ft : FloatText K) (c : Config K) (hc : keysOf c = keysOf (template (K := K))) (p : Settings K)
    (h : settingsOf ft c = some p) (k : Text) :
    (∀ q ∈ wholeNumbers (K := K), lower k = lower q.1.toList → ∀ n, ∃ c', setParameter k (.int n) c = .ok (c', true) ∧
      settingsOf ft c' = some (withRun (q.2 n) p)) ∧
    (∀ q ∈ decimalNumbers (K := K), lower k = lower q.1.toList → ∀ v, ∃ c', setParameter k (.float v) c = .ok (c', true) ∧
      settingsOf ft c' = some (withRun (q.2 v) p)) ∧
    (∀ q ∈ switches (K := K), lower k = lower q.1.toList → ∀ b, ∃ c', setParameter k (.bool b) c = .ok (c', true) ∧
      settingsOf ft c' = some (withRun (q.2 b) p)) ∧
    (∀ q ∈ names (K := K), lower k = lower q.1.toList → ∀ t, ∃ c', setParameter k (.str t) c = .ok (c', true) ∧
      settingsOf ft c' = some (q.2 t p)) := by
  obtain ⟨h0, h1, h2, h3, h4, h5, h6, h7⟩ := (settingsOf_iff ft c p).1 h
  refine ⟨fun q hq hk n => ?_, fun q hq hk v => ?_, fun q hq hk b => ?_, fun q hq hk t => ?_⟩
  · obtain ⟨e, he, hek⟩ := whole_known (K := K) q hq
    obtain ⟨c', g1, g2, g3⟩ := set_known c hc e he k (hk.trans hek) (.int n)
    rw [← hek] at g2
    have hn := whole_names q hq
    refine ⟨c', g1, (settingsOf_iff ft c' _).2 ⟨run_int h0 q hq g2, (text_same g2 _ hn.1).trans h1, (text_same g2 _ hn.2).trans h2,
      (path_same ft g3 _).trans h3, (path_same ft g3 _).trans h4, (path_same ft g3 _).trans h5, (path_same ft g3 _).trans h6, (kind_same g3 _).trans h7⟩⟩
  · obtain ⟨e, he, hek⟩ := decimal_known (K := K) q hq
    obtain ⟨c', g1, g2, g3⟩ := set_known c hc e he k (hk.trans hek) (.float v)
    rw [← hek] at g2
    have hn := decimal_names q hq
    refine ⟨c', g1, (settingsOf_iff ft c' _).2 ⟨run_number h0 q hq g2, (text_same g2 _ hn.1).trans h1, (text_same g2 _ hn.2).trans h2,
      (path_same ft g3 _).trans h3, (path_same ft g3 _).trans h4, (path_same ft g3 _).trans h5, (path_same ft g3 _).trans h6, (kind_same g3 _).trans h7⟩⟩
  · obtain ⟨e, he, hek⟩ := switch_known (K := K) q hq
    obtain ⟨c', g1, g2, g3⟩ := set_known c hc e he k (hk.trans hek) (.bool b)
    rw [← hek] at g2
    have hn := switch_names q hq
    refine ⟨c', g1, (settingsOf_iff ft c' _).2 ⟨run_switch h0 q hq g2, (text_same g2 _ hn.1).trans h1, (text_same g2 _ hn.2).trans h2,
      (path_same ft g3 _).trans h3, (path_same ft g3 _).trans h4, (path_same ft g3 _).trans h5, (path_same ft g3 _).trans h6, (kind_same g3 _).trans h7⟩⟩
  · obtain ⟨e, he, hek⟩ := name_known (K := K) q hq
    obtain ⟨c', g1, g2, g3⟩ := set_known c hc e he k (hk.trans hek) (.str t)
    rw [← hek] at g2
    refine ⟨c', g1, ?_⟩
    unfold names at hq
    rcases List.mem_cons.1 hq with rfl | hq
    · replace g2 : SetTo c c' (lower "DefaultSection".toList) _ := g2
      exact (settingsOf_iff ft c' _).2 ⟨(run_same g2 (by decide +kernel)).trans h0,
        (text_same g2 "DefaultRegion" (by decide +kernel)).trans h1, text_set g2 "DefaultSection" rfl,
        (path_same ft g3 _).trans h3, (path_same ft g3 _).trans h4, (path_same ft g3 _).trans h5, (path_same ft g3 _).trans h6, (kind_same g3 _).trans h7⟩
    rcases List.mem_cons.1 hq with rfl | hq
    · replace g2 : SetTo c c' (lower "DefaultRegion".toList) _ := g2
      exact (settingsOf_iff ft c' _).2 ⟨(run_same g2 (by decide +kernel)).trans h0, text_set g2 "DefaultRegion" rfl,
        (text_same g2 "DefaultSection" (by decide +kernel)).trans h2,
        (path_same ft g3 _).trans h3, (path_same ft g3 _).trans h4, (path_same ft g3 _).trans h5, (path_same ft g3 _).trans h6, (kind_same g3 _).trans h7⟩
    cases hq

/-- **C141, input files.** Setting an input file, to a text or a `Path`, changes which file is used for it and nothing else. -/
theorem C141_input_files (ft : FloatText K) (c : Config K) (hc : keysOf c = keysOf (template (K := K))) (p : Settings K)
    (h : settingsOf ft c = some p) (k : Text) (q : String × (Bool → Text → Settings K → Settings K)) (hq : q ∈ inputFiles (K := K))
    (hk : lower k = lower q.1.toList) (isText : Bool) (path : Text) :
    ∃ c', setInputFile k (givenPath isText path) c = .ok (c', true) ∧ settingsOf ft c' = some (q.2 isText path p) := by
  obtain ⟨h0, h1, h2, h3, h4, h5, h6, h7⟩ := (settingsOf_iff ft c p).1 h
  obtain ⟨e, he, hek⟩ := file_known (K := K) q hq
  obtain ⟨c', g1, g2, g3⟩ := set_input c hc e he k (hk.trans hek) (givenPath isText path)
  rw [← hek] at g3
  have hrun := run_unchanged g2
  have hreg : textSetting "DefaultRegion" c' = textSetting "DefaultRegion" c := by unfold textSetting; rw [g2]
  have hsec : textSetting "DefaultSection" c' = textSetting "DefaultSection" c := by unfold textSetting; rw [g2]
  refine ⟨c', g1, ?_⟩
  unfold inputFiles at hq
  rcases List.mem_cons.1 hq with rfl | hq
  · replace g3 : InputTo c c' (lower "2DMapOutput".toList) _ := g3
    exact (settingsOf_iff ft c' _).2 ⟨hrun.trans h0, hreg.trans h1, hsec.trans h2, path_set ft g3 "2DMapOutput" rfl,
      (path_other ft g3 "CrossSectionLocationFile" (by decide +kernel)).trans h4,
      (path_other ft g3 "RegionPolygonFile" (by decide +kernel)).trans h5,
      (path_other ft g3 "SectionPolygonFile" (by decide +kernel)).trans h6, kind_set g3 "2DMapOutput" rfl⟩
  rcases List.mem_cons.1 hq with rfl | hq
  · replace g3 : InputTo c c' (lower "CrossSectionLocationFile".toList) _ := g3
    exact (settingsOf_iff ft c' _).2 ⟨hrun.trans h0, hreg.trans h1, hsec.trans h2,
      (path_other ft g3 "2DMapOutput" (by decide +kernel)).trans h3, path_set ft g3 "CrossSectionLocationFile" rfl,
      (path_other ft g3 "RegionPolygonFile" (by decide +kernel)).trans h5,
      (path_other ft g3 "SectionPolygonFile" (by decide +kernel)).trans h6, (kind_other g3 "2DMapOutput" (by decide +kernel)).trans h7⟩
  rcases List.mem_cons.1 hq with rfl | hq
  · replace g3 : InputTo c c' (lower "RegionPolygonFile".toList) _ := g3
    exact (settingsOf_iff ft c' _).2 ⟨hrun.trans h0, hreg.trans h1, hsec.trans h2,
      (path_other ft g3 "2DMapOutput" (by decide +kernel)).trans h3,
      (path_other ft g3 "CrossSectionLocationFile" (by decide +kernel)).trans h4, path_set ft g3 "RegionPolygonFile" rfl,
      (path_other ft g3 "SectionPolygonFile" (by decide +kernel)).trans h6, (kind_other g3 "2DMapOutput" (by decide +kernel)).trans h7⟩
  rcases List.mem_cons.1 hq with rfl | hq
  · replace g3 : InputTo c c' (lower "SectionPolygonFile".toList) _ := g3
    exact (settingsOf_iff ft c' _).2 ⟨hrun.trans h0, hreg.trans h1, hsec.trans h2,
      (path_other ft g3 "2DMapOutput" (by decide +kernel)).trans h3,
      (path_other ft g3 "CrossSectionLocationFile" (by decide +kernel)).trans h4,
      (path_other ft g3 "RegionPolygonFile" (by decide +kernel)).trans h5, path_set ft g3 "SectionPolygonFile" rfl, (kind_other g3 "2DMapOutput" (by decide +kernel)).trans h7⟩
  cases hq

/-! ## C142: parameters without effect, and values of the wrong type -/

/-- **C142, violated: no effect.** `CaseName`, `MinimumDepthThreshold` and `BedlevelCriterium` can be set to any value: the settings of a
run stay the same, and so do its results whatever the files are. -/
theorem C142_no_effect_violated (ft : FloatText K) (c : Config K) (hc : keysOf c = keysOf (template (K := K))) (k : Text)
    (hk : lower k ∈ ["casename".toList, "minimumdepththreshold".toList, "bedlevelcriterium".toList]) (v : ConfigValue K) :
    ∃ c', setParameter k v c = .ok (c', true) ∧ getParameter k c' = .ok (some v) ∧ settingsOf ft c' = settingsOf ft c := by
  obtain ⟨e, he, hek⟩ := unused_known (K := K) (lower k) hk
  obtain ⟨c', g1, g2, g3⟩ := set_known c hc e he k hek v
  refine ⟨c', g1, by rw [g2, if_pos hek], ?_⟩
  have key : lower e.key ∈ ["casename".toList, "minimumdepththreshold".toList, "bedlevelcriterium".toList] := hek ▸ hk
  have hno := unused_names _ key
  unfold settingsOf
  rw [run_same g2 hno.1, text_same g2 "DefaultRegion" hno.2.1, text_same g2 "DefaultSection" hno.2.2,
    path_same ft g3, path_same ft g3, path_same ft g3, path_same ft g3, kind_same g3]

/-- **C142, violated: types.** The documentation promises an error when a value of the wrong type is set. Any value is accepted for any
parameter, and read back. -/
theorem C142_wrong_type_violated (c : Config K) (hc : keysOf c = keysOf (template (K := K))) (e : Entry K)
    (he : e ∈ parameterTemplate (K := K)) (v : ConfigValue K) :
    ∃ c', setParameter e.key v c = .ok (c', true) ∧ getParameter e.key c' = .ok (some v) := by
  obtain ⟨c', g1, g2, _⟩ := set_known c hc e he e.key rfl v
  exact ⟨c', g1, by rw [g2, if_pos rfl]⟩

/-- **C142, violated: switches.** A switch that is set to a text is on, also when the text is `False`. -/
theorem C142_switch_text_violated (ft : FloatText K) (c : Config K) (hc : keysOf c = keysOf (template (K := K))) (p : Settings K)
    (h : settingsOf ft c = some p) (q : String × (Bool → RunConfig K → RunConfig K)) (hq : q ∈ switches (K := K)) (t : Text)
    (ht : t ≠ []) :
    ∃ c', setParameter q.1.toList (.str t) c = .ok (c', true) ∧ settingsOf ft c' = some (withRun (q.2 true) p) := by
  obtain ⟨h0, h1, h2, h3, h4, h5, h6, h7⟩ := (settingsOf_iff ft c p).1 h
  obtain ⟨e, he, hek⟩ := switch_known (K := K) q hq
  obtain ⟨c', g1, g2, g3⟩ := set_known c hc e he q.1.toList hek (.str t)
  rw [← hek] at g2
  have hn := switch_names q hq
  have ht' : truthy (K := K) (.str t) = true := decide_eq_true ht
  have hr := run_switch h0 q hq g2
  rw [ht'] at hr
  exact ⟨c', g1, (settingsOf_iff ft c' _).2 ⟨hr, (text_same g2 _ hn.1).trans h1, (text_same g2 _ hn.2).trans h2,
    (path_same ft g3 _).trans h3, (path_same ft g3 _).trans h4, (path_same ft g3 _).trans h5, (path_same ft g3 _).trans h6, (kind_same g3 _).trans h7⟩⟩

/-! ## Examples -/

/-- A configuration file that gives some values, one of them of the wrong type. -/
def settingsText : Text :=
  "[input]\n2DMapOutput = map.nc\n[parameters]\nSkipMaps = 3\nLakeTimesteps = many\nSDCorrection = no\n[debug]\nCssSelection = 1, 2\n[output]\nOutputDirectory = out\n".toList

/-- The configuration that is loaded from it. -/
def loadedSettings : Option PyErr × Option (Settings ℚ) :=
  match loadConfiguration (decimalText ℚ) (fun _ => true) "data".toList (some settingsText)
    ⟨template, ⟨["data/map.nc".toList], []⟩⟩ with
  | (s, e) => (e, settingsOf (decimalText ℚ) s.config)

/-- It can be loaded and used: the settings of a run are those of the file, and the defaults otherwise. -/
example :
    loadedSettings.1.isNone = true ∧
    loadedSettings.2.map (fun p => (p.run.pipeline.build.skipMaps, p.run.pipeline.build.lakeTimesteps)) = some (3, 10) ∧
    loadedSettings.2.map (fun p => (p.run.pipeline.sdCorrection, p.run.cssSelection)) = some (false, [1, 2]) ∧
    loadedSettings.2.map (fun p => p.mapPath) = some "data/map.nc".toList ∧
    loadedSettings.2.map (fun p => (p.regionPath, p.defaultSection)) = some ([], "floodplain1".toList) := by
  decide +kernel

/-- The parameters concerned are known ones. -/
example : ("SDTransitionHeight" : String) ∈ (decimalNumbers (K := ℚ)).map (·.1) ∧
    lower "BedLevelCriterium".toList ∈ ["casename".toList, "minimumdepththreshold".toList, "bedlevelcriterium".toList] := by
  decide +kernel

end Fm2prof.Props
