import Verif.Proofs.History
import Verif.Props.Program

/-!
# Commands given before: C173
-/

set_option linter.unusedSectionVars false

namespace Fm2prof.Props

open Fm2prof Spec ProgramProof ProjectProof HistoryProof

variable {K : Type} [Field K] [LinearOrder K] [IsStrictOrderedRing K] [FloorRing K]

/-! ## C173: what was done before does not change the results -/

/-- A run gives the same when the files that it depends on are as before. -/
theorem asBefore_run (e : Computer K) (hm : ∀ d, e.mkdir d = .made) (w w' : AllFiles K) (name path : Text) (f : FileContent) (out : Text)
    (h : ProjectAt w name path f out) (m : MapFile K)
    (h2 : w.inputs.maps (settingsIn e.tools.ft (parentPath path) w.disk.files f).mapPath = some m)
    (hb : AsBefore e (settingsIn e.tools.ft (parentPath path) w.disk.files f) m path w w') :
    (program e w' (.run name true false)).2 = (program e w (.run name true false)).2 ∧
      ∀ file, file ≠ "fm2prof.log".toList →
        (program e w' (.run name true false)).1.results out file = (program e w (.run name true false)).1.results out file ∨
        ((program e w' (.run name true false)).1.results out file = w'.results out file ∧
          (program e w (.run name true false)).1.results out file = w.results out file) := by
  have h' : ProjectAt w' name path f out := projectAt_asBefore hb h h.named
  obtain ⟨dirs, j, caches, -, -, g3, -, g5, g6⟩ := program_run e hm w name path f out h true false
  obtain ⟨dirs', j', caches', -, -, g3', -, g5', g6'⟩ := program_run e hm w' name path f out h' true false
  have hj : j' = j := by
    rw [hb.files, hb.maps, h2] at g3'
    rw [h2] at g3
    rw [g3, g3']
    show jobOf e.tools _ (projectInputs _ _ _ m w'.inputs).1 _ = jobOf e.tools _ (projectInputs _ _ _ m w.inputs).1 _
    rw [hb.caches]
  rw [hj] at g5' g6'
  refine ⟨?_, fun file hfile => ?_⟩
  · rw [g6, g6', run_outcome j (opened e.logText (w'.results out)) (opened e.logText (w.results out))]
    cases (run j true (opened e.logText (w.results out))).2 with
    | error er => rfl
    | ok b => rfl
  · have e1 : (program e w (.run name true false)).1.results out = (run j true (opened e.logText (w.results out))).1 := by
      rw [g5]; exact if_pos rfl
    have e2 : (program e w' (.run name true false)).1.results out = (run j true (opened e.logText (w'.results out))).1 := by
      rw [g5']; exact if_pos rfl
    have hlog : ∀ s : Store, opened e.logText s file = s file := fun s => store_set_other _ _ _ _ hfile
    rw [e1, e2]
    have := run_either j (opened e.logText (w'.results out)) (opened e.logText (w.results out)) file
    rw [hlog, hlog] at this
    exact this

/-- **C173, partial.** Whatever commands have been given, `run` with overwriting gives a project the same exit status and the same results
as if it had been given at once, provided that they leave the project alone: they may create, check and run any number of other
projects, and check and run the project itself, but not run another project with the same cache files. Each file in the output
directory, besides the log, has the same text, or neither of the runs changes it. What is missing: projects that share a map file, see
`C173_shared_violated`. -/
theorem C173_history_partial (e : Computer K) (hm : ∀ d, e.mkdir d = .made) (w : AllFiles K) (name path : Text) (f : FileContent) (out : Text)
    (h : ProjectAt w name path f out) (mapPath cssPath : Text) (m : MapFile K)
    (h1 : namedFile (parentPath path) w.disk.files f "2DMapOutput" = some mapPath) (h2 : w.inputs.maps mapPath = some m)
    (h3 : namedFile (parentPath path) w.disk.files f "CrossSectionLocationFile" = some cssPath)
    (cmds : List Command) (hc : AllLeaveAlone e path mapPath cssPath w cmds) :
    let w' := programs e cmds w
    let first := program e w (.run name true false)
    let later := program e w' (.run name true false)
    later.2 = first.2 ∧
      ∀ file, file ≠ "fm2prof.log".toList → later.1.results out file = first.1.results out file ∨
        (later.1.results out file = w'.results out file ∧ first.1.results out file = w.results out file) := by
  intro w' first later
  have hp : (settingsIn e.tools.ft (parentPath path) w.disk.files f).mapPath = mapPath := by
    show (namedFile (parentPath path) w.disk.files f "2DMapOutput").getD [] = _
    rw [h1]; rfl
  have hcp : (settingsIn e.tools.ft (parentPath path) w.disk.files f).cssPath = cssPath := by
    show (namedFile (parentPath path) w.disk.files f "CrossSectionLocationFile").getD [] = _
    rw [h3]; rfl
  exact asBefore_run e hm w w' name path f out h m (by rw [hp]; exact h2)
    (programs_keep e hm w w name path f out h m (by rw [hp]; exact h2) cmds ⟨rfl, rfl, rfl, rfl, rfl, rfl⟩ (by rw [hp, hcp]; exact hc))

/-- **C173, violated.** When two projects have the same map file, the sections of faces and edges that `run` of the second one uses after
`run` of the first one are those of the first one, whatever polygons the second one names, because the cache files are beside the map
file. -/
theorem C173_shared_violated (e : Computer K) (hm : ∀ d, e.mkdir d = .made) (w : AllFiles K)
    (name₁ path₁ : Text) (f₁ : FileContent) (out₁ : Text) (p₁ : ProjectAt w name₁ path₁ f₁ out₁)
    (path₂ : Text) (f₂ : FileContent) (mapPath cssPath₁ sectionPath₁ sectionPath₂ : Text) (m : MapFile K) (hmap : w.inputs.maps mapPath = some m)
    (a1 : namedFile (parentPath path₁) w.disk.files f₁ "2DMapOutput" = some mapPath)
    (a2 : namedFile (parentPath path₂) w.disk.files f₂ "2DMapOutput" = some mapPath)
    (b1 : namedFile (parentPath path₁) w.disk.files f₁ "CrossSectionLocationFile" = some cssPath₁)
    (c1 : namedFile (parentPath path₁) w.disk.files f₁ "SectionPolygonFile" = some sectionPath₁)
    (c2 : namedFile (parentPath path₂) w.disk.files f₂ "SectionPolygonFile" = some sectionPath₂)
    (m1 m2 : Model2d K)
    (h1 : setModelData e.tools.nn (projectInputs e.tools.ft e.geometries (settingsIn e.tools.ft (parentPath path₁) w.disk.files f₁) m
      w.inputs).1 = .ok m1)
    (h2 : setModelData e.tools.nn (projectInputs e.tools.ft e.geometries (settingsIn e.tools.ft (parentPath path₂) w.disk.files f₂) m
      (program e w (.run name₁ true false)).1.inputs).1 = .ok m2) :
    m2.faces.sect = m1.faces.sect ∧ m2.edges.sect = m1.edges.sect := by
  have hreal := p₁.real
  have hmem : ∀ (dir : Text) f key p, namedFile dir w.disk.files f key = some p → p ≠ [] := by
    intro dir f key p hn hp
    unfold namedFile at hn
    have := of_decide_eq_true (Option.filter_eq_some_iff.1 hn).2
    exact hreal (hp ▸ this)
  have hp1 : (settingsIn e.tools.ft (parentPath path₁) w.disk.files f₁).mapPath = mapPath := by
    show (namedFile (parentPath path₁) w.disk.files f₁ "2DMapOutput").getD [] = _
    rw [a1]; rfl
  have hp2 : (settingsIn e.tools.ft (parentPath path₂) w.disk.files f₂).mapPath = mapPath := by
    show (namedFile (parentPath path₂) w.disk.files f₂ "2DMapOutput").getD [] = _
    rw [a2]; rfl
  have hs1 : (settingsIn e.tools.ft (parentPath path₁) w.disk.files f₁).sectionPath ≠ [] := by
    show (namedFile (parentPath path₁) w.disk.files f₁ "SectionPolygonFile").getD [] ≠ []
    rw [c1]; exact hmem _ _ _ _ c1
  have hs2 : (settingsIn e.tools.ft (parentPath path₂) w.disk.files f₂).sectionPath ≠ [] := by
    show (namedFile (parentPath path₂) w.disk.files f₂ "SectionPolygonFile").getD [] ≠ []
    rw [c2]; exact hmem _ _ _ _ c2
  obtain ⟨dirs, j, caches, -, -, -, g4, g5, -⟩ := program_run e hm w name₁ path₁ f₁ out₁ p₁ true false
  rw [a1, b1, hp1, hmap] at g4
  simp only [Bool.not_true, Bool.and_false, Bool.false_eq_true, if_false, Option.isSome_some, Bool.and_self, if_true] at g4
  rw [g5, g4] at h2
  obtain ⟨_, _, rs, ss, k, -, -, -, -, -, i6, -, i8⟩ := inputs_ok _ _ _ _ _ _ _ h1
  have hss := optional_sections _ _ _ i6
  rcases i8 with ⟨rfl, -, -⟩ | ⟨ps, ls, r, rfl, -, hg, hr, i8⟩
  · exact absurd hss hs1
  have hsec := (gridLabels_ok _ _ _ _ _ _ _ _ _ hg).2.1
  obtain ⟨_, _, rs', ss', k', -, -, -, -, -, i6', i7', i8'⟩ := inputs_ok _ _ _ _ _ _ _ h2
  have hss' := optional_sections _ _ _ i6'
  rcases i8' with ⟨rfl, -, -⟩ | ⟨ps', ls', r', rfl, -, hg', hr', i8'⟩
  · exact absurd hss' hs2
  rw [hp1] at hsec
  rw [hp2] at hg' i7'
  have hsec' : CachedIn k' "section" mapPath m ls := by
    rcases i7' with ⟨-, -, rfl⟩ | ⟨psr, lr, rr, -, -, hgr, -, -⟩
    · exact hsec
    · obtain ⟨key, cc, q1, q2, q3, q4⟩ := hsec
      refine ⟨key, cc, q1, ?_, q3, q4⟩
      exact ((gridLabels_ok _ _ _ _ _ _ _ _ _ hgr).2.2 key fun h' => keys_differ mapPath key key h' q1 rfl).trans q2
  rw [gridLabels_cached _ _ _ _ _ _ _ ls hsec'] at hg'
  obtain ⟨e1, -⟩ := Prod.mk.inj hg'
  obtain rfl := Except.ok.inj e1
  rw [hr] at hr'
  obtain rfl := Except.ok.inj hr'
  obtain ⟨_, _, _, _, _, _, _, _, -, -, -, s4, -, s6, s7, s8, -, -⟩ := setModelData_ok _ _ _ h1
  obtain ⟨_, _, _, _, _, _, _, _, -, -, -, s4', -, s6', s7', s8', -, -⟩ := setModelData_ok _ _ _ h2
  rw [i8] at s4
  obtain rfl := Except.ok.inj s4
  rw [i8'] at s4'
  obtain rfl := Except.ok.inj s4'
  obtain ⟨rfl, s9⟩ := Prod.mk.inj (Except.ok.inj s6)
  obtain ⟨rfl, -⟩ := Prod.mk.inj s9
  obtain ⟨rfl, s9'⟩ := Prod.mk.inj (Except.ok.inj s6')
  obtain ⟨rfl, -⟩ := Prod.mk.inj s9'
  rw [s7, s8, s7', s8']
  exact ⟨rfl, rfl⟩

/-! ## Examples -/

/-- Another project is run, a project is created, one is checked, and the project itself is run. -/
def sampleHistory : List Command :=
  [.run "p/waal".toList false false, .create "p/lek".toList, .check "p/maas".toList, .run "p/rhine".toList false false]

theorem sample_caches (t : Text) (h : IsCacheOf "p/map.nc".toList t) : ¬ IsCacheOf "p/other.nc".toList t := by
  have e1 : withSuffix ".region_cache.json".toList "p/map.nc".toList = .ok "p/map.region_cache.json".toList := by decide +kernel
  have e2 : withSuffix ".section_cache.json".toList "p/map.nc".toList = .ok "p/map.section_cache.json".toList := by decide +kernel
  have e3 : withSuffix ".region_cache.json".toList "p/other.nc".toList = .ok "p/other.region_cache.json".toList := by decide +kernel
  have e4 : withSuffix ".section_cache.json".toList "p/other.nc".toList = .ok "p/other.section_cache.json".toList := by
    decide +kernel
  rintro (h' | h')
  · rcases h with h | h
    · rw [e1] at h; rw [e3] at h'
      exact absurd (h.trans h'.symm) (by decide +kernel)
    · rw [e2] at h; rw [e3] at h'
      exact absurd (h.trans h'.symm) (by decide +kernel)
  · rcases h with h | h
    · rw [e1] at h; rw [e4] at h'
      exact absurd (h.trans h'.symm) (by decide +kernel)
    · rw [e2] at h; rw [e4] at h'
      exact absurd (h.trans h'.symm) (by decide +kernel)

/-- The hypotheses of `C173_history_partial` are met. -/
example : AllLeaveAlone sampleComputer "p/rhine.ini".toList "p/map.nc".toList "p/css.xyz".toList sampleAllFiles sampleHistory :=
  ⟨.inr ⟨_, _, _, waalAt, fun mapPath' h => by
      have e : namedFile (parentPath "p/waal.ini".toList) sampleAllFiles.disk.files waalContent "2DMapOutput" =
        some "p/other.nc".toList := by decide +kernel
      rw [e] at h
      obtain rfl := Option.some.inj h
      exact sample_caches⟩,
    ⟨by decide +kernel, by decide +kernel⟩, trivial, .inl (by decide +kernel), trivial⟩

/-- After these commands there are results and cache files, and there is a new project. -/
example :
    ((programs sampleComputer sampleHistory sampleAllFiles).inputs.texts "p/lek.ini".toList).isSome = true ∧
    ((programs sampleComputer sampleHistory sampleAllFiles).inputs.caches "p/map.section_cache.json".toList).isSome = true ∧
    ((programs sampleComputer sampleHistory sampleAllFiles).results "p/rhine".toList
      "CrossSectionDefinitions.ini".toList).isSome = true ∧
    (program sampleComputer (programs sampleComputer sampleHistory sampleAllFiles) (.run "p/rhine".toList true false)).2 = 0 := by
  decide +kernel

/-- The data that the second of two projects with the same map file loads. -/
noncomputable def maasLoaded (w : AllFiles ℚ) : Except PyErr (Model2d ℚ) :=
  setModelData sampleComputer.tools.nn (projectInputs sampleComputer.tools.ft sampleComputer.geometries
    (settingsIn sampleComputer.tools.ft "p".toList w.disk.files maasContent) sampleMapFile w.inputs).1

/-- The hypotheses of `C173_shared_violated` are met, and the sections are others than those that the second project has alone. -/
example :
    namedFile (parentPath "p/rhine.ini".toList) sampleAllFiles.disk.files rhineContent "2DMapOutput" = some "p/map.nc".toList ∧
    namedFile (parentPath "p/maas.ini".toList) sampleAllFiles.disk.files maasContent "2DMapOutput" = some "p/map.nc".toList ∧
    namedFile (parentPath "p/rhine.ini".toList) sampleAllFiles.disk.files rhineContent "CrossSectionLocationFile" =
      some "p/css.xyz".toList ∧
    namedFile (parentPath "p/rhine.ini".toList) sampleAllFiles.disk.files rhineContent "SectionPolygonFile" =
      some "p/sections.geojson".toList ∧
    namedFile (parentPath "p/maas.ini".toList) sampleAllFiles.disk.files maasContent "SectionPolygonFile" =
      some "p/channel.geojson".toList ∧
    (rhineLoaded sampleAllFiles).toOption.isSome = true ∧
    (maasLoaded sampleAllFiles).toOption.map (fun m => m.edges.sect) =
      some ["main".toList, "main".toList, "main".toList, "main".toList] ∧
    (maasLoaded (program sampleComputer sampleAllFiles (.run "p/rhine".toList true false)).1).toOption.map (fun m => m.edges.sect) =
      some ["main".toList, "floodplain1".toList, "main".toList, "main".toList] := by
  decide +kernel

end Fm2prof.Props
