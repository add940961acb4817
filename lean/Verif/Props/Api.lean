import Verif.Proofs.ApiPrint
import Verif.Props.History

/-!
# Scripts that use `Project`: C181, C182
-/

set_option linter.unusedSectionVars false

namespace Fm2prof.Props

open Fm2prof Spec ProjectProof ProgramProof HistoryProof ApiProof

variable {K : Type} [Field K] [LinearOrder K] [IsStrictOrderedRing K] [FloorRing K]

/-! ## C181: every run of a script uses the values that were set last -/

/-- **C181, opening.** Every project that can be opened has the configuration keys of the template, as the theorems below want. -/
theorem C181_open (e : Computer K) (path : Text) (w : AllFiles K) (s : Script K) (h : openScript e path w = some s) :
    keysOf s.config = keysOf (template (K := K)) := by
  have hload : keysOf (loadProject (e.setup w.inputs) path w.world).2.1.config = keysOf (template (K := K)) := by
    unfold loadProject
    cases w.world.texts path with
    | none => rfl
    | some t => exact (C39_keys_kept _ _ ⟨template, w.world.disk⟩ rfl).2 _ _
  unfold openScript openRunner at h
  revert h hload
  generalize loadProject (e.setup w.inputs) path w.world = l
  obtain ⟨dir, st, er⟩ := l
  intro h hload
  cases er with
  | some er =>
    simp only at h
    split at h
    · rename_i hx
      split at hx <;> cases (Prod.mk.inj hx).2
    · cases h
  | none =>
    simp only at h
    cases ho : hasOutputDirectory (e.setup w.inputs).ft (e.setup w.inputs).mkdir dir st with
    | error er => rw [ho] at h; cases h
    | ok r =>
      obtain ⟨b, st'⟩ := r
      have hc := (hasOutputDirectory_grows _ _ _ _ _ _ ho).1
      rw [ho] at h
      have key : ∀ (w' : World) (d : Text), (some ⟨⟨{ w.inputs with texts := w'.texts }, w'.disk, w'.results⟩, d, st'.config⟩ : Option (Script K)) =
          some s → keysOf s.config = keysOf (template (K := K)) := by
        intro w' d hs
        obtain rfl := Option.some.inj hs
        show keysOf st'.config = _
        rw [hc]
        exact hload
      cases b with
      | false => exact key _ _ h
      | true =>
        simp only at h
        cases hg : getOutputDirectory (e.setup w.inputs).ft dir st'.config with
        | error er => rw [hg] at h; cases h
        | ok out =>
          rw [hg] at h
          simp only at h
          by_cases hd : out ∈ st'.disk.dirs
          · rw [if_pos hd] at h; exact key _ _ h
          · rw [if_neg hd] at h; cases h

/-- **C181, the values.** After any calls that raise nothing, with runs in between, a parameter has the value that was last set for it, an
input file likewise, and the output directory is the last one, below the directory of the configuration file. What was not set is as it
was when the project was opened; names that are no parameters are set without effect. -/
theorem C181_values (e : Computer K) (calls : List (Call K)) (s s' : Script K) (hs : keysOf s.config = keysOf (template (K := K)))
    (h : script e calls s = (s', none)) :
    (∀ key, getParameter key s'.config = match setLast calls key with
      | some v => if ∃ a ∈ parameterTemplate (K := K), lower a.key = lower key then .ok (some v) else getParameter key s.config
      | none => getParameter key s.config) ∧
    (∀ key, getInputFile key s'.config = match inputLast calls key with
      | some v => if ∃ a ∈ inputTemplate (K := K), lower a.key = lower key then .ok v else .error .keyError
      | none => getInputFile key s.config) ∧
    (∀ ft : FloatText K, getOutputDirectory ft s'.dir s'.config = match outputLast calls with
      | some p => .ok (joinPath s.dir p)
      | none => getOutputDirectory ft s.dir s.config) ∧
    keysOf s'.config = keysOf (template (K := K)) := by
  obtain ⟨h1, h2, -, h4⟩ := script_look e calls s s' hs h
  refine ⟨fun key => ?_, fun key => ?_, fun ft => ?_, h1⟩
  · obtain ⟨g1, -, g3, -⟩ := h4 key
    rw [getParameter_look _ h1, getParameter_look _ hs, g1, g3]
    have hk := look_known s.config hs _ _ template_parameters key
    cases setLast calls key with
    | none => rw [keep_map]
    | some v =>
      simp only [Option.getD_some]
      cases hl : look s.config "parameters".toList key with
      | none =>
        rw [hl] at hk
        rw [if_neg fun h => (by cases hk.2 h)]
        rfl
      | some old =>
        rw [hl] at hk
        rw [if_pos (hk.1 rfl)]
        rfl
  · obtain ⟨-, g2, -⟩ := h4 key
    unfold getInputFile
    rw [getValue_look _ _ _ (known_input _ h1), getValue_look _ _ _ (known_input _ hs), g2]
    have hk := look_known s.config hs _ _ template_input key
    cases inputLast calls key with
    | none => rw [keep_map]
    | some v =>
      simp only [Option.getD_some]
      cases hl : look s.config "input".toList key with
      | none =>
        rw [hl] at hk
        rw [if_neg fun h => (by cases hk.2 h)]
        rfl
      | some old =>
        rw [hl] at hk
        rw [if_pos (hk.1 rfl)]
        rfl
  · obtain ⟨v, hv, ho⟩ := output_known ft s.dir s.config hs
    obtain ⟨v', hv', ho'⟩ := output_known ft s'.dir s'.config h1
    obtain ⟨-, -, -, g4, -⟩ := h4 "OutputDirectory".toList
    rw [ho', ho, h2]
    rw [hv, hv', Option.map_some, if_pos rfl] at g4
    obtain rfl := Option.some.inj g4
    cases outputLast calls <;> rfl

/-- **C181, the run.** A run in a script does what the settings of the configuration at that moment say, with the files as they are, in
the output directory of that moment. It changes no other output directory, no file that it reads except for the cache files, and not the
configuration. -/
theorem C181_run (e : Computer K) (s : Script K) (p : Settings K) (hp : settingsOf e.tools.ft s.config = some p) (out : Text)
    (ho : getOutputDirectory e.tools.ft s.dir s.config = .ok out) (hd : out ∈ s.files.disk.dirs) (overwrite : Bool)
    (m : MapFile K) (t : Text) (h1 : p.mapPath ∈ s.files.disk.files) (h2 : s.files.inputs.maps p.mapPath = some m)
    (h3 : p.cssPath ∈ s.files.disk.files) (h4 : s.files.inputs.texts p.cssPath = some t) :
    let r := projectRun e.tools e.geometries (ready e.faults) p overwrite s.files.inputs (s.files.results out)
    call e s (.run overwrite) =
      ({ s with files := ⟨r.2.1, s.files.disk, fun d => if d = out then r.1 else s.files.results d⟩ }, r.2.2.map some) := by
  obtain ⟨-, -, -, q3, q4, -, -, -⟩ := (SettingsProof.settingsOf_iff e.tools.ft s.config p).1 hp
  have hin : ∀ key path, inputPath e.tools.ft key s.config = some path → path ∈ s.files.disk.files →
      inputIsFile e.tools.ft key s.config s.files.disk = true := by
    intro key path hq hm
    unfold inputPath at hq
    unfold inputIsFile
    cases hg : getInputFile key.toList s.config with
    | error er => rw [hg] at hq; cases hq
    | ok v =>
      rw [hg] at hq
      obtain rfl := Option.some.inj hq
      exact decide_eq_true hm
  have hsur : e.surroundings s.dir s.config s.files.disk = ready e.faults := by
    unfold Computer.surroundings
    rw [hin _ _ q3 h1, hin _ _ q4 h3, ho]
    simp only
    rw [decide_eq_true hd]
    rfl
  have hj : e.job s.files.inputs s.dir s.config s.files.disk =
      jobOf e.tools p.run (projectInputs e.tools.ft e.geometries p m s.files.inputs).1 (ready e.faults) := by
    unfold Computer.job
    rw [hp]
    simp only
    rw [h2, hsur]
  have hc : e.cachesAfterRun s.files.inputs (some (s.dir, s.config)) overwrite s.files.world =
      if outputExists (s.files.results out) && !overwrite then s.files.inputs.caches
        else (projectInputs e.tools.ft e.geometries p m s.files.inputs).2 := by
    unfold Computer.cachesAfterRun
    simp only
    rw [hp, ho]
    simp only
    have hs' : e.surroundings s.dir s.config s.files.world.disk = ready e.faults := hsur
    rw [hs', h2]
    rfl
  simp only
  rw [call_run e s overwrite out ho, hj, hc, projectRun_eq e.tools e.geometries (ready e.faults) p overwrite s.files.inputs _ m t h2 h4]
  have hr : ({ ready e.faults with configured := true, mapIsFile := true, cssIsFile := true } : Surroundings) = ready e.faults := rfl
  rw [hr]
  simp only
  cases (run (jobOf e.tools p.run (projectInputs e.tools.ft e.geometries p m s.files.inputs).1 (ready e.faults)) overwrite
    (s.files.results out)).2 <;> rfl

/-- **C181, other scripts, partial.** Two scripts for the same project that end with the same values set, whatever they set and ran
before and in which order: a run with overwriting returns or raises the same after both, and writes the same. Missing: projects with polygon
files, see `C181_stale_violated`. -/
theorem C181_same_partial (e : Computer K) (a b : List (Call K)) (s s1 s2 : Script K)
    (hs : keysOf s.config = keysOf (template (K := K))) (h1 : script e a s = (s1, none)) (h2 : script e b s = (s2, none))
    (h3 : ∀ key, setLast a key = setLast b key) (h4 : ∀ key, inputLast a key = inputLast b key) (h5 : outputLast a = outputLast b)
    (h6 : getInputFile "RegionPolygonFile".toList s1.config = .ok (.str []))
    (h7 : getInputFile "SectionPolygonFile".toList s1.config = .ok (.str [])) (out : Text)
    (h8 : getOutputDirectory e.tools.ft s1.dir s1.config = .ok out) (h9 : out ∈ s.files.disk.dirs) :
    (call e s1 (.run true)).2 = (call e s2 (.run true)).2 ∧ ∀ f,
      (call e s1 (.run true)).1.files.results out f = (call e s2 (.run true)).1.files.results out f ∨
      ((call e s1 (.run true)).1.files.results out f = s1.files.results out f ∧
        (call e s2 (.run true)).1.files.results out f = s2.files.results out f) := by
  obtain ⟨a1, a2, a3, a4⟩ := script_look e a s s1 hs h1
  obtain ⟨b1, b2, b3, b4⟩ := script_look e b s s2 hs h2
  have hc : s2.config = s1.config := by
    refine config_ext _ _ b1 a1 fun sec k => ?_
    obtain ⟨c1, c2, -, c4, c5⟩ := a4 k
    obtain ⟨d1, d2, -, d4, d5⟩ := b4 k
    by_cases e1 : sec = "parameters".toList
    · rw [e1, c1, d1, h3]
    by_cases e2 : sec = "input".toList
    · rw [e2, c2, d2, h4]
    by_cases e3 : sec = "output".toList
    · rw [e3, c4, d4, h5]
    · rw [c5 sec e1 e2 e3, d5 sec e1 e2 e3]
  have hd : s2.dir = s1.dir := b2.trans a2.symm
  have hin : ∀ key, inputIsFile e.tools.ft key s1.config s2.files.disk = inputIsFile e.tools.ft key s1.config s1.files.disk := by
    intro key
    unfold inputIsFile
    rw [b3.files, a3.files]
  have hsur : e.surroundings s1.dir s1.config s2.files.disk = e.surroundings s1.dir s1.config s1.files.disk := by
    unfold Computer.surroundings
    rw [hin, hin, h8]
    simp only
    rw [decide_eq_true (a3.dirs out h9), decide_eq_true (b3.dirs out h9)]
  have hj : e.job s2.files.inputs s2.dir s2.config s2.files.disk = e.job s1.files.inputs s1.dir s1.config s1.files.disk := by
    rw [hc, hd]
    unfold Computer.job
    cases hp : settingsOf e.tools.ft s1.config with
    | none => simp only; rw [hin, hin]
    | some p =>
      simp only
      rw [b3.maps, ← a3.maps, hsur]
      cases s1.files.inputs.maps p.mapPath with
      | none => rfl
      | some m =>
        simp only
        obtain ⟨-, -, -, -, -, q5, q6, -⟩ := (SettingsProof.settingsOf_iff e.tools.ft s1.config p).1 hp
        unfold inputPath at q5 q6
        rw [h6] at q5
        rw [h7] at q6
        have r1 : p.regionPath = [] := (Option.some.inj q5).symm
        have r2 : p.sectionPath = [] := (Option.some.inj q6).symm
        have hi : ∀ d : ProjectFiles K, (projectInputs e.tools.ft e.geometries p m d).1 =
            match m.data, (cssFile e.tools.ft ',' (d.texts p.cssPath)).map locationsOf with
            | .error e, css => ⟨.error e, css, none, none⟩
            | .ok a, .error e => ⟨.ok a, .error e, none, none⟩
            | .ok a, .ok l => ⟨.ok a, .ok l, none, none⟩ := by
          intro d
          have g1 : optionalRegions d p.regionPath = .ok none := by unfold optionalRegions; rw [if_pos r1]
          have g2 : optionalSections d p.sectionPath = .ok none := by unfold optionalSections; rw [if_pos r2]
          unfold projectInputs
          simp only
          rw [g1, g2]
          cases m.data with
          | error e => rfl
          | ok a => cases (cssFile e.tools.ft ',' (d.texts p.cssPath)).map locationsOf <;> rfl
        rw [hi, hi, b3.texts, a3.texts]
  have h8' : getOutputDirectory e.tools.ft s2.dir s2.config = .ok out := by rw [hc, hd]; exact h8
  rw [call_run e s1 true out h8, call_run e s2 true out h8', hj]
  refine ⟨?_, fun f => ?_⟩
  · rw [run_outcome _ (s1.files.results out) (s2.files.results out)]
  · simp only [if_true]
    exact run_either _ _ _ _

/-- **C181, violated with polygon files.** After a run with sections that returned true, another section file can be set: a run with
overwriting then does what it would have done without setting it, whatever the polygons in the file are, as long as they can be read. -/
theorem C181_stale_violated (e : Computer K) (s s1 : Script K) (hs : keysOf s.config = keysOf (template (K := K))) (p : Settings K)
    (hp : settingsOf e.tools.ft s.config = some p) (out : Text) (ho : getOutputDirectory e.tools.ft s.dir s.config = .ok out)
    (hd : out ∈ s.files.disk.dirs) (m : MapFile K) (t : Text) (h1 : p.mapPath ∈ s.files.disk.files)
    (h2 : s.files.inputs.maps p.mapPath = some m) (h3 : p.cssPath ∈ s.files.disk.files) (h4 : s.files.inputs.texts p.cssPath = some t)
    (hsec : p.sectionPath ≠ []) (overwrite : Bool) (hrun : call e s (.run overwrite) = (s1, .ok (some true)))
    (name new : Text) (hname : lower name = lower "SectionPolygonFile".toList) (hnew : new ≠ []) (ps : List (Polygon K))
    (hps : readSections s.files.inputs new = .ok ps) :
    ∃ s2, call e s1 (.setInputFile name (.path new)) = (s2, .ok none) ∧
      getInputFile "SectionPolygonFile".toList s2.config = .ok (.path new) ∧
      (call e s2 (.run true)).2 = (call e s1 (.run true)).2 ∧ (call e s2 (.run true)).1.files = (call e s1 (.run true)).1.files := by
  have hr := C181_run e s p hp out ho hd overwrite m t h1 h2 h3 h4
  simp only at hr
  rw [hr] at hrun
  obtain ⟨rfl, hr2⟩ := Prod.mk.inj hrun
  have hres : (projectRun e.tools e.geometries (ready e.faults) p overwrite s.files.inputs (s.files.results out)).2 =
      ((projectRun e.tools e.geometries (ready e.faults) p overwrite s.files.inputs (s.files.results out)).2.1, .ok true) := by
    refine Prod.ext rfl ?_
    show (projectRun e.tools e.geometries (ready e.faults) p overwrite s.files.inputs (s.files.results out)).2.2 = .ok true
    cases hx : (projectRun e.tools e.geometries (ready e.faults) p overwrite s.files.inputs (s.files.results out)).2.2 with
    | error er => rw [hx] at hr2; cases hr2
    | ok b => rw [hx] at hr2; exact congrArg Except.ok (Option.some.inj (Except.ok.inj hr2))
  obtain ⟨m', t', m2, g1, g2, g3, g4⟩ := run_true _ _ _ _ _ _ _ _ hres
  rw [h2] at g1
  obtain rfl := Option.some.inj g1
  have hq : ("SectionPolygonFile", fun _ t c => { c with sectionPath := t }) ∈ inputFiles (K := K) := by
    unfold inputFiles
    exact List.mem_cons_of_mem _ (List.mem_cons_of_mem _ (List.mem_cons_of_mem _ List.mem_cons_self))
  obtain ⟨c', i1, i2⟩ := C141_input_files e.tools.ft s.config hs p hp name _ hq hname false new
  have i1' : setValue "input".toList name (.path new) s.config = .ok (c', true) := i1
  have hk' : keysOf c' = keysOf (template (K := K)) := (keysOf_setValue _ _ _ _ _ _ i1').trans hs
  have hlook := look_setValue _ _ _ _ _ _ i1'
  have hout : getOutputDirectory e.tools.ft s.dir c' = .ok out := by
    rw [← ho]
    unfold getOutputDirectory
    rw [getValue_look _ _ _ (known_output c' hk'), getValue_look _ _ _ (known_output _ hs), hlook,
      if_neg fun h => sec_ne.2.2.2.1 h.1]
  have hget : getInputFile "SectionPolygonFile".toList c' = .ok (.path new) := by
    unfold getInputFile
    rw [getValue_look _ _ _ (known_input c' hk'), hlook, if_pos ⟨rfl, hname.symm⟩]
    have hl := (look_known s.config hs _ _ template_input "SectionPolygonFile".toList).2
      ⟨_, List.mem_cons_of_mem _ (List.mem_cons_of_mem _ (List.mem_cons_of_mem _ List.mem_cons_self)), rfl⟩
    obtain ⟨v, hv⟩ := Option.isSome_iff_exists.1 hl
    rw [hv]
    rfl
  rw [g4]
  refine ⟨⟨⟨{ s.files.inputs with caches := (projectInputs e.tools.ft e.geometries p m s.files.inputs).2 }, s.files.disk,
    fun d => if d = out then (projectRun e.tools e.geometries (ready e.faults) p overwrite s.files.inputs (s.files.results out)).1
      else s.files.results d⟩, s.dir, c'⟩, ?_, hget, ?_⟩
  · have i1'' : setInputFile name (.path new) s.config = .ok (c', true) := i1
    unfold call
    simp only
    rw [i1'']
  obtain ⟨a, css, rs, ss, k, j1, j2, j3, j4, j5, j6, j7, j8⟩ := inputs_ok _ _ _ _ _ _ _ g3
  have hss := optional_sections _ _ _ j6
  rcases j8 with ⟨rfl, -, -⟩ | ⟨ss, ls, r, rfl, hpath, hg, -, -⟩
  · exact absurd hss hsec
  have hls := (gridLabels_ok _ _ _ _ _ _ _ _ _ hg).2.1
  have hreg : ∃ lr, rs = none ∨ CachedIn (projectInputs e.tools.ft e.geometries p m s.files.inputs).2 "region" p.mapPath m lr := by
    rcases j7 with ⟨j7, -⟩ | ⟨ps', lr, r', -, -, hg', -, -⟩
    · exact ⟨ls, .inl j7⟩
    · exact ⟨lr, .inr (cached_stays _ _ _ _ _ _ _ _ _ hg (gridLabels_ok _ _ _ _ _ _ _ _ _ hg').2.1)⟩
  obtain ⟨lr, hreg⟩ := hreg
  generalize (projectInputs e.tools.ft e.geometries p m s.files.inputs).2 = caches at hls hreg ⊢
  generalize (fun d => if d = out then (projectRun e.tools e.geometries (ready e.faults) p overwrite s.files.inputs
    (s.files.results out)).1 else s.files.results d) = results
  have hs' : optionalSections ({ s.files.inputs with caches := caches } : ProjectFiles K) new = .ok (some ps) := by
    unfold optionalSections
    rw [if_neg hnew]
    show (readSections s.files.inputs new).map some = _
    rw [hps]; rfl
  have e1 := inputs_from_cache e.tools.ft e.geometries { p with sectionPath := new } m { s.files.inputs with caches := caches } a css rs ps
    lr ls j1 j3 j5 hs' hreg hls hpath
  have e2 := inputs_from_cache e.tools.ft e.geometries p m { s.files.inputs with caches := caches } a css rs ss lr ls j1 j3 j5 j6 hreg
    hls hpath
  have r1 := C181_run e ⟨⟨{ s.files.inputs with caches := caches }, s.files.disk, results⟩, s.dir, c'⟩ { p with sectionPath := new } i2 out
    hout hd true m t h1 h2 h3 h4
  have r2 := C181_run e ⟨⟨{ s.files.inputs with caches := caches }, s.files.disk, results⟩, s.dir, s.config⟩ p hp out ho hd true m t
    h1 h2 h3 h4
  simp only at r1 r2
  rw [r1, r2, projectRun_eq e.tools e.geometries (ready e.faults) { p with sectionPath := new } true { s.files.inputs with caches := caches }
    _ m t h2 h4, projectRun_eq e.tools e.geometries (ready e.faults) p true { s.files.inputs with caches := caches } _ m t h2 h4, e1, e2]
  exact ⟨rfl, rfl⟩

/-! ## C182: a project set up in Python runs the same from the command line -/

/-- **C182, partial.** A script has set up a project whose files are given by absolute paths and whose values can be printed. When it writes
what `print_configuration` returns to a file, in any directory, `run` on the command line with that file leaves the same files in every
output directory as `run` in the script, except for the log file, and the same cache files. The exit status is 0 if and only if `run` in
the script does not raise. Missing: relative paths, see `C182_relative_violated`. -/
theorem C182_printed_partial (e : Computer K) (hm : ∀ d, e.mkdir d = .made) (s : Script K) (out : Text)
    (h : Portable e.tools.ft s.files.disk s.config out) (name path : Text) (hn : withSuffix ".ini".toList name = .ok path)
    (hdir : parentPath path ∉ s.files.disk.files) (hcss : getInputFile "CrossSectionLocationFile".toList s.config ≠ .ok (.path path) ∧
      getInputFile "CrossSectionLocationFile".toList s.config ≠ .ok (.str path)) (overwrite : Bool) :
    let p := program e (withText s.files path (printConfiguration e.tools.ft s.config)) (.run name overwrite false)
    let r := call e s (.run overwrite)
    (∀ d f, ¬ (d = out ∧ f = "fm2prof.log".toList) → p.1.results d f = r.1.files.results d f) ∧
      p.1.inputs.caches = r.1.files.inputs.caches ∧ (p.2 = 0 ↔ ∃ b, r.2 = .ok (some b)) := by
  have hproj := portable_project e.tools.ft s.files s.config out h name path hn
  obtain ⟨dirs, j, caches, -, -, g3, g4, g5, g6⟩ := program_run e hm _ name path _ out hproj overwrite false
  obtain ⟨p, b, hp, hset, hb⟩ := portable_settings h (parentPath path) hdir
  have ho : getOutputDirectory e.tools.ft s.dir s.config = .ok out := by
    obtain ⟨v, hv, hvo⟩ := h.output
    unfold getOutputDirectory
    rw [hv]
    simp only
    rw [hvo]
    unfold joinPath
    rw [if_pos h.absolute.1]
  have hmapf := portable_isFile h (parentPath path) hdir "2DMapOutput" List.mem_cons_self
  have hcssf := portable_isFile h (parentPath path) hdir "CrossSectionLocationFile" (List.mem_cons_of_mem _ List.mem_cons_self)
  have hsur : e.surroundings s.dir s.config s.files.disk = ⟨true,
      (namedFile (parentPath path) s.files.disk.files (printedContent e.tools.ft s.config) "2DMapOutput").isSome,
      (namedFile (parentPath path) s.files.disk.files (printedContent e.tools.ft s.config) "CrossSectionLocationFile").isSome,
      true, e.faults⟩ := by
    unfold Computer.surroundings
    rw [hmapf, hcssf, ho]
    simp only
    rw [decide_eq_true h.exists'.1]
  have hcssPath : p.cssPath ≠ path := by
    obtain ⟨-, -, -, -, q4, -, -, -⟩ := (SettingsProof.settingsOf_iff e.tools.ft s.config p).1 hp
    unfold inputPath at q4
    obtain ⟨v, hv⟩ := input_value h.keys "CrossSectionLocationFile" (input_keys _ (List.mem_cons_of_mem _ List.mem_cons_self))
    rw [hv] at q4 hcss
    have q4' : valueText e.tools.ft v = p.cssPath := Option.some.inj q4
    rintro rfl
    rcases h.inputs _ v hv with rfl | ⟨q, hq, -⟩
    · exact hcss.2 (by rw [← q4']; rfl)
    · rcases hq with rfl | rfl
      · exact hcss.1 (by rw [show q = p.cssPath from q4'])
      · exact hcss.2 (by rw [show q = p.cssPath from q4'])
  have hinp : ∀ m, projectInputs e.tools.ft e.geometries { p with mapIsText := b } m
      (withText s.files path (printConfiguration e.tools.ft s.config)).inputs = projectInputs e.tools.ft e.geometries p m s.files.inputs := by
    intro m
    rw [inputs_kind _ _ p m _ b hb]
    exact inputs_texts _ _ p m s.files.inputs _ (store_set_other _ _ _ _ hcssPath)
  have hdisk : (withText s.files path (printConfiguration e.tools.ft s.config)).disk = s.files.disk := rfl
  have hmaps : (withText s.files path (printConfiguration e.tools.ft s.config)).inputs.maps = s.files.inputs.maps := rfl
  have hca : (withText s.files path (printConfiguration e.tools.ft s.config)).inputs.caches = s.files.inputs.caches := rfl
  have hres : (withText s.files path (printConfiguration e.tools.ft s.config)).results = s.files.results := rfl
  rw [hdisk, hset, hmaps] at g3 g4
  rw [hca, hres, opened_exists] at g4
  simp only [hinp] at g3 g4
  have hj : j = e.job s.files.inputs s.dir s.config s.files.disk := by
    rw [g3]
    unfold Computer.job
    rw [hp]
    simp only
    rw [hsur]
    cases s.files.inputs.maps p.mapPath <;> rfl
  have hc : e.cachesAfterRun s.files.inputs (some (s.dir, s.config)) overwrite s.files.world = caches := by
    rw [g4]
    unfold Computer.cachesAfterRun
    simp only
    rw [hp, ho]
    simp only
    have hs' : e.surroundings s.dir s.config s.files.world.disk = e.surroundings s.dir s.config s.files.disk := rfl
    rw [hs', hsur]
    rfl
  simp only
  obtain ⟨k1, k2⟩ := run_opened j overwrite e.logText (s.files.results out)
  rw [g5, g6, call_run e s overwrite out ho, hc, ← hj, hres, k1]
  refine ⟨fun d f hdf => ?_, rfl, ?_⟩
  · by_cases hd : d = out
    · simp only [if_pos hd]
      exact k2 f fun hf => hdf ⟨hd, hf⟩
    · simp only [if_neg hd]
  · cases (run j overwrite (s.files.results out)).2 with
    | error er => exact ⟨fun h => (by cases h), fun ⟨b, h⟩ => (by cases h)⟩
    | ok b => exact ⟨fun _ => ⟨b, rfl⟩, fun _ => rfl⟩

/-- **C182, violated for relative output directories.** The configuration is printed with the output directory as it was set, and it is then
below the directory of the new file: the command leaves what the script wrote as it was, whatever `overwrite` says, and changes another
directory. -/
theorem C182_relative_violated (e : Computer K) (hm : ∀ d, e.mkdir d = .made) (s : Script K) (hk : keysOf s.config = keysOf (template (K := K)))
    (hplain : PrintsPlain e.tools.ft s.config) (o : Text) (v : ConfigValue K)
    (hv : getValue "output".toList "OutputDirectory".toList s.config = .ok v) (ho : valueText e.tools.ft v = o)
    (hrel : o ≠ [] ∧ o.head? ≠ some '/' ∧ strip o = o ∧ '#' ∉ o) (name path : Text) (hn : withSuffix ".ini".toList name = .ok path)
    (hother : parentPath path ≠ s.dir) (hdot : parentPath path ≠ ['.'] ∧ s.dir ≠ ['.'])
    (hfree : joinPath (parentPath path) o ∉ s.files.disk.files) (hreal : [] ∉ s.files.disk.files) (overwrite : Bool) :
    let p := program e (withText s.files path (printConfiguration e.tools.ft s.config)) (.run name overwrite false)
    ∃ out, getOutputDirectory e.tools.ft s.dir s.config = .ok out ∧ p.1.results out = s.files.results out ∧
      ∃ other, other ≠ out ∧ (p.1.results other "fm2prof.log".toList).isSome := by
  have hsec : ∀ n : Text, (dictGet s.config n).isSome → lower n = n → ∃ t ∈ printedContent e.tools.ft s.config, lower t.1 = n := by
    intro n hn hl
    rw [dictGet_isSome] at hn
    obtain ⟨t, ht, rfl⟩ := List.mem_map.1 hn
    exact ⟨_, List.mem_map.2 ⟨t, ht, rfl⟩, hl⟩
  have hproj : ProjectAt (withText s.files path (printConfiguration e.tools.ft s.config)) name path (printedContent e.tools.ft s.config)
      (joinPath (parentPath path) o) := by
    refine ⟨hn, printed_plain e.tools.ft s.config hk hplain, ?_, hsec _ (known_input s.config hk) (by decide),
      hsec _ (known_output s.config hk) (by decide), ⟨o, ?_, rfl⟩, hfree, hreal⟩
    · show Store.set s.files.inputs.texts path (printConfiguration e.tools.ft s.config) path = _
      rw [store_set_same, print_eq]
    · rw [printed_text hk _ _ v hv, ho, takeWhile_of_not_mem _ _ hrel.2.2.2, hrel.2.2.1]
  obtain ⟨dirs, j, caches, -, -, -, -, g5, -⟩ := program_run e hm _ name path _ _ hproj overwrite false
  have hj : ∀ d : Text, d ≠ ['.'] → joinPath d o = d ++ '/' :: o := by
    intro d hd
    unfold joinPath
    rw [if_neg hrel.2.1, if_neg hrel.1, if_neg hd]
  have hne : joinPath (parentPath path) o ≠ joinPath s.dir o := by
    rw [hj _ hdot.1, hj _ hdot.2]
    exact fun h => hother (List.append_cancel_right h)
  simp only
  refine ⟨joinPath s.dir o, ?_, ?_, joinPath (parentPath path) o, hne, ?_⟩
  · unfold getOutputDirectory
    rw [hv]
    simp only
    rw [ho]
  · rw [g5]
    simp only
    rw [if_neg fun h => hne h.symm]
    rfl
  · rw [g5]
    simp only [if_true]
    rw [run_writes]
    by_cases hf : "fm2prof.log".toList ∈ ((runWrites j overwrite (opened e.logText
        (s.files.results (joinPath (parentPath path) o)))).map (·.1))
    · exact writeAll_isSome _ _ _ hf
    · have hres : (withText s.files path (printConfiguration e.tools.ft s.config)).results = s.files.results := rfl
      rw [hres, writeAll_other _ _ _ hf]
      unfold opened
      rw [store_set_same]
      rfl

/-! ## Examples -/

/-- Files with absolute paths. -/
def apiFiles : AllFiles ℚ where
  inputs :=
    { maps := fun path => if path = "/p/map.nc".toList then some sampleMapFile else none
      texts := fun path =>
        if path = "/p/css.xyz".toList then some "rhine_100,5,0,10,rhine,100\nrhine_900,20,0,10,rhine,900\n".toList else none
      polygons := fun path => if path = "/p/sections.geojson".toList then samplePolygons "sections.geojson".toList
        else if path = "/p/channel.geojson".toList then
          some (.features [⟨[("Name", "channel"), ("Section", "1")], .polygon [[(0, 0), (99, 99)]]⟩])
        else none
      caches := fun _ => none }
  disk := ⟨["/p/map.nc".toList, "/p/css.xyz".toList, "/p/sections.geojson".toList, "/p/channel.geojson".toList],
    ["/p".toList, "/p/out".toList]⟩
  results _ := noFiles

/-- A project without a configuration file. -/
def blank : Script ℚ := ⟨apiFiles, "home".toList, template⟩

/-- Files and parameters are set, the project is run, and parameters are changed. -/
def setUp : List (Call ℚ) :=
  [.setInputFile "2DMapOutput".toList (.path "/p/map.nc".toList),
    .setInputFile "crosssectionlocationfile".toList (.path "/p/css.xyz".toList), .setOutputDirectory "/p/out".toList,
    .setParameter "LakeTimesteps".toList (.int 2), .setParameter "MinimumTotalWidth".toList (.float (3 / 4)), .run false,
    .setParameter "MINIMUMTOTALWIDTH".toList (.float (1 / 4))]

/-- The same values, set in another order. -/
def setUpAgain : List (Call ℚ) :=
  [.setParameter "MinimumTotalWidth".toList (.float (1 / 4)), .setParameter "lakeTimesteps".toList (.int 2),
    .setInputFile "CrossSectionLocationFile".toList (.path "/p/css.xyz".toList), .setOutputDirectory "/p/out".toList,
    .setInputFile "2DMapOutput".toList (.path "/p/map.nc".toList)]

/-- The project of `blank` can be opened. -/
example : (openScript sampleComputer "none.ini".toList apiFiles).map (fun s => (s.dir, getParameter "LakeTimesteps".toList s.config)) =
    some ("home".toList, getParameter "LakeTimesteps".toList blank.config) := by
  decide +kernel

/-- The hypotheses of `C181_values`, `C181_run` and `C181_same_partial` are met, and the run in between has written files. -/
example : (script sampleComputer setUpAgain blank).2 = none ∧
    setLast setUp "minimumTotalWidth".toList = some (.float (1 / 4)) ∧ inputLast setUp "2dmapoutput".toList = some (.path "/p/map.nc".toList) ∧
    outputLast setUp = some "/p/out".toList ∧ outputLast setUpAgain = some "/p/out".toList ∧
    getInputFile "RegionPolygonFile".toList (script sampleComputer setUpAgain blank).1.config = .ok (.str []) ∧
    getInputFile "SectionPolygonFile".toList (script sampleComputer setUpAgain blank).1.config = .ok (.str []) ∧
    getOutputDirectory sampleComputer.tools.ft (script sampleComputer setUpAgain blank).1.dir
      (script sampleComputer setUpAgain blank).1.config = .ok "/p/out".toList ∧ "/p/out".toList ∈ apiFiles.disk.dirs ∧
    (settingsOf sampleComputer.tools.ft (script sampleComputer setUpAgain blank).1.config).map (fun p => (p.mapPath, p.cssPath)) =
      some ("/p/map.nc".toList, "/p/css.xyz".toList) ∧
    ((script sampleComputer setUpAgain blank).1.files.results "/p/out".toList "CrossSectionDefinitions.ini".toList).isSome = false := by
  decide +kernel

example : (match script sampleComputer setUp blank with
      | (s, none) => (s.files.results "/p/out".toList "CrossSectionDefinitions.ini".toList).isSome
      | _ => false) = true := by
  decide +kernel

example : (∀ key, setLast setUp key = setLast setUpAgain key) ∧ (∀ key, inputLast setUp key = inputLast setUpAgain key) := by
  have n1 : lower "LakeTimesteps".toList = "laketimesteps".toList := by decide +kernel
  have n2 : lower "lakeTimesteps".toList = "laketimesteps".toList := by decide +kernel
  have n3 : lower "MinimumTotalWidth".toList = "minimumtotalwidth".toList := by decide +kernel
  have n4 : lower "MINIMUMTOTALWIDTH".toList = "minimumtotalwidth".toList := by decide +kernel
  have n5 : lower "crosssectionlocationfile".toList = "crosssectionlocationfile".toList := by decide +kernel
  have n6 : lower "CrossSectionLocationFile".toList = "crosssectionlocationfile".toList := by decide +kernel
  have n7 : "minimumtotalwidth".toList ≠ "laketimesteps".toList := by decide +kernel
  have n8 : "crosssectionlocationfile".toList ≠ lower "2DMapOutput".toList := by decide +kernel
  constructor <;> intro key
  · unfold setLast setUp setUpAgain
    show List.findSome? _ [_, _, _, _, _, _, _] = List.findSome? _ [_, _, _, _, _]
    simp only [List.findSome?, n1, n2, n3, n4]
    by_cases h : "minimumtotalwidth".toList = lower key
    · have h' : "laketimesteps".toList ≠ lower key := fun e => n7 (h.trans e.symm)
      rw [if_pos h, if_neg h']
    · by_cases h' : "laketimesteps".toList = lower key
      · simp only [if_neg h, if_pos h']
      · simp only [if_neg h, if_neg h']
  · unfold inputLast setUp setUpAgain
    show List.findSome? _ [_, _, _, _, _, _, _] = List.findSome? _ [_, _, _, _, _]
    simp only [List.findSome?, n5, n6]
    by_cases h : "crosssectionlocationfile".toList = lower key
    · have h' : lower "2DMapOutput".toList ≠ lower key := fun e => n8 (h.trans e.symm)
      rw [if_pos h, if_neg h']
    · by_cases h' : lower "2DMapOutput".toList = lower key
      · rw [if_neg h, if_pos h']
      · rw [if_neg h, if_neg h']

/-- The calls for a project with sections. -/
def sectionCalls : List (Call ℚ) := setUpAgain ++ [.setInputFile "SectionPolygonFile".toList (.path "/p/sections.geojson".toList)]

/-- A project with sections. -/
noncomputable def withSections : Script ℚ := (script sampleComputer sectionCalls blank).1

theorem withSections_keys : keysOf withSections.config = keysOf (template (K := ℚ)) :=
  (C181_values sampleComputer sectionCalls blank withSections rfl (Prod.ext rfl (by decide +kernel))).2.2.2

/-- The hypotheses of `C181_stale_violated` are met. -/
example :
    (settingsOf sampleComputer.tools.ft withSections.config).map (fun p => (p.mapPath, p.cssPath, p.sectionPath)) =
      some ("/p/map.nc".toList, "/p/css.xyz".toList, "/p/sections.geojson".toList) ∧
    getOutputDirectory sampleComputer.tools.ft withSections.dir withSections.config = .ok "/p/out".toList ∧
    (call sampleComputer withSections (.run true)).2.toOption = some (some true) ∧
    (readSections withSections.files.inputs "/p/channel.geojson".toList).toOption.isSome = true := by
  decide +kernel

theorem look_entry (c : Config K) (s k : Text) (v : ConfigValue K) (h : look c s k = some v) :
    ∃ sec ∈ c, sec.1 = s ∧ ∃ e ∈ sec.2, lower e.key = lower k ∧ e.value = v := by
  unfold look at h
  cases hd : dictGet c s with
  | none => rw [hd] at h; cases h
  | some es =>
    rw [hd, Option.bind_some] at h
    obtain ⟨e, he, rfl⟩ := Option.map_eq_some_iff.1 h
    unfold dictGet at hd
    obtain ⟨sec, hsec, rfl⟩ := Option.map_eq_some_iff.1 hd
    unfold findEntry at he
    exact ⟨sec, List.mem_of_find?_eq_some hsec, by simpa using List.find?_some hsec, e, List.mem_of_find?_eq_some he,
      by simpa using List.find?_some he, rfl⟩

theorem portable_of (ft : FloatText K) (c : Config K) (files : List Text) (hc : keysOf c = keysOf (template (K := K)))
    (h1 : ∀ sec ∈ c, sec.1 = "parameters".toList ∨ sec.1 = "debug".toList → ∀ x ∈ sec.2,
      ∀ e ∈ parameterTemplate (K := K) ++ debugTemplate, lower e.key = lower x.key → Printable ft e.type x.value)
    (h2 : ∀ sec ∈ c, sec.1 = "input".toList → ∀ x ∈ sec.2, x.value = .str [] ∨ ∃ p ∈ files, (x.value = .path p ∨ x.value = .str p) ∧
      p.head? = some '/' ∧ strip p = p ∧ '#' ∉ p) :
    (∀ k v, getParameter k c = .ok (some v) → ∀ e ∈ parameterTemplate (K := K) ++ debugTemplate, lower e.key = lower k →
      Printable ft e.type v) ∧
    ∀ k v, getInputFile k c = .ok v → v = .str [] ∨ ∃ p, (v = .path p ∨ v = .str p) ∧ p ∈ files ∧
      p.head? = some '/' ∧ strip p = p ∧ '#' ∉ p := by
  constructor
  · intro k v hv e he hk
    rw [getParameter_look c hc] at hv
    rcases Option.or_eq_some_iff.1 (Except.ok.inj hv) with h | ⟨-, h⟩
    · obtain ⟨sec, hs, hn, x, hx, hxk, rfl⟩ := look_entry _ _ _ _ h
      exact h1 sec hs (.inl hn) x hx e he (hk.trans hxk.symm)
    · obtain ⟨sec, hs, hn, x, hx, hxk, rfl⟩ := look_entry _ _ _ _ h
      exact h1 sec hs (.inr hn) x hx e he (hk.trans hxk.symm)
  · intro k v hv
    unfold getInputFile at hv
    rw [getValue_look _ _ _ (known_input c hc)] at hv
    cases hl : look c "input".toList k with
    | none => rw [hl] at hv; cases hv
    | some v' =>
      rw [hl] at hv
      obtain rfl := Except.ok.inj hv
      obtain ⟨sec, hs, hn, x, hx, -, rfl⟩ := look_entry _ _ _ _ hl
      rcases h2 sec hs hn x hx with h | ⟨p, hp, h, hr⟩
      · exact .inl h
      · exact .inr ⟨p, h, hp, hr⟩

theorem withSections_plain : PrintsPlain (decimalText ℚ) withSections.config := by
  unfold PrintsPlain
  decide +kernel

theorem withSections_values : (∀ sec ∈ withSections.config, sec.1 = "parameters".toList ∨ sec.1 = "debug".toList → ∀ x ∈ sec.2,
      ∀ e ∈ parameterTemplate (K := ℚ) ++ debugTemplate, lower e.key = lower x.key → Printable (decimalText ℚ) e.type x.value) ∧
    ∀ sec ∈ withSections.config, sec.1 = "input".toList → ∀ x ∈ sec.2, x.value = .str [] ∨ ∃ p ∈ withSections.files.disk.files,
      (x.value = .path p ∨ x.value = .str p) ∧ p.head? = some '/' ∧ strip p = p ∧ '#' ∉ p := by
  decide +kernel

/-- The hypotheses of `C182_printed_partial` are met. -/
theorem withSections_portable : Portable (decimalText ℚ) withSections.files.disk withSections.config "/p/out".toList where
  keys := withSections_keys
  plain := withSections_plain
  parameters := (portable_of _ _ _ withSections_keys withSections_values.1 withSections_values.2).1
  inputs := (portable_of _ _ _ withSections_keys withSections_values.1 withSections_values.2).2
  map := .inl ⟨"/p/map.nc".toList, by decide +kernel⟩
  output := ⟨.path "/p/out".toList, by decide +kernel, by decide +kernel⟩
  absolute := by decide +kernel
  exists' := by decide +kernel
  real := by decide +kernel

example : sampleComputer.tools.ft = decimalText ℚ := rfl

example : withSuffix ".ini".toList "/q/rhine".toList = .ok "/q/rhine.ini".toList ∧
    parentPath "/q/rhine.ini".toList ∉ withSections.files.disk.files ∧
    getInputFile "CrossSectionLocationFile".toList withSections.config = .ok (.path "/p/css.xyz".toList) ∧
    "/q/rhine.ini".toList ≠ "/p/css.xyz".toList := by
  decide +kernel

/-- The same project with a relative output directory. -/
noncomputable def relative : Script ℚ := (script sampleComputer [.setOutputDirectory "out".toList] withSections).1

/-- The hypotheses of `C182_relative_violated` are met. -/
example : keysOf relative.config = keysOf (template (K := ℚ)) ∧ PrintsPlain (decimalText ℚ) relative.config ∧
    getValue "output".toList "OutputDirectory".toList relative.config = .ok (.path "out".toList) ∧
    strip "out".toList = "out".toList ∧ withSuffix ".ini".toList "/q/rhine".toList = .ok "/q/rhine.ini".toList ∧
    parentPath "/q/rhine.ini".toList ≠ relative.dir ∧ parentPath "/q/rhine.ini".toList ≠ ['.'] ∧ relative.dir ≠ ['.'] ∧
    joinPath (parentPath "/q/rhine.ini".toList) "out".toList ∉ relative.files.disk.files ∧ [] ∉ relative.files.disk.files := by
  refine ⟨(C181_values sampleComputer [.setOutputDirectory "out".toList] withSections relative withSections_keys
    (Prod.ext rfl (by decide +kernel))).2.2.2, ?_, by decide +kernel⟩
  unfold PrintsPlain
  decide +kernel

end Fm2prof.Props
