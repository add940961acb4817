import Verif.Proofs.Cli
import Verif.Proofs.Decimal
import Verif.Props.IniFile
import Verif.Props.Runner
import Verif.Props.CompareSamples

/-!
# The command line

C122 to C128. The theorems hold for every way of printing numbers, every file system, and every computation of a run.
-/

set_option linter.unusedSectionVars false

namespace Fm2prof.Props

open Spec

variable {K : Type} [Field K] [LinearOrder K] [IsStrictOrderedRing K] [FloorRing K] {S C : Type}

/-! ## Opening a project -/

theorem withSuffix_plain (pre base : Text) (hp : IsDir pre) (hb : FileName base) (hd : '.' ∉ base) :
    withSuffix ".ini".toList (pre ++ base) = .ok (projectFile (pre ++ base)) := by
  rw [withSuffix_name _ pre base hp hb.2 hb.1, nameStem_plain base hd]
  unfold projectFile
  rw [List.append_assoc]

theorem withSuffix_dotted (pre stem ext : Text) (hp : IsDir pre) (hs : FileName stem) (he : FileName ext) (hd : '.' ∉ ext) :
    withSuffix ".ini".toList (pre ++ (stem ++ '.' :: ext)) = .ok (projectFile (pre ++ stem)) := by
  have h : '/' ∉ stem ++ '.' :: ext := by
    intro h
    rcases List.mem_append.1 h with h | h
    · exact hs.2 h
    · rcases List.mem_cons.1 h with h | h
      · exact absurd h (by decide)
      · exact he.2 h
  rw [withSuffix_name _ pre _ hp h (fun e => hs.1 (List.append_eq_nil_iff.1 e).1), nameStem_suffix stem ext hs.1 he.1 hd]
  unfold projectFile
  rw [List.append_assoc]

/-- What is opened depends on the text of one file. -/
theorem openRunner_text (x : Setup K S C) (path : Text) (w w' : World) (ht : w'.texts path = w.texts path)
    (hd : w'.disk = w.disk) : (openRunner x path w').2 = (openRunner x path w).2 := by
  have hl : loadProject x path w' = loadProject x path w := by
    unfold loadProject
    rw [ht, hd]
  unfold openRunner
  rw [hl, ht]
  rcases loadProject x path w with ⟨dir, s, r⟩
  cases r with
  | some e =>
    simp only
    split <;> rfl
  | none =>
    simp only
    cases hasOutputDirectory x.ft x.mkdir dir s with
    | error e => rfl
    | ok r =>
      obtain ⟨b, s'⟩ := r
      cases b with
      | false => rfl
      | true =>
        simp only
        cases getOutputDirectory x.ft dir s'.config with
        | error e => rfl
        | ok out =>
          simp only
          split <;> rfl

/-- A project that was opened holds what loading its file gave. -/
theorem opened_loaded (x : Setup K S C) (path : Text) (w : World) (t dir : Text) (c : Config K) (ht : w.texts path = some t)
    (h : (openRunner x path w).2 = .ok (some (dir, c))) :
    ∃ s, loadConfiguration x.ft (fun d => decide (x.mkdir d = .made)) (parentPath path) (some t) ⟨template, w.disk⟩ = (s, none) ∧
      c = s.config ∧ dir = parentPath path := by
  unfold openRunner loadProject at h
  rw [ht] at h
  simp only at h
  rcases e : loadConfiguration x.ft (fun d => decide (x.mkdir d = .made)) (parentPath path) (some t) ⟨template, w.disk⟩ with ⟨s, r⟩
  rw [e] at h
  cases r with
  | some e =>
    simp only at h
    split at h <;> cases h
  | none =>
    refine ⟨s, rfl, ?_⟩
    simp only at h
    cases ho : hasOutputDirectory x.ft x.mkdir (parentPath path) s with
    | error e => rw [ho] at h; cases h
    | ok r =>
      obtain ⟨b, s'⟩ := r
      rw [ho] at h
      have hc := (hasOutputDirectory_grows x.ft x.mkdir _ s s' b ho).1
      cases b with
      | false =>
        have := Prod.mk.inj (Option.some.inj (Except.ok.inj h))
        exact ⟨this.2.symm.trans hc, this.1.symm⟩
      | true =>
        simp only at h
        cases hg : getOutputDirectory x.ft (parentPath path) s'.config with
        | error e => rw [hg] at h; cases h
        | ok out =>
          rw [hg] at h
          simp only at h
          split at h
          · have := Prod.mk.inj (Option.some.inj (Except.ok.inj h))
            exact ⟨this.2.symm.trans hc, this.1.symm⟩
          · cases h

theorem loaded_output (ft : FloatText K) (creatable : Text → Bool) (dir : Text) (disk : Disk) (f : FileContent)
    (hf : PlainFile f) (s' : IniState K) (o : Text) (ho : fileValue f "output".toList "OutputDirectory".toList = some o)
    (h : loadConfiguration ft creatable dir (some (fileText f)) ⟨template, disk⟩ = (s', none)) :
    getOutputDirectory ft dir s'.config = .ok (joinPath dir o) := by
  rw [loadConfiguration_iff ft creatable dir _ _ _ rfl] at h
  obtain ⟨sup1, p1, _, _, _, _, _, k1, _, l1⟩ := readInifile_spec ft creatable dir _ _ s' h
  have p1' := p1
  rw [iniParams_file f hf] at p1
  obtain rfl := Except.ok.inj p1
  have hout : ∀ items : List (Text × Text),
      (outputDirs items).getLast?.map (ConfigValue.path (K := K)) =
        newest (fun it => some (.path it.2)) items "OutputDirectory".toList := by
    intro items
    induction items with
    | nil => rfl
    | cons it items ih =>
      rw [newest_cons, ← ih]
      by_cases hk : lower it.1 = lower "OutputDirectory".toList
      · rw [outputDirs_pos _ _ hk, if_pos hk, List.getLast?_cons]
        cases (outputDirs items).getLast? <;> rfl
      · rw [outputDirs_neg _ _ hk, if_neg hk, Option.or_none]
  have hl := l1 "output".toList "OutputDirectory".toList
  have hsup : suppliedValue ft dir disk.files (contentOf f) "output".toList "OutputDirectory".toList = some (.path o) := by
    unfold suppliedValue
    rw [if_neg (by decide), if_neg (by decide), if_neg (by decide), if_pos ⟨rfl, rfl⟩, hout, newest_supplied _ _ _ p1',
      contentOf_value, ho]
    rfl
  have ht : look (template (K := K)) "output".toList "OutputDirectory".toList = some (.str "output".toList) := rfl
  rw [ht, hsup] at hl
  unfold getOutputDirectory
  rw [getValue_look _ _ _ (section_known _ k1 _ (List.mem_cons_of_mem _ (List.mem_cons_of_mem _ (List.mem_cons_of_mem _
    List.mem_cons_self)))), hl]
  rfl

theorem configurationOf_plain (x : Setup K S C) (pre base : Text) (hp : IsDir pre) (hb : FileName base) (hd : '.' ∉ base)
    (w : World) : configurationOf x (pre ++ base) w = (openRunner x (projectFile (pre ++ base)) w).2 := by
  unfold configurationOf
  rw [withSuffix_plain pre base hp hb hd]

theorem configurationOf_dotted (x : Setup K S C) (pre stem ext : Text) (hp : IsDir pre) (hs : FileName stem)
    (he : FileName ext) (hd : '.' ∉ ext) (w : World) :
    configurationOf x (pre ++ (stem ++ '.' :: ext)) w = (openRunner x (projectFile (pre ++ stem)) w).2 := by
  unfold configurationOf
  rw [withSuffix_dotted pre stem ext hp hs he hd]

/-! ## C122: a created project is the one that is used -/

/-- The commands work with the content of the configuration file that `create` makes for a name without a dot, whatever it was
changed into. What is missing: names with a dot, see `C122_dotted_violated`. -/
theorem C122_edited_partial (x : Setup K S C) (pre base : Text) (hp : IsDir pre) (hb : FileName base) (hd : '.' ∉ base)
    (w : World) (f : FileContent) (hf : PlainFile f) (hw : w.texts (projectFile (pre ++ base)) = some (fileText f))
    (dir : Text) (c : Config K) (h : configurationOf x (pre ++ base) w = .ok (some (dir, c))) :
    (∀ e ∈ parameterTemplate (K := K), getParameter e.key c = .ok (some (loadedValue x.ft e (fileValue f "parameters".toList e.key)))) ∧
    ∀ e ∈ debugTemplate (K := K), getParameter e.key c = .ok (some (loadedValue x.ft e (fileValue f "debug".toList e.key))) := by
  rw [configurationOf_plain x pre base hp hb hd] at h
  obtain ⟨s, hs, rfl, _⟩ := opened_loaded x _ w _ dir c hw h
  have := C40_loaded x.ft _ _ _ f hf s hs
  exact ⟨fun e he => this.1 e he _ rfl, fun e he => this.2.1 e he _ rfl⟩

/-- A project that was just created has the defaults. -/
theorem C122_created_partial (x : Setup K S C) (hx : ReadableDefaults x.ft) (pre base : Text) (hp : IsDir pre)
    (hb : FileName base) (hd : '.' ∉ base) (w : World) (hw : (command x w (.create (pre ++ base))).2 = 0)
    (dir : Text) (c : Config K)
    (h : configurationOf x (pre ++ base) (command x w (.create (pre ++ base))).1 = .ok (some (dir, c))) (k : Text)
    (v : ConfigValue K) (hk : getParameter k (template (K := K)) = .ok (some v)) : getParameter k c = .ok (some v) := by
  rw [configurationOf_plain x pre base hp hb hd] at h
  have ht : (command x w (.create (pre ++ base))).1.texts (projectFile (pre ++ base)) =
      some (printConfiguration x.ft template) := by
    unfold command cliCreate at hw ⊢
    simp only at hw ⊢
    split
    · exact store_set_same _ _ _
    · next hn => rw [if_neg hn] at hw; cases hw
  obtain ⟨s, hs, rfl, _⟩ := opened_loaded x _ _ _ dir c ht h
  refine C42_restored x.ft _ _ _ template rfl hx.1 s hs k v hk fun e he hek => ?_
  have hv : getParameter e.key (template (K := K)) = .ok (some v) := by
    rw [getParameter_look _ rfl, look_congr _ _ hek, look_congr _ _ hek, ← getParameter_look _ rfl, hk]
  have hall : ∀ e ∈ parameterTemplate (K := K) ++ debugTemplate, getParameter e.key (template (K := K)) = .ok (some e.value) := by
    intro e he
    rw [getParameter_look _ rfl, look_template _ _ template_parameters, look_template _ _ template_debug]
    rcases List.mem_append.1 he with he | he
    · rw [findEntry_mem _ parameter_nodup e he _ rfl]
      rfl
    · rw [debug_find e he _ rfl, findEntry_mem _ debug_nodup e he _ rfl]
      rfl
  rw [hall e he] at hv
  rw [← Option.some.inj (Except.ok.inj hv)]
  exact hx.2 e he

/-- **Violated.** For a name with a dot `create` makes a configuration file that the commands do not look at: whatever it
contains, they do what they do without it. -/
theorem C122_dotted_violated (x : Setup K S C) (pre stem ext : Text) (hp : IsDir pre) (hs : FileName stem) (he : FileName ext)
    (hd : '.' ∉ ext) (w : World) (t : Text) :
    configurationOf x (pre ++ (stem ++ '.' :: ext))
        { w with texts := w.texts.set (projectFile (pre ++ (stem ++ '.' :: ext))) t } =
      configurationOf x (pre ++ (stem ++ '.' :: ext)) w := by
  rw [configurationOf_dotted x pre stem ext hp hs he hd, configurationOf_dotted x pre stem ext hp hs he hd]
  refine openRunner_text x _ _ _ ?_ rfl
  apply store_set_other
  unfold projectFile
  intro e
  have := congrArg List.length e
  simp only [List.length_append, List.length_cons] at this
  have : 0 < ext.length := List.length_pos_iff.2 he.1
  omega

/-! ## C123: creating a project -/

theorem create_eq (x : Setup K S C) (name : Text) (w : World) : command x w (.create name) =
    if x.writable (projectFile name) = true then
      ({ w with texts := w.texts.set (projectFile name) (printConfiguration x.ft template) }, 0) else (w, 1) := rfl

/-- Creating a project makes its configuration file and changes nothing else. What is missing: an existing file of this name is
lost, see `C123_replaced_violated`. -/
theorem C123_only_partial (x : Setup K S C) (name : Text) (w : World) :
    (∀ p, p ≠ projectFile name → (command x w (.create name)).1.texts p = w.texts p) ∧
    (command x w (.create name)).1.disk = w.disk ∧ (command x w (.create name)).1.results = w.results ∧
    (x.writable (projectFile name) = true → (command x w (.create name)).2 = 0 ∧
      ((command x w (.create name)).1.texts (projectFile name)).isSome) := by
  rw [create_eq]
  by_cases h : x.writable (projectFile name) = true
  · rw [if_pos h]
    refine ⟨fun p hp => store_set_other _ _ _ _ hp, rfl, rfl, fun _ => ⟨rfl, ?_⟩⟩
    show ((w.texts.set (projectFile name) _) (projectFile name)).isSome = true
    rw [store_set_same]
    rfl
  · rw [if_neg h]
    exact ⟨fun _ _ => rfl, rfl, rfl, fun h' => absurd h' h⟩

/-- A configuration file only changes when a project of its name is created, whatever commands are given. -/
theorem C123_history (x : Setup K S C) (cmds : List Command) (w : World) (path : Text)
    (h : ∀ n, Command.create n ∈ cmds → projectFile n ≠ path) : (commands x cmds w).texts path = w.texts path := by
  induction cmds generalizing w with
  | nil => rfl
  | cons a as ih =>
    refine (ih _ fun n hn => h n (List.mem_cons_of_mem _ hn)).trans ?_
    cases a with
    | create n => exact (C123_only_partial x n w).1 path (h n List.mem_cons_self).symm
    | compare n p1 p2 r => exact congrFun (cliCompare_keeps x n p1 p2 r w).1 path
    | check n =>
      unfold command cliCheck
      simp only
      cases withSuffix ".ini".toList n with
      | error e => rfl
      | ok p =>
        simp only
        have k := (openRunner_keeps x p w).1
        rcases e : openRunner x p w with ⟨w', r⟩
        rw [e] at k
        cases r <;> exact congrFun k path
    | run n ov post =>
      unfold command cliRun
      simp only
      cases withSuffix ".ini".toList n with
      | error e => rfl
      | ok p =>
        simp only
        have k := (openRunner_keeps x p w).1
        rcases e : openRunner x p w with ⟨w', r⟩
        rw [e] at k
        cases r with
        | error e => exact congrFun k path
        | ok q =>
          simp only
          have k2 : (runProject x q ov w').1.texts = w'.texts := by
            unfold runProject
            cases q with
            | none => rfl
            | some d =>
              simp only
              cases getOutputDirectory x.ft d.1 d.2 <;> rfl
          rcases e2 : runProject x q ov w' with ⟨w'', r2⟩
          rw [e2] at k2
          have k3 : w''.texts path = w.texts path := (congrFun k2 path).trans (congrFun k path)
          cases r2 with
          | error e => exact k3
          | ok b =>
            simp only
            split
            · cases postProcess x q w'' <;> exact k3
            · exact k3

/-- **Violated.** Creating a project replaces a configuration file of this name, whatever it contains. -/
theorem C123_replaced_violated (x : Setup K S C) (name : Text) (w : World) (old : Text)
    (_h : w.texts (projectFile name) = some old) (hw : x.writable (projectFile name) = true) :
    (command x w (.create name)).2 = 0 ∧
      (command x w (.create name)).1.texts (projectFile name) = some (printConfiguration x.ft template) := by
  rw [create_eq, if_pos hw]
  exact ⟨rfl, store_set_same _ _ _⟩

/-! ## C124: projects that do not exist -/

theorem command_run (x : Setup K S C) (w : World) (name : Text) (overwrite post : Bool) :
    command x w (.run name overwrite post) = cliRun x name overwrite post w := rfl

theorem command_check (x : Setup K S C) (w : World) (name : Text) :
    command x w (.check name) = cliCheck x name w := rfl


theorem template_map : getInputFile "2DMapOutput".toList (template (K := K)) = .ok (.str []) := rfl

theorem template_directory (ft : FloatText K) (dir : Text) :
    getOutputDirectory ft dir (template (K := K)) = .ok (joinPath dir "output".toList) := rfl

/-- A run with the defaults is refused. -/
theorem runProject_default (x : Setup K S C) (dir : Text) (overwrite : Bool) (w : World) (hf : [] ∉ w.disk.files) :
    runProject x (some (dir, template)) overwrite w = (w, .ok false) := by
  unfold runProject
  simp only
  rw [template_directory]
  simp only
  have hm := x.mapFile dir template w.disk _ template_map
  have hr : ∀ s, run (x.job dir template w.disk) overwrite s = (s, .ok false) := by
    intro s
    unfold run
    rw [x.configured]
    split
    · rfl
    · split
      · rfl
      · unfold runInifile initialise
        rw [hm]
        have : decide (valueText x.ft (ConfigValue.str ([] : Text)) ∈ w.disk.files) = false := decide_eq_false hf
        rw [this]
        rfl
  rw [hr]
  refine congrArg (fun r => (({ w with results := r } : World), (Except.ok false : Except PyErr Bool))) ?_
  funext d
  split
  · next h => rw [h]
  · rfl

/-- Running a project without a configuration file writes no results. What is missing: it is not an error, and it makes a
directory, see `C124_missing_violated`. -/
theorem C124_no_results_partial (x : Setup K S C) (name path : Text) (overwrite post : Bool) (w : World)
    (hn : withSuffix ".ini".toList name = .ok path) (ht : w.texts path = none) (hf : [] ∉ w.disk.files) :
    SameResults w (command x w (.run name overwrite post)).1 ∧ runReturns x name overwrite w ≠ .ok true := by
  simp only [command_run]
  unfold cliRun runReturns
  rw [hn]
  simp only
  have k := openRunner_keeps x path w
  rcases e : openRunner x path w with ⟨w', r⟩
  rw [e] at k
  cases r with
  | error e => exact ⟨k.2.2, fun h => by cases h⟩
  | ok p =>
    simp only
    have hp : p = none ∨ ∃ dir, p = some (dir, template) := by
      have e' := congrArg Prod.snd e
      unfold openRunner loadProject at e'
      rw [ht] at e'
      simp only at e'
      cases ho : hasOutputDirectory x.ft x.mkdir x.cwd ⟨template, w.disk⟩ with
      | error e => rw [ho] at e'; cases e'
      | ok r =>
        obtain ⟨b, s'⟩ := r
        have hc : s'.config = template := (hasOutputDirectory_grows x.ft x.mkdir _ _ s' b ho).1
        rw [ho] at e'
        cases b with
        | false =>
          right
          exact ⟨_, (Except.ok.inj e').symm.trans (by rw [hc])⟩
        | true =>
          simp only at e'
          rw [hc, template_directory] at e'
          simp only at e'
          split at e'
          · right
            exact ⟨_, (Except.ok.inj e').symm⟩
          · cases e'
    have hr : runProject x p overwrite w' = (w', .ok false) := by
      rcases hp with rfl | ⟨dir, rfl⟩
      · rfl
      · exact runProject_default x dir overwrite w' (by rw [k.2.1.1]; exact hf)
    rw [hr]
    simp only
    constructor
    · split
      · cases postProcess x p w' <;> exact k.2.2
      · exact k.2.2
    · intro h
      cases h

/-- **Violated.** Running or checking a project without a configuration file ends without an error, and makes an output directory. -/
theorem C124_missing_violated (x : Setup K S C) (name path : Text) (overwrite : Bool) (w : World)
    (hn : withSuffix ".ini".toList name = .ok path) (ht : w.texts path = none) (hf : [] ∉ w.disk.files)
    (ho : joinPath x.cwd "output".toList ∉ w.disk.files) (hd : joinPath x.cwd "output".toList ∉ w.disk.dirs)
    (hm : x.mkdir (joinPath x.cwd "output".toList) = .made) :
    (command x w (.run name overwrite false)).2 = 0 ∧ (command x w (.check name)).2 = 0 ∧
    joinPath x.cwd "output".toList ∈ (command x w (.run name overwrite false)).1.disk.dirs ∧
    joinPath x.cwd "output".toList ∈ (command x w (.check name)).1.disk.dirs := by
  have hop : hasOutputDirectory x.ft x.mkdir x.cwd ⟨template, w.disk⟩ =
      .ok (true, ⟨template, { w.disk with dirs := w.disk.dirs ++ [joinPath x.cwd "output".toList] }⟩) := by
    unfold hasOutputDirectory
    rw [template_directory]
    simp only
    rw [if_neg (not_or.2 ⟨ho, hd⟩), hm]
  have hmem : joinPath x.cwd "output".toList ∈ w.disk.dirs ++ [joinPath x.cwd "output".toList] :=
    List.mem_append_right _ List.mem_cons_self
  have hopen : ∃ res, openRunner x path w =
      (⟨w.texts, { w.disk with dirs := w.disk.dirs ++ [joinPath x.cwd "output".toList] }, res⟩,
        .ok (some (x.cwd, template))) := by
    unfold openRunner loadProject
    rw [ht]
    simp only
    rw [hop]
    simp only
    rw [template_directory]
    simp only
    rw [if_pos hmem]
    exact ⟨_, rfl⟩
  obtain ⟨res, hopen⟩ := hopen
  rw [command_run, command_check]
  unfold cliRun cliCheck
  rw [hn]
  simp only
  rw [hopen]
  simp only
  rw [runProject_default]
  · exact ⟨rfl, trivial, hmem, hmem⟩
  · exact hf

/-! ## C125: the exit status -/

/-- A command whose run succeeds ends with status 0, and one whose run raises an exception with status 1. What is missing: runs
that report failure, see `C125_failed_violated`. -/
theorem C125_status_partial (x : Setup K S C) (name : Text) (overwrite : Bool) (w : World) :
    (runReturns x name overwrite w = .ok true → (command x w (.run name overwrite false)).2 = 0) ∧
    ∀ e post, runReturns x name overwrite w = .error e → (command x w (.run name overwrite post)).2 = 1 := by
  simp only [command_run]
  unfold cliRun runReturns
  cases withSuffix ".ini".toList name with
  | error e => exact ⟨fun h => (by cases h), fun _ _ _ => rfl⟩
  | ok path =>
    simp only
    rcases openRunner x path w with ⟨w', r⟩
    cases r with
    | error e => exact ⟨fun h => (by cases h), fun _ _ _ => rfl⟩
    | ok p =>
      simp only
      rcases runProject x p overwrite w' with ⟨w'', r⟩
      cases r with
      | error e => exact ⟨fun h => (by cases h), fun _ _ _ => rfl⟩
      | ok b => exact ⟨fun _ => rfl, fun _ _ h => (by cases h)⟩

/-- **Violated.** A run that reports failure ends with status 0 as well. -/
theorem C125_failed_violated (x : Setup K S C) (name : Text) (overwrite : Bool) (w : World)
    (h : runReturns x name overwrite w = .ok false) : (command x w (.run name overwrite false)).2 = 0 := by
  rw [command_run]
  unfold cliRun
  unfold runReturns at h
  cases hn : withSuffix ".ini".toList name with
  | error e => rw [hn] at h; cases h
  | ok path =>
    rw [hn] at h
    simp only at h ⊢
    rcases e : openRunner x path w with ⟨w', r⟩
    rw [e] at h
    cases r with
    | error e => cases h
    | ok p =>
      simp only at h ⊢
      rcases e2 : runProject x p overwrite w' with ⟨w'', r⟩
      rw [e2] at h
      cases r with
      | error e => cases h
      | ok b => rfl

/-! ## C126: configuration files that cannot be used -/

/-- A plain file with the sections `input` and `output` and an output directory that can be made is opened. What is missing: other
files are not refused but raise an exception, see `C126_sections_violated` and `C126_text_violated`. -/
theorem C126_opened_partial (x : Setup K S C) (path : Text) (w : World) (f : FileContent) (hf : PlainFile f)
    (hw : w.texts path = some (fileText f)) (hi : ∃ t ∈ f, lower t.1 = "input".toList)
    (ho : ∃ t ∈ f, lower t.1 = "output".toList) (o : Text)
    (hv : fileValue f "output".toList "OutputDirectory".toList = some o) (hm : ∀ d, x.mkdir d = .made)
    (hn : joinPath (parentPath path) o ∉ w.disk.files) :
    ∃ c, (openRunner x path w).2 = .ok (some (parentPath path, c)) := by
  obtain ⟨s, hs⟩ := C40_succeeds x.ft (fun d => decide (x.mkdir d = .made)) (parentPath path) f hf ⟨template, w.disk⟩ rfl hi ho
    fun d _ => .inr (.inr (decide_eq_true (hm d)))
  have hg := loaded_output x.ft _ _ w.disk f hf s o hv hs
  have hgrow := loadConfiguration_grows x.ft (fun d => decide (x.mkdir d = .made)) (parentPath path) (some (fileText f))
    ⟨template, w.disk⟩
  rw [hs] at hgrow
  have hnf : joinPath (parentPath path) o ∉ s.disk.files := by
    rw [hgrow.1]
    exact hn
  unfold openRunner loadProject
  rw [hw]
  simp only
  rw [hs]
  simp only
  by_cases hd : joinPath (parentPath path) o ∈ s.disk.dirs
  · have : hasOutputDirectory x.ft x.mkdir (parentPath path) s = .ok (true, s) := by
      unfold hasOutputDirectory
      rw [hg]
      simp only
      rw [if_pos (.inr hd)]
    rw [this]
    simp only
    rw [hg]
    simp only
    rw [if_pos hd]
    exact ⟨_, rfl⟩
  · have : hasOutputDirectory x.ft x.mkdir (parentPath path) s =
        .ok (true, { s with disk := { s.disk with dirs := s.disk.dirs ++ [joinPath (parentPath path) o] } }) := by
      unfold hasOutputDirectory
      rw [hg]
      simp only
      rw [if_neg (not_or.2 ⟨hnf, hd⟩), hm]
    rw [this]
    simp only
    rw [hg]
    simp only
    rw [if_pos (List.mem_append_right _ List.mem_cons_self)]
    exact ⟨_, rfl⟩

theorem open_error (x : Setup K S C) (path : Text) (w : World) (t : Text) (e : PyErr) (he : e ≠ .osError)
    (hw : w.texts path = some t) (s : IniState K)
    (h : readInifile x.ft (fun d => decide (x.mkdir d = .made)) (parentPath path) t ⟨template, w.disk⟩ = (s, some e)) :
    (openRunner x path w).2 = .error e := by
  have hl : loadConfiguration x.ft (fun d => decide (x.mkdir d = .made)) (parentPath path) (some t) ⟨template, w.disk⟩ =
      (s, some e) := by
    unfold loadConfiguration
    simp only
    rw [h]
  unfold openRunner loadProject
  rw [hw]
  simp only
  rw [hl]
  simp only
  rw [if_neg fun k => he k.1]

/-- **Violated.** A file without a section `input` or without a section `output` raises an `AttributeError`. -/
theorem C126_sections_violated (x : Setup K S C) (path : Text) (w : World) (f : FileContent) (hf : PlainFile f)
    (hw : w.texts path = some (fileText f))
    (h : (∀ t ∈ f, lower t.1 ≠ "input".toList) ∨ ∀ t ∈ f, lower t.1 ≠ "output".toList) :
    (openRunner x path w).2 = .error .attributeError := by
  have none_of : ∀ n : Text, (∀ t ∈ f, lower t.1 ≠ n) → dictGet (contentOf f) n = none := by
    intro n hn
    cases hd : dictGet (contentOf f) n with
    | none => rfl
    | some items =>
      have : (dictGet (contentOf f) n).isSome := by rw [hd]; rfl
      rw [dictGet_isSome] at this
      unfold contentOf at this
      rw [List.map_map, List.mem_map] at this
      obtain ⟨t, ht, e⟩ := this
      exact absurd e (hn t ht)
  have hr : ∃ s, readInifile x.ft (fun d => decide (x.mkdir d = .made)) (parentPath path) (fileText f) ⟨template, w.disk⟩ =
      (s, some .attributeError) := by
    unfold readInifile
    rw [iniParams_file f hf]
    simp only
    cases hi : dictGet (contentOf f) "input".toList with
    | none => exact ⟨_, rfl⟩
    | some items =>
      rcases h with h | h
      · rw [none_of _ h] at hi; cases hi
      · simp only
        rw [none_of _ h]
        exact ⟨_, rfl⟩
  obtain ⟨s, hr⟩ := hr
  exact open_error x path w _ _ (by decide) hw s hr

/-- **Violated.** A file that starts with a line outside of any section raises an exception of the parser. -/
theorem C126_text_violated (x : Setup K S C) (path : Text) (w : World) (line rest : Text) (hl : '\n' ∉ line)
    (h1 : strip line ≠ []) (h2 : (strip line).head? ≠ some '#') (h3 : (strip line).head? ≠ some ';')
    (h4 : (strip line).head? ≠ some '[') (hw : w.texts path = some (line ++ '\n' :: rest)) :
    (openRunner x path w).2 = .error .configError := by
  have hline : iniLine ⟨[], [], none, none, 0⟩ (line ++ ['\n']) = .error .configError := by
    have hs : strip (line ++ ['\n']) = strip line := strip_pad [] line ['\n'] (by simp) (by decide)
    unfold iniLine
    rw [hs, if_neg (not_or.2 ⟨h2, h3⟩), if_neg h1, if_neg (by rintro ⟨h, _⟩; cases h)]
    have : sectionHeader (strip line) = none := by
      cases hs : strip line with
      | nil => rfl
      | cons c cs =>
        rw [hs] at h4
        unfold sectionHeader
        split
        · next e => exact absurd (congrArg List.head? e) h4
        · rfl
    rw [this]
    rfl
  have hp : iniParams (line ++ '\n' :: rest) = .error .configError := by
    unfold iniParams
    rw [fileLines_append line rest hl]
    unfold iniLines
    rw [hline]
  refine open_error x path w _ _ (by decide) hw ⟨template, w.disk⟩ ?_
  unfold readInifile
  rw [hp]

/-! ## C127: checking a project -/

/-- Checking a project keeps all configuration files, all files and all results. What is missing: it may make directories, and
adds to the log file of the last run, see `C127_log_violated`. -/
theorem C127_results_partial (x : Setup K S C) (name : Text) (w : World) :
    (command x w (.check name)).1.texts = w.texts ∧ Grows w.disk (command x w (.check name)).1.disk ∧
      SameResults w (command x w (.check name)).1 := by
  rw [command_check]
  unfold cliCheck
  cases withSuffix ".ini".toList name with
  | error e => exact ⟨rfl, .rfl' _, fun _ _ _ => rfl⟩
  | ok p =>
    simp only
    have k := openRunner_keeps x p w
    rcases e : openRunner x p w with ⟨w', r⟩
    rw [e] at k
    cases r <;> exact k

/-- **Violated.** Checking a project whose output directory exists adds to the log file there. -/
theorem C127_log_violated (x : Setup K S C) (name path out : Text) (w : World) (hn : withSuffix ".ini".toList name = .ok path)
    (f : FileContent) (hf : PlainFile f) (hw : w.texts path = some (fileText f)) (hi : ∃ t ∈ f, lower t.1 = "input".toList)
    (ho : ∃ t ∈ f, lower t.1 = "output".toList) (hv : fileValue f "output".toList "OutputDirectory".toList = some out)
    (h1 : out ∈ w.disk.dirs) (h2 : joinPath (parentPath path) out ∈ w.disk.dirs) :
    ((command x w (.check name)).1.results (joinPath (parentPath path) out)) "fm2prof.log".toList =
      some (((w.results (joinPath (parentPath path) out)) "fm2prof.log".toList).getD [] ++ x.logText) := by
  obtain ⟨s, hs⟩ := C40_succeeds x.ft (fun d => decide (x.mkdir d = .made)) (parentPath path) f hf ⟨template, w.disk⟩ rfl hi ho
    fun d hd => .inr (.inl (by rw [hv] at hd; rw [← Option.some.inj hd]; exact h1))
  have hg := loaded_output x.ft _ _ w.disk f hf s out hv hs
  have hgrow := loadConfiguration_grows x.ft (fun d => decide (x.mkdir d = .made)) (parentPath path) (some (fileText f))
    ⟨template, w.disk⟩
  rw [hs] at hgrow
  have hd : joinPath (parentPath path) out ∈ s.disk.dirs := hgrow.2 _ h2
  have hhas : hasOutputDirectory x.ft x.mkdir (parentPath path) s = .ok (true, s) := by
    unfold hasOutputDirectory
    rw [hg]
    simp only
    rw [if_pos (.inr hd)]
  rw [command_check]
  unfold cliCheck
  rw [hn]
  simp only
  unfold openRunner loadProject
  rw [hw]
  simp only
  rw [hs]
  simp only
  rw [hhas]
  simp only
  rw [hg]
  simp only
  rw [if_pos hd]
  simp only
  rw [if_pos trivial, store_set_same]

/-! ## C128: results survive -/

theorem runProject_refused (x : Setup K S C) (p : Opened K) (w : World) (d : Text) (h : HasResults (w.results d)) (f : Text) :
    (runProject x p false w).1.results d f = w.results d f := by
  unfold runProject
  cases p with
  | none => rfl
  | some q =>
    simp only
    cases getOutputDirectory x.ft q.1 q.2 with
    | error e => rfl
    | ok out =>
      simp only
      by_cases e : d = out
      · rw [if_pos e]
        rw [e] at h ⊢
        rw [C49_refused _ _ h]
      · rw [if_neg e]

/-- An output directory with results keeps them, and all its other files except the log and those of comparisons, through any sequence of
commands without the option to overwrite. -/
theorem C128_kept (x : Setup K S C) (cmds : List Command) (hc : ∀ a ∈ cmds, ¬ Overwrites a) (w : World) (d : Text)
    (h : HasResults (w.results d)) (f : Text) (hf : f ≠ "fm2prof.log".toList) (hfc : ComparisonFile f → ∀ a ∈ cmds, ¬ Compares a) :
    (commands x cmds w).results d f = w.results d f := by
  induction cmds generalizing w with
  | nil => rfl
  | cons a as ih =>
    have step : ∀ f, f ≠ "fm2prof.log".toList → (ComparisonFile f → ¬ Compares a) → (command x w a).1.results d f = w.results d f := by
      intro f hf hfc
      cases a with
      | compare n p1 p2 r => exact (cliCompare_keeps x n p1 p2 r w).2.2 d f hf fun h => hfc h trivial
      | create n => rw [(C123_only_partial x n w).2.2.1]
      | check n => exact (C127_results_partial x n w).2.2 d f hf
      | run n ov post =>
        have hov : ov = false := Bool.eq_false_iff.2 fun e => hc _ List.mem_cons_self e
        subst hov
        rw [command_run]
        unfold cliRun
        cases withSuffix ".ini".toList n with
        | error e => rfl
        | ok p =>
          simp only
          have k := (openRunner_keeps x p w).2.2
          rcases e : openRunner x p w with ⟨w', r⟩
          rw [e] at k
          cases r with
          | error e => exact k d f hf
          | ok q =>
            simp only
            have hr := runProject_refused x q w' d (hasResults_same _ _ (k d) h) f
            rcases e2 : runProject x q false w' with ⟨w'', r2⟩
            rw [e2] at hr
            have k3 := hr.trans (k d f hf)
            cases r2 with
            | error e => exact k3
            | ok b =>
              simp only
              split
              · cases postProcess x q w'' <;> exact k3
              · exact k3
    have hres : HasResults ((command x w a).1.results d) := by
      obtain ⟨f, hf, hs⟩ := h
      refine ⟨f, hf, ?_⟩
      rw [step f (fun e => log_not_result (e ▸ hf)) fun hc => absurd hc (result_not_comparison f hf)]
      exact hs
    exact (ih (fun b hb => hc b (List.mem_cons_of_mem _ hb)) _ hres fun hc b hb => hfc hc b (List.mem_cons_of_mem _ hb)).trans
      (step f hf fun hc => hfc hc a List.mem_cons_self)

/-! ## The hypotheses are met -/

/-- Runs of `sampleJob` with the files of the configuration, where directories can be made. -/
def sampleSetup : Setup ℚ (Text × Nat × List Text) (Text × List Text) where
  ft := decimalText ℚ
  mkdir _ := .made
  writable p := decide (p ≠ "locked.ini".toList)
  cwd := "work".toList
  logText := "opened".toList
  figures s := if (s "CrossSectionLocations.ini".toList).isSome then none else some .osError
  compare := sampleCompare
  job _ c disk := { sampleJob with
    mapIsFile := match getInputFile "2DMapOutput".toList c with
      | .ok v => decide (valueText (decimalText ℚ) v ∈ disk.files)
      | .error _ => false
    cssIsFile := match getInputFile "CrossSectionLocationFile".toList c with
      | .ok v => decide (valueText (decimalText ℚ) v ∈ disk.files)
      | .error _ => false }
  configured _ _ _ := rfl
  mapFile _ c disk v h := by simp only [h]
  cssFile _ c disk v h := by simp only [h]

/-- A configuration file with its input files. -/
def projectContent : FileContent :=
  [("input".toList, [("2DMapOutput ".toList, " map.nc".toList), ("CrossSectionLocationFile".toList, " loc.txt".toList)]),
    ("parameters".toList, [("SkipMaps".toList, " 7".toList)]), ("output".toList, [("OutputDirectory".toList, " out".toList)])]

theorem projectContent_plain : PlainFile projectContent := by
  have key : ∀ t : Text, (t ≠ [] ∧ (t.headD '#' ≠ '#' ∧ isSpace (t.headD '#') = false ∧ t.headD '#' ≠ ';' ∧
      t.headD '#' ≠ '[') ∧ '=' ∉ t ∧ ':' ∉ t ∧ '\n' ∉ t) → PlainKey t := by
    intro t ⟨h1, h2, h3⟩
    refine ⟨h1, ?_, h3⟩
    intro c hc
    cases t with
    | nil => cases hc
    | cons d l =>
      cases hc
      exact ⟨h2.2.1, h2.1, h2.2.2⟩
  refine ⟨by decide +kernel, by decide +kernel, ?_⟩
  have hall : ∀ s ∈ projectContent, (s.2.map fun i => lower (rstrip i.1)).Nodup ∧ ∀ i ∈ s.2,
      (i.1 ≠ [] ∧ (i.1.headD '#' ≠ '#' ∧ isSpace (i.1.headD '#') = false ∧ i.1.headD '#' ≠ ';' ∧
        i.1.headD '#' ≠ '[') ∧ '=' ∉ i.1 ∧ ':' ∉ i.1 ∧ '\n' ∉ i.1) ∧ '\n' ∉ i.2 ∧ '%' ∉ i.2 := by decide +kernel
  exact fun s hs => ⟨(hall s hs).1, fun i hi => ⟨key _ ((hall s hs).2 i hi).1, ((hall s hs).2 i hi).2⟩⟩

/-- A directory `p` with two projects, of which one cannot be read, and an output directory. -/
def sampleWorld : World where
  texts p := if p = "p/rhine.ini".toList then some (fileText projectContent)
    else if p = "p/bad.ini".toList then some "rhine\n[input]\n".toList else none
  disk := ⟨["map.nc".toList, "loc.txt".toList, "p/map.nc".toList, "p/loc.txt".toList], ["p/out".toList, "out".toList]⟩
  results _ _ := none

/-- The hypotheses of `C122_edited_partial`, `C126_opened_partial` and `C127_log_violated` are met. -/
example : IsDir "p/".toList ∧ FileName "rhine".toList ∧ '.' ∉ "rhine".toList ∧
    sampleWorld.texts (projectFile ("p/".toList ++ "rhine".toList)) = some (fileText projectContent) ∧
    (∃ dir c, configurationOf sampleSetup ("p/".toList ++ "rhine".toList) sampleWorld = .ok (some (dir, c)) ∧
      getParameter "SkipMaps".toList c = .ok (some (.int 7))) ∧
    fileValue projectContent "output".toList "OutputDirectory".toList = some "out".toList ∧
    joinPath (parentPath "p/rhine.ini".toList) "out".toList ∉ sampleWorld.disk.files ∧
    joinPath (parentPath "p/rhine.ini".toList) "out".toList ∈ sampleWorld.disk.dirs := by
  refine ⟨.inr ⟨"p".toList, by decide⟩, by unfold FileName; decide +kernel, by decide +kernel, by decide +kernel, ?_,
    by decide +kernel, by decide +kernel, by decide +kernel⟩
  have h : ((configurationOf sampleSetup ("p/".toList ++ "rhine".toList) sampleWorld).toOption.bind fun o => o.map fun p =>
      getParameter "SkipMaps".toList p.2) = some (.ok (some (.int 7))) := by decide +kernel
  cases hc : configurationOf sampleSetup ("p/".toList ++ "rhine".toList) sampleWorld with
  | error e => rw [hc] at h; cases h
  | ok o =>
    rw [hc] at h
    cases o with
    | none => cases h
    | some q => exact ⟨q.1, q.2, rfl, Option.some.inj h⟩

instance samplePrintable (t : ConfigType) (v : ConfigValue ℚ) : Decidable (Printable (decimalText ℚ) t v) := by
  cases t <;> cases v <;> unfold Printable <;> first | infer_instance | (unfold decimalText; infer_instance)

/-- The hypotheses of `C122_created_partial` are met. -/
example : ReadableDefaults (decimalText ℚ) ∧ (command sampleSetup sampleWorld (.create "p/maas".toList)).2 = 0 ∧
    ((configurationOf sampleSetup "p/maas".toList (command sampleSetup sampleWorld (.create "p/maas".toList)).1).toOption.bind
      fun o => o.map fun p => (p.1, getParameter "SkipMaps".toList p.2)) =
        some ("p".toList, getParameter "SkipMaps".toList template) :=
  ⟨⟨template_prints, by decide +kernel⟩, by decide +kernel, by decide +kernel⟩

/-- The hypotheses of `C122_dotted_violated` are met. -/
example : IsDir "p/".toList ∧ FileName "rhine".toList ∧ FileName "v2".toList ∧ '.' ∉ "v2".toList ∧
    (configurationOf sampleSetup "p/rhine.v2".toList sampleWorld).toOption.isSome := by
  refine ⟨.inr ⟨"p".toList, by decide⟩, ?_⟩
  unfold FileName
  decide +kernel

/-- The hypotheses of `C123_history` and `C123_replaced_violated` are met, also with a place that cannot be written. -/
example : (∀ n, Command.create n ∈ [Command.create "p/maas".toList, .run "p/rhine".toList true true, .check "p/maas".toList] →
      projectFile n ≠ "p/rhine.ini".toList) ∧
    sampleWorld.texts (projectFile "p/rhine".toList) = some (fileText projectContent) ∧
    sampleSetup.writable (projectFile "p/rhine".toList) = true ∧
    (command sampleSetup sampleWorld (.create "locked".toList)).2 = 1 := by
  refine ⟨?_, by decide +kernel, by decide +kernel, by decide +kernel⟩
  intro n hn
  have h : n = "p/maas".toList := by
    rcases List.mem_cons.1 hn with h | h
    · exact Command.create.inj h
    · rcases List.mem_cons.1 h with h | h
      · cases h
      · rcases List.mem_cons.1 h with h | h
        · cases h
        · cases h
  rw [h]
  decide

/-- The hypotheses of `C124_no_results_partial` and `C124_missing_violated` are met. -/
example : withSuffix ".ini".toList "p/maas".toList = .ok "p/maas.ini".toList ∧ sampleWorld.texts "p/maas.ini".toList = none ∧
    [] ∉ sampleWorld.disk.files ∧ joinPath sampleSetup.cwd "output".toList ∉ sampleWorld.disk.files ∧
    joinPath sampleSetup.cwd "output".toList ∉ sampleWorld.disk.dirs ∧
    sampleSetup.mkdir (joinPath sampleSetup.cwd "output".toList) = .made := by
  decide +kernel

/-- The hypotheses of `C125_status_partial` and `C125_failed_violated` are met: a run, a run of a project without input files, and
a run of a project that cannot be read. -/
example : (runReturns sampleSetup "p/rhine".toList false sampleWorld).toOption = some true ∧
    (runReturns sampleSetup "p/maas".toList false sampleWorld).toOption = some false ∧
    runReturns sampleSetup "p/bad".toList false sampleWorld = .error .configError ∧
    (command sampleSetup sampleWorld (.run "p/rhine".toList false false)).2 = 0 ∧
    (command sampleSetup sampleWorld (.run "p/rhine".toList false true)).2 = 0 ∧
    (command sampleSetup sampleWorld (.run "p/maas".toList false true)).2 = 1 := by
  refine ⟨by decide +kernel, by decide +kernel, by rfl, by decide +kernel, by decide +kernel, by decide +kernel⟩

/-- The hypotheses of `C126_text_violated` are met. -/
example : '\n' ∉ "rhine".toList ∧ strip "rhine".toList ≠ [] ∧ (strip "rhine".toList).head? ≠ some '#' ∧
    (strip "rhine".toList).head? ≠ some ';' ∧ (strip "rhine".toList).head? ≠ some '[' ∧
    sampleWorld.texts "p/bad.ini".toList = some ("rhine".toList ++ '\n' :: "[input]\n".toList) := by
  decide +kernel

/-- The hypotheses of `C128_kept` are met after a run. -/
example : HasResults ((command sampleSetup sampleWorld (.run "p/rhine".toList false false)).1.results "p/out".toList) :=
  ⟨"CrossSectionLocations.ini".toList, ⟨"CrossSectionLocations.ini", by decide, rfl⟩, by decide +kernel⟩

end Fm2prof.Props
