import Verif.Proofs.Moved
import Verif.Props.Program

/-!
# Projects that are moved (C190)

A project whose configuration file names its files relative to itself can be moved to another directory, and commands can be given from
any directory. `Moved` of `Spec/Moved.lean` says what is moved.
-/

set_option linter.unusedSectionVars false

namespace Fm2prof.Props

open Fm2prof Spec MovedProof

variable {K : Type} [Field K] [LinearOrder K] [IsStrictOrderedRing K] [FloorRing K]

/-- A project that is moved is a project. -/
theorem projectAt_moved (p q name file o : Text) (hp : p ≠ []) (hq : q ≠ []) (hn : '/' ∉ name) (hne : name ≠ []) (hfile : '/' ∉ file)
    (v w : AllFiles K) (h : Moved p q v w) (f : FileContent) (ho : fileValue f "output".toList "OutputDirectory".toList = some o)
    (hr : IsRelative o) (hw : [] ∉ w.disk.files) (hv : ProjectAt v (joinPath p name) (joinPath p file) f (joinPath p o)) :
    IsRelative file ∧ file ≠ [] ∧ ProjectAt w (joinPath q name) (joinPath q file) f (joinPath q o) := by
  have hnr : IsRelative name := ⟨hne, fun h => hn (List.mem_of_mem_head? h)⟩
  have hfr : IsRelative file ∧ withSuffix ".ini".toList (joinPath q name) = .ok (joinPath q file) := by
    rcases suffix_join ".ini".toList p name hnr hp with ⟨_, e⟩ | ⟨k, hk, e1, e2⟩
    · have := hv.named
      rw [e] at this
      cases this
    · have hkf : joinPath p k = joinPath p file := Except.ok.inj (e2.symm.trans hv.named)
      have hfne : IsRelative file := by
        refine ⟨?_, fun h => hfile (List.mem_of_mem_head? h)⟩
        rintro rfl
        have e : joinPath p [] = p := by
          unfold joinPath
          rw [if_neg (by simp), if_pos rfl]
        rw [e] at hkf
        rcases join_cases p k hk with ⟨h1, e1⟩ | ⟨_, e1⟩
        · rw [e1] at hkf
          rcases withSuffix_name ".ini".toList [] name (.inl rfl) hn hne with e3
          rw [List.nil_append, List.nil_append] at e3
          have : k = nameStem name ++ ".ini".toList := Except.ok.inj (by rw [← e3]; rename_i e4; exact e4.symm)
          rw [hkf, h1] at this
          have hl := congrArg List.length this
          rw [List.length_append] at hl
          have : (".ini".toList : Text).length = 4 := by decide
          have h1' : (['.'] : Text).length = 1 := rfl
          omega
        · rw [e1] at hkf
          have := congrArg List.length hkf
          simp at this
      obtain rfl : k = file := join_inj p k file hk hfne hkf
      rcases suffix_join ".ini".toList q name hnr hq with ⟨e, _⟩ | ⟨k', _, e3, e4⟩
      · rw [e] at e1
        cases e1
      · obtain rfl : k = k' := Except.ok.inj (e1.symm.trans e3)
        exact ⟨hfne, e4⟩
  refine ⟨hfr.1, hfr.1.1, ?_⟩
  exact {
    named := hfr.2
    plain := hv.plain
    text := by rw [← h.texts file hfr.1]; exact hv.text
    input := hv.input
    output := hv.output
    directory := ⟨o, ho, by rw [parent_join q file hq hfile hfr.1.1]⟩
    free := fun h' => hv.free ((h.files o hr).2 h')
    real := hw }

/-- **C190.** A project whose configuration file names its input files and its output directory relative to itself is moved from a
directory `p` to a directory `q`. Whatever commands are given for it, in the same order: every command ends with the same exit status, and
what is in the directory afterwards is the same: results, log files, cache files. The directories can be the current directory, so that
commands can be given from within the directory of the project as well. -/
theorem C190_moved (e : Computer K) (hm : ∀ d, e.mkdir d = .made) (p q name file o : Text) (hp : p ≠ []) (hq : q ≠ []) (hn : '/' ∉ name)
    (hne : name ≠ []) (hfile : '/' ∉ file) (v w : AllFiles K) (h : Moved p q v w) (hw : [] ∉ w.disk.files) (f : FileContent)
    (hf : Relocatable f) (ho : fileValue f "output".toList "OutputDirectory".toList = some o)
    (hv : ProjectAt v (joinPath p name) (joinPath p file) f (joinPath p o)) (ts : List Task)
    (hts : ∀ t ∈ ts, t.SameFiles v.disk w.disk) :
    let v' := programs e (ts.map (Task.command (joinPath p name))) v
    let w' := programs e (ts.map (Task.command (joinPath q name))) w
    Moved p q v' w' ∧ ∀ t : Task, t.SameFiles v.disk w.disk →
      (program e v' (t.command (joinPath p name))).2 = (program e w' (t.command (joinPath q name))).2 := by
  have hr := hf.2 o ho
  obtain ⟨-, hfne, hw'⟩ := projectAt_moved p q name file o hp hq hn hne hfile v w h f ho hr hw hv
  have e1 := parent_join p file hp hfile hfne
  have e2 := parent_join q file hq hfile hfne
  clear hw
  induction ts generalizing v w with
  | nil =>
    exact ⟨h, fun t ht => (task_moved e hm hp hq h name name file file o f hf hr e1 e2 hv hw' t ht).1⟩
  | cons t ts ih =>
    obtain ⟨-, k2, k3, k4, k5, k6⟩ :=
      task_moved e hm hp hq h name name file file o f hf hr e1 e2 hv hw' t (hts t List.mem_cons_self)
    have hs : ∀ t' : Task, t'.SameFiles v.disk w.disk → t'.SameFiles (program e v (t.command (joinPath p name))).1.disk
        (program e w (t.command (joinPath q name))).1.disk := by
      intro t' ht'
      cases t' with
      | check => trivial
      | run => trivial
      | compare a b c =>
        unfold Task.SameFiles at ht' ⊢
        rw [k3, k4]
        exact ht'
    obtain ⟨m1, m2⟩ := ih _ _ k2 (projectAt_kept v _ _ _ f _ hv k3 k5) (fun t' ht' => hs t' (hts t' (List.mem_cons_of_mem _ ht')))
      (projectAt_kept w _ _ _ f _ hw' k4 k6)
    exact ⟨m1, fun t' ht' => m2 t' (hs t' ht')⟩

/-- **C190, what a user sees.** After the same runs of a project in both places, each result file in the output directory is the same. -/
theorem C190_results (e : Computer K) (hm : ∀ d, e.mkdir d = .made) (p q name file o : Text) (hp : p ≠ []) (hq : q ≠ []) (hn : '/' ∉ name)
    (hne : name ≠ []) (hfile : '/' ∉ file) (v w : AllFiles K) (h : Moved p q v w) (hw : [] ∉ w.disk.files) (f : FileContent)
    (hf : Relocatable f) (ho : fileValue f "output".toList "OutputDirectory".toList = some o)
    (hv : ProjectAt v (joinPath p name) (joinPath p file) f (joinPath p o)) (overwrite post : Bool) :
    let r := program e v (.run (joinPath p name) overwrite post)
    let s := program e w (.run (joinPath q name) overwrite post)
    r.2 = s.2 ∧ r.1.results (joinPath p o) = s.1.results (joinPath q o) := by
  have h0 := C190_moved e hm p q name file o hp hq hn hne hfile v w h hw f hf ho hv [] (fun _ h => by cases h)
  have h1 := C190_moved e hm p q name file o hp hq hn hne hfile v w h hw f hf ho hv [.run overwrite post]
    (fun t ht => by rw [List.mem_singleton.1 ht]; trivial)
  exact ⟨h0.2 (.run overwrite post) trivial, h1.1.results o (hf.2 o ho)⟩

/-! ## The hypotheses are met -/

/-- The files of `sampleAllFiles`, seen from the directory of the project. -/
def homeFiles : AllFiles ℚ where
  inputs :=
    { maps := fun t => if t = [] then none else sampleAllFiles.inputs.maps ('p' :: '/' :: t)
      texts := fun t => if t = [] then none else sampleAllFiles.inputs.texts ('p' :: '/' :: t)
      polygons := fun t => sampleAllFiles.inputs.polygons ('p' :: '/' :: t)
      caches := fun _ => none }
  disk := ⟨["map.nc".toList, "css.xyz".toList, "sections.geojson".toList, "channel.geojson".toList, "rhine.ini".toList,
    "maas.ini".toList, "waal.ini".toList, "other.nc".toList], []⟩
  results _ := noFiles

private theorem join_p (x : Text) (hx : IsRelative x) : joinPath "p".toList x = 'p' :: '/' :: x := by
  rcases join_cases "p".toList x hx with ⟨h, _⟩ | ⟨_, e⟩
  · exact absurd h (by decide)
  · rw [e]; rfl

private theorem join_here (x : Text) (hx : IsRelative x) : joinPath ".".toList x = x := by
  rcases join_cases ".".toList x hx with ⟨_, e⟩ | ⟨h, _⟩
  · exact e
  · exact absurd rfl h

theorem home_moved : Moved "p".toList ".".toList sampleAllFiles homeFiles where
  maps x hx := by
    rw [join_p x hx, join_here x hx]
    show _ = if x = [] then none else _
    rw [if_neg hx.1]
  texts x hx := by
    rw [join_p x hx, join_here x hx]
    show _ = if x = [] then none else _
    rw [if_neg hx.1]
  polygons x hx := by
    rw [join_p x hx, join_here x hx]
    rfl
  caches x hx := rfl
  files x hx := by
    rw [join_p x hx, join_here x hx]
    have e : sampleAllFiles.disk.files = homeFiles.disk.files.map fun t => 'p' :: '/' :: t := by decide +kernel
    rw [e, List.mem_map]
    constructor
    · rintro ⟨y, hy, h⟩
      cases h
      exact hy
    · exact fun h => ⟨x, h, rfl⟩
  results x hx := rfl
  unnamed := ⟨rfl, rfl, rfl, rfl⟩

theorem rhine_relocatable : Relocatable rhineContent := by
  constructor
  · intro key x h
    have hall : ∀ s ∈ rhineContent, lower s.1 = "input".toList → ∀ i ∈ s.2,
        ((strip (i.2.takeWhile (· ≠ '#'))) ≠ [] ∧ (strip (i.2.takeWhile (· ≠ '#'))).head? ≠ some '/') ∧
          pathName (strip (i.2.takeWhile (· ≠ '#'))) ≠ [] := by decide +kernel
    unfold fileValue at h
    rw [Option.bind_eq_some_iff] at h
    obtain ⟨s, hs, h⟩ := h
    rw [Option.map_eq_some_iff] at h
    obtain ⟨i, hi, rfl⟩ := h
    have hd := List.find?_some hs
    exact hall s (List.mem_of_find?_eq_some hs) (of_decide_eq_true hd) i (List.mem_of_find?_eq_some hi)
  · intro x h
    have e : fileValue rhineContent "output".toList "OutputDirectory".toList = some "rhine".toList := by decide +kernel
    rw [e] at h
    obtain rfl := Option.some.inj h
    exact ⟨by decide, by decide⟩

/-- The hypotheses of `C190_moved` and `C190_results` are met, and the run in the current directory leaves a definition file. -/
example : ProjectAt sampleAllFiles (joinPath "p".toList "rhine".toList) (joinPath "p".toList "rhine.ini".toList) rhineContent
      (joinPath "p".toList "rhine".toList) ∧ Moved "p".toList ".".toList sampleAllFiles homeFiles ∧ Relocatable rhineContent ∧
    [] ∉ homeFiles.disk.files ∧ fileValue rhineContent "output".toList "OutputDirectory".toList = some "rhine".toList ∧
    (program sampleComputer homeFiles (.run "rhine".toList false false)).2 = 0 ∧
    ((program sampleComputer homeFiles (.run "rhine".toList false false)).1.results "rhine".toList
      "CrossSectionDefinitions.ini".toList).isSome = true ∧
    ((program sampleComputer homeFiles (.run "rhine".toList false false)).1.inputs.caches "map.section_cache.json".toList).isSome = true :=
  ⟨rhineAt, home_moved, rhine_relocatable, by decide +kernel, by decide +kernel, by decide +kernel, by decide +kernel, by decide +kernel⟩

/-- **C190, violated outside the directory of the project.** Loading a configuration file makes its output directory in the current
directory as well: when the command is given elsewhere, an empty directory is left there. -/
theorem C190_stray_violated :
    let r := program sampleComputer sampleAllFiles (.check "p/rhine".toList)
    r.2 = 0 ∧ "p/rhine".toList ∈ r.1.disk.dirs ∧ "rhine".toList ∈ r.1.disk.dirs ∧ "rhine".toList ∉ sampleAllFiles.disk.dirs := by
  decide +kernel

end Fm2prof.Props
