import Verif.Proofs.Interruption
import Verif.Props.History
import Verif.Props.ProjectCrash

/-!
# Commands that are stopped from outside: C174
-/

set_option linter.unusedSectionVars false

namespace Fm2prof.Props

open Fm2prof Spec ProgramProof ProjectProof HistoryProof InterruptionProof

variable {K : Type} [Field K] [LinearOrder K] [IsStrictOrderedRing K] [FloorRing K]

/-! ## C174: commands that were stopped can be repeated -/

/-- **C174, partial.** Whatever has happened before, including any number of runs that were stopped from outside at any moment, `run`
with overwriting gives a project the same exit status and the same results as if it had been given at once: each file in the output
directory, besides the log, has the same text, or neither of the runs changes it. What is missing: stops while a cache file of the project
is written, see `C174_torn_violated`, and projects that share cache files. -/
theorem C174_repeat_partial (e : Computer K) (hm : ∀ d, e.mkdir d = .made) (w : AllFiles K) (name path : Text) (f : FileContent) (out : Text)
    (h : ProjectAt w name path f out) (mapPath cssPath : Text) (m : MapFile K)
    (h1 : namedFile (parentPath path) w.disk.files f "2DMapOutput" = some mapPath) (h2 : w.inputs.maps mapPath = some m)
    (h3 : namedFile (parentPath path) w.disk.files f "CrossSectionLocationFile" = some cssPath)
    (w' : AllFiles K) (hw : LeftAlone e path mapPath cssPath f out w w') :
    let first := program e w (.run name true false)
    let later := program e w' (.run name true false)
    later.2 = first.2 ∧
      ∀ file, file ≠ "fm2prof.log".toList → later.1.results out file = first.1.results out file ∨
        (later.1.results out file = w'.results out file ∧ first.1.results out file = w.results out file) := by
  intro first later
  have hp : (settingsIn e.tools.ft (parentPath path) w.disk.files f).mapPath = mapPath := by
    show (namedFile (parentPath path) w.disk.files f "2DMapOutput").getD [] = _
    rw [h1]; rfl
  have hcp : (settingsIn e.tools.ft (parentPath path) w.disk.files f).cssPath = cssPath := by
    show (namedFile (parentPath path) w.disk.files f "CrossSectionLocationFile").getD [] = _
    rw [h3]; rfl
  exact asBefore_run e hm w w' name path f out h m (by rw [hp]; exact h2)
    (leftAlone_keeps e hm w w' name path f out h m (by rw [hp]; exact h2) (by rw [hp, hcp]; exact hw))

/-- **C174, violated.** When a run that would have succeeded was stopped while it wrote a cache file, `run` with overwriting has exit status
1 and leaves no results, however often it is repeated. -/
theorem C174_torn_violated (e : Computer K) (hm : ∀ d, e.mkdir d = .made) (w : AllFiles K) (name path : Text) (f : FileContent) (out : Text)
    (h : ProjectAt w name path f out) (overwrite : Bool) (mapPath cssPath t : Text) (m : MapFile K)
    (h1 : namedFile (parentPath path) w.disk.files f "2DMapOutput" = some mapPath) (h2 : w.inputs.maps mapPath = some m)
    (h3 : namedFile (parentPath path) w.disk.files f "CrossSectionLocationFile" = some cssPath) (h4 : w.inputs.texts cssPath = some t)
    (hrun : (projectRun e.tools e.geometries (ready e.faults) (settingsIn e.tools.ft (parentPath path) w.disk.files f) overwrite w.inputs
      (opened e.logText (w.results out))).2.2 = .ok true)
    (w' : AllFiles K) (hw : StoppedRun e w path f out overwrite true w') (k : Nat) :
    let again := List.replicate k (Command.run name true false)
    (program e (programs e again w') (.run name true false)).2 = 1 ∧
      ∀ file, file ≠ "fm2prof.log".toList → (programs e again w').results out file = w.results out file := by
  have hp : (settingsIn e.tools.ft (parentPath path) w.disk.files f).mapPath = mapPath := by
    show (namedFile (parentPath path) w.disk.files f "2DMapOutput").getD [] = _
    rw [h1]; rfl
  generalize htorn : true = torn at hw
  cases hw with
  | opening dirs s hs => cases htorn
  | writing dirs m' hm n p => cases htorn
  | loading dirs m' hm' n torn hn =>
  subst htorn
  rw [hp, h2] at hm'
  obtain rfl := Option.some.inj hm'
  generalize hd : ({ w.inputs with caches := cachesAfterCrash w.inputs.caches (cacheWrites e.tools.ft e.geometries
          (settingsIn e.tools.ft (parentPath path) w.disk.files f) m w.inputs) n true } : ProjectFiles K) = d
  have htorn := C168_torn_violated e.tools e.geometries (ready e.faults) _ overwrite w.inputs (opened e.logText (w.results out)) m
    (by rw [hp]; exact h2) hrun d _ (by rw [← hd]; exact .caching n (hn rfl))
  have hstep : ∀ v : AllFiles K, v.inputs = d → v.disk.files = w.disk.files →
      (program e v (.run name true false)).2 = 1 ∧ (program e v (.run name true false)).1.inputs = d ∧
      (program e v (.run name true false)).1.disk.files = w.disk.files ∧
      (program e v (.run name true false)).1.results out = opened e.logText (v.results out) := by
    intro v hv hf
    have hpv : ProjectAt v name path f out :=
      { named := h.named, plain := h.plain, text := by rw [hv, ← hd]; exact h.text, input := h.input, output := h.output
        directory := h.directory, free := by rw [hf]; exact h.free, real := by rw [hf]; exact h.real }
    obtain ⟨p1, -, p3, p4, p5⟩ := C171_run e hm v name path f out hpv true mapPath cssPath t m (by rw [hf]; exact h1)
      (by rw [hv, ← hd]; exact h2) (by rw [hf]; exact h3) (by rw [hv, ← hd]; exact h4)
    rw [hf, hv, htorn.2 true (opened e.logText (v.results out)) (.inl rfl)] at p1 p3 p5
    refine ⟨?_, p3, p4.trans hf, p1⟩
    obtain ⟨_, _, _, -, -, -, -, -, g6⟩ := program_run e hm v name path f out hpv true false
    have hne : (program e v (.run name true false)).2 ≠ 0 := fun h0 => by
      obtain ⟨b, hb⟩ := p5.1 h0
      cases hb
    rw [g6] at hne ⊢
    revert hne
    cases (run _ true (opened e.logText (v.results out))).2 with
    | error er => exact fun _ => rfl
    | ok b => exact fun h => absurd rfl h
  have hall : ∀ (k : Nat) (v : AllFiles K), v.inputs = d → v.disk.files = w.disk.files →
      (∀ file, file ≠ "fm2prof.log".toList → v.results out file = w.results out file) →
      (programs e (List.replicate k (Command.run name true false)) v).inputs = d ∧
      (programs e (List.replicate k (Command.run name true false)) v).disk.files = w.disk.files ∧
      ∀ file, file ≠ "fm2prof.log".toList →
        (programs e (List.replicate k (Command.run name true false)) v).results out file = w.results out file := by
    intro k
    induction k with
    | zero => exact fun v a b c => ⟨a, b, c⟩
    | succ k ih =>
      intro v a b c
      obtain ⟨-, s2, s3, s4⟩ := hstep v a b
      refine ih _ s2 s3 fun file hfile => ?_
      rw [s4]
      exact (store_set_other _ _ _ _ hfile).trans (c file hfile)
  intro again
  obtain ⟨q1, q2, q3⟩ := hall k ⟨d, ⟨w.disk.files, dirs⟩,
    fun d => if d = out then opened e.logText (w.results out) else w.results d⟩ rfl rfl
    fun file hfile => by
      show (if out = out then opened e.logText (w.results out) else w.results out) file = _
      rw [if_pos rfl]
      exact store_set_other _ _ _ _ hfile
  exact ⟨(hstep _ q1 q2).1, q3⟩

/-! ## Examples -/

theorem sample_map (path : Text) (h : path = "p/map.nc".toList ∨ path = "p/other.nc".toList) :
    sampleAllFiles.inputs.maps path = some sampleMapFile := if_pos h

theorem rhine_map : sampleAllFiles.inputs.maps (settingsIn sampleComputer.tools.ft (parentPath "p/rhine.ini".toList)
    sampleAllFiles.disk.files rhineContent).mapPath = some sampleMapFile :=
  sample_map _ (.inl (by decide +kernel))

theorem waal_map : sampleAllFiles.inputs.maps (settingsIn sampleComputer.tools.ft (parentPath "p/waal.ini".toList)
    sampleAllFiles.disk.files waalContent).mapPath = some sampleMapFile :=
  sample_map _ (.inr (by decide +kernel))

/-- A run of another project is stopped while it writes its cache file. Then a run of the project is stopped while it writes its
definitions, and another one after it has written its cache file. -/
example : ∃ w1 w2 w3, StoppedRun sampleComputer sampleAllFiles "p/waal.ini".toList waalContent "p/waal".toList false true w1 ∧
    StoppedRun sampleComputer w1 "p/rhine.ini".toList rhineContent "p/rhine".toList false false w2 ∧
    StoppedRun sampleComputer w2 "p/rhine.ini".toList rhineContent "p/rhine".toList true false w3 ∧
    LeftAlone sampleComputer "p/rhine.ini".toList "p/map.nc".toList "p/css.xyz".toList rhineContent "p/rhine".toList sampleAllFiles w3 := by
  have hmap : ∀ w : AllFiles ℚ, w.inputs.maps = sampleAllFiles.inputs.maps → w.disk.files = sampleAllFiles.disk.files →
      w.inputs.maps (settingsIn sampleComputer.tools.ft (parentPath "p/rhine.ini".toList) w.disk.files rhineContent).mapPath =
        some sampleMapFile := fun w h1 h2 => by rw [h1, h2]; exact rhine_map
  obtain ⟨w1, s1, m1, f1⟩ : ∃ w1, StoppedRun sampleComputer sampleAllFiles "p/waal.ini".toList waalContent "p/waal".toList false true w1 ∧
      w1.inputs.maps = sampleAllFiles.inputs.maps ∧ w1.disk.files = sampleAllFiles.disk.files :=
    ⟨_, .loading ["p".toList] sampleMapFile waal_map 0 true (fun _ => by decide +kernel), rfl, rfl⟩
  obtain ⟨w2, s2, m2, f2⟩ : ∃ w2, StoppedRun sampleComputer w1 "p/rhine.ini".toList rhineContent "p/rhine".toList false false w2 ∧
      w2.inputs.maps = sampleAllFiles.inputs.maps ∧ w2.disk.files = sampleAllFiles.disk.files :=
    ⟨_, .writing ["p".toList] sampleMapFile (hmap w1 m1 f1) 1 (some 10), m1, f1⟩
  obtain ⟨w3, s3⟩ : ∃ w3, StoppedRun sampleComputer w2 "p/rhine.ini".toList rhineContent "p/rhine".toList true false w3 :=
    ⟨_, .loading ["p".toList] sampleMapFile (hmap w2 m2 f2) 1 false (fun h => by cases h)⟩
  refine ⟨w1, w2, w3, s1, s2, s3, .stopped true (.stopped false (.other _ _ _ _ false true .start waalAt ?_ s1) s2) s3⟩
  intro mapPath' h
  have e : namedFile (parentPath "p/waal.ini".toList) sampleAllFiles.disk.files waalContent "2DMapOutput" =
    some "p/other.nc".toList := by decide +kernel
  rw [e] at h
  obtain rfl := Option.some.inj h
  exact sample_caches

/-- The hypotheses of `C174_torn_violated` are met. -/
example : (projectRun sampleComputer.tools sampleComputer.geometries (ready sampleComputer.faults) (settingsIn sampleComputer.tools.ft
      (parentPath "p/rhine.ini".toList) sampleAllFiles.disk.files rhineContent) false sampleAllFiles.inputs
      (opened sampleComputer.logText (sampleAllFiles.results "p/rhine".toList))).2.2.toOption = some true ∧
    ∃ w', StoppedRun sampleComputer sampleAllFiles "p/rhine.ini".toList rhineContent "p/rhine".toList false true w' :=
  ⟨by decide +kernel, _, .loading ["p".toList] sampleMapFile rhine_map 0 true fun _ => by decide +kernel⟩

end Fm2prof.Props
