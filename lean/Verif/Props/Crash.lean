import Verif.Proofs.Crash
import Verif.Props.Runner

/-!
# C166, C167: runs that are interrupted, and the list of output files
-/

set_option linter.unusedSectionVars false

namespace Fm2prof.Props

open Fm2prof Spec

variable {S C : Type}

/-- **C166, the writes.** The writes of a run, one after the other, give the files of the run: stopping a run after some of its
writes is stopping it on the way to its own result. -/
theorem C166_writes (j : Job S C) (overwrite : Bool) (s : Store) :
    (run j overwrite s).1 = writeAll s (runWrites j overwrite s) := run_writes j overwrite s

example : runWrites sampleJob false noFiles =
    [("CrossSectionLocations.ini".toList, "ca".toList), ("CrossSectionDefinitions.ini".toList, "ca".toList),
      ("roughness-FloodPlain2.ini".toList, "FloodPlain2ca".toList), ("roughness-Main.ini".toList, "Mainca".toList),
      ("geometry.csv".toList, "ca".toList), ("roughness.csv".toList, "ca".toList), ("geometry_test.csv".toList, "ca".toList),
      ("volumes.csv".toList, "ca".toList), ("face_output.geojson".toList, "face".toList),
      ("edge_output.geojson".toList, "edge".toList), ("cross_section_volumes.geojson".toList, "ca".toList)] := by
  decide +kernel

/-- **C166, overwriting.** However often a run has been interrupted, and at whatever moments, running again with the overwrite
option gives the files and the report of a run that was never interrupted. -/
theorem C166_overwrite (j : Job S C) (s s' : Store) (h : AfterInterruptions j s s') : run j true s' = run j true s := by
  rw [C49_overwrites j s', C49_overwrites j s]
  refine Prod.ext ?_ rfl
  funext f
  simp only [overlay]
  cases hf : (run j true noFiles).1 f with
  | some t => rfl
  | none => exact interrupted_other j s s' h f hf

/-- **C166, before the results.** When none of the interrupted runs came as far as a result file, running again without the
overwrite option gives the files and the report of a run that was never interrupted as well. -/
theorem C166_early_partial (j : Job S C) (s s' : Store) (h : AfterInterruptions j s s') (hr : ¬ HasResults s') :
    run j false s' = run j false s := by
  have hs : ¬ HasResults s := by
    rintro ⟨f, hf, hp⟩
    refine hr ⟨f, hf, ?_⟩
    clear hr
    induction h with
    | start => exact hp
    | @again t overwrite n p _ ih =>
      have hk : ∀ ws : List (Text × Text), ∀ t : Store, (t f).isSome → (writeAll t ws f).isSome := by
        intro ws t ht
        by_cases hm : f ∈ ws.map (·.1)
        · exact writeAll_isSome _ _ _ hm
        · rw [writeAll_other _ _ _ hm]; exact ht
      unfold afterCrash
      cases p with
      | none => exact hk _ _ ih
      | some p =>
        cases (runWrites j overwrite t)[n]? with
        | none => exact hk _ _ ih
        | some w =>
          show ((writeAll t ((runWrites j overwrite t).take n)).set w.1 (w.2.take p) f).isSome
          unfold Store.set
          by_cases e : f = w.1
          · rw [if_pos e]; rfl
          · rw [if_neg e]; exact hk _ _ ih
  rw [C49_no_results j false s' hr, C49_no_results j false s hs, C166_overwrite j s s' h]

/-- The hypotheses of `C166_early_partial` are met: a run that stores its data is stopped while it stores the second ones. -/
example : let j : Job _ _ := { sampleJob with exportCssData := true }
    let s := afterCrash noFiles (runWrites j false noFiles) 2 (some 0)
    AfterInterruptions j noFiles s ∧ ¬ HasResults s ∧ s "c.pickle".toList = some "c".toList ∧
      s "c_flowmask.pickle".toList = some "cc".toList ∧ s "b.pickle".toList = some [] := by
  refine ⟨.again false 2 (some 0) .start, ?_, ?_, ?_, ?_⟩
  · rw [← outputExists_iff]
    decide +kernel
  · decide +kernel
  · decide +kernel
  · decide +kernel

/-- **C166, violated.** Whenever a run is interrupted while it writes a result file, the file is left incomplete and every further
run without the overwrite option is refused as if there were results: nothing is changed, however often it is tried. -/
theorem C166_torn_violated (j : Job S C) (s : Store) (hs : ¬ HasResults s) (n : Nat) (file text : Text)
    (hw : (runWrites j false s)[n]? = some (file, text)) (hf : IsResult file) (p : Nat) (hp : p < text.length)
    (js : List (Job S C)) :
    let s' := afterCrash s (runWrites j false s) n (some p)
    runs (js.map fun j => (j, false)) s' = (s', js.map fun _ => .ok false) ∧
      s' file = some (text.take p) ∧ (run j false s).1 file = some text ∧ s' file ≠ (run j false s).1 file := by
  have h1 : afterCrash s (runWrites j false s) n (some p) file = some (text.take p) := by
    unfold afterCrash
    rw [hw]
    exact store_set_same _ _ _
  have h2 : (run j false s).1 file = some text := by
    have hi : runWrites j false s = inifileWrites j := by
      have := hw
      unfold runWrites at this ⊢
      split at this
      · cases this
      · rename_i hc; exact if_neg hc
    rw [run_writes, hi]
    rw [hi] at hw
    have ho := inifile_once j n _ hw hf
    have hsplit : inifileWrites j = (inifileWrites j).take n ++ (file, text) :: (inifileWrites j).drop (n + 1) := by
      obtain ⟨hl, hv⟩ := List.getElem?_eq_some_iff.1 hw
      rw [← hv, List.getElem_cons_drop, List.take_append_drop]
    rw [hsplit, writeAll_append]
    show writeAll ((writeAll s ((inifileWrites j).take n)).set file text) ((inifileWrites j).drop (n + 1)) file = _
    rw [writeAll_other _ _ _ ho]
    exact store_set_same _ _ _
  have hres : HasResults (afterCrash s (runWrites j false s) n (some p)) := ⟨file, hf, by rw [h1]; rfl⟩
  refine ⟨?_, h1, h2, ?_⟩
  · clear h1 h2
    generalize afterCrash s (runWrites j false s) n (some p) = t at hres ⊢
    induction js with
    | nil => rfl
    | cons i js ih =>
      rw [List.map_cons, runs, C49_refused i t hres]
      simp only
      rw [ih]
      rfl
  · rw [h1, h2]
    intro h
    have := congrArg List.length (Option.some.inj h)
    rw [List.length_take] at this
    omega

/-- The hypotheses of `C166_torn_violated` are met: the run of the sample is stopped inside the definitions. -/
example : ¬ HasResults noFiles ∧
    (runWrites sampleJob false noFiles)[1]? = some ("CrossSectionDefinitions.ini".toList, "ca".toList) ∧
    IsResult "CrossSectionDefinitions.ini".toList ∧ 1 < "ca".toList.length := by
  refine ⟨?_, ?_, ⟨"CrossSectionDefinitions.ini", by decide, rfl⟩, by decide⟩
  · rintro ⟨f, -, h⟩; cases h
  · decide +kernel

/-! ## C167: the list of output files -/

/-- **C167, what a run changes.** A file that a run has changed is in the list of output files of the project, or it is one of three
files with points and envelopes, or the stored data of a location. -/
theorem C167_listed_partial (j : Job S C) (overwrite : Bool) (s : Store) (f : Text) (h : (run j overwrite s).1 f ≠ s f) :
    f ∈ outputFiles ∨ f ∈ ["face_output.geojson".toList, "edge_output.geojson".toList, "cross_section_volumes.geojson".toList] ∨
      ∃ name, f = name ++ ".pickle".toList := by
  have hm : f ∈ (runWrites j overwrite s).map (·.1) := by
    by_contra hm
    exact h (by rw [run_writes, writeAll_other _ _ _ hm])
  unfold runWrites at hm
  split at hm
  · cases hm
  · rcases inifile_files j f hm with hm | hm
    · have hall : ∀ f ∈ orderedFiles, f ∈ outputFiles ∨
          f ∈ ["face_output.geojson".toList, "edge_output.geojson".toList, "cross_section_volumes.geojson".toList] := by
        decide +kernel
      rcases hall f hm with h | h
      · exact .inl h
      · exact .inr (.inl h)
    · exact .inr (.inr hm)

example : (run sampleJob false noFiles).1 "geometry.csv".toList ≠ noFiles "geometry.csv".toList := by decide +kernel

/-- **C167, violated: files that are not listed.** Whenever a run comes to its end and can write the envelopes, it writes a file that is
not in the list of output files: a directory that holds only this file counts as one without output, and the file is replaced
without the overwrite option. -/
theorem C167_unlisted_violated (j : Job S C) (s : Store) (hs : ¬ HasResults s) (h : (run j false s).2 = .ok true)
    (he : ∀ cs, ∃ text r, j.exporter.envelope cs = .ok (text, r))
    (hw : Sound j.faults "cross_section_volumes.geojson".toList) :
    "cross_section_volumes.geojson".toList ∉ outputFiles ∧
      (∃ text, (run j false s).1 "cross_section_volumes.geojson".toList = some text) ∧
      ∀ old, ¬ HasResults (s.set "cross_section_volumes.geojson".toList old) ∧
        run j false (s.set "cross_section_volumes.geojson".toList old) = run j false s := by
  have hfile : ∀ t : Store, (runInifile j t).2 = .ok true →
      ∃ text, (runInifile j t).1 "cross_section_volumes.geojson".toList = some text := by
    intro t ht
    unfold runInifile at ht ⊢
    revert ht
    cases initialise j with
    | error e => cases e <;> exact fun h => by cases h
    | ok m =>
      simp only
      cases generate j m t with
      | mk t' r' =>
        cases r' with
        | error e => exact fun h => by cases h
        | ok cs =>
          intro _
          simp only
          unfold finalise
          obtain ⟨text, r, he⟩ := he (j.harmonise cs)
          rw [he, preparedStep, block_writes]
          have e : blockWrites j.faults [ExportStep.write "cross_section_volumes.geojson".toList text r] =
              [("cross_section_volumes.geojson".toList, text)] := by
            show fileWrites j.faults _ text ++ (if _ then [] else []) = _
            rw [ite_self, List.append_nil]
            unfold fileWrites
            rw [hw.1, hw.2]
            rfl
          rw [e]
          exact ⟨text, writeAll_mem_first _ _ _ _ fun h => by cases h⟩
  have hnot : ¬ IsResult "cross_section_volumes.geojson".toList := by
    rintro ⟨x, hx, e⟩
    have hall : ∀ x ∈ resultFiles, "cross_section_volumes.geojson".toList ≠ x.toList := by decide +kernel
    exact hall x hx e
  have hrun : run j false s = runInifile j s := by
    have := h
    unfold run at this ⊢
    split at this
    · cases this
    · split at this
      · cases this
      · rename_i h1 h2
        rw [if_neg h1, if_neg h2]
  have h1 : ∃ text, (run j false s).1 "cross_section_volumes.geojson".toList = some text := by
    rw [hrun] at h ⊢
    exact hfile s h
  refine ⟨by decide +kernel, h1, fun old => ?_⟩
  have hold : ¬ HasResults (s.set "cross_section_volumes.geojson".toList old) := by
    rintro ⟨f, hf, hp⟩
    refine hs ⟨f, hf, ?_⟩
    have hne : f ≠ "cross_section_volumes.geojson".toList := fun e => hnot (e ▸ hf)
    unfold Store.set at hp
    rw [if_neg hne] at hp
    exact hp
  refine ⟨hold, ?_⟩
  rw [C49_no_results j false _ hold, C49_no_results j false s hs] at *
  rw [C49_overwrites j (s.set _ old), C49_overwrites j s]
  refine Prod.ext ?_ rfl
  funext f
  have hn : ∃ text, (run j true noFiles).1 "cross_section_volumes.geojson".toList = some text := by
    have hc := h
    rw [C49_overwrites j s] at hc
    have hrun' : run j true noFiles = runInifile j noFiles := by
      have := hc
      unfold run at this ⊢
      split at this
      · cases this
      · rename_i h1
        rw [if_neg h1, Bool.not_true, Bool.and_false]
        rfl
    rw [hrun'] at hc ⊢
    exact hfile noFiles hc
  simp only [overlay]
  by_cases e : f = "cross_section_volumes.geojson".toList
  · obtain ⟨text, hn⟩ := hn
    rw [e, hn]
    rfl
  · unfold Store.set
    rw [if_neg e]

/-- The hypotheses of `C167_unlisted_violated` are met. -/
example : ¬ HasResults noFiles ∧ (run sampleJob false noFiles).2.toOption = some true ∧
    (∀ cs, ∃ text r, sampleJob.exporter.envelope cs = .ok (text, r)) ∧
    Sound sampleJob.faults "cross_section_volumes.geojson".toList := by
  refine ⟨?_, ?_, fun cs => ⟨_, _, rfl⟩, rfl, rfl⟩
  · rintro ⟨f, -, h⟩; cases h
  · decide +kernel

/-- **C167, violated: a listed file that is never written.** -/
theorem C167_never_violated (j : Job S C) (overwrite : Bool) (s : Store) :
    "roughness_test.csv".toList ∈ outputFiles ∧ (run j overwrite s).1 "roughness_test.csv".toList = s "roughness_test.csv".toList := by
  refine ⟨by decide +kernel, ?_⟩
  by_contra h
  have hm : "roughness_test.csv".toList ∈ (runWrites j overwrite s).map (·.1) := by
    by_contra hm
    exact h (by rw [run_writes, writeAll_other _ _ _ hm])
  unfold runWrites at hm
  split at hm
  · cases hm
  · rcases inifile_files j _ hm with hm | ⟨name, hm⟩
    · revert hm
      decide +kernel
    · exact pickle_not_result name ⟨"roughness_test.csv", by decide, hm.symm⟩

end Fm2prof.Props
