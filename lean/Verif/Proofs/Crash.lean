import Verif.Spec.Crash
import Verif.Proofs.Runner
import Verif.Proofs.Reader

/-!
# Helper lemmas: writes of a run
-/

set_option linter.unusedSectionVars false

namespace Fm2prof

open Spec

variable {S C : Type}

theorem step_writes (w : WriteFaults) (x : ExportStep) (s : Store) :
    (x.run w s).1 = writeAll s (x.writes w) ∧ (x.run w s).2.isSome = x.raises w := by
  cases x with
  | fail e => exact ⟨rfl, rfl⟩
  | write file text r =>
    unfold ExportStep.run ExportStep.writes ExportStep.raises writeFile fileWrites
    simp only
    cases hr : w.refuses file with
    | true => exact ⟨rfl, rfl⟩
    | false =>
      cases hb : w.breaks file with
      | some t => exact ⟨rfl, rfl⟩
      | none => exact ⟨rfl, by cases r <;> rfl⟩

theorem block_writes (w : WriteFaults) (xs : List ExportStep) (s : Store) : tryBlock w xs s = writeAll s (blockWrites w xs) := by
  induction xs generalizing s with
  | nil => rfl
  | cons x xs ih =>
    have h := step_writes w x s
    rw [tryBlock, blockWrites, writeAll_append]
    cases hx : x.run w s with
    | mk s' e =>
      rw [hx] at h
      simp only at h
      rw [← h.1, ← h.2]
      cases e with
      | none => exact ih s'
      | some e => rfl

theorem finalise_writes (j : Job S C) (cs : List C) (s : Store) : finalise j cs s = writeAll s (finaliseWrites j cs) := by
  unfold finalise finaliseWrites
  simp only
  rw [writeAll_append, writeAll_append, block_writes]
  congr 1
  have h1 : writeOutput j.faults j.exporter j.dirExists (j.harmonise cs) s =
      writeAll s (if (j.harmonise cs).isEmpty || !j.dirExists then []
        else blockWrites j.faults (dimrBlock j.exporter (j.harmonise cs)) ++
          blockWrites j.faults (sobekBlock' j.exporter (j.harmonise cs)) ++
          blockWrites j.faults (otherBlock j.exporter (j.harmonise cs))) := by
    unfold writeOutput
    split
    · rfl
    · rw [writeAll_append, writeAll_append, block_writes, block_writes, block_writes]
  rw [h1]
  split
  · unfold writeMapFiles
    rw [writeAll_append, block_writes, block_writes]
  · rfl

theorem pickle_writes (j : Job S C) (x : S) (s : Store) : (attempt j x s).1 = writeAll s (pickleWrites j x) := by
  rw [attempt_eq]
  unfold pickleWrites storePickle storeData storeMask
  cases j.valid x with
  | false => rfl
  | true =>
    cases j.exportCssData with
    | false =>
      simp only [Bool.not_true, Bool.false_eq_true, if_false, Bool.and_false, ite_self]
      rfl
    | true =>
      simp only [Bool.not_true, Bool.false_eq_true, if_false, Bool.and_true, if_true]
      refine Eq.trans ?_ (block_writes _ _ _)
      rw [tryBlock]
      unfold ExportStep.run
      simp only
      cases writeFile j.faults (j.name x ++ ".pickle".toList) (j.pickle x) none s with
      | mk s' e =>
        cases e with
        | some e => rfl
        | none =>
          simp only
          by_cases hf : j.faces x < 10
          · rw [if_pos hf, if_pos hf]; rfl
          · rw [if_neg hf, if_neg hf]
            cases j.mask x with
            | none => rfl
            | some text =>
              simp only
              rw [tryBlock]
              unfold ExportStep.run
              simp only
              cases writeFile j.faults (j.name x ++ "_flowmask.pickle".toList) text none s' with
              | mk s'' e => cases e <;> rfl

theorem attempt_same (j : Job S C) (x : S) (s t : Store) : (attempt j x s).2 = (attempt j x t).2 := by
  rw [attempt_eq, attempt_eq]

theorem generate_writes (j : Job S C) (xs : List S) (s : Store) : (attemptAll j xs s).1 = writeAll s (generateWrites j xs) := by
  induction xs generalizing s with
  | nil => rfl
  | cons x xs ih =>
    have h1 := pickle_writes j x s
    have h2 := attempt_same j x s fun _ => none
    rw [attemptAll, generateWrites, writeAll_append, ← h1, ← h2]
    cases hx : attempt j x s with
    | mk s' r =>
      cases r with
      | error e => rfl
      | ok r =>
        have h3 := ih s'
        simp only
        cases hy : attemptAll j xs s' with
        | mk s'' r' =>
          rw [hy] at h3
          cases r' with
          | error e => exact h3
          | ok cs => exact h3

theorem inifile_writes (j : Job S C) (s : Store) : (runInifile j s).1 = writeAll s (inifileWrites j) := by
  unfold runInifile inifileWrites
  cases initialise j with
  | error e => cases e <;> rfl
  | ok m =>
    unfold generate
    simp only
    cases requested j.cssSelection m.stations with
    | error e => rfl
    | ok xs =>
      simp only
      have h1 := generate_writes j xs s
      have h2 : (attemptAll j xs fun _ => none).2 = (attemptAll j xs s).2 := by
        rw [attemptAll_outcome, attemptAll_outcome]
      rw [writeAll_append, ← h1, h2]
      cases hx : attemptAll j xs s with
      | mk s' r =>
        cases r with
        | error e => rfl
        | ok cs => exact finalise_writes j cs s'

theorem run_writes (j : Job S C) (overwrite : Bool) (s : Store) :
    (run j overwrite s).1 = writeAll s (runWrites j overwrite s) := by
  unfold run runWrites
  cases j.configured with
  | false => rfl
  | true =>
    cases h : outputExists s && !overwrite with
    | true => rfl
    | false => exact inifile_writes j s

/-! ## Files that are not written -/

theorem writeAll_isSome (ws : List (Text × Text)) (s : Store) (f : Text) (h : f ∈ ws.map (·.1)) : (writeAll s ws f).isSome := by
  induction ws generalizing s with
  | nil => cases h
  | cons w ws ih =>
    rw [writeAll]
    by_cases hf : f ∈ ws.map (·.1)
    · exact ih _ hf
    · rw [writeAll_other _ _ _ hf]
      rcases List.mem_cons.1 h with h | h
      · rw [h]; unfold Store.set; rw [if_pos rfl]; rfl
      · exact absurd h hf

theorem afterCrash_other (s : Store) (ws : List (Text × Text)) (n : Nat) (p : Option Nat) (f : Text)
    (h : f ∉ ws.map (·.1)) : afterCrash s ws n p f = s f := by
  have ht : f ∉ (ws.take n).map (·.1) := fun hm => h (by
    rw [List.map_take] at hm; exact List.mem_of_mem_take hm)
  unfold afterCrash
  cases p with
  | none => exact writeAll_other _ _ _ ht
  | some p =>
    cases hw : ws[n]? with
    | none => exact writeAll_other _ _ _ ht
    | some w =>
      have hm : w ∈ ws := List.mem_of_getElem? hw
      have hne : f ≠ w.1 := fun e => h (List.mem_map.2 ⟨w, hm, e.symm⟩)
      show (writeAll s (ws.take n)).set w.1 (w.2.take p) f = s f
      unfold Store.set
      rw [if_neg hne]
      exact writeAll_other _ _ _ ht

theorem runWrites_files (j : Job S C) (overwrite : Bool) (s : Store) (f : Text) (h : f ∈ (runWrites j overwrite s).map (·.1)) :
    ((run j true noFiles).1 f).isSome := by
  unfold runWrites at h
  cases hc : j.configured with
  | false => rw [hc] at h; cases h
  | true =>
    rw [hc] at h
    have h' : f ∈ (inifileWrites j).map (·.1) := by
      revert h
      cases outputExists s && !overwrite with
      | true => exact fun h => by cases h
      | false => exact fun h => h
    rw [run_writes]
    refine writeAll_isSome _ _ _ ?_
    unfold runWrites
    rw [hc, Bool.not_true, Bool.and_false]
    exact h'

theorem interrupted_other (j : Job S C) (s s' : Store) (h : AfterInterruptions j s s') (f : Text)
    (hf : (run j true noFiles).1 f = none) : s' f = s f := by
  induction h with
  | start => rfl
  | again overwrite n p _ ih =>
    rw [afterCrash_other _ _ _ _ _ fun hm => ?_, ih]
    have := runWrites_files j overwrite _ f hm
    rw [hf] at this
    cases this

/-! ## Result files are written once -/

theorem step_writes_files (w : WriteFaults) (x : ExportStep) : List.Sublist ((x.writes w).map (·.1)) x.file?.toList := by
  cases x with
  | fail e => exact List.Sublist.refl _
  | write file text r =>
    unfold ExportStep.writes fileWrites
    simp only
    cases w.refuses file with
    | true => exact List.nil_sublist _
    | false => exact List.Sublist.refl _

theorem block_files (w : WriteFaults) (xs : List ExportStep) : List.Sublist ((blockWrites w xs).map (·.1)) (blockFiles xs) := by
  induction xs with
  | nil => exact List.Sublist.refl _
  | cons x xs ih =>
    have h1 := step_writes_files w x
    have h2 : blockFiles (x :: xs) = x.file?.toList ++ blockFiles xs := by
      unfold blockFiles
      rw [List.filterMap_cons]
      cases x.file? <;> rfl
    rw [blockWrites, List.map_append, h2]
    refine h1.append ?_
    split
    · exact List.nil_sublist _
    · exact ih

/-- The result files in the order in which a run writes them. -/
def orderedFiles : List Text :=
  ["CrossSectionLocations.ini".toList, "CrossSectionDefinitions.ini".toList, "roughness-FloodPlain1.ini".toList,
    "roughness-FloodPlain2.ini".toList, "roughness-Main.ini".toList, "geometry.csv".toList, "roughness.csv".toList,
    "geometry_test.csv".toList, "volumes.csv".toList, "face_output.geojson".toList, "edge_output.geojson".toList,
    "cross_section_volumes.geojson".toList]

theorem dimr_files_in (x : Exporter C) (cs : List C) : List.Sublist (blockFiles (dimrBlock x cs)) (orderedFiles.take 5) := by
  unfold blockFiles dimrBlock
  rw [List.filterMap_cons, List.filterMap_cons]
  simp only [ExportStep.file?]
  refine List.Sublist.cons_cons _ (List.Sublist.cons_cons _ ?_)
  rw [List.filterMap_map]
  have : (ExportStep.file? ∘ roughnessStep x cs) = roughnessName := by
    funext s; exact roughnessStep_file x cs s
  rw [this]
  exact roughness_files _ (npUnique_sorted _)

theorem prepared_files (w : WriteFaults) (file : Text) (r : Except PyErr (Text × Option PyErr)) :
    List.Sublist ((blockWrites w [preparedStep file r]).map (·.1)) [file] := by
  refine (block_files w _).trans ?_
  cases r with
  | error e => exact List.nil_sublist _
  | ok r => exact List.Sublist.refl _

theorem finalise_files (j : Job S C) (cs : List C) : List.Sublist ((finaliseWrites j cs).map (·.1)) orderedFiles := by
  have e : orderedFiles = (orderedFiles.take 9 ++ ["face_output.geojson".toList, "edge_output.geojson".toList]) ++
      ["cross_section_volumes.geojson".toList] := rfl
  unfold finaliseWrites
  simp only
  rw [List.map_append, List.map_append, e]
  refine (List.Sublist.append ?_ ?_).append (prepared_files _ _ _)
  · split
    · exact List.nil_sublist _
    · have e' : orderedFiles.take 9 = (orderedFiles.take 5 ++ ["geometry.csv".toList, "roughness.csv".toList]) ++
        ["geometry_test.csv".toList, "volumes.csv".toList] := rfl
      rw [List.map_append, List.map_append, e']
      refine (List.Sublist.append ?_ ?_).append ?_
      · exact (block_files _ _).trans (dimr_files_in _ _)
      · exact (block_files _ _)
      · exact (block_files _ _)
  · split
    · rw [List.map_append]
      exact (prepared_files _ _ _).append (prepared_files _ _ _)
    · exact List.nil_sublist _

theorem pickleWrites_names (j : Job S C) (x : S) (f : Text) (h : f ∈ (pickleWrites j x).map (·.1)) :
    ∃ name, f = name ++ ".pickle".toList := by
  unfold pickleWrites at h
  split at h
  · have h := (block_files j.faults _).subset h
    have hb : ∀ (a b : ExportStep) (r : List ExportStep), blockFiles (a :: r) = a.file?.toList ++ blockFiles r := by
      intro a _ r
      unfold blockFiles
      rw [List.filterMap_cons]
      cases a.file? <;> rfl
    rw [hb _ (.fail .keyError), List.mem_append] at h
    rcases h with h | h
    · exact ⟨_, List.mem_singleton.1 h⟩
    · split at h
      · cases h
      · split at h
        · rw [hb _ (.fail .keyError), List.mem_append] at h
          rcases h with h | h
          · exact ⟨_, (List.mem_singleton.1 h).trans (mask_name _)⟩
          · cases h
        · cases h
  · cases h

theorem generate_files (j : Job S C) (xs : List S) (f : Text) (h : f ∈ (generateWrites j xs).map (·.1)) : ¬ IsResult f := by
  induction xs with
  | nil => cases h
  | cons x xs ih =>
    rw [generateWrites, List.map_append, List.mem_append] at h
    rcases h with h | h
    · obtain ⟨name, rfl⟩ := pickleWrites_names j x f h
      exact pickle_not_result _
    · revert h
      cases (attempt j x fun _ => none).2 with
      | error e => exact fun h => by cases h
      | ok r => exact fun h => ih h

theorem generate_names (j : Job S C) (xs : List S) (f : Text) (h : f ∈ (generateWrites j xs).map (·.1)) :
    ∃ name, f = name ++ ".pickle".toList := by
  induction xs with
  | nil => cases h
  | cons x xs ih =>
    rw [generateWrites, List.map_append, List.mem_append] at h
    rcases h with h | h
    · exact pickleWrites_names j x f h
    · revert h
      cases (attempt j x fun _ => none).2 with
      | error e => exact fun h => by cases h
      | ok r => exact fun h => ih h

theorem inifile_files (j : Job S C) (f : Text) (h : f ∈ (inifileWrites j).map (·.1)) :
    f ∈ orderedFiles ∨ ∃ name, f = name ++ ".pickle".toList := by
  unfold inifileWrites at h
  revert h
  cases initialise j with
  | error e => exact fun h => by cases h
  | ok m =>
    simp only
    cases requested j.cssSelection m.stations with
    | error e => exact fun h => by cases h
    | ok xs =>
      simp only
      cases (attemptAll j xs fun _ => none).2 with
      | error e =>
        intro h
        rw [List.map_append, List.mem_append] at h
        rcases h with h | h
        · exact .inr (generate_names j xs f h)
        · cases h
      | ok cs =>
        intro h
        rw [List.map_append, List.mem_append] at h
        rcases h with h | h
        · exact .inr (generate_names j xs f h)
        · exact .inl ((finalise_files j cs).subset h)

theorem writeAll_mem_first (s : Store) (f text : Text) (ws : List (Text × Text)) (h : f ∉ ws.map (·.1)) :
    writeAll s ((f, text) :: ws) f = some text := by
  rw [writeAll, writeAll_other _ _ _ h]
  exact store_set_same _ _ _

theorem orderedFiles_nodup : orderedFiles.Nodup := by decide +kernel

theorem once_aux (gs fs : List (Text × Text)) (hg : ∀ f ∈ gs.map (·.1), ¬ IsResult f)
    (h1 : List.Sublist (fs.map (·.1)) orderedFiles) (n : Nat) (w : Text × Text) (hw : (gs ++ fs)[n]? = some w)
    (hf : IsResult w.1) : w.1 ∉ ((gs ++ fs).drop (n + 1)).map (·.1) := by
  have hlen : gs.length ≤ n := by
    by_contra hlt
    rw [List.getElem?_append_left (by omega)] at hw
    exact hg _ (List.mem_map.2 ⟨w, List.mem_of_getElem? hw, rfl⟩) hf
  rw [List.getElem?_append_right hlen] at hw
  rw [List.drop_append, List.drop_of_length_le (by omega), List.nil_append]
  have hnd : (fs.map (·.1)).Nodup := orderedFiles_nodup.sublist h1
  have e : fs = fs.take (n - gs.length) ++ w :: fs.drop (n - gs.length + 1) := by
    obtain ⟨hl, hv⟩ := List.getElem?_eq_some_iff.1 hw
    rw [← hv, List.getElem_cons_drop, List.take_append_drop]
  rw [show n + 1 - gs.length = n - gs.length + 1 by omega]
  rw [e, List.map_append, List.map_cons, List.nodup_append] at hnd
  exact (List.nodup_cons.1 hnd.2.1).1

/-- A result file that is written at one place is not written at a later one. -/
theorem inifile_once (j : Job S C) (n : Nat) (w : Text × Text) (hw : (inifileWrites j)[n]? = some w) (hf : IsResult w.1) :
    w.1 ∉ ((inifileWrites j).drop (n + 1)).map (·.1) := by
  unfold inifileWrites at hw ⊢
  revert hw
  cases initialise j with
  | error e => exact fun h => by cases h
  | ok m =>
    simp only
    cases requested j.cssSelection m.stations with
    | error e => exact fun h => by cases h
    | ok xs =>
      simp only
      have hg := generate_files j xs
      cases (attemptAll j xs fun _ => none).2 with
      | error e => exact fun hw => once_aux _ [] hg (List.nil_sublist _) n w hw hf
      | ok cs => exact fun hw => once_aux _ _ hg (finalise_files j cs) n w hw hf

end Fm2prof
