import Verif.Spec.Cli
import Verif.Proofs.IniLoad
import Verif.Proofs.Stats
import Verif.Proofs.CompareFiles

/-! Helper lemmas about commands. -/

set_option linter.unusedSectionVars false

namespace Fm2prof

open Spec

variable {K : Type} [Field K] [LinearOrder K] [IsStrictOrderedRing K] [FloorRing K] {S C : Type}

theorem Spec.Grows.rfl' (d : Disk) : Grows d d := ⟨rfl, fun _ h => h⟩

theorem Spec.Grows.trans {a b c : Disk} (h : Grows a b) (k : Grows b c) : Grows a c :=
  ⟨k.1.trans h.1, fun p hp => k.2 p (h.2 p hp)⟩

theorem setOutputDirectory_grows (creatable : Text → Bool) (dir : Text) (s : IniState K) :
    Grows s.disk (setOutputDirectory creatable dir s).1.disk := by
  unfold setOutputDirectory
  split
  · rw [disk_set]
    exact .rfl' _
  · split
    · rw [disk_set]
      exact ⟨rfl, fun p hp => List.mem_append_left _ hp⟩
    · exact .rfl' _

theorem outputItems_grows (creatable : Text → Bool) (items : List (Text × Text)) (s : IniState K) :
    Grows s.disk (outputItems creatable items s).1.disk := by
  induction items generalizing s with
  | nil => exact .rfl' _
  | cons it items ih =>
    unfold outputItems
    split
    · have h := setOutputDirectory_grows creatable it.2 s
      rcases e : setOutputDirectory creatable it.2 s with ⟨s', r⟩
      rw [e] at h
      cases r with
      | none => exact h.trans (ih s')
      | some e => exact h
    · exact ih s

theorem readInifile_grows (ft : FloatText K) (creatable : Text → Bool) (dir text : Text) (s : IniState K) :
    Grows s.disk (readInifile ft creatable dir text s).1.disk := by
  unfold readInifile
  cases iniParams text with
  | error e => exact .rfl' _
  | ok supplied =>
    simp only
    cases dictGet supplied "input".toList with
    | none => exact .rfl' _
    | some items =>
      simp only
      have hin := input_setter (K := K) dir s.disk.files
      have hd := hin.fold_disk items s
      have key : (extractParameters ft "debug".toList debugTemplate supplied
          (extractParameters ft "parameters".toList parameterTemplate supplied (items.foldl (inputItem dir) s))).disk = s.disk := by
        rw [(extract_keys ft _ _ supplied _).2, (extract_keys ft _ _ supplied _).2, hd]
      cases dictGet supplied "output".toList with
      | none =>
        simp only
        rw [key]
        exact .rfl' _
      | some outs =>
        simp only
        have := outputItems_grows creatable outs (extractParameters ft "debug".toList debugTemplate supplied
          (extractParameters ft "parameters".toList parameterTemplate supplied (items.foldl (inputItem dir) s)))
        rwa [key] at this

theorem loadConfiguration_grows (ft : FloatText K) (creatable : Text → Bool) (dir : Text) (text : Option Text) (s : IniState K) :
    Grows s.disk (loadConfiguration ft creatable dir text s).1.disk := by
  unfold loadConfiguration
  cases text with
  | none => exact .rfl' _
  | some t =>
    simp only
    have h := readInifile_grows ft creatable dir t s
    rcases e : readInifile ft creatable dir t s with ⟨s', r⟩
    rw [e] at h
    cases r with
    | none => exact h.trans (readInifile_grows ft creatable dir t s')
    | some e => exact h

theorem loadProject_grows (x : Setup K S C) (path : Text) (w : World) :
    Grows w.disk (loadProject x path w).2.1.disk := by
  unfold loadProject
  cases w.texts path with
  | none => exact .rfl' _
  | some t => exact loadConfiguration_grows _ _ _ _ _

theorem hasOutputDirectory_grows (ft : FloatText K) (mkdir : Text → MkdirResult) (dir : Text) (s s' : IniState K) (b : Bool)
    (h : hasOutputDirectory ft mkdir dir s = .ok (b, s')) : s'.config = s.config ∧ Grows s.disk s'.disk := by
  unfold hasOutputDirectory at h
  cases hg : getOutputDirectory ft dir s.config with
  | error e => rw [hg] at h; cases h
  | ok p =>
    rw [hg] at h
    simp only at h
    split at h
    · obtain rfl := (Prod.mk.inj (Except.ok.inj h)).2
      exact ⟨rfl, .rfl' _⟩
    · cases hm : mkdir p with
      | refused => rw [hm] at h; cases h
      | notFound =>
        rw [hm] at h
        obtain rfl := (Prod.mk.inj (Except.ok.inj h)).2
        exact ⟨rfl, .rfl' _⟩
      | made =>
        rw [hm] at h
        obtain rfl := (Prod.mk.inj (Except.ok.inj h)).2
        exact ⟨rfl, rfl, fun p hp => List.mem_append_left _ hp⟩

/-- Opening a project: configuration files are the same, files are kept, and only the log changes in output directories. -/
theorem openRunner_keeps (x : Setup K S C) (path : Text) (w : World) :
    (openRunner x path w).1.texts = w.texts ∧ Grows w.disk (openRunner x path w).1.disk ∧
      SameResults w (openRunner x path w).1 := by
  have hg := loadProject_grows x path w
  unfold openRunner
  rcases e : loadProject x path w with ⟨dir, s, r⟩
  rw [e] at hg
  cases r with
  | some e =>
    simp only
    split <;> exact ⟨rfl, hg, fun _ _ _ => rfl⟩
  | none =>
    simp only
    cases ho : hasOutputDirectory x.ft x.mkdir dir s with
    | error e => exact ⟨rfl, hg, fun _ _ _ => rfl⟩
    | ok r =>
      obtain ⟨b, s'⟩ := r
      have hg' := hg.trans (hasOutputDirectory_grows x.ft x.mkdir dir s s' b ho).2
      cases b with
      | false => exact ⟨rfl, hg', fun _ _ _ => rfl⟩
      | true =>
        simp only
        cases getOutputDirectory x.ft dir s'.config with
        | error e => exact ⟨rfl, hg', fun _ _ _ => rfl⟩
        | ok out =>
          simp only
          split
          · refine ⟨rfl, hg', fun d f hf => ?_⟩
            show (if d = out then _ else w.results d) f = _
            split
            · next h => rw [h]; exact if_neg hf
            · rfl
          · exact ⟨rfl, hg', fun _ _ _ => rfl⟩

/-- `compare`: configuration files are the same, files are kept, and only the log and files of the comparison change in output
directories. -/
theorem cliCompare_keeps (x : Setup K S C) (name path1 path2 routes : Text) (w : World) :
    (cliCompare x name path1 path2 routes w).1.texts = w.texts ∧ Grows w.disk (cliCompare x name path1 path2 routes w).1.disk ∧
      ∀ d f, f ≠ "fm2prof.log".toList → ¬ ComparisonFile f →
        (cliCompare x name path1 path2 routes w).1.results d f = w.results d f := by
  unfold cliCompare
  cases withSuffix ".ini".toList name with
  | error e => exact ⟨rfl, .rfl' _, fun _ _ _ _ => rfl⟩
  | ok path =>
    simp only
    obtain ⟨k1, k2, k3⟩ := openRunner_keeps x path w
    rcases e : openRunner x path w with ⟨w', r⟩
    rw [e] at k1 k2 k3
    cases r with
    | error e => exact ⟨k1, k2, fun d f hf _ => k3 d f hf⟩
    | ok p =>
      simp only
      obtain ⟨j1, j2, j3⟩ := compareProject_keeps x p path1 path2 routes w'
      rcases e2 : compareProject x p path1 path2 routes w' with ⟨w'', r2⟩
      rw [e2] at j1 j2 j3
      have g : Grows w.disk w''.disk := by
        rw [show w''.disk = w'.disk from j2]
        exact k2
      cases r2 <;> exact ⟨j1.trans k1, g, fun d f hf hc => (j3 d f hc).trans (k3 d f hf)⟩

theorem log_not_result : ¬ IsResult "fm2prof.log".toList := by
  unfold IsResult
  decide

theorem hasResults_same (s s' : Store) (h : ∀ f, f ≠ "fm2prof.log".toList → s' f = s f) (hr : HasResults s) : HasResults s' := by
  obtain ⟨f, hf, hs⟩ := hr
  refine ⟨f, hf, ?_⟩
  rw [h f (fun e => log_not_result (e ▸ hf))]
  exact hs

end Fm2prof
