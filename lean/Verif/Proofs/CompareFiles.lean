import Verif.Spec.Cli
import Verif.Proofs.Stats

/-! Helper lemmas: the files that a comparison leaves alone. -/

set_option linter.unusedSectionVars false

namespace Fm2prof

open Spec

variable {K : Type} [Field K] [LinearOrder K] [IsStrictOrderedRing K] [FloorRing K] {S C : Type}

theorem load1d_keeps (clock : Clock) (ft : FloatText K) (offset : Int) (his : Except PyErr (His1d K)) (dir : Store) (f : Text)
    (h1 : f ≠ file1dH) (h2 : f ≠ file1dQ) : (load1d clock ft offset his dir).1 f = dir f := by
  unfold load1d
  split
  · rfl
  · split
    · rfl
    · split
      · rfl
      · exact writes1d_other clock ft dir _ f h2 h1

theorem makeMap_keeps (his : Except PyErr (His2d K)) (names : List Text) (dir : Store) (f : Text) (h : f ≠ fileMap) :
    (makeMap his names dir).1 f = dir f := by
  unfold makeMap
  split
  · rfl
  · split
    · rfl
    · exact store_set_other _ _ _ _ h

theorem import2d_keeps (clock : Clock) (ft : FloatText K) (his : Except PyErr (His2d K)) (dir : Store) (f : Text) (h1 : f ≠ file2dH)
    (h2 : f ≠ file2dQ) : (import2d clock ft his dir).1 f = dir f := by
  unfold import2d
  split
  · rfl
  · split
    · rfl
    · split
      · rfl
      · split
        · rfl
        · split
          · exact store_set_other _ _ _ _ h2
          · exact (store_set_other _ _ _ _ h1).trans (store_set_other _ _ _ _ h2)

theorem load2d_keeps (clock : Clock) (ft : FloatText K) (his : Except PyErr (His2d K)) (dir : Store) (f : Text) (h1 : f ≠ file2dH)
    (h2 : f ≠ file2dQ) : (load2d clock ft his dir).1 f = dir f := by
  have h := import2d_keeps clock ft his dir f h1 h2
  unfold load2d
  split
  · rfl
  · rcases e : import2d clock ft his dir with ⟨d, r⟩
    rw [e] at h
    cases r <;> exact h

theorem readAllData_keeps (clock : Clock) (ft : FloatText K) (offset : Int) (his1 : Except PyErr (His1d K)) (his2 : Except PyErr (His2d K))
    (dir : Store) (f : Text) (hf : f ∉ [file1dH, file1dQ, fileMap, file2dQ, file2dH]) :
    (readAllData clock ft offset his1 his2 dir).1 f = dir f := by
  simp only [List.mem_cons, not_or, List.not_mem_nil, not_false_iff, and_true] at hf
  obtain ⟨h1, h2, h3, h4, h5⟩ := hf
  have k1 := load1d_keeps clock ft offset his1 dir f h1 h2
  unfold readAllData
  rcases e1 : load1d clock ft offset his1 dir with ⟨d1, r1⟩
  rw [e1] at k1
  cases r1 with
  | error e => exact k1
  | ok one =>
    simp only
    have k2 := makeMap_keeps his2 one.1.columns d1 f h3
    rcases e2 : makeMap his2 one.1.columns d1 with ⟨d2, r2⟩
    rw [e2] at k2
    cases r2 with
    | error e => exact k2.trans k1
    | ok u =>
      simp only
      have k3 := load2d_keeps clock ft his2 d2 f h5 h4
      rcases e3 : load2d clock ft his2 d2 with ⟨d3, r3⟩
      rw [e3] at k3
      cases r3 <;> exact k3.trans (k2.trans k1)

theorem initCompare_keeps (clock : Clock) (ft : FloatText K) (isFile : Text → Bool) (read1 : Text → Except PyErr (His1d K))
    (read2 : Text → Except PyErr (His2d K)) (path1 path2 : Option Text) (dir : Store) (f : Text)
    (hf : f ∉ [file1dH, file1dQ, fileMap, file2dQ, file2dH]) :
    (initCompare clock ft isFile read1 read2 path1 path2 dir).1 f = dir f := by
  unfold initCompare
  split
  · rfl
  · exact readAllData_keeps clock ft 0 _ _ dir f hf

theorem ratingOf_keeps (ft : FloatText K) (file : Text) (h q : Frame K) (dir : Store) (f : Text) (hf : f ≠ file) :
    (ratingOf ft file h q dir).1 f = dir f := by
  unfold ratingOf
  split
  · rfl
  · split
    · rfl
    · exact store_set_other _ _ _ _ hf

theorem openComparison_keeps (ft : FloatText K) (w : Window Int) (one two : Frame K × Frame K) (dir : Store) (f : Text)
    (h1 : f ≠ fileRating1d) (h2 : f ≠ fileRating2d) : (openComparison ft w one two dir).1 f = dir f := by
  have hd : (digitizeData ft one two dir).1 f = dir f := by
    unfold digitizeData
    have k1 := ratingOf_keeps ft fileRating1d one.1 one.2 dir f h1
    rcases e1 : ratingOf ft fileRating1d one.1 one.2 dir with ⟨d1, r1⟩
    rw [e1] at k1
    cases r1 with
    | error e => exact k1
    | ok r =>
      simp only
      have k2 := ratingOf_keeps ft fileRating2d two.1 two.2 d1 f h2
      rcases e2 : ratingOf ft fileRating2d two.1 two.2 d1 with ⟨d2, r2⟩
      rw [e2] at k2
      cases r2 <;> exact k2.trans k1
  unfold openComparison
  rcases e : digitizeData ft one two dir with ⟨d, r⟩
  rw [e] at hd
  cases r <;> exact hd

/-- Figures are kept in one directory. -/
theorem figureKindFile_figures (k : FigureKind) : ∃ r, figureKindFile k = "figures/".toList ++ r := by
  cases k with
  | longitudinal r s => exact ⟨"longitudinal/".toList ++ joinWith ['-'] r ++ ".png".toList, rfl⟩
  | ratingCurve r => exact ⟨"longitudinal/".toList ++ joinWith ['-'] r ++ "_rating_curve.png".toList, rfl⟩
  | heatTime r => exact ⟨"heatmaps/".toList ++ joinWith ['-'] r ++ "_timeseries.png".toList, rfl⟩
  | heatRating r => exact ⟨"heatmaps/".toList ++ joinWith ['-'] r ++ "_rating_curve.png".toList, rfl⟩
  | station n s => exact ⟨"stations/".toList ++ n ++ ".png".toList, rfl⟩
  | discharge s t => exact ⟨"discharge/".toList ++ t ++ ".png".toList, rfl⟩

/-- Drawing figures is a list of writes, which does not depend on the directory, to files in the directory of figures. -/
theorem saveKinds_writes (o : ArgSort K) (parse : Text → Option K) (image : FigureContent K → Text) (ks : List FigureKind)
    (c : Comparison K) : ∃ (c' : Comparison K) (ws : List (Text × Text)) (r : Except PyErr Unit),
      (∀ w ∈ ws, ∃ k ∈ ks, w.1 = figureKindFile k) ∧ ∀ dir, saveKinds o parse image ks c dir = (c', writeAll dir ws, r) := by
  induction ks generalizing c with
  | nil => exact ⟨c, [], .ok (), fun _ h => (by cases h), fun _ => rfl⟩
  | cons k ks ih =>
    rcases hc : figureContent o parse c k with ⟨c1, e | f⟩
    · refine ⟨c1, [], .error e, fun _ h => (by cases h), fun dir => ?_⟩
      unfold saveKinds saveKind
      rw [hc]
      rfl
    · obtain ⟨c', ws, r, h1, h2⟩ := ih c1
      cases f with
      | none =>
        refine ⟨c', ws, r, fun w hw => ?_, fun dir => ?_⟩
        · obtain ⟨k', hk', e⟩ := h1 w hw
          exact ⟨k', List.mem_cons_of_mem _ hk', e⟩
        · unfold saveKinds saveKind
          rw [hc]
          exact h2 dir
      | some f =>
        refine ⟨c', (figureKindFile k, image f) :: ws, r, fun w hw => ?_, fun dir => ?_⟩
        · rcases List.mem_cons.1 hw with rfl | hw
          · exact ⟨k, List.mem_cons_self, rfl⟩
          · obtain ⟨k', hk', e⟩ := h1 w hw
            exact ⟨k', List.mem_cons_of_mem _ hk', e⟩
        · unfold saveKinds saveKind
          rw [hc]
          exact h2 _

theorem evalFigures_writes (o : ArgSort K) (parse : Text → Option K) (image : FigureContent K → Text) (c : Comparison K) :
    ∃ (ws : List (Text × Text)) (r : Except PyErr Unit),
      (∀ w ∈ ws, ∃ f, w.1 = "figures/".toList ++ f) ∧ ∀ dir, (evalFigures o parse image c dir).2 = (writeAll dir ws, r) := by
  unfold evalFigures
  cases c.routes with
  | none => exact ⟨[], _, fun _ h => (by cases h), fun _ => rfl⟩
  | some routes =>
    obtain ⟨c', ws, r, h1, h2⟩ := saveKinds_writes o parse image
      (routes.flatMap routeKinds ++ c.session.h1.columns.map fun n => .station n "time".toList) c
    refine ⟨ws, r, fun w hw => ?_, fun dir => congrArg Prod.snd (h2 dir)⟩
    obtain ⟨k, _, e⟩ := h1 w hw
    rw [e]
    exact figureKindFile_figures k

/-- A comparison changes no other file. -/
theorem compareResults_keeps (y : CompareTools K) (ft : FloatText K) (isFile : Text → Bool) (path1 path2 routes : Text) (s : Store)
    (f : Text) (hf : ¬ ComparisonFile f) : (compareResults y ft isFile path1 path2 routes s).1 f = s f := by
  obtain ⟨hf1, hf2⟩ := not_or.1 hf
  have h5 : f ∉ [file1dH, file1dQ, fileMap, file2dQ, file2dH] := by
    intro h
    apply hf1
    simp only [List.mem_cons, List.not_mem_nil, or_false] at h
    rcases h with rfl | rfl | rfl | rfl | rfl <;> decide
  have h6 : f ≠ fileRating1d := by
    rintro rfl
    exact hf1 (by decide)
  have h7 : f ≠ fileRating2d := by
    rintro rfl
    exact hf1 (by decide)
  unfold compareResults
  cases y.routes routes with
  | error e => rfl
  | ok rs =>
    simp only
    have k1 := initCompare_keeps y.clock ft isFile y.read1 y.read2 (some path1) (some path2) s f h5
    rcases e1 : initCompare y.clock ft isFile y.read1 y.read2 (some path1) (some path2) s with ⟨s1, r1⟩
    rw [e1] at k1
    cases r1 with
    | error e => exact k1
    | ok p =>
      obtain ⟨one, two⟩ := p
      simp only
      have k2 := openComparison_keeps ft ⟨none, none⟩ one two s1 f h6 h7
      rcases e2 : openComparison ft ⟨none, none⟩ one two s1 with ⟨s2, r2⟩
      rw [e2] at k2
      cases r2 with
      | error e => exact k2.trans k1
      | ok q =>
        obtain ⟨session, r1, r2⟩ := q
        simp only
        obtain ⟨ws, r, h1, h2⟩ := evalFigures_writes y.order ft.parse y.image ⟨session, one.2, two.2, r1, r2, rs⟩
        rw [h2]
        refine (writeAll_other _ _ _ fun h => ?_).trans (k2.trans k1)
        obtain ⟨w, hw, rfl⟩ := List.mem_map.1 h
        exact hf2 (h1 w hw)

theorem result_not_comparison (f : Text) (h : IsResult f) : ¬ ComparisonFile f := by
  obtain ⟨r, hr, rfl⟩ := h
  have : ∀ r ∈ resultFiles, r.toList ∉ ["1D_H.csv".toList, "1D_Q.csv".toList, "2D_H.csv".toList, "2D_Q.csv".toList,
      "map_1d_2d.csv".toList, "1D_H_digitized.csv".toList, "2D_H_digitized.csv".toList] ∧ r.toList.take 8 ≠ "figures/".toList := by
    decide
  rintro (h | ⟨t, ht⟩)
  · exact (this r hr).1 h
  · apply (this r hr).2
    rw [ht]
    rfl

/-- What `compare` leaves: only files of the comparison in the output directory change. -/
theorem compareProject_keeps (x : Setup K S C) (p : Opened K) (path1 path2 routes : Text) (w : World) :
    (compareProject x p path1 path2 routes w).1.texts = w.texts ∧ (compareProject x p path1 path2 routes w).1.disk = w.disk ∧
      ∀ d f, ¬ ComparisonFile f → (compareProject x p path1 path2 routes w).1.results d f = w.results d f := by
  unfold compareProject
  cases p with
  | none => exact ⟨rfl, rfl, fun _ _ _ => rfl⟩
  | some q =>
    simp only
    cases getOutputDirectory x.ft q.1 q.2 with
    | error e => exact ⟨rfl, rfl, fun _ _ _ => rfl⟩
    | ok out =>
      simp only
      split
      · refine ⟨rfl, rfl, fun d f hf => ?_⟩
        show (if d = out then _ else w.results d) f = _
        split
        · next h => rw [h]; exact compareResults_keeps _ _ _ _ _ _ _ f hf
        · rfl
      · exact ⟨rfl, rfl, fun _ _ _ => rfl⟩

end Fm2prof
