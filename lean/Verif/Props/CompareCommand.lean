import Verif.Proofs.CompareEval
import Verif.Props.Cli

/-!
# Comparing from the command line
-/

set_option linter.unusedSectionVars false

namespace Fm2prof.Props

open Fm2prof Spec

variable {K : Type} [Field K] [LinearOrder K] [IsStrictOrderedRing K] [FloorRing K] {S C : Type}

/-! ## C178: comparing does not touch anything else -/

/-- **C178.** Comparing keeps all configuration files, input files and directories, and in every output directory all files but the log and
those of comparisons. None of the files of results is a file of comparisons. -/
theorem C178_kept (x : Setup K S C) (name p1 p2 routes : Text) (w : World) :
    (command x w (.compare name p1 p2 routes)).1.texts = w.texts ∧
    Grows w.disk (command x w (.compare name p1 p2 routes)).1.disk ∧
    (∀ d f, f ≠ "fm2prof.log".toList → ¬ ComparisonFile f →
      (command x w (.compare name p1 p2 routes)).1.results d f = w.results d f) ∧
    ∀ f, IsResult f → f ≠ "fm2prof.log".toList ∧ ¬ ComparisonFile f := by
  obtain ⟨h1, h2, h3⟩ := cliCompare_keeps x name p1 p2 routes w
  refine ⟨h1, h2, h3, fun f hf => ⟨?_, result_not_comparison f hf⟩⟩
  obtain ⟨r, hr, rfl⟩ := hf
  have : ∀ r ∈ resultFiles, r.toList ≠ "fm2prof.log".toList := by decide
  exact this r hr

theorem openRunner_elsewhere (x : Setup K S C) (path : Text) (w : World) (d : Text)
    (h : ∀ dir c, (openRunner x path w).2 = .ok (some (dir, c)) → getOutputDirectory x.ft dir c ≠ .ok d) :
    (openRunner x path w).1.results d = w.results d := by
  unfold openRunner at h ⊢
  rcases e : loadProject x path w with ⟨dir, s, r⟩
  rw [e] at h
  cases r with
  | some e =>
    simp only
    split <;> rfl
  | none =>
    simp only at h ⊢
    cases ho : hasOutputDirectory x.ft x.mkdir dir s with
    | error e => rfl
    | ok r =>
      obtain ⟨b, s'⟩ := r
      rw [ho] at h
      cases b with
      | false => rfl
      | true =>
        simp only at h ⊢
        cases hg : getOutputDirectory x.ft dir s'.config with
        | error e => rfl
        | ok out =>
          rw [hg] at h
          simp only at h ⊢
          by_cases hd : out ∈ s'.disk.dirs
          · rw [if_pos hd] at h ⊢
            have hne : d ≠ out := fun e => h dir s'.config rfl (by rw [hg, e])
            show (if d = out then _ else w.results d) = _
            rw [if_neg hne]
          · rw [if_neg hd]

/-- **C178, elsewhere.** Comparing changes no file of a directory that is not the output directory of the project. -/
theorem C178_elsewhere (x : Setup K S C) (name p1 p2 routes : Text) (w : World) (d : Text)
    (h : ∀ dir c, configurationOf x name w = .ok (some (dir, c)) → getOutputDirectory x.ft dir c ≠ .ok d) :
    (command x w (.compare name p1 p2 routes)).1.results d = w.results d := by
  show (cliCompare x name p1 p2 routes w).1.results d = _
  unfold configurationOf at h
  unfold cliCompare
  cases hn : withSuffix ".ini".toList name with
  | error e => rfl
  | ok path =>
    rw [hn] at h
    simp only at h ⊢
    have k := openRunner_elsewhere x path w d h
    rcases e : openRunner x path w with ⟨w', r⟩
    rw [e] at k h
    cases r with
    | error e => exact k
    | ok p =>
      simp only
      have j : (compareProject x p p1 p2 routes w').1.results d = w'.results d := by
        unfold compareProject
        cases p with
        | none => rfl
        | some q =>
          simp only
          cases hg : getOutputDirectory x.ft q.1 q.2 with
          | error e => rfl
          | ok out =>
            simp only
            by_cases ho : out ∈ w'.disk.dirs
            · rw [if_pos ho]
              have hne : d ≠ out := fun e => h q.1 q.2 rfl (by rw [hg, e])
              show (if d = out then _ else w'.results d) = _
              rw [if_neg hne]
            · rw [if_neg ho]
      rcases e2 : compareProject x p p1 p2 routes w' with ⟨w'', r2⟩
      rw [e2] at j
      cases r2 <;> exact j.trans k

/-! ## C179: what a comparison leaves behind -/

/-- The exit status for what a comparison gives. -/
def exitOf : Except PyErr Unit → Nat
  | .ok _ => 0
  | .error _ => 1

/-- A comparison from the command line is one in the output directory. -/
theorem compare_in (x : Setup K S C) (name p1 p2 routes : Text) (w : World) (out : Text) (ho : OutputOf x name w out) :
    ∃ s : Store, (∀ f, f ≠ "fm2prof.log".toList → s f = w.results out f) ∧
      (command x w (.compare name p1 p2 routes)).1.results out =
        (compareResults x.compare x.ft (fun p => decide (p ∈ w.disk.files)) p1 p2 routes s).1 ∧
      (command x w (.compare name p1 p2 routes)).2 =
        exitOf (compareResults x.compare x.ft (fun p => decide (p ∈ w.disk.files)) p1 p2 routes s).2 := by
  obtain ⟨dir, c, hc, hg, hd⟩ := ho
  show ∃ s : Store, _ ∧ (cliCompare x name p1 p2 routes w).1.results out = _ ∧ (cliCompare x name p1 p2 routes w).2 = _
  unfold configurationOf at hc
  unfold cliCompare
  cases hn : withSuffix ".ini".toList name with
  | error e => rw [hn] at hc; cases hc
  | ok path =>
    rw [hn] at hc
    simp only at hc ⊢
    obtain ⟨-, k2, k3⟩ := openRunner_keeps x path w
    rcases e : openRunner x path w with ⟨w', r⟩
    rw [e] at hc k2 k3
    simp only at hc k2 k3
    subst hc
    simp only
    refine ⟨w'.results out, fun f hf => k3 out f hf, ?_⟩
    have e2 : compareProject x (some (dir, c)) p1 p2 routes w' =
        ({ w' with results := fun d => if d = out then
            (compareResults x.compare x.ft (fun p => decide (p ∈ w.disk.files)) p1 p2 routes (w'.results out)).1 else w'.results d },
          (compareResults x.compare x.ft (fun p => decide (p ∈ w.disk.files)) p1 p2 routes (w'.results out)).2) := by
      unfold compareProject
      simp only [hg]
      rw [if_pos (k2.2 out hd), k2.1]
    rw [e2]
    rcases compareResults x.compare x.ft (fun p => decide (p ∈ w.disk.files)) p1 p2 routes (w'.results out) with ⟨s, r⟩
    cases r with
    | error e => exact ⟨if_pos rfl, rfl⟩
    | ok u => exact ⟨if_pos rfl, rfl⟩

/-- The output directory after a first comparison. -/
theorem first_compare (x : Setup K S C) (name p1 p2 routes : Text) (w : World) (out : Text) (ho : OutputOf x name w out)
    (hnew : ∀ f, ComparisonFile f → w.results out f = none) (rs : Option (List (List Text))) (hrs : x.compare.routes routes = .ok rs)
    (his1 : His1d K) (his2 : His2d K) (t1 t2 : Int) (hr : AreResults x.compare x.ft w.disk.files p1 p2 his1 his2 t1 t2) :
    ∃ r1 r2 s, IsRating (levels1d t1 0 his1) (discharges1d t1 0 his1) r1 ∧
      IsRating (levels2d t2 his2 his1.names) (discharges2d t2 his2 his1.names) r2 ∧
      (∀ z ∈ writesOf x.compare.clock x.ft t1 0 t2 his1 his2, s z.1 = some z.2) ∧
      s "1D_H_digitized.csv".toList = some (ratingText x.ft r1) ∧ s "2D_H_digitized.csv".toList = some (ratingText x.ft r2) ∧
      (∀ f, s ("figures/".toList ++ f) = none) ∧
      (command x w (.compare name p1 p2 routes)).1.results out =
        (evalFigures x.compare.order x.ft.parse x.compare.image (comparisonOf his1 his2 t1 t2 r1 r2 rs) s).2.1 ∧
      (command x w (.compare name p1 p2 routes)).2 =
        exitOf (evalFigures x.compare.order x.ft.parse x.compare.image (comparisonOf his1 his2 t1 t2 r1 r2 rs) s).2.2 := by
  obtain ⟨s, hs, e1, e2⟩ := compare_in x name p1 p2 routes w out ho
  have hlog : ∀ f, ComparisonFile f → f ≠ "fm2prof.log".toList := by
    intro f hf e
    rw [e] at hf
    rcases hf with hf | ⟨r, hf⟩
    · exact absurd hf (by decide)
    · have : "fm2prof.log".toList.take 8 = "figures/".toList := by
        rw [hf]
        rfl
      exact absurd this (by decide)
  obtain ⟨r1, r2, i1, i2, e⟩ := compareResults_fresh x.compare x.ft (fun p => decide (p ∈ w.disk.files)) p1 p2 routes rs hrs
    (decide_eq_true hr.file1) (decide_eq_true hr.file2) his1 his2 hr.read1 hr.read2 t1 t2 hr.good1 hr.good2 hr.timeOfDay s
    (fun f hf => (hs f (hlog f hf)).trans (hnew f hf))
  refine ⟨r1, r2, _, i1, i2, ?_, ?_, ?_, ?_, by rw [e1, e], by rw [e2, e]⟩
  · intro z hz
    have hne : z.1 ≠ "1D_H_digitized.csv".toList ∧ z.1 ≠ "2D_H_digitized.csv".toList := by
      have hm : z.1 ∈ (writesOf x.compare.clock x.ft t1 0 t2 his1 his2).map (·.1) := List.mem_map_of_mem hz
      have hall : ∀ n ∈ ["1D_H.csv".toList, "1D_Q.csv".toList, "map_1d_2d.csv".toList, "2D_Q.csv".toList, "2D_H.csv".toList],
          n ≠ "1D_H_digitized.csv".toList ∧ n ≠ "2D_H_digitized.csv".toList := by decide
      exact hall z.1 hm
    rw [store_set_other _ _ _ _ hne.2, store_set_other _ _ _ _ hne.1]
    exact writeAll_mem _ _ (by
      show ["1D_H.csv".toList, "1D_Q.csv".toList, "map_1d_2d.csv".toList, "2D_Q.csv".toList, "2D_H.csv".toList].Nodup
      decide) z hz
  · exact (store_set_other _ _ _ _ (by decide)).trans (store_set_same _ _ _)
  · exact store_set_same _ _ _
  · intro f
    have hne : ∀ n : Text, n.take 8 ≠ "figures/".toList → "figures/".toList ++ f ≠ n := fun n hn h => hn (by rw [← h]; rfl)
    rw [store_set_other _ _ _ _ (hne _ (by decide)), store_set_other _ _ _ _ (hne _ (by decide)), writeAll_other,
      hs _ (hlog _ (.inr ⟨f, rfl⟩)), hnew _ (.inr ⟨f, rfl⟩)]
    intro hm
    have hall : ∀ n ∈ ["1D_H.csv".toList, "1D_Q.csv".toList, "map_1d_2d.csv".toList, "2D_Q.csv".toList, "2D_H.csv".toList],
      n.take 8 ≠ "figures/".toList := by decide
    exact hall _ hm rfl

/-- **C179, tables, partial.** A first comparison in an output directory leaves there the levels and the discharges of both results, the
stations, and the rating curves of both results, whether or not the figures can be drawn. What is missing: there are no files of a
comparison in the directory yet, see `C180_stale_violated`. -/
theorem C179_tables_partial (x : Setup K S C) (name p1 p2 routes : Text) (w : World) (out : Text) (ho : OutputOf x name w out)
    (hnew : ∀ f, ComparisonFile f → w.results out f = none) (rs : Option (List (List Text))) (hrs : x.compare.routes routes = .ok rs)
    (his1 : His1d K) (his2 : His2d K) (t1 t2 : Int) (hr : AreResults x.compare x.ft w.disk.files p1 p2 his1 his2 t1 t2) :
    (∀ z ∈ writesOf x.compare.clock x.ft t1 0 t2 his1 his2, (command x w (.compare name p1 p2 routes)).1.results out z.1 = some z.2) ∧
    ∃ r1 r2, IsRating (levels1d t1 0 his1) (discharges1d t1 0 his1) r1 ∧
      IsRating (levels2d t2 his2 his1.names) (discharges2d t2 his2 his1.names) r2 ∧
      (command x w (.compare name p1 p2 routes)).1.results out "1D_H_digitized.csv".toList = some (ratingText x.ft r1) ∧
      (command x w (.compare name p1 p2 routes)).1.results out "2D_H_digitized.csv".toList = some (ratingText x.ft r2) := by
  obtain ⟨r1, r2, s, i1, i2, hw, hs1, hs2, -, e, -⟩ := first_compare x name p1 p2 routes w out ho hnew rs hrs his1 his2 t1 t2 hr
  have hfig : ∀ f, f.take 8 ≠ "figures/".toList → (command x w (.compare name p1 p2 routes)).1.results out f = s f := by
    intro f hf
    rw [e]
    refine eval_keeps _ _ _ _ _ _ fun r h => hf ?_
    rw [h]
    rfl
  refine ⟨fun z hz => ?_, r1, r2, i1, i2, (hfig _ (by decide)).trans hs1, (hfig _ (by decide)).trans hs2⟩
  rw [hfig z.1, hw z hz]
  have hm : z.1 ∈ (writesOf x.compare.clock x.ft t1 0 t2 his1 his2).map (·.1) := List.mem_map_of_mem hz
  have hall : ∀ n ∈ ["1D_H.csv".toList, "1D_Q.csv".toList, "map_1d_2d.csv".toList, "2D_Q.csv".toList, "2D_H.csv".toList],
      n.take 8 ≠ "figures/".toList := by decide
  exact hall z.1 hm

/-- **C179, figures, partial.** When a first comparison exits with 0, there are for each route a figure with the levels along it, a heat map
of the differences and one of the differences between the rating curves, and for each station a figure with its levels and
statistics, from the first to the last record of the 1D results, or of the 2D results when there are no routes. What is missing: names
of branches with `-` or `_`. -/
theorem C179_figures_partial (x : Setup K S C) (name p1 p2 routes : Text) (w : World) (out : Text) (ho : OutputOf x name w out)
    (hnew : ∀ f, ComparisonFile f → w.results out f = none) (rs : List (List Text)) (hrs : x.compare.routes routes = .ok (some rs))
    (hplain : ∀ route ∈ rs, route ≠ [] ∧ ∀ b ∈ route, '-' ∉ b ∧ '_' ∉ b)
    (his1 : His1d K) (his2 : His2d K) (t1 t2 : Int) (hr : AreResults x.compare x.ft w.disk.files p1 p2 his1 his2 t1 t2)
    (a1 b1 a2 b2 : Int) (ov : Overlap (timesOf t1 0 his1.seconds) (timesOf t2 0 his2.seconds) a1 b1 a2 b2)
    (hlong : rs ≠ [] → (∃ t ∈ timesOf t2 0 his2.seconds, a1 ≤ t ∧ t ≤ b1) ∧ 6 * 86400 ≤ b1 - a1)
    (h0 : (command x w (.compare name p1 p2 routes)).2 = 0) :
    (∀ route ∈ rs,
      (∃ f, (command x w (.compare name p1 p2 routes)).1.results out (figureKindFile (.longitudinal route "time".toList)) =
          some (x.compare.image (.long f)) ∧
        ShowsRoute x.compare.order x.ft.parse (timesOf t1 0 his1.seconds) (timesOf t2 0 his2.seconds) (levels1d t1 0 his1)
          (levels2d t2 his2 his1.names) route a1 b1 f) ∧
      (∃ f, (command x w (.compare name p1 p2 routes)).1.results out (figureKindFile (.heatTime route)) =
          some (x.compare.image (.heatTime f)) ∧
        ShowsDifferences x.compare.order x.ft.parse (timesOf t1 0 his1.seconds) (timesOf t2 0 his2.seconds) (levels1d t1 0 his1)
          (levels2d t2 his2 his1.names) route f) ∧
      ∃ f r1 r2, (command x w (.compare name p1 p2 routes)).1.results out (figureKindFile (.heatRating route)) =
          some (x.compare.image (.heatRating f)) ∧
        IsRating (levels1d t1 0 his1) (discharges1d t1 0 his1) r1 ∧
        IsRating (levels2d t2 his2 his1.names) (discharges2d t2 his2 his1.names) r2 ∧
        ShowsCurveDifferences x.compare.order x.ft.parse his1.names r1 r2 route f) ∧
    ∀ n ∈ his1.names, ∃ f, (command x w (.compare name p1 p2 routes)).1.results out (figureKindFile (.station n "time".toList)) =
        some (x.compare.image (.station f)) ∧
      ShowsStation x.ft.parse (timesOf t1 0 his1.seconds) (timesOf t2 0 his2.seconds) (levels1d t1 0 his1)
        (levels2d t2 his2 his1.names) (if rs = [] then a2 else a1) (if rs = [] then b2 else b1) n f := by
  obtain ⟨r1, r2, s, i1, i2, -, -, -, -, e, e0⟩ := first_compare x name p1 p2 routes w out ho hnew (some rs) hrs his1 his2 t1 t2 hr
  have hok : (evalFigures x.compare.order x.ft.parse x.compare.image (comparisonOf his1 his2 t1 t2 r1 r2 (some rs)) s).2.2 = .ok () := by
    rw [h0] at e0
    cases hh : (evalFigures x.compare.order x.ft.parse x.compare.image (comparisonOf his1 his2 t1 t2 r1 r2 (some rs)) s).2.2 with
    | error e => rw [hh] at e0; cases e0
    | ok u => rfl
  obtain ⟨g1, g2⟩ := eval_shows x.compare.order x.ft.parse x.compare.image (levels1d t1 0 his1) (levels2d t2 his2 his1.names)
    (discharges1d t1 0 his1) (discharges2d t2 his2 his1.names) r1 r2 rs _ _ a1 b1 a2 b2
    (sameStations_results x.compare.clock x.ft his1 his2 t1 t2 hr.good1 hr.good2 hr.increasing1 hr.increasing2) ov hlong hplain s hok
  rw [e]
  refine ⟨fun route hroute => ?_, g2⟩
  obtain ⟨k1, k2, -, k3⟩ := g1 route hroute
  refine ⟨k1, k2, _, r1, r2, k3, i1, i2, ?_⟩
  exact C157_curves_partial x.compare.order x.ft.parse his1.names route r1 r2 i1.columns i2.columns (i1.labels.trans i2.labels.symm)
    (by rw [i1.rows, i1.labels, List.length_map, List.length_range]) (by rw [i2.rows, i2.labels, List.length_map, List.length_range])

/-- The figure of rating curves can be made, or nothing is drawn. -/
theorem curves_drawn (o : ArgSort K) (parse : Text → Option K) (route : List Text) (h1 q1 h2 q2 : Frame K) (r1 r2 : Rating K)
    (hc : h2.columns = h1.columns) (i1 : IsRating h1 q1 r1) (i2 : IsRating h2 q2 r2) (hd : DistinctCurves o parse h1.columns r1 r2 route) :
    ∃ f, figureRating o parse h1.columns r1 r2 route = .ok f ∧ ∀ g, f = some g → ShowsCurves o parse h1.columns r1 r2 route g := by
  obtain ⟨last, hlast, hlev⟩ := hd.last
  rcases C162_lines_partial o parse h1.columns route r1 r2 i1.columns (i2.columns.trans hc) (i1.labels.trans i2.labels.symm)
    (by rw [i1.rows, i1.labels, List.length_map, List.length_range]) (by rw [i2.rows, i2.labels, List.length_map, List.length_range])
    (by
      rw [i1.labels, List.pairwise_map]
      exact List.pairwise_lt_range.imp fun {a b} h => by
        have : (a : K) < b := Nat.cast_lt.2 h
        linarith)
    (by
      intro q hq
      rw [i1.labels] at hq
      obtain ⟨i, -, rfl⟩ := List.mem_map.1 hq
      positivity)
    hd.kilometres hd.curves1 hd.curves2 last hlast hlev with h | ⟨f, qs, h, g1, g2, g3, g4⟩
  · exact ⟨none, h, fun g hg => (by cases hg)⟩
  · exact ⟨some f, h, fun g hg => by rw [← Option.some.inj hg]; exact ⟨last, qs, hlast, g1, g2, g3, g4⟩⟩

/-- **C179, exit status, partial.** A first comparison of results that cover a common period, of at least six days when there are routes,
exits with 0 when the rating curves can be told apart along each route. What is missing: other results; see `C162_same_km_violated` for
stations with the same kilometre. -/
theorem C179_exit_partial (x : Setup K S C) (name p1 p2 routes : Text) (w : World) (out : Text) (ho : OutputOf x name w out)
    (hnew : ∀ f, ComparisonFile f → w.results out f = none) (rs : List (List Text)) (hrs : x.compare.routes routes = .ok (some rs))
    (his1 : His1d K) (his2 : His2d K) (t1 t2 : Int) (hr : AreResults x.compare x.ft w.disk.files p1 p2 his1 his2 t1 t2)
    (a1 b1 a2 b2 : Int) (ov : Overlap (timesOf t1 0 his1.seconds) (timesOf t2 0 his2.seconds) a1 b1 a2 b2)
    (hlong : rs ≠ [] → (∃ t ∈ timesOf t2 0 his2.seconds, a1 ≤ t ∧ t ≤ b1) ∧ 6 * 86400 ≤ b1 - a1)
    (hcurves : ∀ r1 r2, IsRating (levels1d t1 0 his1) (discharges1d t1 0 his1) r1 →
      IsRating (levels2d t2 his2 his1.names) (discharges2d t2 his2 his1.names) r2 →
      ∀ route ∈ rs, DistinctCurves x.compare.order x.ft.parse his1.names r1 r2 route) :
    (command x w (.compare name p1 p2 routes)).2 = 0 := by
  obtain ⟨r1, r2, s, i1, i2, -, -, -, -, -, e0⟩ := first_compare x name p1 p2 routes w out ho hnew (some rs) hrs his1 his2 t1 t2 hr
  have hs := sameStations_results x.compare.clock x.ft his1 his2 t1 t2 hr.good1 hr.good2 hr.increasing1 hr.increasing2
  have hok := eval_ok x.compare.order x.ft.parse x.compare.image (levels1d t1 0 his1) (levels2d t2 his2 his1.names)
    (discharges1d t1 0 his1) (discharges2d t2 his2 his1.names) r1 r2 rs _ _ a1 b1 a2 b2 hs ov hlong
    (fun route hroute => by
      obtain ⟨f, hf, -⟩ := curves_drawn x.compare.order x.ft.parse route (levels1d t1 0 his1) _ (levels2d t2 his2 his1.names) _
        r1 r2 rfl i1 i2 (hcurves r1 r2 i1 i2 route hroute)
      exact ⟨f, hf⟩) s
  rw [e0]
  have e : evalFigures x.compare.order x.ft.parse x.compare.image (comparisonOf his1 his2 t1 t2 r1 r2 (some rs)) s =
    evalFigures x.compare.order x.ft.parse x.compare.image ⟨⟨levels1d t1 0 his1, levels2d t2 his2 his1.names, ⟨none, none⟩, none⟩,
      discharges1d t1 0 his1, discharges2d t2 his2 his1.names, r1, r2, some rs⟩ s := rfl
  rw [e, hok]
  rfl

/-- **C179, rating curves, partial.** When a first comparison exits with 0 and the rating curves can be told apart along a route, there is no
figure of rating curves for the route, because nothing is drawn, or it shows the levels and differences of the curves. What is missing:
stations with the same kilometre or the same curve, and names of branches with `-` or `_`. -/
theorem C179_curves_partial (x : Setup K S C) (name p1 p2 routes : Text) (w : World) (out : Text) (ho : OutputOf x name w out)
    (hnew : ∀ f, ComparisonFile f → w.results out f = none) (rs : List (List Text)) (hrs : x.compare.routes routes = .ok (some rs))
    (hplain : ∀ route ∈ rs, route ≠ [] ∧ ∀ b ∈ route, '-' ∉ b ∧ '_' ∉ b)
    (his1 : His1d K) (his2 : His2d K) (t1 t2 : Int) (hr : AreResults x.compare x.ft w.disk.files p1 p2 his1 his2 t1 t2)
    (a1 b1 a2 b2 : Int) (ov : Overlap (timesOf t1 0 his1.seconds) (timesOf t2 0 his2.seconds) a1 b1 a2 b2)
    (hlong : rs ≠ [] → (∃ t ∈ timesOf t2 0 his2.seconds, a1 ≤ t ∧ t ≤ b1) ∧ 6 * 86400 ≤ b1 - a1)
    (h0 : (command x w (.compare name p1 p2 routes)).2 = 0) (route : List Text) (hroute : route ∈ rs)
    (hcurves : ∀ r1 r2, IsRating (levels1d t1 0 his1) (discharges1d t1 0 his1) r1 →
      IsRating (levels2d t2 his2 his1.names) (discharges2d t2 his2 his1.names) r2 →
      DistinctCurves x.compare.order x.ft.parse his1.names r1 r2 route) :
    ∃ r1 r2, IsRating (levels1d t1 0 his1) (discharges1d t1 0 his1) r1 ∧
      IsRating (levels2d t2 his2 his1.names) (discharges2d t2 his2 his1.names) r2 ∧
      ((figureRating x.compare.order x.ft.parse his1.names r1 r2 route = .ok none ∧
        (command x w (.compare name p1 p2 routes)).1.results out (figureKindFile (.ratingCurve route)) = none) ∨
      ∃ f, (command x w (.compare name p1 p2 routes)).1.results out (figureKindFile (.ratingCurve route)) =
          some (x.compare.image (.rating f)) ∧
        ShowsCurves x.compare.order x.ft.parse his1.names r1 r2 route f) := by
  obtain ⟨r1, r2, s, i1, i2, -, -, -, hfig, e, e0⟩ := first_compare x name p1 p2 routes w out ho hnew (some rs) hrs his1 his2 t1 t2 hr
  have hok : (evalFigures x.compare.order x.ft.parse x.compare.image (comparisonOf his1 his2 t1 t2 r1 r2 (some rs)) s).2.2 = .ok () := by
    rw [h0] at e0
    cases hh : (evalFigures x.compare.order x.ft.parse x.compare.image (comparisonOf his1 his2 t1 t2 r1 r2 (some rs)) s).2.2 with
    | error e => rw [hh] at e0; cases e0
    | ok u => rfl
  obtain ⟨g1, -⟩ := eval_shows x.compare.order x.ft.parse x.compare.image (levels1d t1 0 his1) (levels2d t2 his2 his1.names)
    (discharges1d t1 0 his1) (discharges2d t2 his2 his1.names) r1 r2 rs _ _ a1 b1 a2 b2
    (sameStations_results x.compare.clock x.ft his1 his2 t1 t2 hr.good1 hr.good2 hr.increasing1 hr.increasing2) ov hlong hplain s hok
  obtain ⟨-, -, ⟨f, k1, k2, k3⟩, -⟩ := g1 route hroute
  obtain ⟨f', j1, j2⟩ := curves_drawn x.compare.order x.ft.parse route (levels1d t1 0 his1) _ (levels2d t2 his2 his1.names) _
    r1 r2 rfl i1 i2 (hcurves r1 r2 i1 i2)
  have hff : f' = f := Except.ok.inj (j1.symm.trans k1)
  subst hff
  refine ⟨r1, r2, i1, i2, ?_⟩
  rw [e]
  cases f' with
  | none =>
    refine .inl ⟨j1, (k3 rfl).trans ?_⟩
    obtain ⟨t, ht⟩ := figureKindFile_figures (.ratingCurve route)
    rw [ht]
    exact hfig t
  | some g => exact .inr ⟨g, k2 g rfl, j2 g rfl⟩

/-! ## C180: comparing again -/

theorem row_ext (cols : List Text) (hn : cols.Nodup) (a b : List (Option K)) (ha : a.length = cols.length) (hb : b.length = cols.length)
    (h : ∀ n ∈ cols, valueUnder cols a n = valueUnder cols b n) : a = b := by
  induction cols generalizing a b with
  | nil => rw [List.length_eq_zero_iff.1 ha, List.length_eq_zero_iff.1 hb]
  | cons c cols ih =>
    cases a with
    | nil => cases ha
    | cons u a =>
      cases b with
      | nil => cases hb
      | cons v b =>
        have key : ∀ (u : Option K) (a : List (Option K)) (n : Text), valueUnder (c :: cols) (u :: a) n =
            if n = c then u else valueUnder cols a n := by
          intro u a n
          unfold valueUnder
          rw [List.zip_cons_cons, List.lookup_cons]
          by_cases e : n = c
          · rw [if_pos e, e]
            simp only [BEq.rfl]
            rfl
          · rw [if_neg e, beq_false_of_ne e]
        obtain ⟨hc, hn'⟩ := List.nodup_cons.1 hn
        have e1 := h c List.mem_cons_self
        rw [key, key, if_pos rfl, if_pos rfl] at e1
        rw [e1, ih hn' a b (Nat.succ.inj ha) (Nat.succ.inj hb) fun n hm => by
          have := h n (List.mem_cons_of_mem _ hm)
          have hne : n ≠ c := fun e => hc (e ▸ hm)
          rw [key, key, if_neg hne, if_neg hne] at this
          exact this]

/-- There is only one table of rating curves. -/
theorem isRating_only (h q : Frame K) (hn : h.columns.Nodup) (r r' : Rating K) (i : IsRating h q r) (i' : IsRating h q r') : r = r' := by
  have hrows : r.rows = r'.rows := by
    apply List.ext_getElem (i.rows.trans i'.rows.symm)
    intro k hk hk'
    refine row_ext h.columns hn _ _ (i.widths _ (List.getElem_mem hk)) (i'.widths _ (List.getElem_mem hk')) fun n hm => ?_
    cases k with
    | zero => rw [i.first _ (List.getElem?_eq_getElem hk) n hm, i'.first _ (List.getElem?_eq_getElem hk') n hm]
    | succ k =>
      have : k < 89 := by rw [i.rows] at hk; omega
      rw [i.others k this _ (List.getElem?_eq_getElem hk) n hm, i'.others k this _ (List.getElem?_eq_getElem hk') n hm]
  cases r
  cases r'
  simp only [Rating.mk.injEq]
  exact ⟨i.labels.trans i'.labels.symm, i.columns.trans i'.columns.symm, hrows⟩

/-- A comparison in the output directory of an earlier one. -/
theorem compare_again (x : Setup K S C) (name p1 p2 routes : Text) (w : World) (out : Text) (ho : OutputOf x name w out)
    (hnew : ∀ f, ComparisonFile f → w.results out f = none) (rs : Option (List (List Text))) (hrs : x.compare.routes routes = .ok rs)
    (his1 : His1d K) (his2 : His2d K) (t1 t2 : Int) (hr : AreResults x.compare x.ft w.disk.files p1 p2 his1 his2 t1 t2)
    (hday : HasTimeOfDay x.compare.clock t1 0 his1.seconds)
    (hp1 : ∀ r, IsRating (levels1d t1 0 his1) (discharges1d t1 0 his1) r → ReadableRating x.ft r)
    (hp2 : ∀ r, IsRating (levels2d t2 his2 his1.names) (discharges2d t2 his2 his1.names) r → ReadableRating x.ft r)
    (w' : World) (name' p1' p2' : Text) (ho' : OutputOf x name' w' out)
    (hsame : ∀ f, ComparisonFile f → w'.results out f = (command x w (.compare name p1 p2 routes)).1.results out f) :
    (command x w' (.compare name' p1' p2' routes)).2 = (command x w (.compare name p1 p2 routes)).2 ∧
    ∀ f, ComparisonFile f → (command x w' (.compare name' p1' p2' routes)).1.results out f = w'.results out f := by
  have hlog : ∀ f, ComparisonFile f → f ≠ "fm2prof.log".toList := by
    intro f hf e
    rw [e] at hf
    rcases hf with hf | ⟨r, hf⟩
    · exact absurd hf (by decide)
    · have : "fm2prof.log".toList.take 8 = "figures/".toList := by
        rw [hf]
        rfl
      exact absurd this (by decide)
  obtain ⟨r1, r2, s, i1, i2, hw, hs1, hs2, -, e, e0⟩ := first_compare x name p1 p2 routes w out ho hnew rs hrs his1 his2 t1 t2 hr
  obtain ⟨s', hs', e1, e2⟩ := compare_in x name' p1' p2' routes w' out ho'
  obtain ⟨ws, r, hws, he⟩ := evalFigures_writes x.compare.order x.ft.parse x.compare.image (comparisonOf his1 his2 t1 t2 r1 r2 rs)
  have hfig : ∀ f, f.take 8 ≠ "figures/".toList → f ∉ ws.map (·.1) := by
    intro f hf h
    obtain ⟨z, hz, rfl⟩ := List.mem_map.1 h
    obtain ⟨t, ht⟩ := hws z hz
    exact hf (by rw [ht]; rfl)
  rw [he s] at e e0
  have hcomp : ∀ f, ComparisonFile f → s' f = writeAll s ws f := by
    intro f hf
    rw [hs' f (hlog f hf), hsame f hf, e]
  have hfile : ∀ f, f ∈ ["1D_H.csv".toList, "1D_Q.csv".toList, "2D_H.csv".toList, "2D_Q.csv".toList, "map_1d_2d.csv".toList,
      "1D_H_digitized.csv".toList, "2D_H_digitized.csv".toList] → s' f = s f := by
    intro f hf
    rw [hcomp f (.inl hf), writeAll_other]
    apply hfig
    have hall : ∀ f ∈ ["1D_H.csv".toList, "1D_Q.csv".toList, "2D_H.csv".toList, "2D_Q.csv".toList, "map_1d_2d.csv".toList,
      "1D_H_digitized.csv".toList, "2D_H_digitized.csv".toList], f.take 8 ≠ "figures/".toList := by decide
    exact hall f hf
  have hst := compareResults_stored x.compare x.ft (fun p => decide (p ∈ w'.disk.files)) p1' p2' routes rs hrs his1 his2 t1 t2 hr.good1
    hr.good2 hday hr.timeOfDay s'
    (fun z hz => by
      have hm : z.1 ∈ (writesOf x.compare.clock x.ft t1 0 t2 his1 his2).map (·.1) := List.mem_map_of_mem hz
      have hall : ∀ n ∈ ["1D_H.csv".toList, "1D_Q.csv".toList, "map_1d_2d.csv".toList, "2D_Q.csv".toList, "2D_H.csv".toList],
          n ∈ ["1D_H.csv".toList, "1D_Q.csv".toList, "2D_H.csv".toList, "2D_Q.csv".toList, "map_1d_2d.csv".toList,
            "1D_H_digitized.csv".toList, "2D_H_digitized.csv".toList] := by decide
      rw [hfile z.1 (hall z.1 hm), hw z hz])
    r1 r2 i1 i2 (hp1 r1 i1) (hp2 r2 i2) ((hfile _ (by decide)).trans hs1) ((hfile _ (by decide)).trans hs2)
  rw [hst, he s'] at e1 e2
  refine ⟨e2.trans e0.symm, fun f hf => ?_⟩
  rw [e1, ← hs' f (hlog f hf)]
  by_cases hm : f ∈ ws.map (·.1)
  · rw [hcomp f hf, ← congrFun (writeAll_twice s ws) f]
    exact writeAll_same ws _ _ f hm
  · exact writeAll_other _ _ _ hm

/-- **C180, partial.** Comparing the same results again, from the same project or another one with the same output directory, exits as the
first comparison did and leaves the files of the comparison as they were. What is missing: the results must be the same, see
`C180_stale_violated`. -/
theorem C180_again_partial (x : Setup K S C) (name p1 p2 routes : Text) (w : World) (out : Text) (ho : OutputOf x name w out)
    (hnew : ∀ f, ComparisonFile f → w.results out f = none) (rs : Option (List (List Text))) (hrs : x.compare.routes routes = .ok rs)
    (his1 : His1d K) (his2 : His2d K) (t1 t2 : Int) (hr : AreResults x.compare x.ft w.disk.files p1 p2 his1 his2 t1 t2)
    (hday : HasTimeOfDay x.compare.clock t1 0 his1.seconds)
    (hp1 : ∀ r, IsRating (levels1d t1 0 his1) (discharges1d t1 0 his1) r → ReadableRating x.ft r)
    (hp2 : ∀ r, IsRating (levels2d t2 his2 his1.names) (discharges2d t2 his2 his1.names) r → ReadableRating x.ft r)
    (w' : World) (name' : Text) (ho' : OutputOf x name' w' out)
    (hsame : ∀ f, ComparisonFile f → w'.results out f = (command x w (.compare name p1 p2 routes)).1.results out f) :
    (command x w' (.compare name' p1 p2 routes)).2 = (command x w (.compare name p1 p2 routes)).2 ∧
    ∀ f, ComparisonFile f → (command x w' (.compare name' p1 p2 routes)).1.results out f =
      (command x w (.compare name p1 p2 routes)).1.results out f := by
  obtain ⟨h1, h2⟩ := compare_again x name p1 p2 routes w out ho hnew rs hrs his1 his2 t1 t2 hr hday hp1 hp2 w' name' p1 p2 ho' hsame
  exact ⟨h1, fun f hf => (h2 f hf).trans (hsame f hf)⟩

/-- **Violated.** After a comparison, one of any other results with the same output directory, or of files that do not exist, exits as the
first one did and leaves its tables and figures in place. -/
theorem C180_stale_violated (x : Setup K S C) (name p1 p2 routes : Text) (w : World) (out : Text) (ho : OutputOf x name w out)
    (hnew : ∀ f, ComparisonFile f → w.results out f = none) (rs : Option (List (List Text))) (hrs : x.compare.routes routes = .ok rs)
    (his1 : His1d K) (his2 : His2d K) (t1 t2 : Int) (hr : AreResults x.compare x.ft w.disk.files p1 p2 his1 his2 t1 t2)
    (hday : HasTimeOfDay x.compare.clock t1 0 his1.seconds)
    (hp1 : ∀ r, IsRating (levels1d t1 0 his1) (discharges1d t1 0 his1) r → ReadableRating x.ft r)
    (hp2 : ∀ r, IsRating (levels2d t2 his2 his1.names) (discharges2d t2 his2 his1.names) r → ReadableRating x.ft r)
    (w' : World) (name' : Text) (ho' : OutputOf x name' w' out)
    (hsame : ∀ f, ComparisonFile f → w'.results out f = (command x w (.compare name p1 p2 routes)).1.results out f) (p1' p2' : Text) :
    (command x w' (.compare name' p1' p2' routes)).2 = (command x w (.compare name p1 p2 routes)).2 ∧
    ∀ f, ComparisonFile f → (command x w' (.compare name' p1' p2' routes)).1.results out f =
      (command x w (.compare name p1 p2 routes)).1.results out f := by
  obtain ⟨h1, h2⟩ := compare_again x name p1 p2 routes w out ho hnew rs hrs his1 his2 t1 t2 hr hday hp1 hp2 w' name' p1' p2' ho' hsame
  exact ⟨h1, fun f hf => (h2 f hf).trans (hsame f hf)⟩

/-! ## An example -/

/-- A project and the results of two models. -/
def riverWorld : World :=
  { sampleWorld with disk := ⟨sampleWorld.disk.files ++ ["1d.nc".toList, "2d.nc".toList], sampleWorld.disk.dirs⟩ }

theorem river_opens (w : World) (ht : w.texts = riverWorld.texts) (hd : w.disk = riverWorld.disk) :
    OutputOf sampleSetup "p/rhine".toList w "p/out".toList := by
  have h : (configurationOf sampleSetup "p/rhine".toList riverWorld).toOption.bind (fun o => o.map fun p =>
      (getOutputDirectory sampleSetup.ft p.1 p.2).toOption) = some (some "p/out".toList) := by decide +kernel
  have hc : configurationOf sampleSetup "p/rhine".toList w = configurationOf sampleSetup "p/rhine".toList riverWorld := by
    unfold configurationOf
    cases withSuffix ".ini".toList "p/rhine".toList with
    | error e => rfl
    | ok path => exact openRunner_text sampleSetup path riverWorld w (by rw [ht]) hd
  cases e : configurationOf sampleSetup "p/rhine".toList riverWorld with
  | error e' => rw [e] at h; cases h
  | ok o =>
    rw [e] at h
    cases o with
    | none => cases h
    | some q =>
      refine ⟨q.1, q.2, hc.trans e, ?_, by rw [hd]; decide⟩
      have h' : (getOutputDirectory sampleSetup.ft q.1 q.2).toOption = some "p/out".toList := Option.some.inj h
      cases e2 : getOutputDirectory sampleSetup.ft q.1 q.2 with
      | error e => rw [e2] at h'; cases h'
      | ok out => rw [e2] at h'; rw [Option.some.inj h']

theorem river_results : AreResults sampleSetup.compare sampleSetup.ft riverWorld.disk.files "1d.nc".toList "2d.nc".toList river1d river2d
    0 0 where
  file1 := by decide
  file2 := by decide
  read1 := rfl
  read2 := rfl
  good1 := river1d_good
  good2 := river2d_good
  timeOfDay := river2d_timeOfDay
  increasing1 := by decide
  increasing2 := by decide

/-- A rating table can be stored, for the sample texts. -/
def plainRating (r : Rating ℚ) : Bool :=
  (r.labels.all fun x => decide (roundTo 6 x = x)) &&
    (r.rows.all fun row => row.all fun v => v.all fun x => decide (roundTo 6 x = x)) && decide (r.columns = river1d.names)

theorem plainRating_readable (r : Rating ℚ) (h : plainRating r = true) : ReadableRating (decimalText ℚ) r := by
  unfold plainRating at h
  rw [Bool.and_eq_true, Bool.and_eq_true, List.all_eq_true, List.all_eq_true] at h
  obtain ⟨⟨h1, h2⟩, h3⟩ := h
  have h3 := of_decide_eq_true h3
  refine ⟨fun x hx => ?_, fun row hr x hx => ?_, ?_, ?_⟩
  · exact (of_decide_eq_true (h1 x hx) : roundTo 6 x = x)
  · have := h2 row hr
    rw [List.all_eq_true] at this
    exact (of_decide_eq_true (this (some x) hx) : roundTo 6 x = x)
  · rw [h3]; decide
  · rw [h3]; exact river1d_good.names

theorem river_readable (h q : Frame ℚ) (hs : SameRecords h q)
    (hd : (digitizeFrame qsteps h q).toOption.map plainRating = some true) (r : Rating ℚ) (hr : IsRating h q r) :
    ReadableRating sampleSetup.ft r := by
  obtain ⟨r', e, i'⟩ := isRating_digitize h q hs
  rw [isRating_only h q hs.nodup r r' hr i']
  rw [e] at hd
  exact plainRating_readable r' (Option.some.inj hd)

/-- The hypotheses of `C179_tables_partial` and `C179_figures_partial` are met, with a route and without. -/
example : OutputOf sampleSetup "p/rhine".toList riverWorld "p/out".toList ∧
    (∀ f, ComparisonFile f → riverWorld.results "p/out".toList f = none) ∧
    sampleSetup.compare.routes "[['NR']]".toList = .ok (some [["NR".toList]]) ∧
    sampleSetup.compare.routes "[]".toList = .ok (some []) ∧
    (∀ route ∈ [["NR".toList]], route ≠ [] ∧ ∀ b ∈ route, '-' ∉ b ∧ '_' ∉ b) ∧
    AreResults sampleSetup.compare sampleSetup.ft riverWorld.disk.files "1d.nc".toList "2d.nc".toList river1d river2d 0 0 ∧
    Overlap (timesOf 0 0 river1d.seconds) (timesOf 0 0 river2d.seconds) 0 648000 0 561600 ∧
    ((∃ t ∈ timesOf 0 0 river2d.seconds, 0 ≤ t ∧ t ≤ 648000) ∧ (6 : Int) * 86400 ≤ 648000 - 0) ∧
    (command sampleSetup riverWorld (.compare "p/rhine".toList "1d.nc".toList "2d.nc".toList "[['NR']]".toList)).2 = 0 ∧
    (command sampleSetup riverWorld (.compare "p/rhine".toList "1d.nc".toList "2d.nc".toList "[]".toList)).2 = 0 := by
  refine ⟨river_opens _ rfl rfl, fun _ _ => rfl, rfl, rfl, by decide, river_results, ⟨rfl, rfl, rfl, rfl, by decide, by decide,
    by decide, by decide⟩, ⟨⟨0, by decide, by decide, by decide⟩, by decide⟩, by decide +kernel, by decide +kernel⟩

/-- Whether the rating curves of two tables can be told apart along a route. -/
def distinct (r1 r2 : Rating ℚ) (route : List Text) : Bool :=
  let z := along sampleSetup.compare.order sampleSetup.ft.parse river1d.names route
  decide ((z.map (·.2)).Nodup) && decide ((z.map fun z => curveOf r1 z.1).Nodup) && decide ((z.map fun z => curveOf r2 z.1).Nodup) &&
    match z.getLast? with
    | none => false
    | some z => (curveOf r1 z.1).any fun p => decide (p.2 ≠ none)

theorem distinct_curves (r1 r2 : Rating ℚ) (route : List Text) (h : distinct r1 r2 route = true) :
    DistinctCurves sampleSetup.compare.order sampleSetup.ft.parse river1d.names r1 r2 route := by
  unfold distinct at h
  simp only at h
  rw [Bool.and_eq_true, Bool.and_eq_true, Bool.and_eq_true] at h
  obtain ⟨⟨⟨h1, h2⟩, h3⟩, h4⟩ := h
  refine ⟨of_decide_eq_true h1, of_decide_eq_true h2, of_decide_eq_true h3, ?_⟩
  split at h4
  · cases h4
  · rename_i z hz
    rw [List.any_eq_true] at h4
    obtain ⟨p, hp, hn⟩ := h4
    exact ⟨z, hz, p, hp, of_decide_eq_true hn⟩

/-- The hypothesis of `C179_exit_partial` and `C179_curves_partial` on the rating curves is met, and a figure of them is drawn. -/
example : (∀ r1 r2, IsRating (levels1d 0 0 river1d) (discharges1d 0 0 river1d) r1 →
      IsRating (levels2d 0 river2d river1d.names) (discharges2d 0 river2d river1d.names) r2 →
      DistinctCurves sampleSetup.compare.order sampleSetup.ft.parse river1d.names r1 r2 ["NR".toList]) ∧
    ((command sampleSetup riverWorld (.compare "p/rhine".toList "1d.nc".toList "2d.nc".toList "[['NR']]".toList)).1.results "p/out".toList
      (figureKindFile (.ratingCurve ["NR".toList]))).isSome = true := by
  refine ⟨fun r1 r2 i1 i2 => ?_, by decide +kernel⟩
  have s1 := sameRecords1 dayClock (decimalText ℚ) river1d 0 river1d_good
  have s2 := sameRecords2 dayClock (decimalText ℚ) river2d 0 river2d_good _ river1d_good.nodup
  obtain ⟨r1', e1, i1'⟩ := isRating_digitize _ _ s1
  obtain ⟨r2', e2, i2'⟩ := isRating_digitize _ _ s2
  rw [isRating_only _ _ s1.nodup r1 r1' i1 i1', isRating_only _ _ s2.nodup r2 r2' i2 i2']
  apply distinct_curves
  have h : (digitizeFrame qsteps (levels1d 0 0 river1d) (discharges1d 0 0 river1d)).toOption.bind (fun r1 =>
      (digitizeFrame qsteps (levels2d 0 river2d river1d.names) (discharges2d 0 river2d river1d.names)).toOption.map fun r2 =>
        distinct r1 r2 ["NR".toList]) = some true := by decide +kernel
  rw [e1, e2] at h
  exact Option.some.inj h

/-- The hypotheses of `C180_again_partial` and `C180_stale_violated` are met right after the comparison. -/
example : HasTimeOfDay sampleSetup.compare.clock 0 0 river1d.seconds ∧
    (∀ r, IsRating (levels1d 0 0 river1d) (discharges1d 0 0 river1d) r → ReadableRating sampleSetup.ft r) ∧
    (∀ r, IsRating (levels2d 0 river2d river1d.names) (discharges2d 0 river2d river1d.names) r → ReadableRating sampleSetup.ft r) ∧
    OutputOf sampleSetup "p/rhine".toList
      (command sampleSetup riverWorld (.compare "p/rhine".toList "1d.nc".toList "2d.nc".toList "[['NR']]".toList)).1 "p/out".toList := by
  refine ⟨river1d_timeOfDay, river_readable _ _ (sameRecords1 _ _ _ _ river1d_good) (by decide +kernel),
    river_readable _ _ (sameRecords2 _ _ _ _ river2d_good _ river1d_good.nodup) (by decide +kernel), river_opens _ ?_ ?_⟩
  · exact (C178_kept sampleSetup _ _ _ _ riverWorld).1
  · decide +kernel

/-- A comparison of files that do not exist, after one of files that do, exits with 0; without it, it does not. -/
example :
    (command sampleSetup (command sampleSetup riverWorld (.compare "p/rhine".toList "1d.nc".toList "2d.nc".toList "[]".toList)).1
      (.compare "p/rhine".toList "none.nc".toList "none.nc".toList "[]".toList)).2 = 0 ∧
    (command sampleSetup riverWorld (.compare "p/rhine".toList "none.nc".toList "none.nc".toList "[]".toList)).2 = 1 := by
  decide +kernel

/-- The hypothesis of `C178_elsewhere` is met for another directory. -/
example : ∀ dir c, configurationOf sampleSetup "p/rhine".toList riverWorld = .ok (some (dir, c)) →
    getOutputDirectory sampleSetup.ft dir c ≠ .ok "out".toList := by
  obtain ⟨dir, c, h1, h2, -⟩ := river_opens riverWorld rfl rfl
  intro dir' c' h h'
  rw [h1] at h
  obtain ⟨rfl, rfl⟩ := Prod.mk.inj (Option.some.inj (Except.ok.inj h))
  rw [h2] at h'
  exact absurd (Except.ok.inj h') (by decide)

end Fm2prof.Props
