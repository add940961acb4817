import Verif.Proofs.Longitudinal

/-!
# C155–C162: the figures of a comparison
-/

set_option linter.unusedSectionVars false

namespace Fm2prof.Props

open Fm2prof Spec

variable {K : Type} [Field K] [LinearOrder K] [IsStrictOrderedRing K] [FloorRing K]

/-! ## C155: levels along a route at some moments -/

private theorem rows_series (c : List Text) (t : List Int) (f : Frame K) (hc : f.columns = c) (a b : Int) (n : Text) :
    ((t.zip f.rows).filter fun r => decide (a ≤ r.1 ∧ r.1 ≤ b)).map (fun r => (r.1, valueUnder c r.2 n)) = seriesWithin a b t f n := by
  subst hc
  rfl

theorem timeLine_ok (c : List Text) (one two : List (Int × List (Option K))) (h1 : one ≠ []) (h2 : two ≠ []) (stations : List Text)
    (rkms : List K) (hs : ∀ n ∈ stations, n ∈ c) (day : Int) :
    timeLine c c one (.ok two) stations rkms day = .ok ⟨some day,
      (stations.zip rkms).map fun x => (x.2, levelFrom (one.map fun r => (r.1, valueUnder c r.2 x.1)) day),
      (stations.zip rkms).map fun x => (x.2, minus (levelFrom (one.map fun r => (r.1, valueUnder c r.2 x.1)) day)
        (levelFrom (two.map fun r => (r.1, valueUnder c r.2 x.1)) day))⟩ := by
  unfold timeLine
  rw [alongRouteAt_ok c one h1 stations rkms hs]
  simp only
  rw [alongRouteAt_ok c two h2 stations rkms hs]
  simp only
  rw [alignSub_same (stations.zip rkms) (fun n => levelFrom (one.map fun r => (r.1, valueUnder c r.2 n)) day)
    (fun n => levelFrom (two.map fun r => (r.1, valueUnder c r.2 n)) day)]

theorem figure_time (o : ArgSort K) (parse : Text → Option K) (s : Session K) (route : List Text) (w : Window Int)
    (one two : List (Int × List (Option K))) (e1 : windowed s.window s.h1 = (w, .ok one)) (e2 : (windowed w s.h2).2 = .ok two)
    (hc : s.h2.columns = s.h1.columns) (h1 : one ≠ []) (h2 : two ≠ []) :
    figureLongitudinal o parse s route "time".toList =
      ({ s with window := w },
        match momentDays (((one.getLast h1).1 - (one.head h1).1) / 86400).toNat with
        | .error e => .error e
        | .ok days => .ok ⟨days.map fun d : Nat =>
            ⟨some ((one.head h1).1 + 86400 * (d : Int)),
              (along o parse s.h1.columns route).map fun x =>
                (x.2, levelFrom (one.map fun r => (r.1, valueUnder s.h1.columns r.2 x.1)) ((one.head h1).1 + 86400 * (d : Int))),
              (along o parse s.h1.columns route).map fun x =>
                (x.2, minus (levelFrom (one.map fun r => (r.1, valueUnder s.h1.columns r.2 x.1)) ((one.head h1).1 + 86400 * (d : Int)))
                  (levelFrom (two.map fun r => (r.1, valueUnder s.h1.columns r.2 x.1)) ((one.head h1).1 + 86400 * (d : Int))))⟩,
            labels (along o parse s.h1.columns route)⟩) := by
  unfold figureLongitudinal
  rw [if_neg (fun h => h.1 rfl), e1]
  simp only
  rw [e2, hc]
  unfold linesOf
  rw [if_pos rfl]
  unfold timeLines
  rw [List.head?_eq_some_head h1, List.getLast?_eq_some_getLast h1]
  simp only
  cases momentDays (((one.getLast h1).1 - (one.head h1).1) / 86400).toNat with
  | error e => rfl
  | ok days =>
    simp only
    rw [collect_ok _ _ days fun d _ => timeLine_ok s.h1.columns one two h1 h2 _ _ (fun n hn => route_mem o parse _ route n hn) _]
    rfl

private theorem times_within (a b : Int) (t : List Int) (rows : List (List (Option K))) (hl : rows.length = t.length) :
    (((t.zip rows).filter fun r => decide (a ≤ r.1 ∧ r.1 ≤ b)).map (·.1)) = t.filter fun x => decide (a ≤ x ∧ x ≤ b) := by
  have := List.filter_map (f := fun r : Int × List (Option K) => r.1) (p := fun x => decide (a ≤ x ∧ x ≤ b)) (l := t.zip rows)
  rw [List.map_fst_zip hl.ge] at this
  rw [this]
  rfl

/-- A record at a moment is the first one that is not before it. -/
theorem levelFrom_at (s : List (Int × Option K)) (hs : (s.map (·.1)).Pairwise (· < ·)) (m : Int) (hm : m ∈ s.map (·.1)) :
    levelFrom s m = seriesAt s m := by
  unfold levelFrom seriesAt
  induction s with
  | nil => cases hm
  | cons r s ih =>
    rw [List.map_cons, List.pairwise_cons] at hs
    by_cases h : r.1 = m
    · rw [List.find?_cons_of_pos (by exact decide_eq_true h.ge), List.find?_cons_of_pos (by exact decide_eq_true h)]
      rfl
    · have hm' : m ∈ s.map (·.1) := by
        rw [List.map_cons] at hm
        rcases List.mem_cons.1 hm with e | e
        · exact absurd e.symm h
        · exact e
      have hlt := hs.1 m hm'
      rw [List.find?_cons_of_neg (by intro k; exact absurd (of_decide_eq_true k) (not_le.2 hlt)),
        List.find?_cons_of_neg (by intro k; exact h (of_decide_eq_true k))]
      have := ih hs.2 hm'
      cases he : s.find? (fun r => decide (m ≤ r.1)) with
      | some r' => rw [he] at this; exact this
      | none =>
        rw [he] at this
        cases s with
        | nil => cases hm'
        | cons r' s => rw [List.getLast?_cons_cons]; exact this

private theorem series_increasing (a b : Int) (t : List Int) (ht : t.Pairwise (· < ·)) (f : Frame K) (hl : f.rows.length = t.length)
    (n : Text) : ((seriesWithin a b t f n).map (·.1)).Pairwise (· < ·) := by
  unfold seriesWithin
  rw [List.map_map]
  have h := times_within a b t f.rows hl
  exact (h ▸ ht.filter _ : (((t.zip f.rows).filter fun r => decide (a ≤ r.1 ∧ r.1 ≤ b)).map (·.1)).Pairwise (· < ·))

/-- **C155, partial.** With six days or more of 1D records from the start to the stop time, and 2D records there too, the figure along a
route has a line for each of its moments. It shows at the kilometre of each station of the route the 1D level, and the 1D less the
2D level, each in the first record that is not before the moment. Where both models have a record at the moment itself this is the
difference at the moment. What is missing: moments at which the models do not both have a record, see
`C155_other_times_violated`, and less than six days, see `C155_short_violated`. -/
theorem C155_lines_partial (o : ArgSort K) (parse : Text → Option K) (s : Session K) (route : List Text) (t1 t2 : List Int)
    (x y x2 y2 : Int) (hs : SameStations t1 t2 s.h1 s.h2) (hx : t1.head? = some x) (hy : t1.getLast? = some y)
    (hx2 : t2.head? = some x2) (hy2 : t2.getLast? = some y2) (start stop : Int) (hstart : start = s.window.start.getD x)
    (hstop : stop = s.window.stop.getD y) (ho : start < stop) (hy' : start < y) (hx' : x < stop) (hy2' : start < y2) (hx2' : x2 < stop)
    (h2 : ∃ t ∈ t2, start ≤ t ∧ t ≤ stop) (first last : Int)
    (hf : (t1.filter fun t => decide (start ≤ t ∧ t ≤ stop)).head? = some first)
    (hl : (t1.filter fun t => decide (start ≤ t ∧ t ≤ stop)).getLast? = some last) (h6 : 6 * 86400 ≤ last - first) :
    ∃ f ms, (figureLongitudinal o parse s route "time".toList).2 = .ok f ∧ Moments first last ms ∧
      List.Forall₂ (fun m line => line.moment = some m ∧
        line.levels = (along o parse s.h1.columns route).map (fun z => (z.2, levelFrom (seriesWithin start stop t1 s.h1 z.1) m)) ∧
        line.difference = (along o parse s.h1.columns route).map (fun z => (z.2,
          minus (levelFrom (seriesWithin start stop t1 s.h1 z.1) m) (levelFrom (seriesWithin start stop t2 s.h2 z.1) m))) ∧
        (m ∈ t1 → m ∈ t2 → m ≤ stop → line.difference = (along o parse s.h1.columns route).map (fun z => (z.2,
          differenceAt (seriesWithin start stop t1 s.h1 z.1) (seriesWithin start stop t2 s.h2 z.1) m)))) ms f.lines := by
  obtain ⟨one, e1⟩ := windowed_ok s.window t1 s.h1 x y hs.times1 hs.rows1 hx hy (hstart ▸ hstop ▸ ho) (hstart ▸ hy') (hstop ▸ hx')
  rw [← hstart, ← hstop] at e1
  obtain ⟨two, e2⟩ := windowed_ok ⟨some start, some stop⟩ t2 s.h2 x2 y2 hs.times2 hs.rows2 hx2 hy2 ho hy2' hx2'
  have r1 := (windowed_rows _ _ t1 s.h1 x y hs.times1 hs.rows1 hx hy one e1).2
  have r2 := (windowed_rows _ _ t2 s.h2 x2 y2 hs.times2 hs.rows2 hx2 hy2 two e2).2
  rw [← hstart, ← hstop] at r1
  simp only [Option.getD_some] at r2
  have k1 : one.map (·.1) = t1.filter fun t => decide (start ≤ t ∧ t ≤ stop) := by
    rw [r1, times_within start stop t1 s.h1.rows hs.rows1]
  have k2 : two.map (·.1) = t2.filter fun t => decide (start ≤ t ∧ t ≤ stop) := by
    rw [r2, times_within start stop t2 s.h2.rows hs.rows2]
  have n1 : one ≠ [] := by
    intro e
    rw [← k1, e] at hf
    cases hf
  have n2 : two ≠ [] := by
    intro e
    obtain ⟨t, ht, hb⟩ := h2
    have : t ∈ two.map (·.1) := by rw [k2]; exact List.mem_filter.2 ⟨ht, decide_eq_true hb⟩
    rw [e] at this
    cases this
  have hfirst : (one.head n1).1 = first := by
    rw [← k1, List.head?_map, List.head?_eq_some_head n1] at hf
    exact Option.some.inj hf
  have hlast : (one.getLast n1).1 = last := by
    rw [← k1, List.getLast?_map, List.getLast?_eq_some_getLast n1] at hl
    exact Option.some.inj hl
  have hfig := figure_time o parse s route ⟨some start, some stop⟩ one two e1 (by rw [e2]) hs.stations n1 n2
  rw [hfirst, hlast] at hfig
  obtain ⟨step, count, hstep, hc1, hc2, hdays, hb1, hb2⟩ := C89_moments_partial ((last - first) / 86400).toNat (by omega)
  rw [hdays] at hfig
  simp only at hfig
  have q1 : ∀ n, one.map (fun r => (r.1, valueUnder s.h1.columns r.2 n)) = seriesWithin start stop t1 s.h1 n := fun n => by
    rw [r1, rows_series _ t1 s.h1 rfl]
  have q2 : ∀ n, two.map (fun r => (r.1, valueUnder s.h1.columns r.2 n)) = seriesWithin start stop t2 s.h2 n := fun n => by
    rw [r2, rows_series _ t2 s.h2 hs.stations]
  simp only [q1, q2] at hfig
  refine ⟨_, (List.range count).map fun i : Nat => first + 86400 * ((i : Int) * step), by rw [hfig], ⟨step, count, hstep, hc1, hc2, ?_, ?_,
    rfl⟩, ?_⟩
  · intro i hi
    have := hb1 i hi
    have h' : ((i * step : Nat) : Int) < (last - first) / 86400 := by omega
    rwa [Nat.cast_mul] at h'
  · have h' : (last - first) / 86400 ≤ ((count * step : Nat) : Int) := by omega
    rwa [Nat.cast_mul] at h'
  · simp only
    rw [List.map_map, List.forall₂_map_left_iff, List.forall₂_map_right_iff, List.forall₂_same]
    intro i hi
    have hcast : (((i * step : Nat)) : Int) = (i : Int) * step := Nat.cast_mul i step
    simp only [Function.comp_apply, hcast]
    refine ⟨trivial, trivial, trivial, fun m1 m2 m3 => ?_⟩
    have hle : start ≤ first := by
      have := List.mem_of_mem_head? hf
      exact (of_decide_eq_true (List.mem_filter.1 this).2).1
    have hge : start ≤ first + 86400 * ((i : Int) * step) := by
      have : (0 : Int) ≤ (i : Int) * step := by positivity
      omega
    apply List.map_congr_left
    intro z _
    have in1 : first + 86400 * ((i : Int) * step) ∈ (seriesWithin start stop t1 s.h1 z.1).map (·.1) := by
      rw [← q1, List.map_map]
      have : (Prod.fst ∘ fun r : Int × List (Option K) => (r.1, valueUnder s.h1.columns r.2 z.1)) = fun r => r.1 := rfl
      rw [this, k1]
      exact List.mem_filter.2 ⟨m1, decide_eq_true ⟨hge, m3⟩⟩
    have in2 : first + 86400 * ((i : Int) * step) ∈ (seriesWithin start stop t2 s.h2 z.1).map (·.1) := by
      rw [← q2, List.map_map]
      have : (Prod.fst ∘ fun r : Int × List (Option K) => (r.1, valueUnder s.h1.columns r.2 z.1)) = fun r => r.1 := rfl
      rw [this, k2]
      exact List.mem_filter.2 ⟨m2, decide_eq_true ⟨hge, m3⟩⟩
    rw [levelFrom_at _ (series_increasing start stop t1 hs.increasing1 s.h1 hs.rows1 z.1) _ in1,
      levelFrom_at _ (series_increasing start stop t2 hs.increasing2 s.h2 hs.rows2 z.1) _ in2]
    rfl

/-- **C155, violated: few days.** With less than six days of 1D records from the start to the stop time `ValueError` is raised. -/
theorem C155_short_violated (o : ArgSort K) (parse : Text → Option K) (s : Session K) (route : List Text) (t1 : List Int) (x y : Int)
    (ht : s.h1.index = .times t1) (hr : s.h1.rows.length = t1.length) (hx : t1.head? = some x) (hy : t1.getLast? = some y)
    (start stop : Int) (hstart : start = s.window.start.getD x) (hstop : stop = s.window.stop.getD y) (ho : start < stop)
    (hy' : start < y) (hx' : x < stop) (first last : Int)
    (hf : (t1.filter fun t => decide (start ≤ t ∧ t ≤ stop)).head? = some first)
    (hl : (t1.filter fun t => decide (start ≤ t ∧ t ≤ stop)).getLast? = some last) (h6 : last - first < 6 * 86400) :
    (figureLongitudinal o parse s route "time".toList).2 = .error .valueError := by
  obtain ⟨one, e1⟩ := windowed_ok s.window t1 s.h1 x y ht hr hx hy (hstart ▸ hstop ▸ ho) (hstart ▸ hy') (hstop ▸ hx')
  have r1 := (windowed_rows _ _ t1 s.h1 x y ht hr hx hy one e1).2
  rw [← hstart, ← hstop] at r1
  have k1 : one.map (·.1) = t1.filter fun t => decide (start ≤ t ∧ t ≤ stop) := by
    rw [r1, times_within start stop t1 s.h1.rows hr]
  rw [← k1, List.head?_map] at hf
  rw [← k1, List.getLast?_map] at hl
  obtain ⟨f, ef, rfl⟩ := Option.map_eq_some_iff.1 hf
  obtain ⟨l, el, rfl⟩ := Option.map_eq_some_iff.1 hl
  unfold figureLongitudinal
  rw [if_neg (fun h => h.1 rfl), e1]
  simp only
  unfold linesOf
  rw [if_pos rfl]
  unfold timeLines
  rw [ef, el]
  simp only
  rw [C89_short_violated _ (by omega)]

/-- Daily levels of a 1D model, rising by one each day. -/
def dailyLevels : Frame ℚ where
  index := .times ((List.range 8).map fun i : Nat => 86400 * (i : Int))
  columns := ["NR_1".toList, "NR_2".toList]
  rows := (List.range 8).map fun i : Nat => [some (i : ℚ), some ((i : ℚ) + 10)]

/-- The same levels of a 2D model, every other day. -/
def everyOtherDay : Frame ℚ where
  index := .times ((List.range 5).map fun i : Nat => 86400 * (2 * (i : Int)))
  columns := ["NR_1".toList, "NR_2".toList]
  rows := (List.range 5).map fun i : Nat => [some (2 * (i : ℚ)), some (2 * (i : ℚ) + 10)]

/-- **C155, violated: moments without a record.** Two models with the same levels at all times at which both have a record; the figure
shows a difference of one metre on every other day. -/
theorem C155_other_times_violated :
    (∀ n ∈ dailyLevels.columns, ∀ d ∈ commonDiffs
      (allRecords ((List.range 8).map fun i : Nat => 86400 * (i : Int)) dailyLevels n)
      (allRecords ((List.range 5).map fun i : Nat => 86400 * (2 * (i : Int))) everyOtherDay n), d = 0) ∧
    ((figureLongitudinal insertionArgSort sampleParse ⟨dailyLevels, everyOtherDay, ⟨none, none⟩, none⟩ ["NR".toList]
      "time".toList).2.toOption.map fun f => f.lines.map fun l => l.difference.map (·.2)) =
      some [[some 0, some 0], [some (-1), some (-1)], [some 0, some 0], [some (-1), some (-1)], [some 0, some 0],
        [some (-1), some (-1)], [some 0, some 0]] := by
  constructor
  · decide +kernel
  · decide +kernel

theorem dailySame : SameStations ((List.range 8).map fun i : Nat => 86400 * (i : Int)) ((List.range 5).map fun i : Nat => 86400 * (2 * (i : Int)))
    dailyLevels everyOtherDay :=
  ⟨rfl, rfl, by decide, by decide, rfl, rfl, rfl, by decide, by decide, by decide⟩

/-- The hypotheses of `C155_lines_partial` hold for these levels without a start and a stop time. -/
example : ∃ f ms, (figureLongitudinal insertionArgSort sampleParse ⟨dailyLevels, everyOtherDay, ⟨none, none⟩, none⟩ ["NR".toList]
    "time".toList).2 = .ok f ∧ Moments 0 604800 ms := by
  obtain ⟨f, ms, h1, h2, _⟩ := C155_lines_partial insertionArgSort sampleParse ⟨dailyLevels, everyOtherDay, ⟨none, none⟩, none⟩ ["NR".toList]
    _ _ 0 604800 0 691200 dailySame rfl rfl rfl rfl 0 604800 rfl rfl (by decide) (by decide) (by decide) (by decide) (by decide)
    ⟨0, by decide, by decide⟩ 0 604800 (by decide) (by decide) (by decide)
  exact ⟨f, ms, h1, h2⟩

/-! ## C156: statistics along a route -/

private theorem dataAlong_ok (c : List Text) (rows : List (Int × List (Option K))) (stations : List Text) (rkms : List K)
    (hs : ∀ n ∈ stations, n ∈ c) : dataAlongRoute (columnSeries c rows) stations rkms =
      .ok (dropDuplicates ((stations.zip rkms).map fun z => (z.2, rows.map fun r => (r.1, valueUnder c r.2 z.1))) []) := by
  unfold dataAlongRoute
  rw [collect_ok _ (fun n => rows.map fun r => (r.1, valueUnder c r.2 n)) stations fun n hn => by
    rw [columnSeries_mem c rows n (hs n hn)]]
  simp only
  rw [zip_map_along stations rkms fun n => rows.map fun r => (r.1, valueUnder c r.2 n)]

private theorem applyStat_nodup (f : List (Int × Option K) → Option K) (rows : List (K × List (Int × Option K)))
    (h : (rows.map (·.1)).Nodup) : applyStat f rows = rows.map fun r => (r.1, f r.2) := by
  unfold applyStat
  apply List.map_congr_left
  intro r hr
  have : rows.find? (fun r' => decide (r'.1 = r.1)) = some r := by
    clear f
    induction rows with
    | nil => cases hr
    | cons a l ih =>
      rw [List.map_cons, List.nodup_cons] at h
      rcases List.mem_cons.1 hr with e | e
      · subst e
        rw [List.find?_cons_of_pos (by exact decide_eq_true rfl)]
      · rw [List.find?_cons_of_neg, ih h.2 e]
        intro k
        exact h.1 (List.mem_map.2 ⟨r, e, (of_decide_eq_true k).symm⟩)
  rw [this]

private theorem statOf_isStat (stat : Text) (f : List (Int × Option K) → Option K) (h : statOf stat = some f) (s : List (Int × Option K)) :
    IsStat stat s (f s) := by
  unfold statOf at h
  split at h
  · rename_i e
    rw [← Option.some.inj h]
    exact Or.inl ⟨e, lastMean_eq 3 s⟩
  · split at h
    · rename_i e
      rw [← Option.some.inj h]
      exact Or.inr (Or.inl ⟨e, lastMean_eq 25 s⟩)
    · split at h
      · rename_i e
        rw [← Option.some.inj h]
        exact Or.inr (Or.inr (Or.inl ⟨e, isHighest_maxMean 3 s _ (by rw [reduceOption_map])⟩))
      · split at h
        · rename_i e
          rw [← Option.some.inj h]
          exact Or.inr (Or.inr (Or.inr ⟨e, isHighest_maxMean 13 s _ (by rw [reduceOption_map])⟩))
        · cases h

private theorem statOf_known (stat : Text) (h : stat ∈ ["last3".toList, "last25".toList, "max3".toList, "max13".toList]) :
    ∃ f : List (Int × Option K) → Option K, statOf stat = some f ∧ stat ≠ "time".toList := by
  simp only [List.mem_cons, List.not_mem_nil, or_false] at h
  rcases h with rfl | rfl | rfl | rfl
  · exact ⟨_, rfl, by decide⟩
  · exact ⟨_, rfl, by decide⟩
  · exact ⟨_, rfl, by decide⟩
  · exact ⟨_, rfl, by decide⟩

/-- **C156, partial.** If the stations of a route have different kilometres, and different levels in each of the models, the figure of a
statistic along the route shows for each of them this statistic of its 1D levels from the start to the stop time, and this statistic
less that of its 2D levels. What is missing: stations with the same kilometre, see `C156_same_km_violated`, and with the same levels, see
`C156_same_levels_violated`. -/
theorem C156_values_partial (o : ArgSort K) (parse : Text → Option K) (s : Session K) (route : List Text) (stat : Text)
    (hstat : stat ∈ ["last3".toList, "last25".toList, "max3".toList, "max13".toList]) (t1 t2 : List Int)
    (x y x2 y2 : Int) (hs : SameStations t1 t2 s.h1 s.h2) (hx : t1.head? = some x) (hy : t1.getLast? = some y)
    (hx2 : t2.head? = some x2) (hy2 : t2.getLast? = some y2) (start stop : Int) (hstart : start = s.window.start.getD x)
    (hstop : stop = s.window.stop.getD y) (ho : start < stop) (hy' : start < y) (hx' : x < stop) (hy2' : start < y2) (hx2' : x2 < stop)
    (hk : ((along o parse s.h1.columns route).map (·.2)).Nodup)
    (hd1 : ((along o parse s.h1.columns route).map fun z => seriesWithin start stop t1 s.h1 z.1).Nodup)
    (hd2 : ((along o parse s.h1.columns route).map fun z => seriesWithin start stop t2 s.h2 z.1).Nodup) :
    ∃ line marks, (figureLongitudinal o parse s route stat).2 = .ok ⟨[line], marks⟩ ∧ ∃ v1 v2 : Text → Option K,
      (∀ n, IsStat stat (seriesWithin start stop t1 s.h1 n) (v1 n) ∧ IsStat stat (seriesWithin start stop t2 s.h2 n) (v2 n)) ∧
      line.levels = (along o parse s.h1.columns route).map (fun z => (z.2, v1 z.1)) ∧
      line.difference = (along o parse s.h1.columns route).map (fun z => (z.2, minus (v1 z.1) (v2 z.1))) := by
  obtain ⟨f, hf, hnt⟩ := statOf_known (K := K) stat hstat
  obtain ⟨one, e1⟩ := windowed_ok s.window t1 s.h1 x y hs.times1 hs.rows1 hx hy (hstart ▸ hstop ▸ ho) (hstart ▸ hy') (hstop ▸ hx')
  rw [← hstart, ← hstop] at e1
  obtain ⟨two, e2⟩ := windowed_ok ⟨some start, some stop⟩ t2 s.h2 x2 y2 hs.times2 hs.rows2 hx2 hy2 ho hy2' hx2'
  have r1 := (windowed_rows _ _ t1 s.h1 x y hs.times1 hs.rows1 hx hy one e1).2
  have r2 := (windowed_rows _ _ t2 s.h2 x2 y2 hs.times2 hs.rows2 hx2 hy2 two e2).2
  rw [← hstart, ← hstop] at r1
  simp only [Option.getD_some] at r2 e2
  have q1 : ∀ n, one.map (fun r => (r.1, valueUnder s.h1.columns r.2 n)) = seriesWithin start stop t1 s.h1 n := fun n => by
    rw [r1, rows_series _ t1 s.h1 rfl]
  have q2 : ∀ n, two.map (fun r => (r.1, valueUnder s.h1.columns r.2 n)) = seriesWithin start stop t2 s.h2 n := fun n => by
    rw [r2, rows_series _ t2 s.h2 hs.stations]
  have hmem : ∀ n ∈ (getRoute o parse s.h1.columns route).1, n ∈ s.h1.columns := fun n hn => route_mem o parse _ route n hn
  have a1 : applyStat f (dropDuplicates ((along o parse s.h1.columns route).map fun z =>
      (z.2, seriesWithin start stop t1 s.h1 z.1)) []) =
      (along o parse s.h1.columns route).map fun z => (z.2, f (seriesWithin start stop t1 s.h1 z.1)) := by
    rw [dropDuplicates_nodup _ _ (by rw [List.map_map]; exact hd1) fun _ _ => List.not_mem_nil, applyStat_nodup, List.map_map]
    · rfl
    · rw [List.map_map]; exact hk
  have a2 : applyStat f (dropDuplicates ((along o parse s.h1.columns route).map fun z =>
      (z.2, seriesWithin start stop t2 s.h2 z.1)) []) =
      (along o parse s.h1.columns route).map fun z => (z.2, f (seriesWithin start stop t2 s.h2 z.1)) := by
    rw [dropDuplicates_nodup _ _ (by rw [List.map_map]; exact hd2) fun _ _ => List.not_mem_nil, applyStat_nodup, List.map_map]
    · rfl
    · rw [List.map_map]; exact hk
  refine ⟨⟨none, (along o parse s.h1.columns route).map fun z => (z.2, f (seriesWithin start stop t1 s.h1 z.1)),
    (along o parse s.h1.columns route).map fun z => (z.2, minus (f (seriesWithin start stop t1 s.h1 z.1))
      (f (seriesWithin start stop t2 s.h2 z.1)))⟩, labels (along o parse s.h1.columns route), ?_,
    fun n => f (seriesWithin start stop t1 s.h1 n), fun n => f (seriesWithin start stop t2 s.h2 n),
    fun n => ⟨statOf_isStat stat f hf _, statOf_isStat stat f hf _⟩, rfl, rfl⟩
  unfold figureLongitudinal
  rw [if_neg (fun h => by rw [hf] at h; cases h.2), e1]
  simp only
  unfold linesOf
  rw [if_neg hnt, hf, e2, hs.stations]
  simp only
  unfold statLines
  rw [dataAlong_ok s.h1.columns one _ _ hmem]
  simp only
  rw [dataAlong_ok s.h1.columns two _ _ hmem]
  simp only [q1, q2]
  unfold along at a1 a2 ⊢
  rw [a1, a2]
  rw [alignSub_same _ (fun n => f (seriesWithin start stop t1 s.h1 n)) (fun n => f (seriesWithin start stop t2 s.h2 n))]

/-- A name that is none of the statistics raises `KeyError`, and the comparison stays as it is. -/
theorem C156_unknown (o : ArgSort K) (parse : Text → Option K) (s : Session K) (route : List Text) (stat : Text)
    (h : stat ∉ ["time".toList, "last3".toList, "last25".toList, "max3".toList, "max13".toList]) :
    figureLongitudinal o parse s route stat = (s, .error .keyError) := by
  simp only [List.mem_cons, List.not_mem_nil, or_false, not_or] at h
  unfold figureLongitudinal
  rw [if_pos]
  refine ⟨h.1, ?_⟩
  unfold statOf
  rw [if_neg h.2.1, if_neg h.2.2.1, if_neg h.2.2.2.1, if_neg h.2.2.2.2]
  rfl

private theorem applyStat_same (g : List (Int × Option K) → Option K) (a : List (K × List (Int × Option K))) (p q : K × Option K)
    (hp : p ∈ applyStat g a) (hq : q ∈ applyStat g a) (h : p.1 = q.1) : p.2 = q.2 := by
  have key : ∀ p ∈ applyStat g a, p.2 = (a.find? fun r' => decide (r'.1 = p.1)).bind fun r' => g r'.2 := by
    intro p hp
    unfold applyStat at hp
    obtain ⟨r, _, rfl⟩ := List.mem_map.1 hp
    cases hf : a.find? (fun r' => decide (r'.1 = r.1)) with
    | some r' => simp only [hf]; rfl
    | none => simp only [hf]; rfl
  rw [key p hp, key q hq, h]

/-- **C156, violated: stations with the same kilometre.** In every figure of a statistic all stations with the same kilometre show the
same value. In the example two branches meet in kilometre 1, with highest levels 2 and 7; both show 2. -/
theorem C156_same_km_violated :
    (∀ (o : ArgSort K) (parse : Text → Option K) (s : Session K) (route : List Text) (stat : Text), stat ≠ "time".toList →
      ∀ f, (figureLongitudinal o parse s route stat).2 = .ok f → ∀ line ∈ f.lines, ∀ p ∈ line.levels, ∀ q ∈ line.levels,
        p.1 = q.1 → p.2 = q.2) ∧
    ((figureLongitudinal insertionArgSort sampleParse
      ⟨⟨.times [0, 1], ["NR_1".toList, "LK_1".toList], [[some 2, some 7], [some 2, some 7]]⟩,
        ⟨.times [0, 1], ["NR_1".toList, "LK_1".toList], [[some 2, some 7], [some 2, some 7]]⟩, ⟨none, none⟩, none⟩
      ["NR".toList, "LK".toList] "max3".toList).2.toOption.map fun f => f.lines.map fun l => l.levels) =
      some [[((1 : ℚ), some 2), (1, some 2)]] := by
  constructor
  · intro o parse s route stat hst f hf line hline p hp q hq hpq
    unfold figureLongitudinal at hf
    split at hf
    · cases hf
    · simp only at hf
      split at hf
      · cases hf
      · split at hf
        · cases hf
        · rename_i lines hlines
          rw [← Except.ok.inj hf] at hline
          unfold linesOf at hlines
          rw [if_neg hst] at hlines
          split at hlines
          · unfold statLines at hlines
            split at hlines
            · cases hlines
            · split at hlines
              · cases hlines
              · split at hlines
                · cases hlines
                · rw [← Except.ok.inj hlines, List.mem_singleton] at hline
                  rw [hline] at hp hq
                  exact applyStat_same _ _ p q hp hq hpq
          · cases hlines
  · decide +kernel

/-- **C156, violated: stations with the same levels.** Where the 1D model has the same levels at two stations, and the 2D model has not, no
difference is shown at the second one. -/
theorem C156_same_levels_violated :
    ((figureLongitudinal insertionArgSort sampleParse
      ⟨⟨.times [0, 1], ["NR_1".toList, "NR_2".toList], [[some 2, some 2], [some 3, some 3]]⟩,
        ⟨.times [0, 1], ["NR_1".toList, "NR_2".toList], [[some 2, some 1], [some 3, some 2]]⟩, ⟨none, none⟩, none⟩
      ["NR".toList] "max3".toList).2.toOption.map fun f => f.lines.map fun l => l.difference) =
      some [[((1 : ℚ), some 0), (2, none)]] := by
  decide +kernel

/-! ## C157: heat maps -/

private theorem seriesAt_map {X : Type} [LinearOrder X] (l : List X) (g : X → Option K) (t : X) (ht : t ∈ l) :
    seriesAt (l.map fun u => (u, g u)) t = g t := by
  unfold seriesAt
  induction l with
  | nil => cases ht
  | cons a l ih =>
    rw [List.map_cons]
    by_cases h : a = t
    · rw [List.find?_cons_of_pos (by exact decide_eq_true h), h]
      rfl
    · rw [List.find?_cons_of_neg (by intro k; exact h (of_decide_eq_true k))]
      rcases List.mem_cons.1 ht with e | e
      · exact absurd e.symm h
      · exact ih e

/-- The difference shown at a time is that of the two models. -/
theorem tableDiff_at (c : List Text) (t1 t2 : List Int) (r1 r2 : List (List (Option K))) (n : Text) (hn : n ∈ c) (t : Int)
    (ht : t ∈ npUnique ((t1.zip r1).map (·.1) ++ (t2.zip r2).map (·.1))) :
    seriesAt (tableDiff c c (t1.zip r1) (t2.zip r2) n) t =
      differenceAt ((t1.zip r1).map fun r => (r.1, valueUnder c r.2 n)) ((t2.zip r2).map fun r => (r.1, valueUnder c r.2 n)) t := by
  unfold tableDiff
  rw [columnSeries_mem c _ n hn, columnSeries_mem c _ n hn, diffSeries_eq]
  simp only [Option.getD_some]
  have e : ∀ l : List (Int × List (Option K)), (l.map fun r => (r.1, valueUnder c r.2 n)).map (·.1) = l.map (·.1) := fun l => by
    rw [List.map_map]; rfl
  rw [e, e, seriesAt_map _ _ _ ht]

/-- **C157, partial.** The heat map of a route has a column for each time, in order, at which some station has levels of both models, and
nothing else. The row of a station holds the difference of its levels at these times. If no two stations of the route have the
same differences, there is a row for each. What is missing: stations with the same differences, see `C157_same_violated`, and the
start and stop time, see `C157_window_violated`. -/
theorem C157_heatmap_partial (o : ArgSort K) (parse : Text → Option K) (s : Session K) (route : List Text) (t1 t2 : List Int)
    (hs : SameStations t1 t2 s.h1 s.h2) :
    ∃ f, heatMapTime o parse s route = .ok f ∧ f.across.Pairwise (· < ·) ∧
      (∀ t, t ∈ f.across ↔ ∃ n ∈ s.h1.columns, (differenceAt (allRecords t1 s.h1 n) (allRecords t2 s.h2 n) t).isSome) ∧
      List.Sublist f.rows ((along o parse s.h1.columns route).map fun z =>
        (z.2, f.across.map (differenceAt (allRecords t1 s.h1 z.1) (allRecords t2 s.h2 z.1)))) ∧
      (((along o parse s.h1.columns route).map fun z =>
          f.across.map (differenceAt (allRecords t1 s.h1 z.1) (allRecords t2 s.h2 z.1))).Nodup →
        f.rows = (along o parse s.h1.columns route).map fun z =>
          (z.2, f.across.map (differenceAt (allRecords t1 s.h1 z.1) (allRecords t2 s.h2 z.1)))) := by
  have e1 : ∀ n, (t1.zip s.h1.rows).map (fun r => (r.1, valueUnder s.h1.columns r.2 n)) = allRecords t1 s.h1 n := fun n => rfl
  have e2 : ∀ n, (t2.zip s.h2.rows).map (fun r => (r.1, valueUnder s.h1.columns r.2 n)) = allRecords t2 s.h2 n := fun n => by
    unfold allRecords
    rw [hs.stations]
  have hsome : ∀ a b : List (Int × Option K), ∀ t, (differenceAt a b t).isSome → t ∈ a.map (·.1) := by
    intro a b t h
    unfold differenceAt at h
    cases ha : seriesAt a t with
    | none => rw [ha] at h; cases h
    | some v =>
      unfold seriesAt at ha
      cases hf : a.find? (fun r => decide (r.1 = t)) with
      | none => rw [hf] at ha; cases ha
      | some r => exact List.mem_map.2 ⟨r, List.mem_of_find?_eq_some hf, by simpa using List.find?_some hf⟩
  have hin : ∀ t n, (differenceAt (allRecords t1 s.h1 n) (allRecords t2 s.h2 n) t).isSome →
      t ∈ npUnique ((t1.zip s.h1.rows).map (·.1) ++ (t2.zip s.h2.rows).map (·.1)) := by
    intro t n h
    rw [mem_npUnique, List.mem_append]
    left
    have := hsome _ _ t h
    rw [← e1, List.map_map] at this
    exact this
  have hdc : diffColumns s.h1.columns s.h1.columns = s.h1.columns := if_pos rfl
  have hrow : ∀ n ∈ s.h1.columns, ∀ t ∈ npUnique ((t1.zip s.h1.rows).map (·.1) ++ (t2.zip s.h2.rows).map (·.1)),
      seriesAt (tableDiff s.h1.columns s.h1.columns (t1.zip s.h1.rows) (t2.zip s.h2.rows) n) t =
        differenceAt (allRecords t1 s.h1 n) (allRecords t2 s.h2 n) t := by
    intro n hn t ht
    rw [tableDiff_at s.h1.columns t1 t2 s.h1.rows s.h2.rows n hn t ht, e1, e2]
  have hmap : heatMapTime o parse s route = .ok (heatMapOf s.h1.columns s.h1.columns (t1.zip s.h1.rows) (t2.zip s.h2.rows)
      (getRoute o parse s.h1.columns route).1 (getRoute o parse s.h1.columns route).2) := by
    unfold heatMapTime
    rw [hs.times1, hs.times2, hs.stations]
  refine ⟨_, hmap, (npUnique_sorted _).filter _, fun t => ?_, ?_⟩
  · unfold heatMapOf
    simp only
    rw [List.mem_filter, hdc, List.any_eq_true]
    constructor
    · rintro ⟨ht, n, hn, h⟩
      rw [hrow n hn t ht] at h
      exact ⟨n, hn, h⟩
    · rintro ⟨n, hn, h⟩
      have ht := hin t n h
      exact ⟨ht, n, hn, by rw [hrow n hn t ht]; exact h⟩
  · have hr : (heatMapOf s.h1.columns s.h1.columns (t1.zip s.h1.rows) (t2.zip s.h2.rows)
        (getRoute o parse s.h1.columns route).1 (getRoute o parse s.h1.columns route).2).rows =
        dropDuplicates ((along o parse s.h1.columns route).map fun z => (z.2, (heatMapOf s.h1.columns s.h1.columns (t1.zip s.h1.rows)
          (t2.zip s.h2.rows) (getRoute o parse s.h1.columns route).1 (getRoute o parse s.h1.columns route).2).across.map
            (differenceAt (allRecords t1 s.h1 z.1) (allRecords t2 s.h2 z.1)))) [] := by
      unfold heatMapOf along
      simp only
      rw [zip_map_along]
      congr 1
      apply List.map_congr_left
      intro z hz
      congr 1
      apply List.map_congr_left
      intro t ht
      exact hrow z.1 (route_mem o parse _ route z.1 (List.of_mem_zip hz).1) t (List.mem_filter.1 ht).1
    rw [hr]
    refine ⟨(dropDuplicates_spec _ []).1, fun hnd => ?_⟩
    rw [dropDuplicates_nodup _ _ (by rw [List.map_map]; exact hnd) fun _ _ => List.not_mem_nil]

/-- **C157, violated: the start and stop time.** They have no influence on heat maps. -/
theorem C157_window_violated (o : ArgSort K) (parse : Text → Option K) (s : Session K) (w : Window Int) (route : List Text) :
    heatMapTime o parse { s with window := w } route = heatMapTime o parse s route := rfl

/-- A record before the start time is shown. -/
example : (heatMapTime insertionArgSort sampleParse ⟨dailyLevels, everyOtherDay, ⟨some 86400, none⟩, none⟩ ["NR".toList]).toOption.map
    (fun f => f.across) = some [0, 172800, 345600, 518400] := by decide +kernel

/-- **C157, violated: stations with the same differences.** Where the two models agree at all times for all stations, there is at most one
row, however many stations there are. -/
theorem C157_same_violated (o : ArgSort K) (parse : Text → Option K) (s : Session K) (route : List Text) (t1 t2 : List Int)
    (hs : SameStations t1 t2 s.h1 s.h2) (f : HeatMap Int K) (hf : heatMapTime o parse s route = .ok f)
    (h : ∀ n ∈ s.h1.columns, ∀ t ∈ f.across, differenceAt (allRecords t1 s.h1 n) (allRecords t2 s.h2 n) t = some 0) :
    f.rows.length ≤ 1 := by
  obtain ⟨f', hf', _, _, hsub, _⟩ := C157_heatmap_partial o parse s route t1 t2 hs
  rw [hf] at hf'
  obtain rfl := Except.ok.inj hf'
  have hall : ∀ r ∈ f.rows, r.2 = f.across.map fun _ => some 0 := by
    intro r hr
    obtain ⟨z, hz, rfl⟩ := List.mem_map.1 (hsub.subset hr)
    apply List.map_congr_left
    intro t ht
    exact h z.1 (route_mem o parse _ route z.1 (List.of_mem_zip hz).1) t ht
  have hnd : (f.rows.map (·.2)).Nodup := by
    have e : f = heatMapOf s.h1.columns s.h2.columns (t1.zip s.h1.rows) (t2.zip s.h2.rows)
        (getRoute o parse s.h2.columns route).1 (getRoute o parse s.h2.columns route).2 := by
      unfold heatMapTime at hf
      rw [hs.times1, hs.times2] at hf
      exact (Except.ok.inj hf).symm
    rw [e]
    exact (dropDuplicates_spec _ []).2.1
  rcases hrows : f.rows with _ | ⟨a, _ | ⟨b, l⟩⟩
  · exact Nat.zero_le _
  · exact le_refl _
  · rw [hrows] at hnd hall
    have ha := hall a List.mem_cons_self
    have hb := hall b (List.mem_cons_of_mem _ List.mem_cons_self)
    simp only [List.map_cons, List.nodup_cons, List.mem_cons, not_or] at hnd
    exact absurd (ha.trans hb.symm) hnd.1.1

/-! ## C158: the files of the figures -/

private theorem route_text (r r' : List Text) (hn : r ≠ []) (hn' : r' ≠ []) (h : ∀ b ∈ r, '-' ∉ b ∧ '_' ∉ b)
    (h' : ∀ b ∈ r', '-' ∉ b ∧ '_' ∉ b) (e : joinWith ['-'] r = joinWith ['-'] r') : r = r' := by
  rw [← splitSep_join '-' r hn fun b hb => (h b hb).1, ← splitSep_join '-' r' hn' fun b hb => (h' b hb).1, e]

private theorem route_underscore (r : List Text) (h : ∀ b ∈ r, '-' ∉ b ∧ '_' ∉ b) : '_' ∉ joinWith ['-'] r := by
  induction r with
  | nil => exact List.not_mem_nil
  | cons a l ih =>
    cases l with
    | nil => exact (h a List.mem_cons_self).2
    | cons b l =>
      intro hm
      have e : joinWith ['-'] (a :: b :: l) = a ++ ['-'] ++ joinWith ['-'] (b :: l) := rfl
      rw [e] at hm
      rcases List.mem_append.1 hm with hm | hm
      · rcases List.mem_append.1 hm with hm | hm
        · exact (h a List.mem_cons_self).2 hm
        · revert hm; decide
      · exact ih (fun b hb => h b (List.mem_cons_of_mem _ hb)) hm

private theorem long_rating_ne (r r' : List Text) (h : ∀ b ∈ r, '-' ∉ b ∧ '_' ∉ b) :
    "figures/longitudinal/".toList ++ joinWith ['-'] r ++ ".png".toList ≠
      "figures/longitudinal/".toList ++ joinWith ['-'] r' ++ "_rating_curve.png".toList := by
  intro e
  rw [List.append_assoc, List.append_assoc] at e
  have e := List.append_cancel_left e
  have hm : '_' ∈ joinWith ['-'] r' ++ "_rating_curve.png".toList := List.mem_append_right _ (by decide)
  rw [← e] at hm
  rcases List.mem_append.1 hm with hm | hm
  · exact route_underscore r h hm
  · revert hm; decide

private theorem heat_ne (r r' : List Text) :
    "figures/heatmaps/".toList ++ joinWith ['-'] r ++ "_timeseries.png".toList ≠
      "figures/heatmaps/".toList ++ joinWith ['-'] r' ++ "_rating_curve.png".toList := by
  intro e
  have h1 : "_timeseries.png".toList = "_timeserie".toList ++ "s.png".toList := by decide
  have h2 : "_rating_curve.png".toList = "_rating_curv".toList ++ "e.png".toList := by decide
  rw [h1, h2, ← List.append_assoc, ← List.append_assoc] at e
  exact absurd (List.append_inj' e rfl).2 (by decide)

/-- The character after `figures/` in the name of the file. -/
private theorem kind_letter (k : FigureKind) : (figureKindFile k)[8]? =
    some (match k with
      | .longitudinal .. => 'l' | .ratingCurve .. => 'l' | .heatTime .. => 'h' | .heatRating .. => 'h' | .station .. => 's'
      | .discharge .. => 'd') := by
  cases k <;> rfl

/-- **C158, partial.** Figures of different kinds, of different routes (whose branches have names without dashes and underscores), of
different stations and with different titles are saved in different files. What is missing: figures of the same route or station that show
something else, see `C158_statistics_violated`, `C158_station_violated` and `C158_title_violated`. -/
theorem C158_files_partial (k k' : FigureKind) (hk : PlainRoute k) (hk' : PlainRoute k') (h : figureKindFile k = figureKindFile k') :
    SameSubject k k' := by
  have hl := (kind_letter k).symm.trans ((congrArg (·[8]?) h).trans (kind_letter k'))
  cases k with
  | longitudinal r st =>
    cases k' with
    | longitudinal r' st' =>
      exact route_text r r' hk.1 hk'.1 hk.2 hk'.2 (List.append_cancel_left (List.append_cancel_right h))
    | ratingCurve r' => exact absurd h (long_rating_ne r r' hk.2)
    | heatTime r' => exact absurd hl (by simp)
    | heatRating r' => exact absurd hl (by simp)
    | station n' f' => exact absurd hl (by simp)
    | discharge s' t' => exact absurd hl (by simp)
  | ratingCurve r =>
    cases k' with
    | longitudinal r' st' => exact absurd h.symm (long_rating_ne r' r hk'.2)
    | ratingCurve r' =>
      exact route_text r r' hk.1 hk'.1 hk.2 hk'.2 (List.append_cancel_left (List.append_cancel_right h))
    | heatTime r' => exact absurd hl (by simp)
    | heatRating r' => exact absurd hl (by simp)
    | station n' f' => exact absurd hl (by simp)
    | discharge s' t' => exact absurd hl (by simp)
  | heatTime r =>
    cases k' with
    | longitudinal r' st' => exact absurd hl (by simp)
    | ratingCurve r' => exact absurd hl (by simp)
    | heatTime r' =>
      exact route_text r r' hk.1 hk'.1 hk.2 hk'.2 (List.append_cancel_left (List.append_cancel_right h))
    | heatRating r' => exact absurd h (heat_ne r r')
    | station n' f' => exact absurd hl (by simp)
    | discharge s' t' => exact absurd hl (by simp)
  | heatRating r =>
    cases k' with
    | longitudinal r' st' => exact absurd hl (by simp)
    | ratingCurve r' => exact absurd hl (by simp)
    | heatTime r' => exact absurd h.symm (heat_ne r' r)
    | heatRating r' =>
      exact route_text r r' hk.1 hk'.1 hk.2 hk'.2 (List.append_cancel_left (List.append_cancel_right h))
    | station n' f' => exact absurd hl (by simp)
    | discharge s' t' => exact absurd hl (by simp)
  | station n f =>
    cases k' with
    | station n' f' => exact List.append_cancel_left (List.append_cancel_right h)
    | longitudinal r' st' => exact absurd hl (by simp)
    | ratingCurve r' => exact absurd hl (by simp)
    | heatTime r' => exact absurd hl (by simp)
    | heatRating r' => exact absurd hl (by simp)
    | discharge s' t' => exact absurd hl (by simp)
  | discharge st t =>
    cases k' with
    | discharge st' t' => exact List.append_cancel_left (List.append_cancel_right h)
    | longitudinal r' st' => exact absurd hl (by simp)
    | ratingCurve r' => exact absurd hl (by simp)
    | heatTime r' => exact absurd hl (by simp)
    | heatRating r' => exact absurd hl (by simp)
    | station n' f' => exact absurd hl (by simp)

example : PlainRoute (.longitudinal ["BR".toList, "PK".toList] "time".toList) := ⟨by decide, by decide⟩

/-- A figure that is drawn is in its file, and all other files stay as they are; a figure that fails changes no file. -/
theorem C158_saved (o : ArgSort K) (parse : Text → Option K) (image : FigureContent K → Text) (c : Comparison K) (dir : Store)
    (k : FigureKind) :
    (∀ file, file ≠ figureKindFile k → (saveKind o parse image c dir k).2.1 file = dir file) ∧
    (∀ e, (saveKind o parse image c dir k).2.2 = .error e → (saveKind o parse image c dir k).2.1 = dir) ∧
    (∀ f, (figureContent o parse c k).2 = .ok (some f) →
      (saveKind o parse image c dir k).2.2 = .ok () ∧ (saveKind o parse image c dir k).2.1 (figureKindFile k) = some (image f)) := by
  unfold saveKind
  rcases figureContent o parse c k with ⟨c', e | f⟩
  · exact ⟨fun _ _ => rfl, fun _ _ => rfl, fun f hf => by cases hf⟩
  · cases f with
    | none => exact ⟨fun _ _ => rfl, fun _ he => (by cases he), fun f hf => by cases hf⟩
    | some f =>
      refine ⟨fun file hfile => store_set_other _ _ _ _ hfile, fun e he => (by cases he), fun f' hf => ?_⟩
      rw [← Option.some.inj (Except.ok.inj hf)]
      exact ⟨rfl, store_set_same _ _ _⟩

/-- **C158, violated: statistics.** All figures along a route are in the same file: of two of them the second one is left. -/
theorem C158_statistics_violated (o : ArgSort K) (parse : Text → Option K) (image : FigureContent K → Text) (c : Comparison K)
    (dir : Store) (route : List Text) (stat stat' : Text) (f' : FigureContent K)
    (h : (figureContent o parse (saveKind o parse image c dir (.longitudinal route stat)).1 (.longitudinal route stat')).2 =
      .ok (some f')) :
    (saveKind o parse image (saveKind o parse image c dir (.longitudinal route stat)).1
      (saveKind o parse image c dir (.longitudinal route stat)).2.1 (.longitudinal route stat')).2.1
        (figureKindFile (.longitudinal route stat)) = some (image f') :=
  ((C158_saved o parse image _ _ (.longitudinal route stat')).2.2 f' h).2

/-- **C158, violated: stations.** The time series and the rating curve of a station are in the same file. -/
theorem C158_station_violated (o : ArgSort K) (parse : Text → Option K) (image : FigureContent K → Text) (c : Comparison K)
    (dir : Store) (name : Text) (f' : FigureContent K)
    (h : (figureContent o parse (saveKind o parse image c dir (.station name "time".toList)).1 (.station name "qh".toList)).2 =
      .ok (some f')) :
    (saveKind o parse image (saveKind o parse image c dir (.station name "time".toList)).1
      (saveKind o parse image c dir (.station name "time".toList)).2.1 (.station name "qh".toList)).2.1
        (figureKindFile (.station name "time".toList)) = some (image f') :=
  ((C158_saved o parse image _ _ (.station name "qh".toList)).2.2 f' h).2

/-- **C158, violated: titles.** Discharges of different stations with the same title, such as the default one, are in the same file. -/
theorem C158_title_violated (stations stations' : List Text) (title : Text) :
    figureKindFile (.discharge stations title) = figureKindFile (.discharge stations' title) := rfl

/-! ## C159: discharges at two stations -/

private theorem figureDischarge_ok (w : Window Int) (q1 q2 : Frame K) (n m : Text) (f : DischargeFigure K)
    (h : (figureDischarge w q1 q2 [n, m]).2 = .ok f) : ∃ w2 w1 two one t1 t2 x y, windowed w q2 = (w2, .ok two) ∧
      windowed w2 q1 = (w1, .ok one) ∧ dischargeSeries q1.columns q2.columns two one n = .ok x ∧
      dischargeSeries q1.columns q2.columns two one m = .ok y ∧ q1.index = .times t1 ∧ q2.index = .times t2 ∧
      f = ⟨[x, y], tableDiff q1.columns q2.columns (t1.zip q1.rows) (t2.zip q2.rows) m, sharesOf x.1 y.1, sharesOf x.2 y.2⟩ := by
  unfold figureDischarge at h
  simp only at h
  split at h
  · cases h
  · rename_i w2 two e2
    split at h
    · cases h
    · rename_i w1 one e1
      split at h
      · rename_i x y hx hy
        split at h
        · rename_i t1 t2 i1 i2
          exact ⟨w2, w1, two, one, t1, t2, x, y, e2, e1, hx, hy, i1, i2, (Except.ok.inj h).symm⟩
        · cases h
      · cases h

private theorem sharesOf_at (a b : List (Int × Option K)) (i : Nat) (u v : Int × Option K) (hu : a[i]? = some u) (hv : b[i]? = some v) :
    (sharesOf a b)[i]? = some (u.2.getD 0 + v.2.getD 0, share u.2 (u.2.getD 0 + v.2.getD 0), share v.2 (u.2.getD 0 + v.2.getD 0)) := by
  unfold sharesOf
  rw [List.getElem?_zipWith, hu, hv]

/-- **C159, partial.** In a figure of discharges, at each record of a model with a discharge at both stations whose sum is not zero, the
shares add up to a hundred percent and each is the part that the discharge is of the sum. What is missing: records with one discharge, see
`C159_missing_violated`, and the differences, see `C159_differences_violated`. -/
theorem C159_shares_partial (w : Window Int) (q1 q2 : Frame K) (n m : Text) (f : DischargeFigure K)
    (h : (figureDischarge w q1 q2 [n, m]).2 = .ok f) :
    ∃ a2 a1 b2 b1, f.series = [(a2, a1), (b2, b1)] ∧
      ∀ (i : Nat) (t t' : Int) (x y : K), x + y ≠ 0 →
        (a2[i]? = some (t, some x) → b2[i]? = some (t', some y) → ∃ p p', f.shares2[i]? = some (x + y, some p, some p') ∧
          p + p' = 100 ∧ p * (x + y) = 100 * x ∧ p' * (x + y) = 100 * y) ∧
        (a1[i]? = some (t, some x) → b1[i]? = some (t', some y) → ∃ p p', f.shares1[i]? = some (x + y, some p, some p') ∧
          p + p' = 100 ∧ p * (x + y) = 100 * x ∧ p' * (x + y) = 100 * y) := by
  obtain ⟨_, _, _, _, _, _, ⟨a2, a1⟩, ⟨b2, b1⟩, _, _, _, _, _, _, rfl⟩ := figureDischarge_ok w q1 q2 n m f h
  refine ⟨a2, a1, b2, b1, rfl, fun i t t' x y hne => ?_⟩
  have key : ∀ a b : List (Int × Option K), a[i]? = some (t, some x) → b[i]? = some (t', some y) →
      ∃ p p', (sharesOf a b)[i]? = some (x + y, some p, some p') ∧ p + p' = 100 ∧ p * (x + y) = 100 * x ∧ p' * (x + y) = 100 * y := by
    intro a b ha hb
    refine ⟨x / (x + y) * 100, y / (x + y) * 100, ?_, ?_, ?_, ?_⟩
    · rw [sharesOf_at a b i _ _ ha hb]
      unfold share
      simp only [Option.getD_some, Option.bind_some]
      rw [if_neg hne, if_neg hne]
    · rw [← add_mul, ← add_div, div_self hne, one_mul]
    · field_simp
    · field_simp
  exact ⟨key a2 b2, key a1 b1⟩

private theorem dischargeSeries_ok (c1 c2 : List Text) (two one : List (Int × List (Option K))) (n : Text)
    (x : List (Int × Option K) × List (Int × Option K)) (h : dischargeSeries c1 c2 two one n = .ok x) :
    x = (two.map (fun r => (r.1, valueUnder c2 r.2 n)), one.map (fun r => (r.1, valueUnder c1 r.2 n))) := by
  unfold dischargeSeries at h
  by_cases h2 : n ∈ c2
  · by_cases h1 : n ∈ c1
    · rw [columnSeries_mem c2 two n h2, columnSeries_mem c1 one n h1] at h
      exact (Except.ok.inj h).symm
    · rw [columnSeries_mem c2 two n h2, columnSeries_not c1 one n h1] at h
      cases h
  · rw [columnSeries_not c2 two n h2] at h
    cases h

/-- **C159, the discharges.** The figure shows of both stations the discharges of the 2D and of the 1D results, of all records from the start
to the stop time; without these times, from the first to the last 2D record. -/
theorem C159_series (w : Window Int) (q1 q2 : Frame K) (n m : Text) (f : DischargeFigure K)
    (h : (figureDischarge w q1 q2 [n, m]).2 = .ok f) (t1 t2 : List Int) (x1 y1 x2 y2 : Int) (ht1 : q1.index = .times t1)
    (ht2 : q2.index = .times t2) (hl1 : q1.rows.length = t1.length) (hl2 : q2.rows.length = t2.length) (hx1 : t1.head? = some x1)
    (hy1 : t1.getLast? = some y1) (hx2 : t2.head? = some x2) (hy2 : t2.getLast? = some y2) (start stop : Int)
    (hstart : start = w.start.getD x2) (hstop : stop = w.stop.getD y2) :
    f.series = [n, m].map fun s => (seriesWithin start stop t2 q2 s, seriesWithin start stop t1 q1 s) := by
  obtain ⟨w2, w1, two, one, _, _, x, y, e2, e1, hx, hy, _, _, rfl⟩ := figureDischarge_ok w q1 q2 n m f h
  obtain ⟨r2, r2'⟩ := windowed_rows w w2 t2 q2 x2 y2 ht2 hl2 hx2 hy2 two e2
  rw [← hstart, ← hstop] at r2 r2'
  rw [r2] at e1
  have r1 := (windowed_rows _ w1 t1 q1 x1 y1 ht1 hl1 hx1 hy1 one e1).2
  simp only [Option.getD_some] at r1
  rw [dischargeSeries_ok _ _ _ _ _ _ hx, dischargeSeries_ok _ _ _ _ _ _ hy, r2', r1]
  rfl

/-- **C159, violated: a missing discharge.** At a record with a discharge at one station only, this station is given a hundred percent. -/
theorem C159_missing_violated (w : Window Int) (q1 q2 : Frame K) (n m : Text) (f : DischargeFigure K)
    (h : (figureDischarge w q1 q2 [n, m]).2 = .ok f) :
    ∃ a2 a1 b2 b1, f.series = [(a2, a1), (b2, b1)] ∧
      ∀ (i : Nat) (t t' : Int) (x : K), x ≠ 0 → a2[i]? = some (t, some x) → b2[i]? = some (t', none) → f.shares2[i]? = some (x, some 100, none) := by
  obtain ⟨_, _, _, _, _, _, ⟨a2, a1⟩, ⟨b2, b1⟩, _, _, _, _, _, _, rfl⟩ := figureDischarge_ok w q1 q2 n m f h
  refine ⟨a2, a1, b2, b1, rfl, fun i t t' x hne ha hb => ?_⟩
  simp only
  rw [sharesOf_at a2 b2 i _ _ ha hb]
  unfold share
  simp only [Option.getD_some, Option.getD_none, Option.bind_some, Option.bind_none, add_zero]
  rw [if_neg hne, div_self hne, one_mul]

/-- **C159, violated: differences.** The differences shown are those of the second station only, and the start and stop time have no
influence on them. -/
theorem C159_differences_violated (w w' : Window Int) (q1 q2 : Frame K) (n n' m : Text) (f f' : DischargeFigure K)
    (h : (figureDischarge w q1 q2 [n, m]).2 = .ok f) (h' : (figureDischarge w' q1 q2 [n', m]).2 = .ok f') : f.errors = f'.errors := by
  obtain ⟨_, _, _, _, t1, t2, _, _, _, _, _, _, i1, i2, rfl⟩ := figureDischarge_ok w q1 q2 n m f h
  obtain ⟨_, _, _, _, u1, u2, _, _, _, _, _, _, j1, j2, rfl⟩ := figureDischarge_ok w' q1 q2 n' m f' h'
  rw [i1] at j1
  rw [i2] at j2
  obtain rfl := TimeIndex.times.inj j1
  obtain rfl := TimeIndex.times.inj j2
  rfl

/-- Discharges 30 and 10; then 5 and a missing one. -/
example : ((figureDischarge ⟨none, none⟩ ⟨.times [0, 1], ["A_1".toList, "B_1".toList], [[some 30, some 10], [some 5, none]]⟩
      ⟨.times [0, 1], ["A_1".toList, "B_1".toList], [[some 30, some 10], [some (5 : ℚ), none]]⟩ ["A_1".toList, "B_1".toList]).2.toOption.map
      fun f => f.shares2) = some [(40, some 75, some 25), (5, some 100, none)] := by decide +kernel

/-- Three records, of which the last two are within the start time. -/
example : ((figureDischarge ⟨some 1, none⟩ ⟨.times [0, 1, 2], ["A_1".toList, "B_1".toList], [[some 30, some 10], [some 5, none], [some 7, some 8]]⟩
      ⟨.times [0, 1, 2], ["A_1".toList, "B_1".toList], [[some 31, some 11], [some (6 : ℚ), none], [some 9, some 4]]⟩
      ["A_1".toList, "B_1".toList]).2.toOption.map fun f => f.series) =
    some [([(1, some 6), (2, some 9)], [(1, some 5), (2, some 7)]), ([(1, none), (2, some 4)], [(1, none), (2, some 8)])] := by decide +kernel

/-! ## C160: all figures -/

private theorem saveKinds_keeps (o : ArgSort K) (parse : Text → Option K) (image : FigureContent K → Text) (ks : List FigureKind)
    (c : Comparison K) (dir : Store) (file : Text) (h : dir file ≠ none) : (saveKinds o parse image ks c dir).2.1 file ≠ none := by
  induction ks generalizing c dir with
  | nil => exact h
  | cons k ks ih =>
    have h1 : (saveKind o parse image c dir k).2.1 file ≠ none := by
      by_cases e : file = figureKindFile k
      · unfold saveKind
        rcases figureContent o parse c k with ⟨c', e' | f⟩
        · exact h
        · cases f with
          | none => exact h
          | some f =>
            simp only
            rw [e, store_set_same]
            exact Option.some_ne_none _
      · rw [(C158_saved o parse image c dir k).1 file e]
        exact h
    unfold saveKinds
    rcases hk : saveKind o parse image c dir k with ⟨c', dir', e | u⟩
    · rw [hk] at h1; exact h1
    · rw [hk] at h1; exact ih c' dir' h1

private theorem saveKinds_files (o : ArgSort K) (parse : Text → Option K) (image : FigureContent K → Text) (ks : List FigureKind)
    (c : Comparison K) (dir : Store) (h : (saveKinds o parse image ks c dir).2.2 = .ok ()) (k : FigureKind) (hk : k ∈ ks)
    (hr : ∀ r, k ≠ .ratingCurve r) : (saveKinds o parse image ks c dir).2.1 (figureKindFile k) ≠ none := by
  induction ks generalizing c dir with
  | nil => cases hk
  | cons a ks ih =>
    unfold saveKinds at h ⊢
    rcases hs : saveKind o parse image c dir a with ⟨c', dir', e | u⟩
    · rw [hs] at h; cases h
    · rw [hs] at h
      simp only at h ⊢
      rcases List.mem_cons.1 hk with e | e
      · subst e
        apply saveKinds_keeps
        have hd : dir' = (saveKind o parse image c dir k).2.1 := by rw [hs]
        rw [hd]
        unfold saveKind at hs ⊢
        rcases hc : figureContent o parse c k with ⟨c'', e | f⟩
        · rw [hc] at hs; cases hs
        · cases f with
          | some f =>
            simp only
            rw [store_set_same]
            exact Option.some_ne_none _
          | none =>
            exfalso
            unfold figureContent at hc
            cases k with
            | ratingCurve r => exact hr r rfl
            | longitudinal r st => simp only at hc; split at hc <;> cases hc
            | heatTime r => simp only at hc; split at hc <;> cases hc
            | heatRating r => cases hc
            | station n f => simp only at hc; split at hc <;> cases hc
            | discharge st t => simp only at hc; split at hc <;> cases hc
      · exact ih c' dir' h e

/-- **C160, partial.** If `eval` ends without an error, routes were given and there is for each route a figure along it and two heat maps, and for each station of
the 1D model a figure. What is missing: that it ends without an error, see `C160_no_routes_violated` and `C160_short_violated`. -/
theorem C160_all_partial (o : ArgSort K) (parse : Text → Option K) (image : FigureContent K → Text) (c : Comparison K) (dir : Store)
    (h : (evalFigures o parse image c dir).2.2 = .ok ()) :
    ∃ routes, c.routes = some routes ∧
    (∀ route ∈ routes, (evalFigures o parse image c dir).2.1 (figureKindFile (.longitudinal route "time".toList)) ≠ none ∧
      (evalFigures o parse image c dir).2.1 (figureKindFile (.heatTime route)) ≠ none ∧
      (evalFigures o parse image c dir).2.1 (figureKindFile (.heatRating route)) ≠ none) ∧
    ∀ n ∈ c.session.h1.columns, (evalFigures o parse image c dir).2.1 (figureKindFile (.station n "time".toList)) ≠ none := by
  obtain ⟨routes, hr⟩ : ∃ routes, c.routes = some routes := by
    cases hr : c.routes with
    | none => unfold evalFigures at h; rw [hr] at h; cases h
    | some routes => exact ⟨routes, rfl⟩
  refine ⟨routes, hr, ?_⟩
  have e : evalFigures o parse image c dir =
      saveKinds o parse image (routes.flatMap routeKinds ++ c.session.h1.columns.map fun n => .station n "time".toList) c dir := by
    unfold evalFigures
    rw [hr]
  rw [e] at h ⊢
  have hin : ∀ route ∈ routes, ∀ k ∈ routeKinds route,
      k ∈ routes.flatMap routeKinds ++ c.session.h1.columns.map fun n => FigureKind.station n "time".toList := fun route hroute k hk =>
    List.mem_append_left _ (List.mem_flatMap.2 ⟨route, hroute, hk⟩)
  refine ⟨fun route hroute => ⟨?_, ?_, ?_⟩, fun n hn => ?_⟩
  · exact saveKinds_files o parse image _ c dir h _ (hin route hroute _ (List.mem_cons_of_mem _ List.mem_cons_self)) fun r => by
      intro e; cases e
  · exact saveKinds_files o parse image _ c dir h _ (hin route hroute _ (List.mem_cons_of_mem _ (List.mem_cons_of_mem _
      (List.mem_cons_of_mem _ List.mem_cons_self)))) fun r => by intro e; cases e
  · exact saveKinds_files o parse image _ c dir h _ (hin route hroute _ (List.mem_cons_of_mem _ (List.mem_cons_of_mem _
      List.mem_cons_self))) fun r => by intro e; cases e
  · exact saveKinds_files o parse image _ c dir h _ (List.mem_append_right _ (List.mem_map.2 ⟨n, hn, rfl⟩)) fun r => by
      intro e; cases e

/-- **C160, violated: no routes.** Without routes, the default, `eval` raises `TypeError` and makes no figure at all. -/
theorem C160_no_routes_violated (o : ArgSort K) (parse : Text → Option K) (image : FigureContent K → Text) (c : Comparison K)
    (dir : Store) (h : c.routes = none) : evalFigures o parse image c dir = (c, dir, .error .typeError) := by
  unfold evalFigures
  rw [h]

/-- **C160, violated: few days.** With routes and less than six days of 1D records from the start to the stop time, `eval` raises an error
after at most one figure, of rating curves: there are no heat maps and no figures of stations. -/
theorem C160_short_violated (o : ArgSort K) (parse : Text → Option K) (image : FigureContent K → Text) (c : Comparison K) (dir : Store)
    (route : List Text) (routes : List (List Text)) (hroutes : c.routes = some (route :: routes)) (t1 : List Int) (x y : Int)
    (ht : c.session.h1.index = .times t1) (hr : c.session.h1.rows.length = t1.length) (hx : t1.head? = some x)
    (hy : t1.getLast? = some y) (start stop : Int) (hstart : start = c.session.window.start.getD x)
    (hstop : stop = c.session.window.stop.getD y) (ho : start < stop) (hy' : start < y) (hx' : x < stop) (first last : Int)
    (hf : (t1.filter fun t => decide (start ≤ t ∧ t ≤ stop)).head? = some first)
    (hl : (t1.filter fun t => decide (start ≤ t ∧ t ≤ stop)).getLast? = some last) (h6 : last - first < 6 * 86400) :
    (∃ e, (evalFigures o parse image c dir).2.2 = .error e) ∧
    ∀ file, file ≠ figureKindFile (.ratingCurve route) → (evalFigures o parse image c dir).2.1 file = dir file := by
  have e : ∃ ks, evalFigures o parse image c dir =
      saveKinds o parse image (.ratingCurve route :: .longitudinal route "time".toList :: ks) c dir := by
    unfold evalFigures
    rw [hroutes]
    exact ⟨_, rfl⟩
  obtain ⟨ks, e⟩ := e
  rw [e]
  have hsaved := (C158_saved o parse image c dir (.ratingCurve route)).1
  have hsame : (saveKind o parse image c dir (.ratingCurve route)).1 = c := by
    unfold saveKind figureContent
    simp only
    split
    · rename_i h; split at h <;> (have := (Prod.mk.inj h).1; exact this.symm)
    · rename_i h; split at h <;> (have := (Prod.mk.inj h).1; exact this.symm)
    · rename_i h; split at h <;> (have := (Prod.mk.inj h).1; exact this.symm)
  unfold saveKinds
  rcases hs : saveKind o parse image c dir (.ratingCurve route) with ⟨c', dir', e | u⟩
  · rw [hs] at hsaved
    exact ⟨⟨e, rfl⟩, hsaved⟩
  · rw [hs] at hsaved hsame
    simp only at hsame hsaved
    subst hsame
    have hfail := C155_short_violated o parse c'.session route t1 x y ht hr hx hy start stop hstart hstop ho hy' hx' first last hf hl h6
    have hl2 : ∃ c2, saveKind o parse image c' dir' (.longitudinal route "time".toList) = (c2, dir', .error .valueError) := by
      unfold saveKind figureContent
      rcases hfl : figureLongitudinal o parse c'.session route "time".toList with ⟨s2, r⟩
      rw [hfl] at hfail
      simp only at hfail
      subst hfail
      simp only [hfl]
      exact ⟨_, rfl⟩
    obtain ⟨c2, h2⟩ := hl2
    simp only
    unfold saveKinds
    rw [h2]
    exact ⟨⟨_, rfl⟩, hsaved⟩

/-! ## C161: figures at a station -/

/-- **C161, partial.** The figure of the time series at a station shows its levels in both models from the start to the stop time, and
their difference at all times of one of them where both have a level. Without a start or stop time those of the 2D records are taken. The
statistics shown are those of the same records, if none have been computed before (see C117). What is missing: other words than
`time` and `qh`, see `C161_word_violated`. -/
theorem C161_time_partial (parse : Text → Option K) (c : Comparison K) (n func : Text) (hfunc : lower func = "time".toList)
    (t1 t2 : List Int) (x y x2 y2 : Int) (hs : SameStations t1 t2 c.session.h1 c.session.h2) (hn : n ∈ c.session.h1.columns)
    (hx : t1.head? = some x) (hy : t1.getLast? = some y) (hx2 : t2.head? = some x2) (hy2 : t2.getLast? = some y2) (start stop : Int)
    (hstart : start = c.session.window.start.getD x2) (hstop : stop = c.session.window.stop.getD y2) (ho : start < stop)
    (hy' : start < y) (hx' : x < stop) (hy2' : start < y2) (hx2' : x2 < stop) (hnone : c.session.statistics = none) :
    ∃ (f : StationFigure K) (times : List Int), (figureStation parse c n func).2 = .ok f ∧ times.Pairwise (· < ·) ∧
      (∀ t, t ∈ times ↔ t ∈ (seriesWithin start stop t1 c.session.h1 n).map (·.1) ∨
        t ∈ (seriesWithin start stop t2 c.session.h2 n).map (·.1)) ∧
      f.byTime = some (seriesWithin start stop t2 c.session.h2 n, seriesWithin start stop t1 c.session.h1 n,
        times.map fun t => (t, differenceAt (seriesWithin start stop t1 c.session.h1 n) (seriesWithin start stop t2 c.session.h2 n) t)) ∧
      f.byDischarge = none ∧
      IsStatistic parse (seriesWithin start stop t1 c.session.h1 n) (seriesWithin start stop t2 c.session.h2 n) n f.stat := by
  obtain ⟨two, e2⟩ := windowed_ok c.session.window t2 c.session.h2 x2 y2 hs.times2 hs.rows2 hx2 hy2 (hstart ▸ hstop ▸ ho) (hstart ▸ hy2')
    (hstop ▸ hx2')
  rw [← hstart, ← hstop] at e2
  obtain ⟨one, e1⟩ := windowed_ok ⟨some start, some stop⟩ t1 c.session.h1 x y hs.times1 hs.rows1 hx hy ho hy' hx'
  simp only [Option.getD_some] at e1
  have r2 := (windowed_rows _ _ t2 c.session.h2 x2 y2 hs.times2 hs.rows2 hx2 hy2 two e2).2
  have r1 := (windowed_rows _ _ t1 c.session.h1 x y hs.times1 hs.rows1 hx hy one e1).2
  rw [← hstart, ← hstop] at r2
  simp only [Option.getD_some] at r1
  have q1 : one.map (fun r => (r.1, valueUnder c.session.h1.columns r.2 n)) = seriesWithin start stop t1 c.session.h1 n := by
    rw [r1, rows_series _ t1 c.session.h1 rfl]
  have q2 : two.map (fun r => (r.1, valueUnder c.session.h2.columns r.2 n)) = seriesWithin start stop t2 c.session.h2 n := by
    rw [r2, rows_series _ t2 c.session.h2 rfl]
  have hcurves : stationCurves c n func = (⟨some start, some stop⟩, .ok (some (seriesWithin start stop t2 c.session.h2 n,
      seriesWithin start stop t1 c.session.h1 n, diffSeries (seriesWithin start stop t1 c.session.h1 n)
        (seriesWithin start stop t2 c.session.h2 n)), none)) := by
    unfold stationCurves
    simp only
    rw [if_neg (by rw [hfunc]; decide), if_pos hfunc, e2]
    simp only
    rw [columnSeries_mem _ two n (by rw [hs.stations]; exact hn), q2]
    simp only
    rw [e1]
    simp only
    rw [columnSeries_mem _ one n hn, q1]
  obtain ⟨st, hst⟩ := C118_computed parse ⟨some start, some stop⟩ t1 t2 c.session.h1 c.session.h2 x y hs hx hy x2 y2 hx2 hy2 ho hy' hx'
    hy2' hx2'
  obtain ⟨hnames, hstat⟩ := C118_statistics parse ⟨some start, some stop⟩ t1 t2 c.session.h1 c.session.h2 x y hs hx hy x2 y2 hx2 hy2 st hst
  simp only [Option.getD_some] at hstat
  have hfind : ∃ r, st.find? (fun r => decide (r.station = n)) = some r := by
    cases hf : st.find? (fun r => decide (r.station = n)) with
    | some r => exact ⟨r, rfl⟩
    | none =>
      exfalso
      rw [List.find?_eq_none] at hf
      rw [← hnames] at hn
      obtain ⟨r, hr, hrn⟩ := List.mem_map.1 hn
      exact hf r hr (decide_eq_true hrn)
  obtain ⟨r, hr⟩ := hfind
  have hrn : r.station = n := by simpa using List.find?_some hr
  have hmem := List.mem_of_find?_eq_some hr
  have hget : ∃ s', getStatistics parse { c.session with window := ⟨some start, some stop⟩ } n = (s', .ok r) := by
    unfold getStatistics
    simp only
    rw [hnone]
    simp only
    rcases hc : computeStatistics parse ⟨some start, some stop⟩ c.session.h1 c.session.h2 with ⟨w, res⟩
    rw [hc] at hst
    simp only at hst
    subst hst
    simp only
    rw [hr]
    exact ⟨_, rfl⟩
  obtain ⟨s', hget⟩ := hget
  refine ⟨⟨some (seriesWithin start stop t2 c.session.h2 n, seriesWithin start stop t1 c.session.h1 n,
    diffSeries (seriesWithin start stop t1 c.session.h1 n) (seriesWithin start stop t2 c.session.h2 n)), none, r⟩,
    npUnique ((seriesWithin start stop t1 c.session.h1 n).map (·.1) ++ (seriesWithin start stop t2 c.session.h2 n).map (·.1)), ?_,
    npUnique_sorted _, fun t => by rw [mem_npUnique, List.mem_append], ?_, rfl, ?_⟩
  · unfold figureStation
    rw [hcurves]
    simp only
    rw [hget]
  · simp only
    rw [diffSeries_eq]
  · have := hstat r hmem
    rw [hrn] at this
    exact this

/-- **C161, the rating curve.** The figure of the rating curve at a station shows the levels of the two rating curves, and their difference
at each discharge. -/
theorem C161_rating (parse : Text → Option K) (c : Comparison K) (n func : Text) (hfunc : lower func = "qh".toList)
    (f : StationFigure K) (h : (figureStation parse c n func).2 = .ok f) (hl : c.r1.labels = c.r2.labels)
    (hr1 : c.r1.rows.length = c.r1.labels.length) (hr2 : c.r2.rows.length = c.r2.labels.length) :
    n ∈ c.r1.columns ∧ n ∈ c.r2.columns ∧ f.byTime = none ∧
    f.byDischarge = some ((c.r2.labels.zip c.r2.rows).map (fun r => (r.1, valueUnder c.r2.columns r.2 n)),
      (c.r1.labels.zip c.r1.rows).map (fun r => (r.1, valueUnder c.r1.columns r.2 n)),
      List.zipWith (fun r r' => (r.1, minus (valueUnder c.r1.columns r.2 n) (valueUnder c.r2.columns r'.2 n)))
        (c.r1.labels.zip c.r1.rows) (c.r2.labels.zip c.r2.rows)) := by
  by_cases h1 : n ∈ c.r1.columns
  · by_cases h2 : n ∈ c.r2.columns
    · refine ⟨h1, h2, ?_⟩
      unfold figureStation stationCurves at h
      simp only at h
      rw [if_pos hfunc, columnSeries_mem _ _ n h1, columnSeries_mem _ _ n h2] at h
      simp only at h
      split at h
      · cases h
      · rename_i w curves hcur
        split at hcur
        · have hc := Except.ok.inj (Prod.mk.inj hcur).2
          split at h
          · cases h
          · rw [← Except.ok.inj h, ← hc]
            refine ⟨rfl, ?_⟩
            simp only
            congr 3
            unfold alignSub ratingRows
            rw [if_pos]
            · rw [List.zipWith_map]
              simp only [subOption_eq]
            · rw [List.map_map, List.map_map]
              have e : ∀ (cs : List Text), ((fun z : K × Option K => z.1) ∘ fun r : K × List (Option K) => (r.1, valueUnder cs r.2 n)) =
                  fun r : K × List (Option K) => r.1 := fun cs => rfl
              rw [e, e, List.map_fst_zip hr1.ge, List.map_fst_zip hr2.ge, hl]
        · cases (Prod.mk.inj hcur).2
    · exfalso
      unfold figureStation stationCurves at h
      simp only at h
      rw [if_pos hfunc, columnSeries_not _ _ n h2] at h
      cases h
  · exfalso
    unfold figureStation stationCurves at h
    simp only at h
    rw [if_pos hfunc, columnSeries_not _ _ n h1] at h
    cases hc : columnSeries c.r2.columns (ratingRows c.r2) n with
    | none => rw [hc] at h; cases h
    | some b => rw [hc] at h; cases h

/-- **C161, violated: another word.** With any other word than `time` and `qh` there is no error for this, and a figure without curves. -/
theorem C161_word_violated (parse : Text → Option K) (c : Comparison K) (n func : Text) (h1 : lower func ≠ "time".toList)
    (h2 : lower func ≠ "qh".toList) (r : StatRow K) (hr : (getStatistics parse c.session n).2 = .ok r) :
    (figureStation parse c n func).2 = .ok ⟨none, none, r⟩ := by
  unfold figureStation stationCurves
  simp only
  rw [if_neg h2, if_neg h1]
  simp only
  rcases hg : getStatistics parse c.session n with ⟨s', res⟩
  rw [hg] at hr
  simp only at hr
  subst hr
  rfl

/-! ## C162: rating curves along a route -/

private theorem dataAlong_rating (r : Rating K) (stations : List Text) (rkms : List K) (hs : ∀ n ∈ stations, n ∈ r.columns) :
    dataAlongRoute (columnSeries r.columns (ratingRows r)) stations rkms =
      .ok (dropDuplicates ((stations.zip rkms).map fun z => (z.2, curveOf r z.1)) []) := by
  unfold dataAlongRoute
  rw [collect_ok _ (fun n => curveOf r n) stations fun n hn => by
    rw [columnSeries_mem r.columns _ n (hs n hn)]
    rfl]
  simp only
  rw [zip_map_along stations rkms fun n => curveOf r n]

private theorem atDischarge_ok (r : Rating K) (hr : r.rows.length = r.labels.length) (l : List (Text × K)) (q : K) (hq : q ∈ r.labels) :
    atDischarge (l.map fun z => (z.2, curveOf r z.1)) q = .ok (l.map fun z => (z.2, curveAt r z.1 q)) := by
  unfold atDischarge
  apply collect_map
  intro z _
  simp only
  unfold curveOf curveAt
  rw [List.find?_map]
  have hf : ((fun x : K × Option K => decide (x.1 = q)) ∘ fun x : K × List (Option K) => (x.1, valueUnder r.columns x.2 z.1)) =
      fun x : K × List (Option K) => decide (x.1 = q) := rfl
  rw [hf]
  cases he : (r.labels.zip r.rows).find? (fun x => decide (x.1 = q)) with
  | some x => rfl
  | none =>
    exfalso
    rw [List.find?_eq_none] at he
    have hm : q ∈ (r.labels.zip r.rows).map (·.1) := by rw [List.map_fst_zip hr.ge]; exact hq
    obtain ⟨x, hx, hxq⟩ := List.mem_map.1 hm
    exact he x hx (decide_eq_true hxq)

/-- **C162, partial.** For rating curves of the same stations at the same discharges, let the stations of a route have different kilometres
and different curves in each of the models, and let the last of them have a 1D level. Then nothing is drawn because no discharge can be
chosen, or a line is drawn for each of at most eight increasing positive discharges. It shows at the kilometre of each station the level of
its 1D curve at the discharge, and this level less that of its 2D curve. What is missing: stations with the same kilometre, see
`C162_same_km_violated`, with the same curve, and routes whose last station has no levels. -/
theorem C162_lines_partial (o : ArgSort K) (parse : Text → Option K) (names route : List Text) (r1 r2 : Rating K)
    (hc1 : r1.columns = names) (hc2 : r2.columns = names) (hl : r1.labels = r2.labels) (hr1 : r1.rows.length = r1.labels.length)
    (hr2 : r2.rows.length = r2.labels.length) (hinc : r1.labels.Pairwise (· < ·)) (hpos : ∀ q ∈ r1.labels, 0 ≤ q)
    (hk : ((along o parse names route).map (·.2)).Nodup)
    (hd1 : ((along o parse names route).map fun z => curveOf r1 z.1).Nodup)
    (hd2 : ((along o parse names route).map fun z => curveOf r2 z.1).Nodup)
    (last : Text × K) (hlast : (along o parse names route).getLast? = some last) (hlev : ∃ r ∈ curveOf r1 last.1, r.2 ≠ none) :
    figureRating o parse names r1 r2 route = .ok none ∨
    ∃ (f : RatingFigure K) (qs : List K), figureRating o parse names r1 r2 route = .ok (some f) ∧ qs.length ≤ 8 ∧ qs.Pairwise (· < ·) ∧
      (∀ q ∈ qs, 0 < q ∧ curveAt r1 last.1 q ≠ none) ∧
      f.lines = qs.map fun q => (q, (along o parse names route).map (fun z => (z.2, curveAt r1 z.1 q)),
        (along o parse names route).map (fun z => (z.2, minus (curveAt r1 z.1 q) (curveAt r2 z.1 q)))) := by
  have hm1 : ∀ n ∈ (getRoute o parse names route).1, n ∈ r1.columns := fun n hn => by
    rw [hc1]; exact route_mem o parse _ route n hn
  have hm2 : ∀ n ∈ (getRoute o parse names route).1, n ∈ r2.columns := fun n hn => by
    rw [hc2]; exact route_mem o parse _ route n hn
  have a1 : dropDuplicates ((along o parse names route).map fun z => (z.2, curveOf r1 z.1)) [] =
      (along o parse names route).map fun z => (z.2, curveOf r1 z.1) :=
    dropDuplicates_nodup _ _ (by rw [List.map_map]; exact hd1) fun _ _ => List.not_mem_nil
  have a2 : dropDuplicates ((along o parse names route).map fun z => (z.2, curveOf r2 z.1)) [] =
      (along o parse names route).map fun z => (z.2, curveOf r2 z.1) :=
    dropDuplicates_nodup _ _ (by rw [List.map_map]; exact hd2) fun _ _ => List.not_mem_nil
  have hcount : ¬ 1 < ((along o parse names route).map fun z => (z.2, curveOf r1 z.1)).countP fun x => decide (x.1 = last.2) := by
    have h := List.nodup_iff_count_le_one.1 hk last.2
    rw [List.count, List.countP_map] at h
    rw [List.countP_map]
    have e : (fun x : Text × K => (x.2 == last.2)) = fun x => decide (x.2 = last.2) := by
      funext x
      rfl
    have h' : List.countP (fun x : Text × K => decide (x.2 = last.2)) (along o parse names route) ≤ 1 := by
      rw [← e]; exact h
    exact not_lt.2 h'
  have hsteps := C91_discharges_partial 8 (curveOf r1 last.1)
    (by
      have h : ((curveOf r1 last.1).map (·.1)).Pairwise (· < ·) := by
        unfold curveOf
        rw [List.map_map]
        have e : ((fun z : K × Option K => z.1) ∘ fun x : K × List (Option K) => (x.1, valueUnder r1.columns x.2 last.1)) =
            fun x : K × List (Option K) => x.1 := rfl
        rw [e, List.map_fst_zip hr1.ge]
        exact hinc
      exact List.pairwise_map.1 h)
    (fun r hr => by
      unfold curveOf at hr
      obtain ⟨x, hx, rfl⟩ := List.mem_map.1 hr
      exact hpos _ (List.of_mem_zip hx).1) hlev
  obtain ⟨qs, hqs, hlen, hpw, hq⟩ := hsteps
  have hfig : figureRating o parse names r1 r2 route = match dischargeSteps 8 (curveOf r1 last.1) with
      | .error e => .error e
      | .ok [] => .ok none
      | .ok (q :: qs) =>
        match collect (fun q =>
            match atDischarge ((along o parse names route).map fun z => (z.2, curveOf r1 z.1)) q,
              atDischarge ((along o parse names route).map fun z => (z.2, curveOf r2 z.1)) q with
            | .ok a, .ok b => .ok (q, a, alignSub a b)
            | .error e, _ => .error e
            | _, .error e => .error e) (q :: qs) with
        | .error e => .error e
        | .ok lines => .ok (some ⟨lines, getRouteLmw o parse names route⟩) := by
    unfold figureRating
    simp only
    rw [dataAlong_rating r1 _ _ hm1]
    simp only
    rw [dataAlong_rating r2 _ _ hm2]
    simp only
    unfold along at a1 a2 hlast hcount ⊢
    rw [a1, a2, List.getLast?_map, hlast]
    simp only [Option.map_some]
    rw [if_neg hcount]
    rfl
  rw [hqs] at hfig
  have hlabel : ∀ q ∈ qs, q ∈ r1.labels := by
    intro q hqm
    obtain ⟨_, h, hm⟩ := hq q hqm
    unfold curveOf at hm
    obtain ⟨x, hx, e⟩ := List.mem_map.1 hm
    rw [← (Prod.mk.inj e).1]
    exact (List.of_mem_zip hx).1
  cases qs with
  | nil => exact Or.inl hfig
  | cons q qs =>
    right
    refine ⟨⟨(q :: qs).map fun q => (q, (along o parse names route).map (fun z => (z.2, curveAt r1 z.1 q)),
        (along o parse names route).map (fun z => (z.2, minus (curveAt r1 z.1 q) (curveAt r2 z.1 q)))), getRouteLmw o parse names route⟩,
      q :: qs, ?_, hlen, hpw, ?_, rfl⟩
    · rw [hfig]
      simp only
      rw [collect_ok _ (fun q => (q, (along o parse names route).map (fun z => (z.2, curveAt r1 z.1 q)),
        (along o parse names route).map (fun z => (z.2, minus (curveAt r1 z.1 q) (curveAt r2 z.1 q))))) (q :: qs)]
      intro p hp
      rw [atDischarge_ok r1 hr1 _ p (hlabel p hp), atDischarge_ok r2 hr2 _ p (hl ▸ hlabel p hp)]
      simp only
      rw [alignSub_same _ (fun n => curveAt r1 n p) (fun n => curveAt r2 n p)]
    · intro p hp
      obtain ⟨h0, h, hm⟩ := hq p hp
      refine ⟨h0, ?_⟩
      unfold curveOf at hm
      obtain ⟨x, hx, e⟩ := List.mem_map.1 hm
      obtain ⟨e1, e2⟩ := Prod.mk.inj e
      unfold curveAt
      have hnd : ((r1.labels.zip r1.rows).map (·.1)).Nodup := by
        rw [List.map_fst_zip hr1.ge]
        exact hinc.imp fun h => ne_of_lt h
      have : (r1.labels.zip r1.rows).find? (fun x => decide (x.1 = p)) = some x := by
        clear hfig a1 a2
        generalize r1.labels.zip r1.rows = l at hx hnd
        induction l with
        | nil => cases hx
        | cons a l ih =>
          rw [List.map_cons, List.nodup_cons] at hnd
          rcases List.mem_cons.1 hx with e' | e'
          · subst e'
            rw [List.find?_cons_of_pos (by exact decide_eq_true e1)]
          · rw [List.find?_cons_of_neg, ih e' hnd.2]
            intro k
            exact hnd.1 (List.mem_map.2 ⟨x, e', e1.trans (of_decide_eq_true k).symm⟩)
      rw [this, Option.bind_some, e2]
      exact Option.some_ne_none _

/-- **C162, violated: stations with the same kilometre.** If the last two stations of a route have the same kilometre and different curves,
`ValueError` is raised. -/
theorem C162_same_km_violated (o : ArgSort K) (parse : Text → Option K) (names route : List Text) (r1 r2 : Rating K)
    (hc1 : r1.columns = names) (hc2 : r2.columns = names)
    (hd1 : ((along o parse names route).map fun z => curveOf r1 z.1).Nodup) (before : List (Text × K)) (n m : Text) (km : K)
    (h : along o parse names route = before ++ [(n, km), (m, km)]) :
    figureRating o parse names r1 r2 route = .error .valueError := by
  have hm1 : ∀ n ∈ (getRoute o parse names route).1, n ∈ r1.columns := fun n hn => by
    rw [hc1]; exact route_mem o parse _ route n hn
  have hm2 : ∀ n ∈ (getRoute o parse names route).1, n ∈ r2.columns := fun n hn => by
    rw [hc2]; exact route_mem o parse _ route n hn
  have a1 : dropDuplicates ((along o parse names route).map fun z => (z.2, curveOf r1 z.1)) [] =
      (along o parse names route).map fun z => (z.2, curveOf r1 z.1) :=
    dropDuplicates_nodup _ _ (by rw [List.map_map]; exact hd1) fun _ _ => List.not_mem_nil
  have hlast : ((along o parse names route).map fun z => (z.2, curveOf r1 z.1)).getLast? = some (km, curveOf r1 m) := by
    rw [h, List.getLast?_map]
    have : (before ++ [(n, km), (m, km)]) = (before ++ [(n, km)]) ++ [(m, km)] := by rw [List.append_assoc]; rfl
    rw [this, List.getLast?_concat]
    rfl
  have hcount : 1 < ((along o parse names route).map fun z => (z.2, curveOf r1 z.1)).countP fun x => decide (x.1 = km) := by
    rw [h, List.map_append, List.countP_append]
    have : (List.map (fun z => (z.2, curveOf r1 z.1)) [(n, km), (m, km)]).countP (fun x => decide (x.1 = km)) = 2 := by
      simp
    rw [this]
    omega
  unfold figureRating
  simp only
  rw [dataAlong_rating r1 _ _ hm1]
  simp only
  rw [dataAlong_rating r2 _ _ hm2]
  simp only
  unfold along at a1 hlast hcount
  rw [a1, hlast]
  simp only
  rw [if_pos hcount]

/-- Two branches that meet in kilometre 1. -/
example : (figureRating insertionArgSort sampleParse ["NR_1".toList, "LK_1".toList]
    ⟨[0, 200], ["NR_1".toList, "LK_1".toList], [[none, none], [some 1, some (2 : ℚ)]]⟩
    ⟨[0, 200], ["NR_1".toList, "LK_1".toList], [[none, none], [some 1, some 2]]⟩ ["NR".toList, "LK".toList]).toOption.isNone = true := by
  decide +kernel

/-- A route with a single station. -/
example : ((figureRating insertionArgSort sampleParse ["NR_1".toList]
    ⟨[0, 200, 400], ["NR_1".toList], [[some 0], [some 1], [some (2 : ℚ)]]⟩
    ⟨[0, 200, 400], ["NR_1".toList], [[some 0], [some 1], [some 3]]⟩ ["NR".toList]).toOption.bind fun f => f.map fun f => f.lines.map fun l => l.2.2) =
      some [[(1, some (-1))]] := by
  decide +kernel

/-! ## C157: heat maps of rating curves -/

private theorem curveAt_series (r : Rating K) (n : Text) (q : K) : seriesAt (curveOf r n) q = curveAt r n q := by
  unfold seriesAt curveOf curveAt
  rw [List.find?_map]
  have hf : ((fun x : K × Option K => decide (x.1 = q)) ∘ fun x : K × List (Option K) => (x.1, valueUnder r.columns x.2 n)) =
      fun x : K × List (Option K) => decide (x.1 = q) := rfl
  rw [hf]
  cases (r.labels.zip r.rows).find? (fun x => decide (x.1 = q)) <;> rfl

private theorem minus_match (x y : Option K) : (match x, y with | some x, some y => some (x - y) | _, _ => none) = minus x y := by
  cases x <;> cases y <;> rfl

/-- **C157, rating curves, partial.** For rating curves of the same stations at the same discharges, the heat map of a route has a column for
each discharge, in order, at which some station has a level on both curves, and nothing else. The row of a station holds the
difference of its levels at these discharges. If no two stations of the route have the same differences, there is a row for each. -/
theorem C157_curves_partial (o : ArgSort K) (parse : Text → Option K) (names route : List Text) (r1 r2 : Rating K)
    (hc1 : r1.columns = names) (hc2 : r2.columns = names) (hl : r1.labels = r2.labels) (hr1 : r1.rows.length = r1.labels.length)
    (hr2 : r2.rows.length = r2.labels.length) :
    (heatMapRating o parse names r1 r2 route).across.Pairwise (· < ·) ∧
    (∀ q, q ∈ (heatMapRating o parse names r1 r2 route).across ↔
      q ∈ r1.labels ∧ ∃ n ∈ names, (minus (curveAt r1 n q) (curveAt r2 n q)).isSome) ∧
    List.Sublist (heatMapRating o parse names r1 r2 route).rows ((along o parse names route).map fun z =>
      (z.2, (heatMapRating o parse names r1 r2 route).across.map fun q => minus (curveAt r1 z.1 q) (curveAt r2 z.1 q))) ∧
    (((along o parse names route).map fun z =>
        (heatMapRating o parse names r1 r2 route).across.map fun q => minus (curveAt r1 z.1 q) (curveAt r2 z.1 q)).Nodup →
      (heatMapRating o parse names r1 r2 route).rows = (along o parse names route).map fun z =>
        (z.2, (heatMapRating o parse names r1 r2 route).across.map fun q => minus (curveAt r1 z.1 q) (curveAt r2 z.1 q))) := by
  have k1 : (ratingRows r1).map (·.1) = r1.labels := List.map_fst_zip hr1.ge
  have k2 : (ratingRows r2).map (·.1) = r1.labels := (List.map_fst_zip hr2.ge).trans hl.symm
  have hall : ∀ q, q ∈ npUnique ((ratingRows r1).map (·.1) ++ (ratingRows r2).map (·.1)) ↔ q ∈ r1.labels := fun q => by
    rw [mem_npUnique, k1, k2, List.mem_append, or_self]
  have hrow : ∀ n ∈ names, ∀ q ∈ npUnique ((ratingRows r1).map (·.1) ++ (ratingRows r2).map (·.1)),
      seriesAt (tableDiff names names (ratingRows r1) (ratingRows r2) n) q = minus (curveAt r1 n q) (curveAt r2 n q) := by
    intro n hn q hq
    have s1 : columnSeries names (ratingRows r1) n = some (curveOf r1 n) := by
      rw [columnSeries_mem names _ n hn, ← hc1]
      rfl
    have s2 : columnSeries names (ratingRows r2) n = some (curveOf r2 n) := by
      rw [columnSeries_mem names _ n hn, ← hc2]
      rfl
    unfold tableDiff
    rw [s1, s2]
    simp only [Option.getD_some]
    unfold diffSeries
    have f1 : (curveOf r1 n).map (·.1) = (ratingRows r1).map (·.1) := by
      unfold curveOf
      rw [List.map_map]
      rfl
    have f2 : (curveOf r2 n).map (·.1) = (ratingRows r2).map (·.1) := by
      unfold curveOf
      rw [List.map_map]
      rfl
    rw [f1, f2, seriesAt_map _ _ _ hq, curveAt_series, curveAt_series]
    exact minus_match _ _
  have hmap : heatMapRating o parse names r1 r2 route = heatMapOf names names (ratingRows r1) (ratingRows r2)
      (getRoute o parse names route).1 (getRoute o parse names route).2 := by
    unfold heatMapRating
    rw [hc1, hc2]
  have hdc : diffColumns names names = names := if_pos rfl
  rw [hmap]
  refine ⟨(npUnique_sorted _).filter _, fun q => ?_, ?_⟩
  · unfold heatMapOf
    simp only
    rw [List.mem_filter, hdc, List.any_eq_true]
    constructor
    · rintro ⟨hq, n, hn, h⟩
      rw [hrow n hn q hq] at h
      exact ⟨(hall q).1 hq, n, hn, h⟩
    · rintro ⟨hq, n, hn, h⟩
      have hq := (hall q).2 hq
      exact ⟨hq, n, hn, by rw [hrow n hn q hq]; exact h⟩
  · have hr : (heatMapOf names names (ratingRows r1) (ratingRows r2) (getRoute o parse names route).1
        (getRoute o parse names route).2).rows =
        dropDuplicates ((along o parse names route).map fun z => (z.2, (heatMapOf names names (ratingRows r1) (ratingRows r2)
          (getRoute o parse names route).1 (getRoute o parse names route).2).across.map
            fun q => minus (curveAt r1 z.1 q) (curveAt r2 z.1 q))) [] := by
      unfold heatMapOf along
      simp only
      rw [zip_map_along]
      congr 1
      apply List.map_congr_left
      intro z hz
      congr 1
      apply List.map_congr_left
      intro q hq
      exact hrow z.1 (route_mem o parse _ route z.1 (List.of_mem_zip hz).1) q (List.mem_filter.1 hq).1
    rw [hr]
    refine ⟨(dropDuplicates_spec _ []).1, fun hnd => ?_⟩
    rw [dropDuplicates_nodup _ _ (by rw [List.map_map]; exact hnd) fun _ _ => List.not_mem_nil]

/-- Two rating curves at three discharges; one of them has no level at the first discharge. -/
example : ((heatMapRating insertionArgSort sampleParse ["NR_1".toList, "NR_2".toList]
      ⟨[0, 200, 400], ["NR_1".toList, "NR_2".toList], [[none, none], [some 2, some 1], [some 3, some 2]]⟩
      ⟨[0, 200, 400], ["NR_1".toList, "NR_2".toList], [[some 1, none], [some 2, none], [some 1, some 2]]⟩ ["NR".toList]).across,
    (heatMapRating insertionArgSort sampleParse ["NR_1".toList, "NR_2".toList]
      ⟨[0, 200, 400], ["NR_1".toList, "NR_2".toList], [[none, none], [some 2, some 1], [some 3, some 2]]⟩
      ⟨[0, 200, 400], ["NR_1".toList, "NR_2".toList], [[some 1, none], [some 2, none], [some 1, some 2]]⟩ ["NR".toList]).rows) =
    ([200, 400], [((1 : ℚ), [some 0, some 2]), (2, [none, some 0])]) := by
  decide +kernel

end Fm2prof.Props
