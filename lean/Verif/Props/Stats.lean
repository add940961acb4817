import Verif.Proofs.Stats
import Verif.Proofs.Decimal
import Verif.Props.Compare
import Verif.Props.Reader
import Verif.Proofs.Runner

/-!
# Rating curves and statistics of a comparison: C115-C121
-/

set_option linter.unusedSectionVars false

namespace Fm2prof.Props

open Fm2prof Spec

variable {K : Type} [Field K] [LinearOrder K] [IsStrictOrderedRing K] [FloorRing K]

/-! ## Results -/

def ratingLevels : Frame ℚ where
  index := .times [8, 9, 10]
  columns := ["NR_1_a".toList, "LK_2_LMW_b".toList]
  rows := [[some 1, some 10], [some 2, some 20], [some 6, none]]

def ratingFlows : Frame ℚ where
  index := .times [8, 9, 10]
  columns := ["NR_1_a".toList, "LK_2_LMW_b".toList]
  rows := [[some 250, some 100], [some 300, some 150], [some 350, none]]

/-- The levels of another model. -/
def otherLevels : Frame ℚ where
  index := .times [8, 9, 10]
  columns := ["NR_1_a".toList, "LK_2_LMW_b".toList]
  rows := [[some 3, some 11], [some 5, some 25], [none, some 7]]

theorem ratingLevels_same : SameRecords ratingLevels ratingFlows where
  stations := rfl
  nodup := by decide
  records := rfl
  levels := by decide
  discharges := by decide

theorem otherLevels_same : SameRecords otherLevels ratingFlows where
  stations := rfl
  nodup := by decide
  records := rfl
  levels := by decide
  discharges := by decide

/-! ## C115: rating curves belong to the results -/

theorem isRating_digitize (h q : Frame K) (hs : SameRecords h q) :
    ∃ r, digitizeFrame qsteps h q = .ok r ∧ IsRating h q r := by
  refine ⟨_, digitizeFrame_eq qsteps h q hs, ?_⟩
  have row : ∀ i, i < 90 → ∀ row, ((List.range (qsteps : List K).length).map fun i =>
      h.columns.map fun n => ((digitizeColumn (qsteps : List K) (flowLevels h q n))[i]?).join)[i]? = some row →
      row = h.columns.map fun n => ((digitizeColumn (qsteps : List K) (flowLevels h q n))[i]?).join := by
    intro i hi row hr
    rw [List.getElem?_map, List.getElem?_range (by rw [qsteps_length]; exact hi), Option.map_some] at hr
    exact (Option.some.inj hr).symm
  have bins := fun n => C60_bins_partial (qsteps : List K) qsteps_sorted (flowLevels h q n)
  exact {
    labels := rfl
    columns := rfl
    rows := by rw [List.length_map, List.length_range, qsteps_length]
    widths := by
      intro r hr
      obtain ⟨i, _, rfl⟩ := List.mem_map.1 hr
      rw [List.length_map]
    first := by
      intro r hr n hn
      rw [row 0 (by decide) r hr, valueUnder_map _ _ _ hn, (bins n).2.1 _ (qsteps_get 0 (by decide))]
      rw [Nat.cast_zero, zero_mul]
      rfl
    others := by
      intro i hi r hr n hn
      rw [row (i + 1) (by omega) r hr, valueUnder_map _ _ _ hn,
        (bins n).2.2 i _ _ (qsteps_get i (by omega)) (qsteps_get (i + 1) (by omega)), Nat.cast_succ]
      rfl }

/-- When no rating curves are stored, those shown are the rating curves of the results, and they are stored. -/
theorem C115_first (ft : FloatText K) (one two : Frame K × Frame K) (dir : Store) (h1 : SameRecords one.1 one.2)
    (h2 : SameRecords two.1 two.2) (hd1 : dir "1D_H_digitized.csv".toList = none)
    (hd2 : dir "2D_H_digitized.csv".toList = none) :
    ∃ r1 r2, (digitizeData ft one two dir).2 = .ok (r1, r2) ∧ IsRating one.1 one.2 r1 ∧ IsRating two.1 two.2 r2 ∧
      (digitizeData ft one two dir).1 =
        (dir.set "1D_H_digitized.csv".toList (ratingText ft r1)).set "2D_H_digitized.csv".toList (ratingText ft r2) := by
  obtain ⟨r1, e1, i1⟩ := isRating_digitize one.1 one.2 h1
  obtain ⟨r2, e2, i2⟩ := isRating_digitize two.1 two.2 h2
  have key : digitizeData ft one two dir =
      ((dir.set fileRating1d (ratingText ft r1)).set fileRating2d (ratingText ft r2), .ok (r1, r2)) := by
    have hd2' : (dir.set fileRating1d (ratingText ft r1)) fileRating2d = none := by
      rw [store_set_other _ _ _ _ (by decide)]
      exact hd2
    unfold digitizeData
    have hr1 : ratingOf ft fileRating1d one.1 one.2 dir = (dir.set fileRating1d (ratingText ft r1), .ok r1) := by
      unfold ratingOf
      rw [show dir fileRating1d = none from hd1, e1]
    have hr2 : ratingOf ft fileRating2d two.1 two.2 (dir.set fileRating1d (ratingText ft r1)) =
        ((dir.set fileRating1d (ratingText ft r1)).set fileRating2d (ratingText ft r2), .ok r2) := by
      unfold ratingOf
      rw [hd2', e2]
    rw [hr1]
    simp only
    rw [hr2]
  rw [key]
  exact ⟨r1, r2, rfl, i1, i2, rfl⟩

example : SameRecords ratingLevels ratingFlows ∧
    (digitizeFrame qsteps ratingLevels ratingFlows).toOption.map (fun r => r.rows.take 4) =
      some [[none, none], [none, some 15], [some 3, none], [none, none]] :=
  ⟨ratingLevels_same, by decide +kernel⟩

/-- What `digitizeData` does with stored rating curves. -/
theorem digitizeData_stored (ft : FloatText K) (r1 r2 : Rating K) (d : Store) (one two : Frame K × Frame K)
    (h1 : d fileRating1d = some (ratingText ft r1)) (h2 : d fileRating2d = some (ratingText ft r2))
    (e1 : readRating ft (ratingText ft r1) = .ok r1) (e2 : readRating ft (ratingText ft r2) = .ok r2) :
    digitizeData ft one two d = (d, .ok (r1, r2)) := by
  unfold digitizeData ratingOf
  rw [h1]
  simp only
  rw [e1]
  simp only
  rw [h2]
  simp only
  rw [e2]

theorem isRating_readable (ft : FloatText K) (h q : Frame K) (r : Rating K) (hr : IsRating h q r) (hp : ReadableRating ft r) :
    readRating ft (ratingText ft r) = .ok r := by
  refine readRating_ratingText ft r hp ?_ ?_
  · rw [hr.labels, hr.rows, List.length_map, List.length_range]
  · rw [hr.columns]; exact hr.widths

/-- The first comparison of some results, followed by another one of any results: the rating curves are those of the first. -/
theorem rating_kept (ft : FloatText K) (one two one' two' : Frame K × Frame K) (dir : Store)
    (h1 : SameRecords one.1 one.2) (h2 : SameRecords two.1 two.2) (hd1 : dir "1D_H_digitized.csv".toList = none)
    (hd2 : dir "2D_H_digitized.csv".toList = none) (r1 r2 : Rating K)
    (hr : (digitizeData ft one two dir).2 = .ok (r1, r2)) (hp1 : ReadableRating ft r1) (hp2 : ReadableRating ft r2) :
    (digitizeData ft one' two' (digitizeData ft one two dir).1).2 = .ok (r1, r2) := by
  obtain ⟨s1, s2, e, i1, i2, hdir⟩ := C115_first ft one two dir h1 h2 hd1 hd2
  rw [hr] at e
  obtain ⟨rfl, rfl⟩ := Prod.mk.inj (Except.ok.inj e)
  rw [hdir, digitizeData_stored ft r1 r2 _ one' two' ?_ ?_ (isRating_readable ft _ _ r1 i1 hp1)
    (isRating_readable ft _ _ r2 i2 hp2)]
  · exact (store_set_other _ _ _ _ (by decide)).trans (store_set_same _ _ _)
  · exact store_set_same _ _ _

/-- A later comparison of the same results shows the same rating curves. What is missing: the results must be the same, see
`C115_stale_violated`. -/
theorem C115_again_partial (ft : FloatText K) (one two : Frame K × Frame K) (dir : Store)
    (h1 : SameRecords one.1 one.2) (h2 : SameRecords two.1 two.2) (hd1 : dir "1D_H_digitized.csv".toList = none)
    (hd2 : dir "2D_H_digitized.csv".toList = none) (r1 r2 : Rating K)
    (hr : (digitizeData ft one two dir).2 = .ok (r1, r2)) (hp1 : ReadableRating ft r1) (hp2 : ReadableRating ft r2) :
    ∃ s1 s2, (digitizeData ft one two (digitizeData ft one two dir).1).2 = .ok (s1, s2) ∧
      IsRating one.1 one.2 s1 ∧ IsRating two.1 two.2 s2 := by
  obtain ⟨s1, s2, e, i1, i2, _⟩ := C115_first ft one two dir h1 h2 hd1 hd2
  rw [hr] at e
  obtain ⟨rfl, rfl⟩ := Prod.mk.inj (Except.ok.inj e)
  exact ⟨r1, r2, rating_kept ft one two one two dir h1 h2 hd1 hd2 r1 r2 hr hp1 hp2, i1, i2⟩

/-- Whether a rating table can be stored, for the sample texts. -/
def storable (r : Rating ℚ) : Bool :=
  (r.labels.all fun x => decide (roundTo 6 x = x)) &&
    (r.rows.all fun row => row.all fun v => v.all fun x => decide (roundTo 6 x = x)) && decide (r.columns = ratingLevels.columns)

theorem storable_readable (r : Rating ℚ) (h : storable r = true) : ReadableRating (decimalText ℚ) r := by
  unfold storable at h
  rw [Bool.and_eq_true, Bool.and_eq_true, List.all_eq_true, List.all_eq_true] at h
  obtain ⟨⟨h1, h2⟩, h3⟩ := h
  have h3 := of_decide_eq_true h3
  refine ⟨fun x hx => ?_, fun row hr x hx => ?_, ?_, ?_⟩
  · exact (of_decide_eq_true (h1 x hx) : roundTo 6 x = x)
  · have := h2 row hr
    rw [List.all_eq_true] at this
    exact (of_decide_eq_true (this (some x) hx) : roundTo 6 x = x)
  · rw [h3]; decide
  · rw [h3]
    have : ∀ n ∈ ratingLevels.columns, n ≠ [] ∧ ∀ c ∈ [',', '\n', '\r', '"'], c ∉ n := by decide
    exact this

theorem sampleRatings_storable :
    (digitizeFrame qsteps ratingLevels ratingFlows).toOption.map storable = some true ∧
    (digitizeFrame qsteps otherLevels ratingFlows).toOption.map storable = some true := by
  constructor <;> decide +kernel

theorem sampleRating_ok (h : Frame ℚ) (hs : (digitizeFrame qsteps h ratingFlows).toOption.map storable = some true) :
    ∃ r, digitizeFrame qsteps h ratingFlows = .ok r ∧ ReadableRating (decimalText ℚ) r := by
  cases e : digitizeFrame qsteps h ratingFlows with
  | error x => rw [e] at hs; cases hs
  | ok r =>
    rw [e] at hs
    exact ⟨r, rfl, storable_readable r (Option.some.inj hs)⟩

/-- An empty output directory. -/
def noStore : Store := fun _ => none

example : ∃ r1 r2, (digitizeData (decimalText ℚ) (ratingLevels, ratingFlows) (otherLevels, ratingFlows) noStore).2 = .ok (r1, r2) ∧
    ReadableRating (decimalText ℚ) r1 ∧ ReadableRating (decimalText ℚ) r2 := by
  obtain ⟨r1, e1, p1⟩ := sampleRating_ok ratingLevels sampleRatings_storable.1
  obtain ⟨r2, e2, p2⟩ := sampleRating_ok otherLevels sampleRatings_storable.2
  refine ⟨r1, r2, ?_, p1, p2⟩
  unfold digitizeData ratingOf noStore
  simp only [e1]
  rw [store_set_other _ _ _ _ (by decide)]
  simp only [e2]

/-- **Violated.** Once rating curves are stored in the output directory, every later comparison shows them, whatever the results
are that it compares. -/
theorem C115_stale_violated (ft : FloatText K) (one two one' two' : Frame K × Frame K) (dir : Store)
    (h1 : SameRecords one.1 one.2) (h2 : SameRecords two.1 two.2) (hd1 : dir "1D_H_digitized.csv".toList = none)
    (hd2 : dir "2D_H_digitized.csv".toList = none) (r1 r2 : Rating K)
    (hr : (digitizeData ft one two dir).2 = .ok (r1, r2)) (hp1 : ReadableRating ft r1) (hp2 : ReadableRating ft r2) :
    (digitizeData ft one' two' (digitizeData ft one two dir).1).2 = .ok (r1, r2) :=
  rating_kept ft one two one' two' dir h1 h2 hd1 hd2 r1 r2 hr hp1 hp2

/-- The rating curve of a table is the only one. -/
theorem isRating_unique (h q : Frame K) (hs : SameRecords h q) (r : Rating K) (hr : IsRating h q r) (n : Text)
    (hn : n ∈ h.columns) (i : Nat) (hi : i < 89) (r' : Rating K) (hr' : digitizeFrame qsteps h q = .ok r') :
    (r.rows[i + 1]?).map (fun row => valueUnder h.columns row n) =
      (r'.rows[i + 1]?).map fun row => valueUnder h.columns row n := by
  obtain ⟨r'', e, i'⟩ := isRating_digitize h q hs
  rw [hr'] at e
  obtain rfl := Except.ok.inj e
  have get : ∀ s : Rating K, IsRating h q s → ∃ row, s.rows[i + 1]? = some row := fun s hs' => by
    rw [List.getElem?_eq_getElem (by rw [hs'.rows]; omega)]
    exact ⟨_, rfl⟩
  obtain ⟨row, e1⟩ := get r hr
  obtain ⟨row', e2⟩ := get r' i'
  rw [e1, e2, Option.map_some, Option.map_some, hr.others i hi row e1 n hn, i'.others i hi row' e2 n hn]

/-- **Violated.** With new results, the rating curves shown are wrong. -/
theorem C115_wrong_violated : ∃ (dir : Store) (r1 r2 : Rating ℚ),
    dir = (digitizeData (decimalText ℚ) (ratingLevels, ratingFlows) (ratingLevels, ratingFlows) noStore).1 ∧
    (digitizeData (decimalText ℚ) (otherLevels, ratingFlows) (otherLevels, ratingFlows) dir).2 = .ok (r1, r2) ∧
    ¬ IsRating otherLevels ratingFlows r1 := by
  obtain ⟨r1, e1, p1⟩ := sampleRating_ok ratingLevels sampleRatings_storable.1
  obtain ⟨r2, e2, p2⟩ := sampleRating_ok otherLevels sampleRatings_storable.2
  have hr : (digitizeData (decimalText ℚ) (ratingLevels, ratingFlows) (ratingLevels, ratingFlows) noStore).2 =
      .ok (r1, r1) := by
    unfold digitizeData ratingOf noStore
    simp only [e1]
    rw [store_set_other _ _ _ _ (by decide)]
  refine ⟨_, r1, r1, rfl, C115_stale_violated _ _ _ _ _ _ ratingLevels_same ratingLevels_same rfl rfl r1 r1 hr p1 p1, ?_⟩
  intro h
  have hu := isRating_unique otherLevels ratingFlows otherLevels_same r1 h "NR_1_a".toList (by decide) 1 (by decide) r2 e2
  have v1 : (digitizeFrame qsteps ratingLevels ratingFlows).toOption.bind (fun r => (r.rows[1 + 1]?).map fun row =>
      valueUnder otherLevels.columns row "NR_1_a".toList) = some (some 3) := by decide +kernel
  have v2 : (digitizeFrame qsteps otherLevels ratingFlows).toOption.bind (fun r => (r.rows[1 + 1]?).map fun row =>
      valueUnder otherLevels.columns row "NR_1_a".toList) = some (some 4) := by decide +kernel
  rw [e1] at v1
  rw [e2] at v2
  change (r1.rows[1 + 1]?).map _ = some (some 3) at v1
  change (r2.rows[1 + 1]?).map _ = some (some 4) at v2
  rw [v1, v2] at hu
  exact absurd hu (by decide)

/-! ## C116: rating curves and the time window -/

/-- **Violated.** The rating curves do not depend on the start and stop times. -/
theorem C116_ignored_violated (ft : FloatText K) (w w' : Window Int) (one two : Frame K × Frame K) (dir : Store) :
    (openComparison ft w one two dir).2.map (·.2) = (openComparison ft w' one two dir).2.map (·.2) := by
  unfold openComparison
  rcases digitizeData ft one two dir with ⟨d, r⟩
  cases r <;> rfl

theorem cut_all (a b : Int) (t : List Int) (f : Frame K) (ht : f.index = .times t) (hl : f.rows.length = t.length)
    (h : ∀ x ∈ t, a ≤ x ∧ x ≤ b) : cut a b f = f := by
  unfold cut
  rw [ht]
  have hk : (t.zip f.rows).filter (fun r => decide (a ≤ r.1 ∧ r.1 ≤ b)) = t.zip f.rows := by
    rw [List.filter_eq_self]
    exact fun r hr => decide_eq_true (h r.1 (List.of_mem_zip hr).1)
  simp only [hk]
  rw [List.map_fst_zip hl.ge, List.map_snd_zip hl.le, ← ht]

/-- If all records lie between the start and the stop time, the rating curves are those of the records between these times.
What is missing: records outside are not left out, see `C116_ignored_violated` and `C116_wrong_violated`. -/
theorem C116_inside_partial (ft : FloatText K) (a b : Int) (one two : Frame K × Frame K) (dir : Store)
    (t1 t2 : List Int) (h1 : SameRecords one.1 one.2) (h2 : SameRecords two.1 two.2)
    (i1 : one.1.index = .times t1 ∧ one.2.index = .times t1) (i2 : two.1.index = .times t2 ∧ two.2.index = .times t2)
    (l1 : one.1.rows.length = t1.length) (l2 : two.1.rows.length = t2.length)
    (hd1 : dir "1D_H_digitized.csv".toList = none) (hd2 : dir "2D_H_digitized.csv".toList = none)
    (hin : ∀ x ∈ t1 ++ t2, a ≤ x ∧ x ≤ b) :
    ∃ s r1 r2, (openComparison ft ⟨some a, some b⟩ one two dir).2 = .ok (s, r1, r2) ∧
      IsRating (cut a b one.1) (cut a b one.2) r1 ∧ IsRating (cut a b two.1) (cut a b two.2) r2 := by
  obtain ⟨r1, r2, e, j1, j2, _⟩ := C115_first ft one two dir h1 h2 hd1 hd2
  have c1 : ∀ x ∈ t1, a ≤ x ∧ x ≤ b := fun x hx => hin x (List.mem_append_left _ hx)
  have c2 : ∀ x ∈ t2, a ≤ x ∧ x ≤ b := fun x hx => hin x (List.mem_append_right _ hx)
  rw [cut_all a b t1 one.1 i1.1 l1 c1, cut_all a b t1 one.2 i1.2 (h1.records.trans l1) c1,
    cut_all a b t2 two.1 i2.1 l2 c2, cut_all a b t2 two.2 i2.2 (h2.records.trans l2) c2]
  unfold openComparison
  rcases hd : digitizeData ft one two dir with ⟨d, r⟩
  rw [hd] at e
  change r = _ at e
  subst e
  exact ⟨_, r1, r2, rfl, j1, j2⟩

example : SameRecords ratingLevels ratingFlows ∧ ratingLevels.index = .times [8, 9, 10] ∧
    ratingFlows.index = .times [8, 9, 10] ∧ ∀ x ∈ [8, 9, 10], (8 : Int) ≤ x ∧ x ≤ 10 :=
  ⟨ratingLevels_same, rfl, rfl, by decide⟩

/-- **Violated.** With a start time after the first record, the rating curve still contains that record. -/
theorem C116_wrong_violated : ∃ (s : Session ℚ) (r1 r2 : Rating ℚ),
    (openComparison (decimalText ℚ) ⟨some 9, some 10⟩ (ratingLevels, ratingFlows) (ratingLevels, ratingFlows) noStore).2 =
      .ok (s, r1, r2) ∧ ¬ IsRating (cut 9 10 ratingLevels) (cut 9 10 ratingFlows) r1 := by
  obtain ⟨r1, r2, e, j1, j2, _⟩ := C115_first (decimalText ℚ) (ratingLevels, ratingFlows) (ratingLevels, ratingFlows) noStore
    ratingLevels_same ratingLevels_same rfl rfl
  refine ⟨⟨ratingLevels, ratingLevels, ⟨some 9, some 10⟩, none⟩, r1, r2, ?_, ?_⟩
  · unfold openComparison
    rcases hd : digitizeData (decimalText ℚ) (ratingLevels, ratingFlows) (ratingLevels, ratingFlows) noStore with ⟨d, r⟩
    rw [hd] at e
    change r = _ at e
    subst e
    rfl
  · intro h
    have hc : SameRecords (cut 9 10 ratingLevels) (cut 9 10 ratingFlows) :=
      ⟨rfl, by decide, by decide, by decide, by decide⟩
    obtain ⟨x, ex, ix⟩ := isRating_digitize (cut 9 10 ratingLevels) (cut 9 10 ratingFlows) hc
    obtain ⟨y, ey, iy⟩ := isRating_digitize ratingLevels ratingFlows ratingLevels_same
    have hu := isRating_unique _ _ hc r1 h "NR_1_a".toList (by decide) 1 (by decide) x ex
    have hv := isRating_unique _ _ ratingLevels_same r1 j1 "NR_1_a".toList (by decide) 1 (by decide) y ey
    have v1 : (digitizeFrame qsteps ratingLevels ratingFlows).toOption.bind (fun r => (r.rows[1 + 1]?).map fun row =>
        valueUnder ratingLevels.columns row "NR_1_a".toList) = some (some 3) := by decide +kernel
    have v2 : (digitizeFrame qsteps (cut 9 10 ratingLevels) (cut 9 10 ratingFlows)).toOption.bind (fun r =>
        (r.rows[1 + 1]?).map fun row => valueUnder ratingLevels.columns row "NR_1_a".toList) = some (some 4) := by
      decide +kernel
    rw [ex] at v2
    rw [ey] at v1
    change (y.rows[1 + 1]?).map _ = some (some 3) at v1
    change (x.rows[1 + 1]?).map _ = some (some 4) at v2
    change _ = (x.rows[1 + 1]?).map (fun row => valueUnder ratingLevels.columns row "NR_1_a".toList) at hu
    rw [v2] at hu
    rw [v1] at hv
    exact absurd (hu.symm.trans hv) (by decide)

/-! ## C117: statistics and the time window -/

/-- The statistics kept by a comparison are those of its window. -/
def Current (ft : FloatText K) (s : Session K) : Prop :=
  ∀ t, s.statistics = some t → computeStatistics ft.parse s.window s.h1 s.h2 = (s.window, .ok t)

theorem shown_current (ft : FloatText K) (s : Session K) (h : Current ft s) (n : Text) :
    shown ft s n = shown ft (reopened s) n := by
  rcases s with ⟨h1, h2, w, st⟩
  cases st with
  | none => rfl
  | some t =>
    have e := h t rfl
    unfold shown getStatistics reopened
    simp only at e ⊢
    rw [e]

theorem current_station (ft : FloatText K) (s : Session K) (h : Current ft s) (n : Text) :
    Current ft (getStatistics ft.parse s n).1 := by
  rcases s with ⟨h1, h2, w, st⟩
  cases st with
  | some t => exact h
  | none =>
    unfold getStatistics
    simp only
    rcases e : computeStatistics ft.parse w h1 h2 with ⟨w', r⟩
    cases r with
    | error x => intro t ht; cases ht
    | ok t =>
      intro t' ht'
      obtain rfl := Option.some.inj ht'
      exact computeStatistics_again ft.parse w w' h1 h2 t e

theorem current_toFile (ft : FloatText K) (root : K → K) (s : Session K) (path : Text) (dir : Store)
    (h : Current ft s ∨ (statisticsToFile ft root s path dir).2.2 = .ok ()) :
    Current ft (statisticsToFile ft root s path dir).1 := by
  unfold statisticsToFile at h ⊢
  rcases e : computeStatistics ft.parse s.window s.h1 s.h2 with ⟨w', r⟩
  rw [e] at h
  cases r with
  | error x =>
    rcases h with h | h
    · intro t ht
      have := h t ht
      rw [e] at this
      exact absurd (congrArg Prod.snd this) (by simp)
    · cases h
  | ok t =>
    have key : Current ft { s with window := w', statistics := some t } := by
      intro t' ht'
      obtain rfl := Option.some.inj ht'
      exact computeStatistics_again ft.parse s.window w' s.h1 s.h2 t e
    simp only
    split
    · exact key
    · split <;> exact key

theorem current_step (ft : FloatText K) (root : K → K) (s : Session K) (dir : Store) (a : SessionStep) (ha : ¬ SetsWindow a)
    (h : Current ft s) : Current ft (sessionStep ft root s dir a).1 := by
  cases a with
  | setStart t => exact absurd trivial ha
  | setStop t => exact absurd trivial ha
  | station n =>
    have := current_station ft s h n
    unfold sessionStep
    simp only
    rcases e : getStatistics ft.parse s n with ⟨s', r⟩
    rw [e] at this
    cases r <;> exact this
  | toFile path =>
    have := current_toFile ft root s path dir (.inl h)
    unfold sessionStep
    simp only
    rcases e : statisticsToFile ft root s path dir with ⟨s', d', r⟩
    rw [e] at this
    cases r <;> exact this

theorem current_run (ft : FloatText K) (root : K → K) (steps : List SessionStep) (hs : ∀ a ∈ steps, ¬ SetsWindow a)
    (s : Session K) (dir : Store) (h : Current ft s) : Current ft (sessionRun ft root steps s dir).1 := by
  induction steps generalizing s dir with
  | nil => exact h
  | cons a as ih =>
    exact ih (fun x hx => hs x (List.mem_cons_of_mem _ hx)) _ _
      (current_step ft root s dir a (hs a List.mem_cons_self) h)

theorem sessionRun_append (ft : FloatText K) (root : K → K) (xs ys : List SessionStep) (s : Session K) (dir : Store) :
    sessionRun ft root (xs ++ ys) s dir =
      sessionRun ft root ys (sessionRun ft root xs s dir).1 (sessionRun ft root xs s dir).2 := by
  induction xs generalizing s dir with
  | nil => rfl
  | cons a as ih => exact ih _ _

theorem sets_statistics (ft : FloatText K) (root : K → K) (sets : List SessionStep) (hs : ∀ a ∈ sets, SetsWindow a)
    (s : Session K) (dir : Store) : (sessionRun ft root sets s dir).1.statistics = s.statistics := by
  induction sets generalizing s dir with
  | nil => rfl
  | cons a as ih =>
    refine (ih (fun x hx => hs x (List.mem_cons_of_mem _ hx)) _ _).trans ?_
    have ha := hs a List.mem_cons_self
    cases a with
    | setStart t => rfl
    | setStop t => rfl
    | station n => exact absurd ha id
    | toFile p => exact absurd ha id

/-- When the start and stop times are only changed before any statistics are asked for, a station is always shown with the
statistics a new comparison with these times would show. What is missing: changes afterwards, see `C117_kept_violated`. -/
theorem C117_first_partial (ft : FloatText K) (root : K → K) (sets shows : List SessionStep) (s : Session K) (dir : Store)
    (n : Text) (hs : s.statistics = none) (h1 : ∀ a ∈ sets, SetsWindow a) (h2 : ∀ a ∈ shows, ¬ SetsWindow a) :
    shown ft (sessionRun ft root (sets ++ shows) s dir).1 n =
      shown ft (reopened (sessionRun ft root (sets ++ shows) s dir).1) n := by
  apply shown_current
  rw [sessionRun_append]
  apply current_run ft root shows h2
  intro t ht
  rw [sets_statistics ft root sets h1, hs] at ht
  cases ht

/-- The same holds after the statistics were written to a file, until the times are changed again. -/
theorem C117_written_partial (ft : FloatText K) (root : K → K) (before shows : List SessionStep) (path : Text)
    (s : Session K) (dir : Store) (n : Text) (h2 : ∀ a ∈ shows, ¬ SetsWindow a)
    (hw : (sessionStep ft root (sessionRun ft root before s dir).1 (sessionRun ft root before s dir).2 (.toFile path)).2.2 =
      .ok none) :
    shown ft (sessionRun ft root (before ++ .toFile path :: shows) s dir).1 n =
      shown ft (reopened (sessionRun ft root (before ++ .toFile path :: shows) s dir).1) n := by
  apply shown_current
  rw [sessionRun_append]
  show Current ft (sessionRun ft root shows _ _).1
  apply current_run ft root shows h2
  generalize (sessionRun ft root before s dir).1 = s' at hw ⊢
  generalize (sessionRun ft root before s dir).2 = d' at hw ⊢
  have := current_toFile ft root s' path d'
  unfold sessionStep at hw ⊢
  simp only at hw ⊢
  rcases e : statisticsToFile ft root s' path d' with ⟨x, y, r⟩
  rw [e] at this hw
  cases r with
  | ok u => exact this (.inr rfl)
  | error e => cases hw

theorem applyWindow_keeps {α : Type} (w : Window Int) (data : List (Int × α)) :
    (∀ t, w.start = some t → (applyWindow w data).1.start = some t) ∧
    (∀ t, w.stop = some t → (applyWindow w data).1.stop = some t) := by
  unfold applyWindow
  split
  · exact ⟨fun t ht => by rw [ht]; rfl, fun t ht => by rw [ht]; rfl⟩
  · split <;> exact ⟨fun t ht => ht, fun t ht => ht⟩

theorem windowed_keeps (w : Window Int) (f : Frame K) :
    (∀ t, w.start = some t → (windowed w f).1.start = some t) ∧
    (∀ t, w.stop = some t → (windowed w f).1.stop = some t) := by
  unfold windowed
  cases f.index with
  | times l => exact applyWindow_keeps w _
  | texts l => exact ⟨fun t ht => ht, fun t ht => ht⟩

theorem computeStatistics_keeps (parse : Text → Option K) (w : Window Int) (h1 h2 : Frame K) :
    (∀ t, w.start = some t → (computeStatistics parse w h1 h2).1.start = some t) ∧
    (∀ t, w.stop = some t → (computeStatistics parse w h1 h2).1.stop = some t) := by
  have k1 := windowed_keeps w h1
  unfold computeStatistics
  rcases e1 : windowed w h1 with ⟨w1, r1⟩
  rw [e1] at k1
  cases r1 with
  | error e => exact k1
  | ok a =>
    have k2 := windowed_keeps w1 h2
    simp only
    rcases e2 : windowed w1 h2 with ⟨w2, r2⟩
    rw [e2] at k2
    cases r2 <;> exact ⟨fun t ht => k2.1 t (k1.1 t ht), fun t ht => k2.2 t (k1.2 t ht)⟩

theorem getStatistics_window (ft : FloatText K) (s : Session K) (n : Text) :
    (getStatistics ft.parse s n).1.window = s.window ∨
    (getStatistics ft.parse s n).1.window = (computeStatistics ft.parse s.window s.h1 s.h2).1 := by
  rcases s with ⟨h1, h2, w, st⟩
  cases st with
  | some t => exact .inl rfl
  | none =>
    right
    unfold getStatistics
    simp only
    rcases computeStatistics ft.parse w h1 h2 with ⟨w', r⟩
    cases r <;> rfl

theorem statisticsToFile_window (ft : FloatText K) (root : K → K) (s : Session K) (path : Text) (dir : Store) :
    (statisticsToFile ft root s path dir).1.window = (computeStatistics ft.parse s.window s.h1 s.h2).1 := by
  unfold statisticsToFile
  rcases computeStatistics ft.parse s.window s.h1 s.h2 with ⟨w', r⟩
  cases r with
  | error e => rfl
  | ok t =>
    simp only
    split
    · rfl
    · split <;> rfl

theorem sessionStep_keeps (ft : FloatText K) (root : K → K) (s : Session K) (dir : Store) (a : SessionStep) :
    (∀ t, s.window.start = some t → (∀ x, a ≠ .setStart x) → (sessionStep ft root s dir a).1.window.start = some t) ∧
    (∀ t, s.window.stop = some t → (∀ x, a ≠ .setStop x) → (sessionStep ft root s dir a).1.window.stop = some t) := by
  cases a with
  | setStart x => exact ⟨fun t _ h => absurd rfl (h x), fun t ht _ => ht⟩
  | setStop x => exact ⟨fun t ht _ => ht, fun t _ h => absurd rfl (h x)⟩
  | station n =>
    have k := computeStatistics_keeps ft.parse s.window s.h1 s.h2
    have hw := getStatistics_window ft s n
    unfold sessionStep
    simp only
    rcases e : getStatistics ft.parse s n with ⟨s', r⟩
    rw [e] at hw
    cases r <;>
    · rcases hw with hw | hw
      · exact ⟨fun t ht _ => (congrArg Window.start hw).trans ht, fun t ht _ => (congrArg Window.stop hw).trans ht⟩
      · exact ⟨fun t ht _ => (congrArg Window.start hw).trans (k.1 t ht),
          fun t ht _ => (congrArg Window.stop hw).trans (k.2 t ht)⟩
  | toFile p =>
    have k := computeStatistics_keeps ft.parse s.window s.h1 s.h2
    have hw := statisticsToFile_window ft root s p dir
    unfold sessionStep
    simp only
    rcases e : statisticsToFile ft root s p dir with ⟨s', d', r⟩
    rw [e] at hw
    cases r <;>
    · exact ⟨fun t ht _ => (congrArg Window.start hw).trans (k.1 t ht),
        fun t ht _ => (congrArg Window.stop hw).trans (k.2 t ht)⟩

/-- The start and stop times in force are those set last, whatever is asked for in between. -/
theorem C117_times (ft : FloatText K) (root : K → K) (before after : List SessionStep) (s : Session K) (dir : Store) (t : Int) :
    ((∀ x, SessionStep.setStart x ∉ after) →
      (sessionRun ft root (before ++ .setStart t :: after) s dir).1.window.start = some t) ∧
    ((∀ x, SessionStep.setStop x ∉ after) →
      (sessionRun ft root (before ++ .setStop t :: after) s dir).1.window.stop = some t) := by
  have run1 : ∀ (steps : List SessionStep) (s : Session K) (dir : Store), (∀ x, SessionStep.setStart x ∉ steps) →
      s.window.start = some t → (sessionRun ft root steps s dir).1.window.start = some t := by
    intro steps
    induction steps with
    | nil => exact fun s dir _ h => h
    | cons a as ih =>
      intro s dir hn h
      exact ih _ _ (fun x hx => hn x (List.mem_cons_of_mem _ hx))
        ((sessionStep_keeps ft root s dir a).1 t h fun x e => hn x (e ▸ List.mem_cons_self))
  have run2 : ∀ (steps : List SessionStep) (s : Session K) (dir : Store), (∀ x, SessionStep.setStop x ∉ steps) →
      s.window.stop = some t → (sessionRun ft root steps s dir).1.window.stop = some t := by
    intro steps
    induction steps with
    | nil => exact fun s dir _ h => h
    | cons a as ih =>
      intro s dir hn h
      exact ih _ _ (fun x hx => hn x (List.mem_cons_of_mem _ hx))
        ((sessionStep_keeps ft root s dir a).2 t h fun x e => hn x (e ▸ List.mem_cons_self))
  constructor
  · intro h
    rw [sessionRun_append]
    exact run1 after _ _ h rfl
  · intro h
    rw [sessionRun_append]
    exact run2 after _ _ h rfl

/-- **Violated.** Once a station has been shown, changing the start and stop times does not change what is shown for any
station. -/
theorem C117_kept_violated (ft : FloatText K) (root : K → K) (sets : List SessionStep) (s : Session K) (dir : Store)
    (t : List (StatRow K)) (h1 : ∀ a ∈ sets, SetsWindow a) (hs : s.statistics = some t) (n : Text) :
    shown ft (sessionRun ft root sets s dir).1 n = shown ft s n := by
  have h := sets_statistics ft root sets h1 s dir
  rw [hs] at h
  generalize (sessionRun ft root sets s dir).1 = s' at h
  unfold shown getStatistics
  rw [h, hs]

/-- A comparison in which a station was shown with all records. -/
def sampleSession : Session ℚ := ⟨ratingLevels, otherLevels, ⟨none, none⟩, none⟩

/-- **Violated.** After the start time was changed, the bias shown differs from that of a new comparison. -/
theorem C117_wrong_violated :
    let s := (sessionRun (decimalText ℚ) id [.station "NR_1_a".toList, .setStart 9] sampleSession noStore).1
    (shown (decimalText ℚ) s "LK_2_LMW_b".toList).toOption.map (·.bias) = some (some (-3)) ∧
    (shown (decimalText ℚ) (reopened s) "LK_2_LMW_b".toList).toOption.map (·.bias) = some (some (-5)) := by
  decide +kernel

example : sampleSession.statistics = none ∧
    (shown (decimalText ℚ) (sessionRun (decimalText ℚ) id ([.setStart 9] ++ [.toFile "all".toList, .station "NR_1_a".toList])
      sampleSession noStore).1 "LK_2_LMW_b".toList).toOption.map (·.bias) = some (some (-5)) := by
  constructor
  · rfl
  · decide +kernel

/-! ## C118: the statistics of a station -/

theorem diffSeries_eq (a b : List (Int × Option K)) :
    diffSeries a b = (npUnique (a.map (·.1) ++ b.map (·.1))).map fun t => (t, differenceAt a b t) := by
  unfold diffSeries differenceAt
  apply List.map_congr_left
  intro t _
  cases seriesAt a t <;> cases seriesAt b t <;> rfl

theorem isStatistic_statRow (parse : Text → Option K) (a b : List (Int × Option K)) (ha : (a.map (·.1)).Nodup) (n : Text) :
    IsStatistic parse a b n (statRow parse a b n) where
  station := rfl
  bias := (C92_common a b ha).1
  variance := varianceOf_perm (diffs_perm a b ha)
  mae := (C92_common a b ha).2
  branch := (stationBranch_iff n _).1 rfl
  km k := stationKm_iff parse n k
  measuring := isMeasuring_iff n
  lasts := ⟨congrArg some (lastMean_eq 3 a), congrArg some (lastMean_eq 25 a), congrArg some (lastMean_eq 3 b),
    congrArg some (lastMean_eq 25 b)⟩
  highest := ⟨_, _, _, _, rfl, rfl, rfl, rfl,
    isHighest_maxMean 3 a _ (by rw [reduceOption_map]), isHighest_maxMean 13 a _ (by rw [reduceOption_map]),
    isHighest_maxMean 3 b _ (by rw [reduceOption_map]), isHighest_maxMean 13 b _ (by rw [reduceOption_map])⟩
  diffs := ⟨_, _, rfl, rfl, isHighest_maxMean 3 _ _ (diffs_perm a b ha), isHighest_maxMean 13 _ _ (diffs_perm a b ha)⟩
  lastDiffs := by
    refine ⟨npUnique (a.map (·.1) ++ b.map (·.1)), npUnique_sorted _, ?_, ?_, ?_⟩
    · intro t
      rw [mem_npUnique, List.mem_append]
    · exact congrArg some ((lastMean_eq 3 (diffSeries a b)).trans (congrArg (lastOf 3) (diffSeries_eq a b)))
    · exact congrArg some ((lastMean_eq 25 (diffSeries a b)).trans (congrArg (lastOf 25) (diffSeries_eq a b)))
  number := rfl

theorem windowed_rows (w w' : Window Int) (t : List Int) (f : Frame K) (x y : Int) (ht : f.index = .times t)
    (hl : f.rows.length = t.length) (hx : t.head? = some x) (hy : t.getLast? = some y)
    (rows : List (Int × List (Option K))) (h : windowed w f = (w', .ok rows)) :
    w' = ⟨some (w.start.getD x), some (w.stop.getD y)⟩ ∧
      rows = (t.zip f.rows).filter fun r => decide (w.start.getD x ≤ r.1 ∧ r.1 ≤ w.stop.getD y) := by
  unfold windowed at h
  rw [ht] at h
  simp only at h
  have hm : (t.zip f.rows).map (·.1) = t := List.map_fst_zip hl.ge
  have h1 : ((t.zip f.rows).head?).map (·.1) = some x := by rw [← List.head?_map, hm, hx]
  have h2 : ((t.zip f.rows).getLast?).map (·.1) = some y := by rw [← List.getLast?_map, hm, hy]
  obtain ⟨first, e1, rfl⟩ := Option.map_eq_some_iff.1 h1
  obtain ⟨last, e2, rfl⟩ := Option.map_eq_some_iff.1 h2
  rw [applyWindow_cons w first last _ e1 e2] at h
  obtain ⟨hw, hr⟩ := Prod.mk.inj h
  refine ⟨hw.symm, ?_⟩
  split at hr
  · cases hr
  · split at hr
    · cases hr
    · split at hr
      · cases hr
      · rw [← Except.ok.inj hr]
        apply List.filter_congr
        intro r _
        rw [Bool.decide_and]

theorem windowed_ok (w : Window Int) (t : List Int) (f : Frame K) (x y : Int) (ht : f.index = .times t)
    (hl : f.rows.length = t.length) (hx : t.head? = some x) (hy : t.getLast? = some y)
    (h1 : w.start.getD x < w.stop.getD y) (h2 : w.start.getD x < y) (h3 : x < w.stop.getD y) :
    ∃ rows, windowed w f = (⟨some (w.start.getD x), some (w.stop.getD y)⟩, .ok rows) := by
  unfold windowed
  rw [ht]
  simp only
  have hm : (t.zip f.rows).map (·.1) = t := List.map_fst_zip hl.ge
  have f1 : ((t.zip f.rows).head?).map (·.1) = some x := by rw [← List.head?_map, hm, hx]
  have f2 : ((t.zip f.rows).getLast?).map (·.1) = some y := by rw [← List.getLast?_map, hm, hy]
  obtain ⟨first, e1, rfl⟩ := Option.map_eq_some_iff.1 f1
  obtain ⟨last, e2, rfl⟩ := Option.map_eq_some_iff.1 f2
  rw [applyWindow_cons w first last _ e1 e2, if_neg (not_le.2 h1), if_neg (not_le.2 h2), if_neg (not_le.2 h3)]
  exact ⟨_, rfl⟩

theorem series_nodup (a b : Int) (t : List Int) (ht : t.Pairwise (· < ·)) (f : Frame K) (hl : f.rows.length = t.length)
    (n : Text) : ((seriesWithin a b t f n).map (·.1)).Nodup := by
  unfold seriesWithin
  rw [List.map_map]
  have hsub : List.Sublist (((t.zip f.rows).filter fun r => decide (a ≤ r.1 ∧ r.1 ≤ b)).map (·.1)) t := by
    have := (List.filter_sublist (p := fun r : Int × List (Option K) => decide (a ≤ r.1 ∧ r.1 ≤ b))
      (l := t.zip f.rows)).map (·.1)
    rwa [List.map_fst_zip hl.ge] at this
  exact (hsub.nodup (ht.imp fun h => ne_of_lt h))

/-- The table of statistics has a row for each station, in the order of the stations, with its statistics over the records from
the start to the stop time. Without a start or stop time those of the 1D model are taken. -/
theorem C118_statistics (parse : Text → Option K) (w : Window Int) (t1 t2 : List Int) (h1 h2 : Frame K) (x y : Int)
    (hs : SameStations t1 t2 h1 h2) (hx : t1.head? = some x) (hy : t1.getLast? = some y) (x2 y2 : Int)
    (hx2 : t2.head? = some x2) (hy2 : t2.getLast? = some y2) (s : List (StatRow K))
    (h : (computeStatistics parse w h1 h2).2 = .ok s) :
    s.map (·.station) = h1.columns ∧
    ∀ r ∈ s, IsStatistic parse (seriesWithin (w.start.getD x) (w.stop.getD y) t1 h1 r.station)
      (seriesWithin (w.start.getD x) (w.stop.getD y) t2 h2 r.station) r.station r := by
  unfold computeStatistics at h
  rcases e1 : windowed w h1 with ⟨w1, r1⟩
  rw [e1] at h
  cases r1 with
  | error e => cases h
  | ok a =>
    obtain ⟨hw1, ha⟩ := windowed_rows w w1 t1 h1 x y hs.times1 hs.rows1 hx hy a e1
    simp only at h
    rcases e2 : windowed w1 h2 with ⟨w2, r2⟩
    rw [e2] at h
    cases r2 with
    | error e => cases h
    | ok b =>
      obtain ⟨_, hb⟩ := windowed_rows w1 w2 t2 h2 x2 y2 hs.times2 hs.rows2 hx2 hy2 b e2
      rw [hw1] at hb
      simp only [Option.getD_some] at hb
      have hc : diffColumns h1.columns h2.columns = h1.columns := by
        unfold diffColumns
        rw [if_pos hs.stations.symm]
      have h := Except.ok.inj h
      rw [hc] at h
      subst h
      constructor
      · rw [List.map_map]
        exact List.map_id _
      · intro r hr
        obtain ⟨n, _, rfl⟩ := List.mem_map.1 hr
        have k := isStatistic_statRow parse (seriesWithin (w.start.getD x) (w.stop.getD y) t1 h1 n)
          (seriesWithin (w.start.getD x) (w.stop.getD y) t2 h2 n)
          (series_nodup _ _ t1 hs.increasing1 h1 hs.rows1 n) n
        rw [stationSeries_eq, stationSeries_eq, ha, hb]
        exact k

/-- With records of both models between the start and the stop time, the statistics are computed. -/
theorem C118_computed (parse : Text → Option K) (w : Window Int) (t1 t2 : List Int) (h1 h2 : Frame K) (x y : Int)
    (hs : SameStations t1 t2 h1 h2) (hx : t1.head? = some x) (hy : t1.getLast? = some y) (x2 y2 : Int)
    (hx2 : t2.head? = some x2) (hy2 : t2.getLast? = some y2) (ho : w.start.getD x < w.stop.getD y)
    (hy' : w.start.getD x < y) (hx' : x < w.stop.getD y) (hy2' : w.start.getD x < y2) (hx2' : x2 < w.stop.getD y) :
    ∃ s, (computeStatistics parse w h1 h2).2 = .ok s := by
  obtain ⟨a, ea⟩ := windowed_ok w t1 h1 x y hs.times1 hs.rows1 hx hy ho hy' hx'
  obtain ⟨b, eb⟩ := windowed_ok ⟨some (w.start.getD x), some (w.stop.getD y)⟩ t2 h2 x2 y2 hs.times2 hs.rows2 hx2 hy2 ho hy2' hx2'
  unfold computeStatistics
  rw [ea]
  simp only
  simp only [Option.getD_some] at eb
  rw [eb]
  exact ⟨_, rfl⟩

theorem sampleTables_same : SameStations [8, 9, 10] [8, 9, 10] ratingLevels otherLevels :=
  ⟨rfl, rfl, by decide, by decide, rfl, rfl, rfl, by decide, by decide, by decide⟩

example : (computeStatistics (decimalText ℚ).parse ⟨none, some 9⟩ ratingLevels otherLevels).2.toOption.map
    (fun s => s.map fun r => (r.station, r.bias, r.mae, r.variance)) =
      some [("NR_1_a".toList, some (-5 / 2), some (5 / 2), some (1 / 2)),
        ("LK_2_LMW_b".toList, some (-3), some 3, some 8)] := by decide +kernel

/-! ## C119: the files of statistics -/

/-- The file of statistics as a table: a line with the names of the columns, then a line for each station with as many fields. -/
theorem C119_table (ft : FloatText K) (root : K → K) (s : List (StatRow K)) (hm : ∀ r ∈ s, r.means.length = 12)
    (hp : ∀ r ∈ s, Plain r.station ∧ IsBranch r.station r.branch) :
    ∃ lines, csvLines (statText ft root s) = statHeader :: lines ∧ lines.length = s.length ∧
      ∀ (i : Nat) (r : StatRow K), s[i]? = some r → ∃ line, lines[i]? = some line ∧ splitSep ',' line =
        [r.station, cellText ft r.bias, cellText ft r.rkm, r.branch, if r.isLmw then "True".toList else "False".toList,
          cellText ft (r.variance.map root), cellText ft r.mae] ++ r.means.map (cellText ft) ∧
        (splitSep ',' line).length = (splitSep ',' statHeader).length := by
  have plainBranch : ∀ r ∈ s, ',' ∉ r.branch ∧ '\n' ∉ r.branch := by
    intro r hr
    obtain ⟨⟨_, hc⟩, _, hb⟩ := hp r hr
    have sub : ∀ c, c ∈ r.branch → c ∈ r.station := by
      intro c h
      rcases hb with e | ⟨rest, e⟩
      · rw [e]; exact h
      · rw [e]; exact List.mem_append_left _ h
    exact ⟨fun h => hc ',' (by decide) (sub _ h), fun h => hc '\n' (by decide) (sub _ h)⟩
  have fields : ∀ r ∈ s, ∀ w ∈ [r.station, cellText ft r.bias, cellText ft r.rkm, r.branch, boolText r.isLmw,
      cellText ft (r.variance.map root), cellText ft r.mae] ++ r.means.map (cellText ft), ',' ∉ w ∧ '\n' ∉ w := by
    intro r hr w hw
    rcases List.mem_append.1 hw with hw | hw
    · simp only [List.mem_cons, List.not_mem_nil, or_false] at hw
      rcases hw with rfl | rfl | rfl | rfl | rfl | rfl | rfl
      · exact ⟨(hp r hr).1.2 ',' (by decide), (hp r hr).1.2 '\n' (by decide)⟩
      · exact ⟨cellText_comma ft _, cellText_newline ft _⟩
      · exact ⟨cellText_comma ft _, cellText_newline ft _⟩
      · exact plainBranch r hr
      · cases r.isLmw <;> decide
      · exact ⟨cellText_comma ft _, cellText_newline ft _⟩
      · exact ⟨cellText_comma ft _, cellText_newline ft _⟩
    · obtain ⟨v, _, rfl⟩ := List.mem_map.1 hw
      exact ⟨cellText_comma ft _, cellText_newline ft _⟩
  refine ⟨s.map (statLine ft root), ?_, List.length_map .., ?_⟩
  · unfold statText
    apply csvLines_unlines
    intro l hl
    rcases List.mem_cons.1 hl with e | hl
    · rw [e]
      decide +kernel
    · obtain ⟨r, hr, rfl⟩ := List.mem_map.1 hl
      exact ⟨joinWith_ne_nil _ _ (hp r hr).1.1, joinWith_newline _ fun w hw => (fields r hr w hw).2⟩
  · intro i r hi
    refine ⟨statLine ft root r, by rw [List.getElem?_map, hi, Option.map_some], ?_⟩
    have hr : r ∈ s := List.mem_of_getElem? hi
    have hsp : splitSep ',' (statLine ft root r) = [r.station, cellText ft r.bias, cellText ft r.rkm, r.branch,
        boolText r.isLmw, cellText ft (r.variance.map root), cellText ft r.mae] ++ r.means.map (cellText ft) :=
      splitSep_join ',' _ (List.cons_ne_nil _ _) fun w hw => (fields r hr w hw).1
    refine ⟨hsp, ?_⟩
    rw [hsp, List.length_append, List.length_map, hm r hr]
    have h19 : (splitSep ',' statHeader).length = 19 := by decide +kernel
    rw [h19]
    rfl

/-- The names of the columns, in the order of the fields. -/
theorem C119_header : splitSep ',' statHeader = ["".toList, "bias".toList, "rkm".toList, "branch".toList, "is_lmw".toList,
    "std".toList, "mae".toList, "1D_last3".toList, "1D_last25".toList, "1D_max3".toList, "1D_max13".toList,
    "2D_last3".toList, "2D_last25".toList, "2D_max3".toList, "2D_max13".toList, "diff_last3".toList,
    "diff_last25".toList, "diff_max3".toList, "diff_max13".toList] := by decide +kernel

example : ∀ r ∈ ((computeStatistics (decimalText ℚ).parse ⟨none, none⟩ ratingLevels otherLevels).2.toOption.getD []),
    r.means.length = 12 := by decide +kernel

/-- Files with a name without a dot: the statistics and the summary are two files, and nothing else is written. What is missing:
names with a dot, see `C119_suffix_violated`. -/
theorem C119_files_partial (ft : FloatText K) (root : K → K) (s : Session K) (dir : Store) (pre name : Text) (hp : IsDir pre)
    (hn : name ≠ []) (hs : '/' ∉ name) (hd : '.' ∉ name) (t : List (StatRow K))
    (ht : (computeStatistics ft.parse s.window s.h1 s.h2).2 = .ok t) :
    (statisticsToFile ft root s (pre ++ name) dir).2 =
      ((dir.set (pre ++ (name ++ ".csv".toList)) (statText ft root t)).set
        (pre ++ (name ++ "_summary.csv".toList)) (summaryText root t), .ok ()) := by
  unfold statisticsToFile
  rcases e : computeStatistics ft.parse s.window s.h1 s.h2 with ⟨w, r⟩
  rw [e] at ht
  change r = _ at ht
  subst ht
  simp only
  have h2 : '/' ∉ name ++ "_summary".toList := by
    rw [List.mem_append]
    rintro (h | h)
    · exact hs h
    · exact absurd h (by decide)
  have h3 : '.' ∉ name ++ "_summary".toList := by
    rw [List.mem_append]
    rintro (h | h)
    · exact hd h
    · exact absurd h (by decide)
  rw [withSuffix_name _ pre name hp hs hn, nameStem_plain name hd]
  simp only
  rw [List.append_assoc pre name, withSuffix_name _ pre _ hp h2 (fun e => hn (List.append_eq_nil_iff.1 e).1),
    nameStem_plain _ h3]
  simp only
  rw [List.append_assoc name]
  rfl

example : IsDir "out/".toList ∧ (withSuffix ".csv".toList "out/error_statistics".toList).toOption =
    some "out/error_statistics.csv".toList := ⟨.inr ⟨"out".toList, rfl⟩, by decide⟩

/-- **Violated.** With a name that has a suffix, such as `statistics.csv`, only the summary remains. -/
theorem C119_suffix_violated (ft : FloatText K) (root : K → K) (s : Session K) (dir : Store) (pre stem ext : Text)
    (hp : IsDir pre) (hs : stem ≠ []) (he : ext ≠ []) (h1 : '/' ∉ stem) (h2 : '/' ∉ ext) (h3 : '.' ∉ ext)
    (t : List (StatRow K)) (ht : (computeStatistics ft.parse s.window s.h1 s.h2).2 = .ok t) :
    (statisticsToFile ft root s (pre ++ (stem ++ '.' :: ext)) dir).2 =
      (dir.set (pre ++ (stem ++ ".csv".toList)) (summaryText root t), .ok ()) := by
  unfold statisticsToFile
  rcases e : computeStatistics ft.parse s.window s.h1 s.h2 with ⟨w, r⟩
  rw [e] at ht
  change r = _ at ht
  subst ht
  simp only
  have slash : ∀ x : Text, '/' ∉ x → '/' ∉ stem ++ '.' :: x := by
    intro x hx h
    rcases List.mem_append.1 h with h | h
    · exact h1 h
    · rcases List.mem_cons.1 h with h | h
      · exact absurd h (by decide)
      · exact hx h
  have ne : ∀ x : Text, stem ++ '.' :: x ≠ [] := fun x e => hs (List.append_eq_nil_iff.1 e).1
  have h4 : '/' ∉ ext ++ "_summary".toList := by
    rw [List.mem_append]
    rintro (h | h)
    · exact h2 h
    · exact absurd h (by decide)
  have h5 : '.' ∉ ext ++ "_summary".toList := by
    rw [List.mem_append]
    rintro (h | h)
    · exact h3 h
    · exact absurd h (by decide)
  have e1 : pre ++ (stem ++ '.' :: ext) ++ "_summary".toList = pre ++ (stem ++ '.' :: (ext ++ "_summary".toList)) := by
    rw [List.append_assoc, List.append_assoc, List.cons_append]
  rw [withSuffix_name _ pre _ hp (slash ext h2) (ne ext), nameStem_suffix stem ext hs he h3, e1]
  simp only
  rw [withSuffix_name _ pre _ hp (slash _ h4) (ne _),
    nameStem_suffix stem _ hs (fun e => he (List.append_eq_nil_iff.1 e).1) h5]
  simp only
  congr 1
  funext f
  unfold Store.set
  split <;> rfl

example : (statisticsToFile (decimalText ℚ) id sampleSession "statistics.csv".toList noStore).2.1 "statistics.csv".toList =
    (computeStatistics (decimalText ℚ).parse ⟨none, none⟩ ratingLevels otherLevels).2.toOption.map (summaryText id) := by
  decide +kernel

/-- **Violated.** The columns are not the documented ones: in particular there is no column `max13` or `last25`. -/
theorem C119_columns_violated :
    statHeader ≠ ",bias,rkm,branch,is_lmw,std,mae,max13,last25".toList ∧
    "max13".toList ∉ splitSep ',' statHeader ∧ "last25".toList ∉ splitSep ',' statHeader := by decide +kernel

/-! ## C120: the summary -/

/-- The summary has one line for each branch, in the order in which the branches first occur, with the means over its stations
and over its measuring stations. -/
theorem C120_summary (root : K → K) (s : List (StatRow K)) :
    ∃ bs, InOrder (s.map (·.branch)) bs ∧ summaryText root s = unlines (bs.map (summaryLine root s)) := by
  refine ⟨firstOnes (s.map (·.branch)) [], firstOnes_inOrder _, ?_⟩
  unfold summaryText
  congr 1
  apply List.map_congr_left
  intro b _
  exact branchSummary_eq root s b

example : (computeStatistics (decimalText ℚ).parse ⟨none, none⟩ ratingLevels otherLevels).2.toOption.map (summaryText id) =
    some "NR,-2.50±(0.50), nan±(nan)\nLK,-3.00±(8.00), -3.00±(8.00)\n".toList := by decide +kernel

/-! ## C121: measuring stations -/

/-- A station on a route with `LMW` in its name is a measuring station in the statistics and on the route. What is missing:
names with `lmw` in small letters, see `C121_small_violated`. -/
theorem C121_capitals_partial (o : ArgSort K) (parse : Text → Option K) (a b : List (Int × Option K)) (names route : List Text)
    (n pre post : Text) (hn : n ∈ names) (he : n = pre ++ "LMW".toList ++ post) (hr : stationBranch n ∈ route) :
    (statRow parse a b n).isLmw = true ∧ ∃ km, (n, km) ∈ getRouteLmw o parse names route := by
  constructor
  · show containsText "lmw".toList (lower n) = true
    rw [containsText_iff]
    refine ⟨lower pre, lower post, ?_⟩
    rw [he]
    unfold lower
    rw [List.map_append, List.map_append]
    rfl
  · refine ⟨stationKm parse n, ?_⟩
    unfold getRouteLmw
    simp only
    have hm : (n, stationKm parse n) ∈ (routeStations parse names route).filter fun x => containsText "LMW".toList x.1 := by
      rw [List.mem_filter]
      refine ⟨?_, (containsText_iff _ _).2 ⟨pre, post, he⟩⟩
      unfold routeStations
      rw [List.mem_flatMap]
      refine ⟨stationBranch n, hr, List.mem_map.2 ⟨n, ?_, rfl⟩⟩
      rw [List.mem_filter]
      exact ⟨hn, decide_eq_true rfl⟩
    generalize (routeStations parse names route).filter (fun x => containsText "LMW".toList x.1) = l at hm
    obtain ⟨i, hi⟩ := List.mem_iff_getElem?.1 hm
    rw [List.mem_filterMap]
    refine ⟨i, ?_, hi⟩
    rw [(o.perm _).mem_iff, List.mem_range, List.length_map]
    exact (List.getElem?_eq_some_iff.1 hi).1

/-- **Violated.** A station with `lmw` in small letters is a measuring station in the statistics, but on no route. -/
theorem C121_small_violated (o : ArgSort K) (parse : Text → Option K) (a b : List (Int × Option K)) (names route : List Text) :
    (statRow parse a b "NR_919_lmw".toList).isLmw = true ∧
      ∀ km, ("NR_919_lmw".toList, km) ∉ getRouteLmw o parse names route := by
  constructor
  · show containsText "lmw".toList (lower "NR_919_lmw".toList) = true
    decide
  · intro km h
    unfold getRouteLmw at h
    simp only at h
    obtain ⟨i, _, hi⟩ := List.mem_filterMap.1 h
    have hm := List.mem_of_getElem? hi
    have := (List.mem_filter.1 hm).2
    exact absurd this (by show ¬ containsText "LMW".toList "NR_919_lmw".toList = true; decide)

end Fm2prof.Props
