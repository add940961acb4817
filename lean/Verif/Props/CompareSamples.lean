import Verif.Model.Cli
import Verif.Props.Compare
import Verif.Props.Reader

/-!
# Results of two models, for examples of comparisons
-/

set_option linter.unusedSectionVars false

namespace Fm2prof.Props

open Fm2prof Spec

/-- A number of seconds as half days and seconds. -/
def halfDays (n : Nat) : Text :=
  List.replicate (n / 43200) '0' ++ '1' :: (List.replicate (n % 43200) '0' ++ ['1'])

def readHalfDays (t : Text) : Option (Nat × Text) :=
  match readZeros t with
  | none => none
  | some (a, rest) =>
    match readZeros rest with
    | none => none
    | some (b, rest) => some (43200 * a + b, rest)

theorem readHalfDays_text (n : Nat) (rest : Text) : readHalfDays (halfDays n ++ rest) = some (n, rest) := by
  unfold readHalfDays halfDays
  rw [List.append_assoc, List.cons_append, readZeros_replicate]
  simp only
  rw [List.append_assoc, List.singleton_append, readZeros_replicate]
  simp only
  rw [Nat.div_add_mod]

/-- A time as a sign, half days and seconds. -/
def halfDayStamp : Int → Text
  | .ofNat n => '3' :: halfDays n
  | .negSucc n => '4' :: halfDays n

def halfDayParse : Text → Except (Option Text) Int
  | [] => .error none
  | c :: cs =>
    if c = '3' ∨ c = '4' then
      match readHalfDays cs with
      | none => .error none
      | some (n, rest) => if rest = [] then .ok (if c = '3' then .ofNat n else .negSucc n) else .error (some rest)
    else .error none

theorem halfDayParse_pos (n : Nat) (rest : Text) : halfDayParse ('3' :: (halfDays n ++ rest)) =
    if rest = [] then .ok (.ofNat n) else .error (some rest) := by
  unfold halfDayParse
  simp only [readHalfDays_text]
  rfl

theorem halfDayParse_neg (n : Nat) (rest : Text) : halfDayParse ('4' :: (halfDays n ++ rest)) =
    if rest = [] then .ok (.negSucc n) else .error (some rest) := by
  unfold halfDayParse
  simp only [readHalfDays_text]
  rfl

theorem mem_halfDayStamp (t : Int) (c : Char) (h : c ∈ halfDayStamp t) : c ∈ ['3', '4', '0', '1'] := by
  have key : ∀ n, ∀ c ∈ halfDays n, c ∈ ['3', '4', '0', '1'] := by
    intro n c h
    unfold halfDays at h
    rcases List.mem_append.1 h with h | h
    · rw [List.eq_of_mem_replicate h]; decide
    rcases List.mem_cons.1 h with rfl | h
    · decide
    rcases List.mem_append.1 h with h | h
    · rw [List.eq_of_mem_replicate h]; decide
    · rw [List.mem_singleton.1 h]; decide
  cases t <;>
  · unfold halfDayStamp at h
    simp only at h
    rcases List.mem_cons.1 h with rfl | h
    · decide
    · exact key _ c h

/-- A clock with days of 86400 seconds. -/
def dayClock : Clock where
  midnight t := t % 86400 = 0
  stamp := halfDayStamp
  date t := List.replicate ((t / 86400).natAbs + 1) '0'
  strptime := halfDayParse
  strptime_stamp t := by
    cases t with
    | ofNat n =>
      show halfDayParse ('3' :: halfDays n) = _
      rw [← List.append_nil (halfDays n), halfDayParse_pos]
      rfl
    | negSucc n =>
      show halfDayParse ('4' :: halfDays n) = _
      rw [← List.append_nil (halfDays n), halfDayParse_neg]
      rfl
  strptime_rest t rest hne := by
    cases t with
    | ofNat n =>
      show halfDayParse ('3' :: (halfDays n ++ rest)) = _
      rw [halfDayParse_pos, if_neg hne]
    | negSucc n =>
      show halfDayParse ('4' :: (halfDays n ++ rest)) = _
      rw [halfDayParse_neg, if_neg hne]
  strptime_date t := rfl
  strptime_letter c t h := by
    show (if c = '3' ∨ c = '4' then _ else _) = _
    rw [if_neg]
    rintro (rfl | rfl) <;> exact absurd h (by decide)
  stamp_chars t c h := by
    have := mem_halfDayStamp t c h
    revert this
    have hsub : ∀ c ∈ ['3', '4', '0', '1'], c ∈ "0123456789-: ".toList := by decide
    exact hsub c
  stamp_trimmed t := by
    refine ⟨by cases t <;> exact List.cons_ne_nil _ _, strip_noSpace _ ?_⟩
    intro c hc
    have hsub : ∀ c ∈ ['3', '4', '0', '1'], isSpace c = false := by decide
    exact hsub c (mem_halfDayStamp t c hc)
  date_chars t c h := by rw [List.eq_of_mem_replicate h]; decide
  date_ne_nil t := List.cons_ne_nil _ _

/-- Seven and a half days at two stations of the Nederrijn and one of the Lek. -/
def river1d : His1d ℚ where
  names := ["NR_919".toList, "NR_921".toList, "LK_2".toList]
  units := "seconds since ".toList ++ dayClock.stamp 0
  seconds := [0, 86400, 259200, 518400, 648000]
  levels := [[some 10, some 9, some 4], [some 11, some 10, some 5], [some 12, none, some 5], [some 13, some 12, some 6],
    [some 13, some 12, some 6]]
  discharges := [[some 1000, some 1000, some 300], [some 1100, some 1100, some 300], [some 1300, some 1300, some 500],
    [some 1500, some 1500, some 500], [some 1500, some 1500, some 700]]

def river2d : His2d ℚ where
  hnames := ["LK_2_east".toList, "NR_919_a".toList, "NR_919_b".toList, "NR_921".toList]
  qnames := ["NR_919_Q".toList, "NR_921_Q".toList, "LK_2_Q".toList]
  units := "seconds since ".toList ++ dayClock.stamp 0 ++ " +00:00".toList
  seconds := [0, 172800, 259200, 561600]
  levels := [[some 5, some 10, some 7, some 9], [some 5, some 12, some 7, some 10], [some 6, some 13, some 7, some 11],
    [some 6, some 13, some 8, some 11]]
  discharges := [[some 1000, some 1000, some 300], [some 1300, some 1300, some 300], [some 1300, some 1300, some 500],
    [some 1500, some 1500, some 500]]

/-- Results at two paths, and texts for routes. -/
def sampleCompare : CompareTools ℚ where
  clock := dayClock
  read1 path := if path = "1d.nc".toList then .ok river1d else .error .osError
  read2 path := if path = "2d.nc".toList then .ok river2d else .error .osError
  routes t :=
    if t = "[['NR']]".toList then .ok (some [["NR".toList]])
    else if t = "[]".toList then .ok (some [])
    else if t = "None".toList then .ok none
    else .error .valueError
  order := insertionArgSort
  image
    | .long _ => "long".toList
    | .rating _ => "rating".toList
    | .heatTime _ => "heat".toList
    | .heatRating _ => "heat of curves".toList
    | .station f => f.stat.station
    | .discharge _ => "discharge".toList

theorem river1d_good : Good1d dayClock (decimalText ℚ) river1d 0 where
  start := ⟨[], by decide, by decide +kernel⟩
  stations := by decide
  names := by
    have : ∀ n ∈ river1d.names, n ≠ [] ∧ ∀ c ∈ [',', '\n', '\r', '"'], c ∉ n := by decide
    exact this
  nodup := by decide
  levels := ⟨rfl, by
    have h1 : ∀ row ∈ river1d.levels, row.length = river1d.names.length := by decide
    have h2 : ∀ row ∈ river1d.levels, ∀ v ∈ row, ∀ x ∈ v, roundTo 6 x = x := by decide +kernel
    exact fun row hr => ⟨h1 row hr, fun x hx => h2 row hr (some x) hx x rfl⟩⟩
  discharges := ⟨rfl, by
    have h1 : ∀ row ∈ river1d.discharges, row.length = river1d.names.length := by decide
    have h2 : ∀ row ∈ river1d.discharges, ∀ v ∈ row, ∀ x ∈ v, roundTo 6 x = x := by decide +kernel
    exact fun row hr => ⟨h1 row hr, fun x hx => h2 row hr (some x) hx x rfl⟩⟩

theorem river2d_plain : ∀ n ∈ river2d.hnames ++ river2d.qnames, PlainStation (decimalText ℚ) n := by
  have h : ∀ n ∈ river2d.hnames ++ river2d.qnames,
      (n ≠ [] ∧ ∀ c ∈ [',', '\n', '\r', '"'], c ∉ n) ∧ n ∉ missingTexts ∧ (decimalText ℚ).parse n = none := by
    decide +kernel
  exact h

theorem river2d_good : Good2d dayClock (decimalText ℚ) river2d 0 where
  start := ⟨" +00:00".toList, by decide, by decide +kernel⟩
  hnames := fun n hn => river2d_plain n (List.mem_append_left _ hn)
  qnames := fun n hn => river2d_plain n (List.mem_append_right _ hn)
  levels := ⟨rfl, by
    have h1 : ∀ row ∈ river2d.levels, row.length = river2d.hnames.length := by decide
    have h2 : ∀ row ∈ river2d.levels, ∀ v ∈ row, ∀ x ∈ v, roundTo 6 x = x := by decide +kernel
    exact fun row hr => ⟨h1 row hr, fun x hx => h2 row hr (some x) hx x rfl⟩⟩
  discharges := ⟨rfl, by
    have h1 : ∀ row ∈ river2d.discharges, row.length = river2d.qnames.length := by decide
    have h2 : ∀ row ∈ river2d.discharges, ∀ v ∈ row, ∀ x ∈ v, roundTo 6 x = x := by decide +kernel
    exact fun row hr => ⟨h1 row hr, fun x hx => h2 row hr (some x) hx x rfl⟩⟩

theorem river1d_timeOfDay : HasTimeOfDay dayClock 0 0 river1d.seconds := by
  have h : (timesOf 0 0 river1d.seconds).any (fun t => !dayClock.midnight t) = true := by decide +kernel
  obtain ⟨t, ht, hm⟩ := List.any_eq_true.1 h
  exact ⟨t, ht, by simpa using hm⟩

theorem river2d_timeOfDay : HasTimeOfDay dayClock 0 0 river2d.seconds := by
  have h : (timesOf 0 0 river2d.seconds).any (fun t => !dayClock.midnight t) = true := by decide +kernel
  obtain ⟨t, ht, hm⟩ := List.any_eq_true.1 h
  exact ⟨t, ht, by simpa using hm⟩

end Fm2prof.Props
