import Verif.Proofs.Reader
import Verif.Proofs.Decimal

/-!
# Reading results for a comparison: properties
-/

set_option linter.unusedSectionVars false

namespace Fm2prof.Props

open Fm2prof Spec

/-! ## A clock -/

/-- The zeros at the beginning of a text, up to a one. -/
def readZeros : Text → Option (Nat × Text)
  | [] => none
  | c :: cs => if c = '0' then (readZeros cs).map fun p => (p.1 + 1, p.2) else if c = '1' then some (0, cs) else none

theorem readZeros_replicate (n : Nat) (rest : Text) : readZeros (List.replicate n '0' ++ '1' :: rest) = some (n, rest) := by
  induction n with
  | zero => rfl
  | succ n ih =>
    show (if '0' = '0' then (readZeros (List.replicate n '0' ++ '1' :: rest)).map fun p => (p.1 + 1, p.2) else _) = _
    rw [if_pos rfl, ih]
    rfl

/-- A time as a sign and as many zeros as seconds. -/
def unaryStamp : Int → Text
  | .ofNat n => '3' :: (List.replicate n '0' ++ ['1'])
  | .negSucc n => '4' :: (List.replicate n '0' ++ ['1'])

def unaryParse : Text → Except (Option Text) Int
  | [] => .error none
  | c :: cs =>
    if c = '3' ∨ c = '4' then
      match readZeros cs with
      | none => .error none
      | some (n, rest) => if rest = [] then .ok (if c = '3' then .ofNat n else .negSucc n) else .error (some rest)
    else .error none

theorem unaryParse_pos (n : Nat) (rest : Text) : unaryParse ('3' :: (List.replicate n '0' ++ '1' :: rest)) =
    if rest = [] then .ok (.ofNat n) else .error (some rest) := by
  unfold unaryParse
  simp only [readZeros_replicate]
  rfl

theorem unaryParse_neg (n : Nat) (rest : Text) : unaryParse ('4' :: (List.replicate n '0' ++ '1' :: rest)) =
    if rest = [] then .ok (.negSucc n) else .error (some rest) := by
  unfold unaryParse
  simp only [readZeros_replicate]
  rfl

theorem mem_unaryStamp (t : Int) (c : Char) (h : c ∈ unaryStamp t) : c ∈ ['3', '4', '0', '1'] := by
  cases t <;>
  · unfold unaryStamp at h
    simp only at h
    rcases List.mem_cons.1 h with rfl | h
    · decide
    rcases List.mem_append.1 h with h | h
    · rw [List.eq_of_mem_replicate h]; decide
    · rw [List.mem_singleton.1 h]; decide

/-- A clock whose days have four seconds. -/
def sampleClock : Clock where
  midnight t := t % 4 = 0
  stamp := unaryStamp
  date t := List.replicate (t.natAbs + 1) '0'
  strptime := unaryParse
  strptime_stamp t := by
    cases t with
    | ofNat n => exact (unaryParse_pos n []).trans (if_pos rfl)
    | negSucc n => exact (unaryParse_neg n []).trans (if_pos rfl)
  strptime_rest t rest hne := by
    cases t with
    | ofNat n =>
      show unaryParse ('3' :: ((List.replicate n '0' ++ ['1']) ++ rest)) = _
      rw [List.append_assoc, List.singleton_append, unaryParse_pos, if_neg hne]
    | negSucc n =>
      show unaryParse ('4' :: ((List.replicate n '0' ++ ['1']) ++ rest)) = _
      rw [List.append_assoc, List.singleton_append, unaryParse_neg, if_neg hne]
  strptime_date t := rfl
  strptime_letter c t h := by
    show (if c = '3' ∨ c = '4' then _ else _) = _
    rw [if_neg]
    rintro (rfl | rfl) <;> exact absurd h (by decide)
  stamp_chars t c h := by
    have := mem_unaryStamp t c h
    revert this
    have hsub : ∀ c ∈ ['3', '4', '0', '1'], c ∈ "0123456789-: ".toList := by decide
    exact hsub c
  stamp_trimmed t := by
    refine ⟨by cases t <;> exact List.cons_ne_nil _ _, strip_noSpace _ ?_⟩
    intro c hc
    have hsub : ∀ c ∈ ['3', '4', '0', '1'], isSpace c = false := by decide
    exact hsub c (mem_unaryStamp t c hc)
  date_chars t c h := by rw [List.eq_of_mem_replicate h]; decide
  date_ne_nil t := List.cons_ne_nil _ _

variable {K : Type} [Field K] [LinearOrder K] [IsStrictOrderedRing K] [FloorRing K]

/-- No file of an earlier reading. -/
def NoFiles (dir : Store) : Prop := ∀ f ∈ [file1dH, file1dQ, fileMap, file2dQ, file2dH], dir f = none

/-! ## Results -/

def sample1d : His1d ℚ where
  names := ["NR_919".toList, "LK_2".toList]
  units := "seconds since ".toList ++ sampleClock.stamp 8 ++ " +01:00".toList
  seconds := [0, 1, 2]
  levels := [[some 1, some 2], [some (3 / 2), none], [some 2, some 3]]
  discharges := [[some 100, some 200], [some 150, some 220], [none, some 250]]

def sample2d : His2d ℚ where
  hnames := ["LK_2_east".toList, "NR_919_a".toList, "NR_919_b".toList]
  qnames := ["NR_919_Q".toList]
  units := "seconds since ".toList ++ sampleClock.stamp 8
  seconds := [0, 3]
  levels := [[some 5, some 6, some 7], [none, some 9, some 10]]
  discharges := [[some 1000], [some 1100]]

theorem sample1d_good : Good1d sampleClock (decimalText ℚ) sample1d 8 where
  start := ⟨" +01:00".toList, by decide, by decide +kernel⟩
  stations := by decide
  names := by
    have : ∀ n ∈ sample1d.names, n ≠ [] ∧ ∀ c ∈ [',', '\n', '\r', '"'], c ∉ n := by decide
    exact this
  nodup := by decide
  levels := ⟨rfl, by
    have h1 : ∀ row ∈ sample1d.levels, row.length = sample1d.names.length := by decide
    have h2 : ∀ row ∈ sample1d.levels, ∀ v ∈ row, ∀ x ∈ v, roundTo 6 x = x := by decide +kernel
    exact fun row hr => ⟨h1 row hr, fun x hx => h2 row hr (some x) hx x rfl⟩⟩
  discharges := ⟨rfl, by
    have h1 : ∀ row ∈ sample1d.discharges, row.length = sample1d.names.length := by decide
    have h2 : ∀ row ∈ sample1d.discharges, ∀ v ∈ row, ∀ x ∈ v, roundTo 6 x = x := by decide +kernel
    exact fun row hr => ⟨h1 row hr, fun x hx => h2 row hr (some x) hx x rfl⟩⟩

theorem sample2d_plain : ∀ n ∈ sample2d.hnames ++ sample2d.qnames, PlainStation (decimalText ℚ) n := by
  have h : ∀ n ∈ sample2d.hnames ++ sample2d.qnames,
      (n ≠ [] ∧ ∀ c ∈ [',', '\n', '\r', '"'], c ∉ n) ∧ n ∉ missingTexts ∧ (decimalText ℚ).parse n = none := by
    decide +kernel
  exact h

theorem sample2d_good : Good2d sampleClock (decimalText ℚ) sample2d 8 where
  start := ⟨[], by decide, by decide +kernel⟩
  hnames := fun n hn => sample2d_plain n (List.mem_append_left _ hn)
  qnames := fun n hn => sample2d_plain n (List.mem_append_right _ hn)
  levels := ⟨rfl, by
    have h1 : ∀ row ∈ sample2d.levels, row.length = sample2d.hnames.length := by decide
    have h2 : ∀ row ∈ sample2d.levels, ∀ v ∈ row, ∀ x ∈ v, roundTo 6 x = x := by decide +kernel
    exact fun row hr => ⟨h1 row hr, fun x hx => h2 row hr (some x) hx x rfl⟩⟩
  discharges := ⟨rfl, by
    have h1 : ∀ row ∈ sample2d.discharges, row.length = sample2d.qnames.length := by decide
    have h2 : ∀ row ∈ sample2d.discharges, ∀ v ∈ row, ∀ x ∈ v, roundTo 6 x = x := by decide +kernel
    exact fun row hr => ⟨h1 row hr, fun x hx => h2 row hr (some x) hx x rfl⟩⟩

theorem sample1d_timeOfDay : HasTimeOfDay sampleClock 8 0 sample1d.seconds := by
  have h : (timesOf 8 0 sample1d.seconds).any (fun t => !sampleClock.midnight t) = true := by decide
  obtain ⟨t, ht, hm⟩ := List.any_eq_true.1 h
  exact ⟨t, ht, by simpa using hm⟩

theorem sample2d_timeOfDay : HasTimeOfDay sampleClock 8 0 sample2d.seconds := by
  have h : (timesOf 8 0 sample2d.seconds).any (fun t => !sampleClock.midnight t) = true := by decide
  obtain ⟨t, ht, hm⟩ := List.any_eq_true.1 h
  exact ⟨t, ht, by simpa using hm⟩

/-! ## C112: times -/

/-- The times of results are the start time in their units plus the seconds; what follows the start time does not matter. -/
theorem C112_times (clock : Clock) (units : Text) (t0 : Int) (seconds : List Int) (h : StartsAt clock units t0) :
    parseTimes clock units seconds = .ok (seconds.map fun s => t0 + s) :=
  parseTimes_of_startsAt clock units t0 seconds h

example : StartsAt sampleClock sample1d.units 8 := sample1d_good.start

/-- Units that do not start with an `s`, such as minutes or hours, are never taken for seconds. -/
theorem C112_refused (clock : Clock) (c : Char) (cs : Text) (seconds : List Int) (hc : c.isAlpha = true) (hs : c ≠ 's') :
    parseTimes clock (c :: cs) seconds = .error .nameError := by
  have hp : ¬ "seconds since ".toList.isPrefixOf (c :: cs) = true := by
    rw [isPrefixOf_iff]
    rintro ⟨r, hr⟩
    exact hs (List.cons.inj hr).1.symm
  have h1 : removeText "seconds since ".toList 0 (c :: cs) = c :: removeText "seconds since ".toList 0 cs := by
    show (if "seconds since ".toList.isPrefixOf (c :: cs) then _ else c :: removeText "seconds since ".toList 0 cs) = _
    rw [if_neg hp]
  have hspace : isSpace c = false := by
    rw [Bool.eq_false_iff]
    intro h
    unfold isSpace at h
    have h := of_decide_eq_true h
    simp only [Char.isAlpha, Char.isUpper, Char.isLower, Bool.or_eq_true, Bool.and_eq_true, decide_eq_true_eq] at hc
    have hr : (65 ≤ c.toNat ∧ c.toNat ≤ 90) ∨ (97 ≤ c.toNat ∧ c.toNat ≤ 122) := by
      rcases hc with ⟨h1, h2⟩ | ⟨h1, h2⟩
      · exact .inl ⟨h1, h2⟩
      · exact .inr ⟨h1, h2⟩
    simp only [List.mem_cons, List.not_mem_nil, or_false] at h
    omega
  have h2 : strip (c :: removeText "seconds since ".toList 0 cs) = c :: rstrip (removeText "seconds since ".toList 0 cs) :=
    strip_append_trimmed [c] _ (List.cons_ne_nil _ _) (strip_noSpace [c] fun d hd => by
      rw [List.mem_singleton.1 hd]; exact hspace)
  unfold parseTimes parseStart
  rw [h1, h2]
  simp only [clock.strptime_letter c _ hc]

example : parseTimes sampleClock ("minutes since ".toList ++ sampleClock.stamp 8) [1] = .error .nameError :=
  C112_refused sampleClock 'm' _ [1] (by decide) (by decide)

/-- The time zone in the units is ignored: units with different zones give the same times. -/
theorem C112_zone_violated (clock : Clock) (t0 : Int) (zone zone' : Text) (h : 's' ∉ zone) (h' : 's' ∉ zone')
    (seconds : List Int) :
    parseTimes clock ("seconds since ".toList ++ (clock.stamp t0 ++ zone)) seconds =
      parseTimes clock ("seconds since ".toList ++ (clock.stamp t0 ++ zone')) seconds := by
  rw [C112_times clock _ t0 seconds ⟨zone, h, rfl⟩, C112_times clock _ t0 seconds ⟨zone', h', rfl⟩]

example : 's' ∉ " +01:00".toList ∧ 's' ∉ " +00:00".toList := by decide

/-! ## C109 and C110: a first and a second reading -/

section Readings

variable (clock : Clock) (ft : FloatText K) (his1 : His1d K) (his2 : His2d K) (t1 t2 offset : Int)

/-- Reading 1D results into a directory without tables of an earlier reading gives the levels and discharges of the results,
at their times shifted by the offset. -/
theorem C110_fresh_partial (h1 : Good1d clock ft his1 t1) (dir : Store) (hd : dir file1dQ = none ∨ dir file1dH = none) :
    ∃ h q, (load1d clock ft offset (.ok his1) dir).2 = .ok (h, q) ∧
      h.columns = his1.names ∧ q.columns = his1.names ∧ h.rows = his1.levels ∧ q.rows = his1.discharges ∧
      h.index = .times (his1.seconds.map fun s => t1 + s + offset) ∧
      q.index = .times (his1.seconds.map fun s => t1 + s + offset) := by
  refine ⟨levels1d t1 offset his1, discharges1d t1 offset his1, ?_, rfl, rfl, rfl, rfl, rfl, rfl⟩
  rw [load1d_import clock ft his1 t1 offset h1 dir hd]

example : ∃ h q, (load1d sampleClock (decimalText ℚ) 5 (.ok sample1d) fun _ => none).2 = .ok (h, q) ∧
    h.index = .times [13, 14, 15] := by
  obtain ⟨h, q, e, _, _, _, _, hi, _⟩ := C110_fresh_partial sampleClock (decimalText ℚ) sample1d 8 5 sample1d_good
    (fun _ => none) (.inl rfl)
  exact ⟨h, q, e, hi⟩

/-- What a first reading does: the five files it writes, in this order, and the tables it gives. -/
theorem C111_writes (h1 : Good1d clock ft his1 t1) (h2 : Good2d clock ft his2 t2)
    (m2 : HasTimeOfDay clock t2 0 his2.seconds) (dir : Store) (hd : NoFiles dir) :
    readAllData clock ft offset (.ok his1) (.ok his2) dir =
      (writeAll dir (writesOf clock ft t1 offset t2 his1 his2),
        .ok ((levels1d t1 offset his1, discharges1d t1 offset his1),
          (levels2d t2 his2 his1.names, discharges2d t2 his2 his1.names))) :=
  readAllData_fresh clock ft his1 his2 t1 t2 offset h1 h2 m2 dir (.inl (hd _ (by decide))) (hd _ (by decide))
    (.inl (hd _ (by decide)))

/-- Reading again, in the directory of a first reading, gives the same tables and changes no file. -/
theorem C109_again_partial (h1 : Good1d clock ft his1 t1) (h2 : Good2d clock ft his2 t2)
    (m1 : HasTimeOfDay clock t1 offset his1.seconds) (m2 : HasTimeOfDay clock t2 0 his2.seconds) (dir : Store)
    (hd : NoFiles dir) :
    let first := readAllData clock ft offset (.ok his1) (.ok his2) dir
    (∃ tables, first.2 = .ok tables) ∧ readAllData clock ft offset (.ok his1) (.ok his2) first.1 = first := by
  intro first
  have hfirst : first = _ := C111_writes clock ft his1 his2 t1 t2 offset h1 h2 m2 dir hd
  have hs := writeAll_mem dir _ (writesOf_nodup clock ft t1 offset t2 his1 his2)
  refine ⟨⟨_, by rw [hfirst]⟩, ?_⟩
  rw [hfirst]
  exact readAllData_complete clock ft his1 his2 t1 t2 offset h1 h2 m1 m2 _ hs offset _ _

example : let first := readAllData sampleClock (decimalText ℚ) 0 (.ok sample1d) (.ok sample2d) fun _ => none
    (∃ tables, first.2 = .ok tables) ∧
      readAllData sampleClock (decimalText ℚ) 0 (.ok sample1d) (.ok sample2d) first.1 = first :=
  C109_again_partial sampleClock (decimalText ℚ) sample1d sample2d 8 8 0 sample1d_good sample2d_good sample1d_timeOfDay
    sample2d_timeOfDay (fun _ => none) fun _ _ => rfl

/-- When all times are at midnight, reading a second time gives tables whose times are texts: no time window works on them,
although the same window may work after the first reading. -/
theorem C109_midnight_violated (h1 : Good1d clock ft his1 t1) (hne : his1.seconds ≠ [])
    (m1 : ∀ t ∈ timesOf t1 offset his1.seconds, clock.midnight t = true) (dir : Store)
    (hd : dir file1dQ = none ∨ dir file1dH = none) :
    let first := load1d clock ft offset (.ok his1) dir
    ∃ h q, (load1d clock ft offset (.ok his1) first.1).2 = .ok (h, q) ∧
      ∀ w, (windowed w h).2 = .error .typeError ∧ (windowed w q).2 = .error .typeError := by
  intro first
  have hf : first = _ := load1d_import clock ft his1 t1 offset h1 dir hd
  have hne' : timesOf t1 offset his1.seconds ≠ [] := by
    unfold timesOf
    intro e
    exact hne (List.map_eq_nil_iff.1 e)
  have hl := h1.levels
  have hq := h1.discharges
  rw [← timesOf_length t1 offset his1.seconds] at hl hq
  have e := load1d_cached clock ft (.ok his1) offset first.1 _ _ (by rw [hf]; exact writes1d_q clock ft dir _)
    (by rw [hf]; exact writes1d_h clock ft dir _)
  simp only [levels1d, discharges1d] at e
  rw [readFrame_midnight clock ft _ _ _ h1.stations h1.names hq hne' m1,
    readFrame_midnight clock ft _ _ _ h1.stations h1.names hl hne' m1] at e
  exact ⟨_, _, by rw [e], fun w => ⟨rfl, rfl⟩⟩

/-- Results once a day. -/
def daily1d : His1d ℚ := { sample1d with seconds := [0, 4, 8] }

theorem daily1d_good : Good1d sampleClock (decimalText ℚ) daily1d 8 where
  start := sample1d_good.start
  stations := sample1d_good.stations
  names := sample1d_good.names
  nodup := sample1d_good.nodup
  levels := sample1d_good.levels
  discharges := sample1d_good.discharges

example : (∀ t ∈ timesOf 8 0 daily1d.seconds, sampleClock.midnight t = true) ∧
    ((load1d sampleClock (decimalText ℚ) 0 (.ok daily1d) fun _ => none).2.toOption.map fun hq =>
      (windowed ⟨some 8, some 12⟩ hq.1).2.toOption.map (·.length)) = some (some 2) := by decide +kernel

/-- In a directory with tables of an earlier reading, new results are not read at all: the tables are those of the earlier
results, whatever results and whatever offset are given now. -/
theorem C110_stale_violated (h1 : Good1d clock ft his1 t1) (m1 : HasTimeOfDay clock t1 offset his1.seconds) (dir : Store)
    (hd : dir file1dQ = none ∨ dir file1dH = none) (offset' : Int) (his' : Except PyErr (His1d K)) :
    (load1d clock ft offset' his' (load1d clock ft offset (.ok his1) dir).1).2 =
      .ok (levels1d t1 offset his1, discharges1d t1 offset his1) := by
  have hf := load1d_import clock ft his1 t1 offset h1 dir hd
  rw [load1d_again clock ft his1 t1 offset h1 m1 _ (by rw [hf]; exact writes1d_q clock ft dir _)
    (by rw [hf]; exact writes1d_h clock ft dir _) offset' his']

/-- In particular a new offset has no effect, unless there are no times. -/
theorem C110_offset_violated (h1 : Good1d clock ft his1 t1) (m1 : HasTimeOfDay clock t1 offset his1.seconds) (dir : Store)
    (hd : dir file1dQ = none ∨ dir file1dH = none) (offset' : Int) (hne : offset' ≠ offset) :
    (load1d clock ft offset' (.ok his1) (load1d clock ft offset (.ok his1) dir).1).2 ≠
      (load1d clock ft offset' (.ok his1) dir).2 := by
  rw [C110_stale_violated clock ft his1 t1 offset h1 m1 dir hd, load1d_import clock ft his1 t1 offset' h1 dir hd]
  intro e
  have e := congrArg (fun f : Frame K × Frame K => f.1.index) (Except.ok.inj e)
  have e : timesOf t1 offset his1.seconds = timesOf t1 offset' his1.seconds := TimeIndex.times.inj e
  obtain ⟨t, ht, _⟩ := m1
  unfold timesOf at e ht
  obtain ⟨s, hs, _⟩ := List.mem_map.1 ht
  have := List.map_inj_left.1 e s hs
  omega

example : (load1d sampleClock (decimalText ℚ) 5 (.ok sample1d)
      (load1d sampleClock (decimalText ℚ) 0 (.ok sample1d) fun _ => none).1).2 ≠
    (load1d sampleClock (decimalText ℚ) 5 (.ok sample1d) fun _ => none).2 :=
  C110_offset_violated sampleClock (decimalText ℚ) sample1d 8 0 sample1d_good sample1d_timeOfDay (fun _ => none) (.inl rfl)
    5 (by decide)

/-! ## C111: interrupted readings -/

/-- After a reading was interrupted between two files, or while it wrote the first table of a pair, the next reading gives
the tables and the files of a reading that was not interrupted. -/
theorem C111_between_partial (h1 : Good1d clock ft his1 t1) (h2 : Good2d clock ft his2 t2)
    (m1 : HasTimeOfDay clock t1 offset his1.seconds) (m2 : HasTimeOfDay clock t2 0 his2.seconds) (dir : Store)
    (hd : NoFiles dir) (n : Nat) (hn : n ≤ 5) (p : Option Nat) (hp : p = none ∨ n = 0 ∨ n = 3) :
    readAllData clock ft offset (.ok his1) (.ok his2)
        (afterCrash dir (writesOf clock ft t1 offset t2 his1 his2) n p) =
      readAllData clock ft offset (.ok his1) (.ok his2) dir := by
  have hfile : ∀ f ∈ [file1dH, file1dQ, fileMap, file2dQ, file2dH], dir f = none := hd
  have hH := hfile file1dH (by decide)
  have hQ := hfile file1dQ (by decide)
  have hM := hfile fileMap (by decide)
  have hQ2 := hfile file2dQ (by decide)
  have hH2 := hfile file2dH (by decide)
  rw [C111_writes clock ft his1 his2 t1 t2 offset h1 h2 m2 dir hd]
  have tornFirst : ∀ t, readAllData clock ft offset (.ok his1) (.ok his2) (dir.set file1dH t) =
      (writeAll dir (writesOf clock ft t1 offset t2 his1 his2), .ok (tablesOf his1 his2 t1 t2 offset)) := by
    intro t
    rw [readAllData_fresh clock ft his1 his2 t1 t2 offset h1 h2 m2 (dir.set file1dH t)
      (.inl (by rw [store_set_other _ _ _ _ (by decide), hQ])) (by rw [store_set_other _ _ _ _ (by decide), hM])
      (.inl (by rw [store_set_other _ _ _ _ (by decide), hQ2])), writesOf_eq, writeAll_five, writeAll_five, set_set_same]
  have mapped : ∀ d : Store, d file1dH = some (frameText clock ft (levels1d t1 offset his1)) →
      d file1dQ = some (frameText clock ft (discharges1d t1 offset his1)) →
      d fileMap = some (stationMapText his2.hnames his2.qnames his1.names) → (d file2dQ = none ∨ d file2dH = none) →
      (∀ x y, (d.set file2dQ x).set file2dH y = ((((dir.set file1dH (frameText clock ft (levels1d t1 offset his1))).set
        file1dQ (frameText clock ft (discharges1d t1 offset his1))).set fileMap
        (stationMapText his2.hnames his2.qnames his1.names)).set file2dQ x).set file2dH y) →
      readAllData clock ft offset (.ok his1) (.ok his2) d =
      (writeAll dir (writesOf clock ft t1 offset t2 his1 his2), .ok (tablesOf his1 his2 t1 t2 offset)) := by
    intro d e1 e2 e3 e4 e5
    rw [readAllData_mapped clock ft his1 his2 t1 t2 offset h1 h2 m1 m2 d e1 e2 e3 e4, writesOf_eq, writeAll_five, ← e5]
    rfl
  have hcases : n = 0 ∨ n = 1 ∨ n = 2 ∨ n = 3 ∨ n = 4 ∨ n = 5 := by omega
  have other : ∀ m : Nat, (p = none ∨ m = 0 ∨ m = 3) → m ≠ 0 → m ≠ 3 → p = none := by
    rintro m (h | h | h) h0 h3
    · exact h
    · exact absurd h h0
    · exact absurd h h3
  rcases hcases with rfl | rfl | rfl | rfl | rfl | rfl
  · cases p with
    | none =>
      rw [writesOf_eq, crash_none0, ← writesOf_eq]
      exact C111_writes clock ft his1 his2 t1 t2 offset h1 h2 m2 dir hd
    | some p => rw [writesOf_eq, crash_first, ← writesOf_eq]; exact tornFirst _
  · rw [other 1 hp (by decide) (by decide), writesOf_eq, crash_none1, ← writesOf_eq]
    exact tornFirst _
  · rw [other 2 hp (by decide) (by decide), writesOf_eq, crash_none2]
    rw [readAllData_loaded clock ft his1 his2 t1 t2 offset h1 h2 m1 m2, writeAll_five]
    · rfl
    · rw [store_set_other _ _ _ _ (by decide), store_set_same]
    · rw [store_set_same]
    · rw [store_set_other _ _ _ _ (by decide), store_set_other _ _ _ _ (by decide), hM]
    · left
      rw [store_set_other _ _ _ _ (by decide), store_set_other _ _ _ _ (by decide), hQ2]
  · cases p with
    | none =>
      rw [writesOf_eq, crash_none3, ← writesOf_eq]
      refine mapped _ ?_ ?_ (store_set_same _ _ _) (.inl ?_) fun x y => rfl
      · rw [store_set_other _ _ _ _ (by decide), store_set_other _ _ _ _ (by decide), store_set_same]
      · rw [store_set_other _ _ _ _ (by decide), store_set_same]
      · rw [store_set_other _ _ _ _ (by decide), store_set_other _ _ _ _ (by decide), store_set_other _ _ _ _ (by decide),
          hQ2]
    | some p =>
      rw [writesOf_eq, crash_fourth, ← writesOf_eq]
      refine mapped _ ?_ ?_ ?_ (.inr ?_) fun x y => by rw [set_set_same]
      · rw [store_set_other _ _ _ _ (by decide), store_set_other _ _ _ _ (by decide), store_set_other _ _ _ _ (by decide),
          store_set_same]
      · rw [store_set_other _ _ _ _ (by decide), store_set_other _ _ _ _ (by decide), store_set_same]
      · rw [store_set_other _ _ _ _ (by decide), store_set_same]
      · rw [store_set_other _ _ _ _ (by decide), store_set_other _ _ _ _ (by decide), store_set_other _ _ _ _ (by decide),
          store_set_other _ _ _ _ (by decide), hH2]
  · rw [other 4 hp (by decide) (by decide), writesOf_eq, crash_none4, ← writesOf_eq]
    refine mapped _ ?_ ?_ ?_ (.inr ?_) fun x y => by rw [set_set_same]
    · rw [store_set_other _ _ _ _ (by decide), store_set_other _ _ _ _ (by decide), store_set_other _ _ _ _ (by decide),
        store_set_same]
    · rw [store_set_other _ _ _ _ (by decide), store_set_other _ _ _ _ (by decide), store_set_same]
    · rw [store_set_other _ _ _ _ (by decide), store_set_same]
    · rw [store_set_other _ _ _ _ (by decide), store_set_other _ _ _ _ (by decide), store_set_other _ _ _ _ (by decide),
        store_set_other _ _ _ _ (by decide), hH2]
  · rw [other 5 hp (by decide) (by decide), writesOf_eq, crash_none5, ← writesOf_eq]
    exact readAllData_complete clock ft his1 his2 t1 t2 offset h1 h2 m1 m2 _
      (writeAll_mem dir _ (writesOf_nodup clock ft t1 offset t2 his1 his2)) offset _ _

example : readAllData sampleClock (decimalText ℚ) 0 (.ok sample1d) (.ok sample2d)
      (afterCrash (fun _ => none) (writesOf sampleClock (decimalText ℚ) 8 0 8 sample1d sample2d) 3 (some 17)) =
    readAllData sampleClock (decimalText ℚ) 0 (.ok sample1d) (.ok sample2d) fun _ => none :=
  C111_between_partial sampleClock (decimalText ℚ) sample1d sample2d 8 8 0 sample1d_good sample2d_good sample1d_timeOfDay
    sample2d_timeOfDay (fun _ => none) (fun _ _ => rfl) 3 (by decide) (some 17) (.inr (.inr rfl))

/-- After a reading was interrupted while it wrote the 1D discharges, at the end of some line, the next reading takes the
table as it is: discharges are there for the first times only, and nothing is reported. -/
theorem C111_discharges_violated (h1 : Good1d clock ft his1 t1) (m1 : HasTimeOfDay clock t1 offset his1.seconds)
    (dir : Store) (k : Nat) :
    (load1d clock ft offset (.ok his1) (afterCrash dir (writesOf clock ft t1 offset t2 his1 his2) 1
        (some (lineEnd (k + 1) (frameText clock ft (discharges1d t1 offset his1)))))).2 =
      .ok (levels1d t1 offset his1, firstRows k (discharges1d t1 offset his1)) := by
  have hq := h1.discharges
  rw [← timesOf_length t1 offset his1.seconds] at hq
  have e1 : readFrame clock ft ((frameText clock ft (discharges1d t1 offset his1)).take
      (lineEnd (k + 1) (frameText clock ft (discharges1d t1 offset his1)))) =
      .ok (firstRows k (discharges1d t1 offset his1)) :=
    readFrame_torn clock ft (timesOf t1 offset his1.seconds) his1.names his1.discharges k h1.stations h1.names hq m1
  rw [writesOf_eq, crash_second, load1d_cached clock ft (.ok his1) offset _ _ _ (store_set_same _ _ _)
    ((store_set_other _ _ _ _ (by decide)).trans (store_set_same _ _ _)), e1,
    good1d_read_levels clock ft his1 t1 offset h1 m1]

example : (firstRows 1 (discharges1d 8 0 sample1d)).rows.length = 1 ∧ sample1d.discharges.length = 3 := by decide

/-- After a reading was interrupted while it wrote the mapping of stations, at the end of some line, the next reading leaves
out the stations that are not in it: the 2D tables have the first stations only, and nothing is reported. -/
theorem C111_map_violated (h1 : Good1d clock ft his1 t1) (h2 : Good2d clock ft his2 t2)
    (m1 : HasTimeOfDay clock t1 offset his1.seconds) (m2 : HasTimeOfDay clock t2 0 his2.seconds) (dir : Store)
    (hd : NoFiles dir) (k : Nat) (hk : 0 < k) :
    ∃ h q, (readAllData clock ft offset (.ok his1) (.ok his2)
        (afterCrash dir (writesOf clock ft t1 offset t2 his1 his2) 2
          (some (lineEnd (k + 1) (stationMapText his2.hnames his2.qnames his1.names))))).2 =
        .ok ((levels1d t1 offset his1, discharges1d t1 offset his1), (h, q)) ∧
      h.columns = his1.names.take k ∧ q.columns = his1.names.take k := by
  have hQ2 : dir file2dQ = none := hd _ (by decide)
  have hne : his1.names.take k ≠ [] := by
    intro e
    rcases List.take_eq_nil_iff.1 e with e | e
    · omega
    · exact h1.stations e
  have hs : ∀ n ∈ his1.names.take k, Plain n := fun n hn => h1.names n (List.mem_of_mem_take hn)
  have et := mapText_torn his2.hnames his2.qnames his1.names k h1.names (fun n h => (h2.hnames n h).1)
    fun n h => (h2.qnames n h).1
  have hcrash : afterCrash dir (writesOf clock ft t1 offset t2 his1 his2) 2
      (some (lineEnd (k + 1) (stationMapText his2.hnames his2.qnames his1.names))) =
      ((dir.set file1dH (frameText clock ft (levels1d t1 offset his1))).set file1dQ
        (frameText clock ft (discharges1d t1 offset his1))).set fileMap
        (stationMapText his2.hnames his2.qnames (his1.names.take k)) := by
    rw [← et, writesOf_eq, crash_third]
  rw [hcrash]
  refine ⟨levels2d t2 his2 (his1.names.take k), discharges2d t2 his2 (his1.names.take k), ?_, rfl, rfl⟩
  rw [readAllData_of clock ft offset (.ok his1) (.ok his2) _ _ _ _ _ _
    (load1d_again clock ft his1 t1 offset h1 m1 _ ?_ ?_ offset (.ok his1)) (makeMap_old (.ok his2) _ _ _ (store_set_same _ _ _))
    (load2d_import clock ft his2 t2 h2 (his1.names.take k) hs hne m2 _ (store_set_same _ _ _) (.inl ?_))]
  · rw [store_set_other _ _ _ _ (by decide), store_set_same]
  · rw [store_set_other _ _ _ _ (by decide), store_set_other _ _ _ _ (by decide), store_set_same]
  · rw [store_set_other _ _ _ _ (by decide), store_set_other _ _ _ _ (by decide), store_set_other _ _ _ _ (by decide), hQ2]

example : sample1d.names.take 1 ≠ sample1d.names := by decide

/-! ## C113: 2D results at 1D stations -/

/-- A first reading gives 2D tables with exactly the 1D stations, in their order; at each time of the 2D results a station
has the value of the first 2D station whose name starts with its first nine characters, and none if there is no such
station. -/
theorem C113_matched_partial (h1 : Good1d clock ft his1 t1) (h2 : Good2d clock ft his2 t2)
    (m2 : HasTimeOfDay clock t2 0 his2.seconds) (dir : Store) (hd : NoFiles dir) :
    ∃ one h q, (readAllData clock ft offset (.ok his1) (.ok his2) dir).2 = .ok (one, (h, q)) ∧
      h.columns = his1.names ∧ q.columns = his1.names ∧
      h.index = .times (his2.seconds.map fun s => t2 + s) ∧ q.index = .times (his2.seconds.map fun s => t2 + s) ∧
      h.rows = his2.levels.map (fun row => his1.names.map (matchedValue his2.hnames row)) ∧
      q.rows = his2.discharges.map (fun row => his1.names.map (matchedValue his2.qnames row)) := by
  rw [C111_writes clock ft his1 his2 t1 t2 offset h1 h2 m2 dir hd]
  refine ⟨_, _, _, rfl, rfl, rfl, ?_, ?_, rfl, rfl⟩
  · rw [times_zero]; rfl
  · rw [times_zero]; rfl

example : sample2d.levels.map (fun row => sample1d.names.map (matchedValue sample2d.hnames row)) =
    [[some 6, some 5], [some 9, none]] := by decide +kernel

/-- When all names of 2D stations that belong to a 1D station look like numbers, no value is found for any station: all 2D
levels are missing. -/
theorem C113_numbers_violated (h1 : Good1d clock ft his1 t1) (hs2 : StartsAt clock his2.units t2)
    (hh : ∀ n ∈ his2.hnames, Plain n ∧ (ft.parse n).isSome = true) (hq : ∀ n ∈ his2.qnames, PlainStation ft n)
    (ht : IsTable ft his2.seconds.length his2.hnames.length his2.levels)
    (htq : IsTable ft his2.seconds.length his2.qnames.length his2.discharges)
    (m2 : HasTimeOfDay clock t2 0 his2.seconds) (dir : Store) (hd : NoFiles dir) :
    ∃ one h q, (readAllData clock ft offset (.ok his1) (.ok his2) dir).2 = .ok (one, (h, q)) ∧
      h.columns = his1.names ∧ ∀ row ∈ h.rows, ∀ v ∈ row, v = none := by
  obtain ⟨dir3, h, q, e, hc, hr⟩ := load2d_numbers clock ft his1 his2 t2 h1.stations h1.names hs2 hh hq ht htq m2
    ((writeAll dir (writes1d clock ft (levels1d t1 offset his1, discharges1d t1 offset his1))).set fileMap
      (stationMapText his2.hnames his2.qnames his1.names)) (store_set_same _ _ _) (by
      rw [store_set_other _ _ _ _ (by decide), writes1d_other _ _ _ _ _ (by decide) (by decide)]
      exact hd _ (by decide))
  refine ⟨(levels1d t1 offset his1, discharges1d t1 offset his1), h, q, ?_, hc, hr⟩
  rw [readAllData_of clock ft offset (.ok his1) (.ok his2) dir _ _ _ _ _
    (load1d_import clock ft his1 t1 offset h1 dir (.inl (hd _ (by decide)))) (makeMap_new his2 his1.names _ (by
      rw [writes1d_other _ _ _ _ _ (by decide) (by decide)]
      exact hd _ (by decide))) e]

/-- A 2D model whose stations have numbers as names. -/
def numbered1d : His1d ℚ := { sample1d with names := ["1".toList, "2".toList] }
def numbered2d : His2d ℚ := { sample2d with hnames := ["1".toList, "2".toList, "3".toList] }

example : (∀ n ∈ numbered2d.hnames, ((decimalText ℚ).parse n).isSome = true) ∧
    numbered2d.levels.map (fun row => numbered1d.names.map (matchedValue numbered2d.hnames row)) =
      [[some 5, some 6], [none, some 9]] ∧
    ((readAllData sampleClock (decimalText ℚ) 0 (.ok numbered1d) (.ok numbered2d) fun _ => none).2.toOption.map
      fun t => t.2.1.rows) = some [[none, none], [none, none]] := by
  decide +kernel

/-- When the 2D results are all at midnight, their tables have texts for times already after the first reading: no time
window works on them. -/
theorem C113_midnight_violated (h1 : Good1d clock ft his1 t1) (h2 : Good2d clock ft his2 t2) (hne : his2.seconds ≠ [])
    (m2 : ∀ t ∈ timesOf t2 0 his2.seconds, clock.midnight t = true) (dir : Store) (hd : NoFiles dir) :
    ∃ one h q, (readAllData clock ft offset (.ok his1) (.ok his2) dir).2 = .ok (one, (h, q)) ∧
      ∀ w, (windowed w h).2 = .error .typeError ∧ (windowed w q).2 = .error .typeError := by
  have e := readAllData_of clock ft offset (.ok his1) (.ok his2) dir _ _ _ _ _
    (load1d_import clock ft his1 t1 offset h1 dir (.inl (hd _ (by decide)))) (makeMap_new his2 his1.names _ (by
      rw [writes1d_other _ _ _ _ _ (by decide) (by decide)]
      exact hd _ (by decide)))
    (load2d_import_read clock ft his2 t2 h2 his1.names h1.names _ (store_set_same _ _ _) (.inl (by
      rw [store_set_other _ _ _ _ (by decide), writes1d_other _ _ _ _ _ (by decide) (by decide)]
      exact hd _ (by decide))) _ _
      (matched_midnight clock ft t2 _ _ _ his1.names _ h1.names h1.stations h2.levels hne m2)
      (matched_midnight clock ft t2 _ _ _ his1.names _ h1.names h1.stations h2.discharges hne m2))
  exact ⟨_, _, _, by rw [e], fun w => ⟨rfl, rfl⟩⟩

def daily2d : His2d ℚ := { sample2d with seconds := [0, 4] }

example : (∀ t ∈ timesOf 8 0 daily2d.seconds, sampleClock.midnight t = true) ∧ daily2d.seconds ≠ [] := by decide

end Readings

/-! ## C114: the paths given to a comparison -/

section Paths

variable (clock : Clock) (ft : FloatText K) (isFile : Text → Bool) (read1 : Text → Except PyErr (His1d K))
  (read2 : Text → Except PyErr (His2d K))

/-- A comparison of two files that exist, in a directory without tables, shows the results in these files. -/
theorem C114_both_partial (p1 p2 : Text) (hp1 : isFile p1 = true) (hp2 : isFile p2 = true) (his1 : His1d K) (his2 : His2d K)
    (t1 t2 : Int) (hr1 : read1 p1 = .ok his1) (hr2 : read2 p2 = .ok his2) (h1 : Good1d clock ft his1 t1)
    (h2 : Good2d clock ft his2 t2) (m2 : HasTimeOfDay clock t2 0 his2.seconds) (dir : Store) (hd : NoFiles dir) :
    (initCompare clock ft isFile read1 read2 (some p1) (some p2) dir).2 =
      .ok ((levels1d t1 0 his1, discharges1d t1 0 his1), (levels2d t2 his2 his1.names, discharges2d t2 his2 his1.names)) := by
  have e : initCompare clock ft isFile read1 read2 (some p1) (some p2) dir =
      readAllData clock ft 0 (.ok his1) (.ok his2) dir := by
    unfold initCompare choosePaths
    simp only [hp1, hp2, if_true, openPath, hr1, hr2]
  rw [e, C111_writes clock ft his1 his2 t1 t2 0 h1 h2 m2 dir hd]

example : (initCompare sampleClock (decimalText ℚ) (fun _ => true) (fun _ => .ok sample1d) (fun _ => .ok sample2d)
      (some "1d.nc".toList) (some "2d.nc".toList) fun _ => none).2 =
    .ok ((levels1d 8 0 sample1d, discharges1d 8 0 sample1d),
      (levels2d 8 sample2d sample1d.names, discharges2d 8 sample2d sample1d.names)) :=
  C114_both_partial sampleClock (decimalText ℚ) (fun _ => true) (fun _ => .ok sample1d) (fun _ => .ok sample2d) _ _ rfl rfl
    sample1d sample2d 8 8 rfl rfl sample1d_good sample2d_good sample2d_timeOfDay (fun _ => none) fun _ _ => rfl

/-- Without paths, in the directory of an earlier comparison, a comparison shows the results of that one. -/
theorem C114_none_partial (his1 : His1d K) (his2 : His2d K) (t1 t2 : Int) (h1 : Good1d clock ft his1 t1)
    (h2 : Good2d clock ft his2 t2) (m1 : HasTimeOfDay clock t1 0 his1.seconds) (m2 : HasTimeOfDay clock t2 0 his2.seconds)
    (dir : Store) (hd : NoFiles dir) :
    let first := readAllData clock ft 0 (.ok his1) (.ok his2) dir
    initCompare clock ft isFile read1 read2 none none first.1 = first := by
  intro first
  have hfirst : first = _ := C111_writes clock ft his1 his2 t1 t2 0 h1 h2 m2 dir hd
  rw [hfirst]
  exact readAllData_complete clock ft his1 his2 t1 t2 0 h1 h2 m1 m2 _
    (writeAll_mem dir _ (writesOf_nodup clock ft t1 0 t2 his1 his2)) 0 _ _

/-- A 2D path without a 1D path is ignored: when the tables of the 1D results are there and those of the 2D results are not,
the comparison fails although the 2D results can be read. -/
theorem C114_only_2d_violated (p2 : Text) (his1 : His1d K) (t1 : Int) (h1 : Good1d clock ft his1 t1)
    (m1 : HasTimeOfDay clock t1 0 his1.seconds) (dir : Store) (hd : NoFiles dir) :
    (initCompare clock ft isFile read1 read2 none (some p2) (load1d clock ft 0 (.ok his1) dir).1).2 =
      .error .osError := by
  have hf := load1d_import clock ft his1 t1 0 h1 dir (.inl (hd _ (by decide)))
  have hl := load1d_again clock ft his1 t1 0 h1 m1 (load1d clock ft 0 (.ok his1) dir).1
    (by rw [hf]; exact writes1d_q clock ft dir _) (by rw [hf]; exact writes1d_h clock ft dir _) 0 (.error .osError)
  have hm : (load1d clock ft 0 (.ok his1) dir).1 fileMap = none := by
    rw [hf]
    exact (writes1d_other clock ft dir (levels1d t1 0 his1, discharges1d t1 0 his1) fileMap (by decide) (by decide)).trans
      (hd fileMap (by decide))
  show (readAllData clock ft 0 (.error .osError) (.error .osError) (load1d clock ft 0 (.ok his1) dir).1).2 = _
  unfold readAllData
  rw [hl]
  simp only
  unfold makeMap
  rw [hm]
  rfl

example : (initCompare sampleClock (decimalText ℚ) (fun _ => true) (fun _ => .ok sample1d) (fun _ => .ok sample2d) none
      (some "2d.nc".toList) (load1d sampleClock (decimalText ℚ) 0 (.ok sample1d) fun _ => none).1).2 = .error .osError :=
  C114_only_2d_violated sampleClock (decimalText ℚ) _ _ _ _ sample1d 8 sample1d_good sample1d_timeOfDay (fun _ => none)
    fun _ _ => rfl

/-- A 1D path without a 2D path always raises an exception, also when the 2D results are not needed any more. -/
theorem C114_only_1d_violated (p1 : Text) (dir : Store) :
    initCompare clock ft isFile read1 read2 (some p1) none dir = (dir, .error .typeError) := rfl

end Paths

end Fm2prof.Props
