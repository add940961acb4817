import Verif.Proofs.ReaderObject
import Verif.Props.Compare
import Verif.Props.Reader

/-!
# One reader of results used throughout a script: properties
-/

set_option linter.unusedSectionVars false

namespace Fm2prof.Props

open Fm2prof Spec ReaderObjectProof

variable {K : Type} [Field K] [LinearOrder K] [IsStrictOrderedRing K] [FloorRing K]

/-! ## C192: what a reader shows -/

section Reader

variable (clock : Clock) (ft : FloatText K)

/-- A path that is no file, or an output path that is no directory, is refused, and nothing changes. -/
theorem C192_refused (w : ReaderWorld K) (s : ReaderPlace K) (p : Text) :
    (w.isFile p = false → readerStep clock ft w s (.setPath1 p) = (s, .error .valueError) ∧
      readerStep clock ft w s (.setPath2 p) = (s, .error .valueError)) ∧
    (w.isDir p = false → readerStep clock ft w s (.setOutput p) = (s, .error .valueError)) := by
  refine ⟨fun h => ⟨?_, ?_⟩, fun h => ?_⟩
  · simp only [readerStep, ReaderState.setPath1, h, Bool.false_eq_true, if_false, noValue]
  · simp only [readerStep, ReaderState.setPath2, h, Bool.false_eq_true, if_false, noValue]
  · simp only [readerStep, ReaderState.setOutput, h, Bool.false_eq_true, if_false, noValue]

/-- Whatever is done with a reader, only its five files in directories that were its output path change. -/
theorem C192_files (s : ReaderPlace K) (ops : List (ReaderWorld K × ReaderOp)) (d f : Text)
    (h : f ∉ readerFiles ∨ (d ≠ s.1.out ∧ ∀ op ∈ ops, op.2 ≠ .setOutput d)) :
    (readerScript clock ft s ops).1.2 d f = s.2 d f :=
  script_files clock ft s ops d f h

/-- **C192, partial.** What was done with a reader before has no influence on what it shows, provided that everything that can
be set is set, the output directory holds the same files, and reading raises no exception: after two scripts, reading
and showing tables gives the same answers and leaves the same files. What is missing: see
`C192_window_violated` for times that are not set, `C192_stale_violated` for exceptions and `C192_settings_violated` for
output directories with tables. -/
theorem C192_history_partial (w : ReaderWorld K) (s s' : ReaderPlace K) (ops ops' : List (ReaderWorld K × ReaderOp))
    (p1 p2 d : Text) (offset a b : Int) (hops : Sets s.1 ops p1 p2 d offset a b) (hops' : Sets s'.1 ops' p1 p2 d offset a b)
    (hs : (readerScript clock ft s ops).1.2 d = (readerScript clock ft s' ops').1.2 d) :
    let now := readerStep clock ft w (readerScript clock ft s ops).1 .readAll
    let now' := readerStep clock ft w (readerScript clock ft s' ops').1 .readAll
    now.2 = now'.2 ∧ now.1.2 d = now'.1.2 d ∧
      (now.2 = .ok none → ∀ (ws : List (ReaderWorld K)) (ts : List ReaderTable), ws.length = ts.length →
        (readerScript clock ft now.1 (ws.zip (ts.map .show))).2 =
          (readerScript clock ft now'.1 (ws.zip (ts.map .show))).2) := by
  have k := settled clock ft s ops p1 p2 d offset a b hops
  have k' := settled clock ft s' ops' p1 p2 d offset a b hops'
  revert hs k k'
  generalize readerScript clock ft s ops = x
  generalize readerScript clock ft s' ops' = y
  obtain ⟨⟨r, dirs⟩, _⟩ := x
  obtain ⟨⟨r', dirs'⟩, _⟩ := y
  intro hs k k' now now'
  simp only at hs k k'
  have e := readAll_object clock ft w r (dirs d)
  have e' := readAll_object clock ft w r' (dirs' d)
  rw [← hs] at e'
  have hn : now = ((_, _), _) := rfl
  have hn' : now' = ((_, _), _) := rfl
  rw [hn, hn']
  simp only [k.out, k'.out, ← hs]
  rw [k.path1, k.path2, k.offset] at e
  rw [k'.path1, k'.path2, k'.offset] at e'
  revert e e'
  generalize readAllData clock ft offset (openPath w.read1 (some p1)) (openPath w.read2 (some p2)) (dirs d) = z
  obtain ⟨dir, res⟩ := z
  cases res with
  | error err =>
    rintro ⟨e1, e2⟩ ⟨e1', e2'⟩
    simp only at e1 e2 e1' e2'
    refine ⟨by rw [e2, e2'], by rw [setDir_same, setDir_same, e1, e1'], fun hall => ?_⟩
    rw [e2] at hall
    cases hall
  | ok t =>
    rintro ⟨e1, e2, e3⟩ ⟨e1', e2', e3'⟩
    simp only at e1 e2 e3 e1' e2' e3'
    refine ⟨by rw [e3, e3'], by rw [setDir_same, setDir_same, e1, e1'], fun _ ws ts hl => ?_⟩
    rw [shows_window clock ft _ a b ?_ ?_ ts ws hl, shows_window clock ft _ a b ?_ ?_ ts ws hl]
    · simp only [e2, e2', ReaderState.table]
    · simp only [e2']
      exact k'.window
    · simp only [e2']
      intro v
      cases v <;> exact ⟨_, rfl⟩
    · simp only [e2]
      exact k.window
    · simp only [e2]
      intro v
      cases v <;> exact ⟨_, rfl⟩

/-- A table with times, shown with a window. -/
theorem shown_between (a b : Int) (times : List Int) (cols : List Text) (rows : List (List (Option K))) (hab : a < b)
    (hl : rows.length = times.length) (ho : Overlaps a b times) :
    (windowed ⟨some a, some b⟩ ⟨.times times, cols, rows⟩).2 = .ok (between a b times rows) := by
  obtain ⟨first, last, hf, hlast, h1, h2⟩ := ho
  have hz : (times.zip rows).map Prod.fst = times := by
    rw [List.map_fst_zip]
    omega
  obtain ⟨x, hx, hx1⟩ : ∃ x, (times.zip rows).head? = some x ∧ x.1 = first := by
    rw [← hz, List.head?_map] at hf
    obtain ⟨x, hx, h⟩ := Option.map_eq_some_iff.1 hf
    exact ⟨x, hx, h⟩
  obtain ⟨y, hy, hy1⟩ : ∃ y, (times.zip rows).getLast? = some y ∧ y.1 = last := by
    rw [← hz, List.getLast?_map] at hlast
    obtain ⟨y, hy, h⟩ := Option.map_eq_some_iff.1 hlast
    exact ⟨y, hy, h⟩
  exact (C58_window a b x y (times.zip rows) hx hy).2.2 hab (hy1 ▸ h1) (hx1 ▸ h2)

/-- **C192, partial.** A reader can be used for results whatever it was used for before: when in the end both times, a
directory without earlier tables, an offset and the paths are set, in whatever order, it reads and shows the levels and
discharges of these results from start to stop time, those of the 1D model shifted by the offset, those of the 2D model at the
matching stations. -/
theorem C192_shown_partial (his1 : His1d K) (his2 : His2d K) (t1 t2 : Int) (h1 : Good1d clock ft his1 t1)
    (h2 : Good2d clock ft his2 t2) (m2 : HasTimeOfDay clock t2 0 his2.seconds) (w : ReaderWorld K) (s : ReaderPlace K)
    (ops : List (ReaderWorld K × ReaderOp)) (p1 p2 d : Text) (offset a b : Int) (hops : Sets s.1 ops p1 p2 d offset a b)
    (hr1 : w.read1 p1 = .ok his1) (hr2 : w.read2 p2 = .ok his2)
    (hn : NoFiles ((readerScript clock ft s ops).1.2 d)) (hab : a < b) (ho1 : Overlaps a b (timesOf t1 offset his1.seconds))
    (ho2 : Overlaps a b (timesOf t2 0 his2.seconds)) :
    let shown := fun rows : List (Int × List (Option K)) => (Except.ok (some rows) : ReaderAnswer K)
    (readerScript clock ft s (ops ++
        [(w, .readAll), (w, .show .h1), (w, .show .q1), (w, .show .h2), (w, .show .q2)])).2 =
      (readerScript clock ft s ops).2 ++ [.ok none,
        shown (between a b (timesOf t1 offset his1.seconds) his1.levels),
        shown (between a b (timesOf t1 offset his1.seconds) his1.discharges),
        shown (between a b (timesOf t2 0 his2.seconds)
          (his2.levels.map fun row => his1.names.map (matchedValue his2.hnames row))),
        shown (between a b (timesOf t2 0 his2.seconds)
          (his2.discharges.map fun row => his1.names.map (matchedValue his2.qnames row)))] := by
  intro shown
  have k := settled clock ft s ops p1 p2 d offset a b hops
  rw [script_append]
  simp only
  congr 1
  revert hn k
  generalize readerScript clock ft s ops = x
  obtain ⟨⟨r, dirs⟩, _⟩ := x
  intro hn k
  simp only at hn k ⊢
  have e := readAll_object clock ft w r (dirs d)
  rw [k.path1, k.path2, k.offset] at e
  simp only [openPath, hr1, hr2, C111_writes clock ft his1 his2 t1 t2 offset h1 h2 m2 (dirs d) hn] at e
  obtain ⟨-, e2, e3⟩ := e
  have hst : readerStep clock ft w (r, dirs) .readAll =
      (((r.readAll clock ft w (dirs d)).1, setDir dirs d (r.readAll clock ft w (dirs d)).2.1), .ok none) := by
    show (((r.readAll clock ft w (dirs r.out)).1, setDir dirs r.out (r.readAll clock ft w (dirs r.out)).2.1),
      noValue (r.readAll clock ft w (dirs r.out)).2.2) = _
    rw [k.out, e3]
    rfl
  have hsh := shows_window clock ft
    ((r.readAll clock ft w (dirs d)).1, setDir dirs d (r.readAll clock ft w (dirs d)).2.1) a b
    (by rw [e2]; exact k.window)
    (by
      intro v
      simp only [e2]
      cases v <;> exact ⟨_, rfl⟩) [.h1, .q1, .h2, .q2] [w, w, w, w] rfl
  simp only [List.zip_cons_cons, List.map_cons, List.map_nil, List.zip_nil_right] at hsh
  show (readerStep clock ft w (r, dirs) .readAll).2 :: (readerScript clock ft (readerStep clock ft w (r, dirs) .readAll).1
    [(w, .show .h1), (w, .show .q1), (w, .show .h2), (w, .show .q2)]).2 = _
  rw [hst]
  simp only
  rw [hsh]
  simp only [e2, ReaderState.table]
  have hm : ∀ (names : List Text) (data : List (List (Option K))),
      (data.map fun row => his1.names.map (matchedValue names row)).length = data.length := fun _ _ => List.length_map _
  unfold levels1d discharges1d levels2d discharges2d matchedTable
  rw [shown_between a b _ _ _ hab (by rw [timesOf_length]; exact h1.levels.1) ho1,
    shown_between a b _ _ _ hab (by rw [timesOf_length]; exact h1.discharges.1) ho1,
    shown_between a b _ _ _ hab (by rw [timesOf_length, hm]; exact h2.levels.1) ho2,
    shown_between a b _ _ _ hab (by rw [timesOf_length, hm]; exact h2.discharges.1) ho2]

/-- A new reader has no offset, and the times it is made with: it can be used in the way its description says, with only paths
and output directory assigned. -/
theorem C192_new_partial (his1 : His1d K) (his2 : His2d K) (t1 t2 : Int) (h1 : Good1d clock ft his1 t1)
    (h2 : Good2d clock ft his2 t2) (m2 : HasTimeOfDay clock t2 0 his2.seconds) (w : ReaderWorld K) (dirs : Text → Store)
    (p1 p2 d : Text) (a b : Int) (hp1 : w.isFile p1 = true) (hp2 : w.isFile p2 = true) (hd : w.isDir d = true)
    (hr1 : w.read1 p1 = .ok his1) (hr2 : w.read2 p2 = .ok his2) (hn : NoFiles (dirs d)) (hab : a < b)
    (ho1 : Overlaps a b (timesOf t1 0 his1.seconds)) (ho2 : Overlaps a b (timesOf t2 0 his2.seconds)) :
    let shown := fun rows : List (Int × List (Option K)) => (Except.ok (some rows) : ReaderAnswer K)
    (readerScript clock ft (.new ⟨some a, some b⟩, dirs) [(w, .setPath1 p1), (w, .setPath2 p2), (w, .setOutput d),
        (w, .readAll), (w, .show .h1), (w, .show .q1), (w, .show .h2), (w, .show .q2)]).2 =
      [.ok none, .ok none, .ok none, .ok none,
        shown (between a b (timesOf t1 0 his1.seconds) his1.levels),
        shown (between a b (timesOf t1 0 his1.seconds) his1.discharges),
        shown (between a b (timesOf t2 0 his2.seconds)
          (his2.levels.map fun row => his1.names.map (matchedValue his2.hnames row))),
        shown (between a b (timesOf t2 0 his2.seconds)
          (his2.discharges.map fun row => his1.names.map (matchedValue his2.qnames row)))] := by
  intro shown
  have hops : Sets (.new ⟨some a, some b⟩ : ReaderState K) [(w, .setPath1 p1), (w, .setPath2 p2), (w, .setOutput d)] p1 p2 d
      0 a b := by
    refine ⟨.inl ⟨w, [], _, hp1, rfl, ?_⟩, .inl ⟨w, [_], _, hp2, rfl, ?_⟩, .inl ⟨w, [_, _], _, hd, rfl, ?_⟩,
      .inr ⟨rfl, ?_⟩, .inr ⟨rfl, ?_⟩, .inr ⟨rfl, ?_⟩⟩ <;> simp
  have h := C192_shown_partial clock ft his1 his2 t1 t2 h1 h2 m2 w (.new ⟨some a, some b⟩, dirs)
    [(w, .setPath1 p1), (w, .setPath2 p2), (w, .setOutput d)] p1 p2 d 0 a b hops hr1 hr2 hn hab ho1 ho2
  refine h.trans ?_
  simp only [readerScript, readerStep, ReaderState.setPath1, ReaderState.setPath2, ReaderState.setOutput, hp1, hp2, hd,
    if_true, noValue]
  rfl

/-! ### What goes wrong -/

/-- The first and last time of the first table that is shown stay the start and stop time of the reader, and nothing but
assigning a time changes that: later results that start where those ended are refused, also from another directory. -/
theorem C192_window_violated (w w' : ReaderWorld K) (s : ReaderPlace K) (t t' : ReaderTable) (f f' : Frame K)
    (l l' : List Int) (first last first' last' : Int) (hw : s.1.window = ⟨none, none⟩) (hf : s.1.table t = some f)
    (hi : f.index = .times l) (hr : f.rows.length = l.length) (h1 : l.head? = some first) (h2 : l.getLast? = some last)
    (ops : List (ReaderWorld K × ReaderOp)) (hops : ∀ op ∈ ops, ¬ SetsTime op.2)
    (hf' : (readerScript clock ft (readerStep clock ft w s (.show t)).1 ops).1.1.table t' = some f')
    (hi' : f'.index = .times l') (hr' : f'.rows.length = l'.length) (h1' : l'.head? = some first')
    (h2' : l'.getLast? = some last') (hlt : last ≤ first') :
    (readerStep clock ft w' (readerScript clock ft (readerStep clock ft w s (.show t)).1 ops).1 (.show t')).2 =
      .error .valueError := by
  have zfst : ∀ (m : List Int) (rows : List (List (Option K))), rows.length = m.length → (m.zip rows).map Prod.fst = m := by
    intro m rows h
    rw [List.map_fst_zip]
    omega
  have heads : ∀ (m : List Int) (rows : List (List (Option K))) (x y : Int), rows.length = m.length → m.head? = some x →
      m.getLast? = some y → ∃ u v, (m.zip rows).head? = some u ∧ (m.zip rows).getLast? = some v ∧ u.1 = x ∧ v.1 = y := by
    intro m rows x y h hx hy
    rw [← zfst m rows h, List.head?_map] at hx
    rw [← zfst m rows h, List.getLast?_map] at hy
    obtain ⟨u, hu, hu1⟩ := Option.map_eq_some_iff.1 hx
    obtain ⟨v, hv, hv1⟩ := Option.map_eq_some_iff.1 hy
    exact ⟨u, v, hu, hv, hu1, hv1⟩
  have hwin : (readerStep clock ft w s (.show t)).1.1.window = ⟨some first, some last⟩ := by
    show (s.1.data t).1.window = _
    obtain ⟨u, v, hu, hv, rfl, rfl⟩ := heads l f.rows first last hr h1 h2
    unfold ReaderState.data
    simp only [hf, hw, windowed, hi]
    unfold applyWindow
    simp only [hu, hv, Option.getD_none]
  have hwin' := script_window clock ft _ ops first last hwin hops
  obtain ⟨u, v, hu, hv, hu1, hv1⟩ := heads l' f'.rows first' last' hr' h1' h2'
  show ((readerScript clock ft (readerStep clock ft w s (.show t)).1 ops).1.1.data t').2 = _
  unfold ReaderState.data
  simp only [hf', hwin', windowed, hi']
  rw [(C58_window first last u v (l'.zip f'.rows) hu hv).2.1 (.inr (.inr (hu1 ▸ hlt)))]

/-- After reading other results has failed, the reader goes on to show the tables of the results before. -/
theorem C192_stale_violated (w w' : ReaderWorld K) (s : ReaderPlace K) (p1 : Text) (a b : Int) (e : PyErr)
    (hp1 : s.1.path1 = some p1) (hw : s.1.window = ⟨some a, some b⟩) (he : w.read1 p1 = .error e) (hn : NoFiles (s.2 s.1.out))
    (t : ReaderTable) (f : Frame K) (hf : s.1.table t = some f) :
    (readerScript clock ft s [(w, .readAll), (w', .show t)]).2 =
      [.error e, match (windowed ⟨some a, some b⟩ f).2 with
        | .error e => .error e
        | .ok rows => .ok (some rows)] := by
  obtain ⟨r, dirs⟩ := s
  have h1 : dirs r.out file1dQ = none := hn _ (by decide)
  simp only at hp1
  have hx : r.readAll clock ft w (dirs r.out) = (r, dirs r.out, .error e) := by
    have hl : r.load1d clock ft w (dirs r.out) = (r, dirs r.out, .error e) := by
      unfold ReaderState.load1d
      simp only [h1, Option.isSome_none, Bool.false_and, Bool.false_eq_true, if_false, hp1, openPath, he]
    unfold ReaderState.readAll
    simp only [hl]
  have hf' : r.table t = some f := hf
  have hw' : r.window = ⟨some a, some b⟩ := hw
  have hd : (r.data t).2 = match (windowed ⟨some a, some b⟩ f).2 with
        | .error e => .error e
        | .ok rows => .ok (some rows) := by
    unfold ReaderState.data
    simp only [hf', hw']
    cases (windowed (⟨some a, some b⟩ : Window Int) f).2 <;> rfl
  rw [← hd]
  simp only [readerScript, readerStep, hx, noValue]

/-- Asking for the mapping of stations before the 1D results are loaded raises an exception, but leaves a mapping without
stations, which is used from then on. -/
theorem C192_early_map_violated (w w' : ReaderWorld K) (s : ReaderPlace K) (his : His2d K)
    (h2 : openPath w.read2 s.1.path2 = .ok his) (hh : s.1.h1 = none) (hm : s.2 s.1.out "map_1d_2d.csv".toList = none) :
    (readerStep clock ft w s .getMap).2 = .error .attributeError ∧
    (readerStep clock ft w s .getMap).1.2 s.1.out "map_1d_2d.csv".toList = some ("1D,2D_H,2D_Q".toList ++ ['\n']) ∧
    ∀ r : ReaderState K, r.out = s.1.out →
      readerStep clock ft w' (r, (readerStep clock ft w s .getMap).1.2) .getMap =
        ((r, (readerStep clock ft w s .getMap).1.2), .ok none) := by
  have hg : s.1.getMap w (s.2 s.1.out) =
      ((s.2 s.1.out).set fileMap (stationMapText his.hnames his.qnames []), .error .attributeError) := by
    have hm' : s.2 s.1.out fileMap = none := hm
    unfold ReaderState.getMap
    simp only [hm', Option.isSome_none, Bool.false_eq_true, if_false, h2, hh]
  have hs : readerStep clock ft w s .getMap =
      ((s.1, setDir s.2 s.1.out ((s.2 s.1.out).set fileMap (stationMapText his.hnames his.qnames []))),
        .error .attributeError) := by
    show ((s.1, setDir s.2 s.1.out (s.1.getMap w (s.2 s.1.out)).1), noValue (s.1.getMap w (s.2 s.1.out)).2) = _
    rw [hg]
    rfl
  have hfile : (readerStep clock ft w s .getMap).1.2 s.1.out fileMap = some (stationMapText his.hnames his.qnames []) := by
    rw [hs]
    show setDir s.2 s.1.out _ s.1.out fileMap = _
    rw [setDir_same]
    exact store_set_same _ _ _
  refine ⟨by rw [hs], hfile.trans ?_, fun r hr => ?_⟩
  · unfold stationMapText unlines
    rfl
  · generalize (readerStep clock ft w s .getMap).1.2 = dirs at hfile ⊢
    have hk : r.getMap w' (dirs r.out) = (dirs r.out, .ok ()) := by
      unfold ReaderState.getMap
      rw [hr, hfile]
      rfl
    show ((r, setDir dirs r.out (r.getMap w' (dirs r.out)).1), noValue (r.getMap w' (dirs r.out)).2) = _
    rw [hk]
    have : setDir dirs r.out (dirs r.out) = dirs := by
      funext d'
      unfold setDir
      split
      · next h => rw [h]
      · rfl
    simp only [this]
    rfl

/-- With tables in the output directory, another path and another offset have no effect on the tables that are loaded. -/
theorem C192_settings_violated (w : ReaderWorld K) (s : ReaderPlace K) (p : Text) (offset : Int) (hp : w.isFile p = true)
    (hq : (s.2 s.1.out "1D_Q.csv".toList).isSome = true) (hh : (s.2 s.1.out "1D_H.csv".toList).isSome = true) :
    let plain := readerScript clock ft s [(w, .load1d)]
    let other := readerScript clock ft s [(w, .setPath1 p), (w, .setOffset offset), (w, .load1d)]
    other.2 = [.ok none, .ok none] ++ plain.2 ∧ other.1.1.h1 = plain.1.1.h1 ∧ other.1.1.q1 = plain.1.1.q1 ∧
      other.1.2 = plain.1.2 := by
  have hq' : (s.2 s.1.out file1dQ).isSome = true := hq
  have hh' : (s.2 s.1.out file1dH).isSome = true := hh
  obtain ⟨r, dirs⟩ := s
  simp only [readerScript, readerStep, ReaderState.setPath1, hp, if_true, ReaderState.load1d, hq', hh', Bool.and_self]
  cases readFile clock ft (dirs r.out) file1dQ with
  | error e => exact ⟨rfl, rfl, rfl, rfl⟩
  | ok q =>
    cases readFile clock ft (dirs r.out) file1dH with
    | error e => exact ⟨rfl, rfl, rfl, rfl⟩
    | ok h => exact ⟨rfl, rfl, rfl, rfl⟩

end Reader

/-! ### Examples -/

/-- Results of a 1D and a 2D model, and directories. -/
def sampleReaderWorld : ReaderWorld ℚ where
  isFile p := decide (p ∈ ["1d.nc".toList, "2d.nc".toList])
  isDir d := decide (d ∈ ["first".toList, "second".toList])
  read1 p := if p = "1d.nc".toList then .ok sample1d else .error .osError
  read2 p := if p = "2d.nc".toList then .ok sample2d else .error .osError

theorem sampleReaderWorld_1d : sampleReaderWorld.read1 "1d.nc".toList = .ok sample1d := by
  show (if "1d.nc".toList = "1d.nc".toList then Except.ok sample1d else .error PyErr.osError) = _
  exact if_pos rfl

theorem sampleReaderWorld_2d : sampleReaderWorld.read2 "2d.nc".toList = .ok sample2d := by
  show (if "2d.nc".toList = "2d.nc".toList then Except.ok sample2d else .error PyErr.osError) = _
  exact if_pos rfl

/-- The same with 1D results that cannot be opened. -/
def brokenReaderWorld : ReaderWorld ℚ := { sampleReaderWorld with read1 := fun _ => .error .osError }

/-- A new reader, no file anywhere. -/
def newReader : ReaderPlace ℚ := (.new ⟨none, none⟩, fun _ _ => none)

/-- What was done before: an attempt to read without paths, reading into another directory, showing a table. -/
def samplePast : List (ReaderWorld ℚ × ReaderOp) :=
  [(sampleReaderWorld, .readAll), (sampleReaderWorld, .setPath1 "1d.nc".toList),
    (sampleReaderWorld, .setOutput "first".toList), (sampleReaderWorld, .setOutput "third".toList),
    (sampleReaderWorld, .load1d), (sampleReaderWorld, .show .h1), (sampleReaderWorld, .setStop none)]

theorem samplePast_second :
    (readerScript sampleClock (decimalText ℚ) newReader samplePast).1.2 "second".toList = fun _ => none := by
  funext f
  refine C192_files sampleClock (decimalText ℚ) newReader samplePast "second".toList f (.inr ⟨by decide, ?_⟩)
  intro op ho h
  simp only [samplePast, List.mem_cons, List.not_mem_nil, or_false] at ho
  rcases ho with rfl | rfl | rfl | rfl | rfl | rfl | rfl
  · cases h
  · cases h
  · exact absurd (ReaderOp.setOutput.inj h) (by decide)
  · exact absurd (ReaderOp.setOutput.inj h) (by decide)
  · cases h
  · cases h
  · cases h

/-- What is done then: everything is set, the offset and the stop time twice, with a table shown in between. -/
def sampleUse : List (ReaderWorld ℚ × ReaderOp) :=
  samplePast ++ [(sampleReaderWorld, .setStop (some 10)), (sampleReaderWorld, .setOffset 7),
    (sampleReaderWorld, .setOutput "second".toList), (sampleReaderWorld, .setStop (some 12)), (sampleReaderWorld, .show .q1),
    (sampleReaderWorld, .setPath2 "2d.nc".toList), (sampleReaderWorld, .setStart (some 9)),
    (sampleReaderWorld, .setPath1 "1d.nc".toList), (sampleReaderWorld, .setOffset 1)]

/-- The same by a reader that was not used before. -/
def sampleShort : List (ReaderWorld ℚ × ReaderOp) :=
  [(sampleReaderWorld, .setPath1 "1d.nc".toList), (sampleReaderWorld, .setPath2 "2d.nc".toList),
    (sampleReaderWorld, .setOutput "second".toList), (sampleReaderWorld, .setOffset 1), (sampleReaderWorld, .setStart (some 9)),
    (sampleReaderWorld, .setStop (some 12))]

theorem sampleUse_sets : Sets newReader.1 sampleUse "1d.nc".toList "2d.nc".toList "second".toList 1 9 12 where
  path1 := .inl ⟨sampleReaderWorld, sampleUse.take 14, sampleUse.drop 15, by decide, rfl, by
    simp [sampleUse, samplePast]⟩
  path2 := .inl ⟨sampleReaderWorld, sampleUse.take 12, sampleUse.drop 13, by decide, rfl, by
    simp [sampleUse, samplePast]⟩
  out := .inl ⟨sampleReaderWorld, sampleUse.take 9, sampleUse.drop 10, by decide, rfl, by
    simp [sampleUse, samplePast]⟩
  offset := .inl ⟨sampleReaderWorld, sampleUse.take 15, sampleUse.drop 16, trivial, rfl, by
    simp [sampleUse, samplePast]⟩
  start := .inl ⟨sampleReaderWorld, sampleUse.take 13, sampleUse.drop 14, trivial, rfl, by
    simp [sampleUse, samplePast]⟩
  stop := .inl ⟨sampleReaderWorld, sampleUse.take 10, sampleUse.drop 11, trivial, rfl, by
    simp [sampleUse, samplePast]⟩

theorem sampleShort_sets : Sets newReader.1 sampleShort "1d.nc".toList "2d.nc".toList "second".toList 1 9 12 where
  path1 := .inl ⟨sampleReaderWorld, sampleShort.take 0, sampleShort.drop 1, by decide, rfl, by simp [sampleShort]⟩
  path2 := .inl ⟨sampleReaderWorld, sampleShort.take 1, sampleShort.drop 2, by decide, rfl, by simp [sampleShort]⟩
  out := .inl ⟨sampleReaderWorld, sampleShort.take 2, sampleShort.drop 3, by decide, rfl, by simp [sampleShort]⟩
  offset := .inl ⟨sampleReaderWorld, sampleShort.take 3, sampleShort.drop 4, trivial, rfl, by simp [sampleShort]⟩
  start := .inl ⟨sampleReaderWorld, sampleShort.take 4, sampleShort.drop 5, trivial, rfl, by simp [sampleShort]⟩
  stop := .inl ⟨sampleReaderWorld, sampleShort.take 5, sampleShort.drop 6, trivial, rfl, by simp [sampleShort]⟩

theorem sampleUse_second :
    (readerScript sampleClock (decimalText ℚ) newReader sampleUse).1.2 "second".toList = fun _ => none := by
  rw [sampleUse, script_append]
  exact samplePast_second

example : NoFiles ((readerScript sampleClock (decimalText ℚ) newReader sampleUse).1.2 "second".toList) ∧
    sampleReaderWorld.read1 "1d.nc".toList = .ok sample1d ∧
    sampleReaderWorld.read2 "2d.nc".toList = .ok sample2d ∧ Good1d sampleClock (decimalText ℚ) sample1d 8 ∧
    Good2d sampleClock (decimalText ℚ) sample2d 8 ∧ HasTimeOfDay sampleClock 8 0 sample2d.seconds ∧
    Overlaps 9 12 (timesOf 8 1 sample1d.seconds) ∧ Overlaps 9 12 (timesOf 8 0 sample2d.seconds) := by
  refine ⟨fun f _ => congrFun sampleUse_second f, sampleReaderWorld_1d, sampleReaderWorld_2d, sample1d_good,
    sample2d_good, sample2d_timeOfDay, ⟨9, 11, rfl, rfl, by decide, by decide⟩, ⟨8, 11, rfl, rfl, by decide, by decide⟩⟩

example : between 9 12 (timesOf 8 1 sample1d.seconds) sample1d.levels =
    [(9, [some 1, some 2]), (10, [some (3 / 2), none]), (11, [some 2, some 3])] := by decide +kernel

example : between 9 12 (timesOf 8 0 sample2d.seconds)
    (sample2d.levels.map fun row => sample1d.names.map (matchedValue sample2d.hnames row)) = [(11, [some 9, none])] := by
  decide +kernel

/-- Two readers with different pasts. -/
example : (readerScript sampleClock (decimalText ℚ) newReader sampleUse).1.2 "second".toList =
    (readerScript sampleClock (decimalText ℚ) newReader sampleShort).1.2 "second".toList := sampleUse_second

/-- 1D results of three seconds and 2D results that start when those end. -/
def lateReader : ReaderPlace ℚ :=
  ({ newReader.1 with h1 := some (levels1d 8 0 sample1d), h2 := some (levels2d 10 sample2d sample1d.names) }, newReader.2)

example : lateReader.1.window = ⟨none, none⟩ ∧ lateReader.1.table .h1 = some (levels1d 8 0 sample1d) ∧
    (timesOf 8 0 sample1d.seconds).head? = some 8 ∧ (timesOf 8 0 sample1d.seconds).getLast? = some 10 ∧
    lateReader.1.table .h2 = some (levels2d 10 sample2d sample1d.names) ∧
    (timesOf 10 0 sample2d.seconds).head? = some 10 ∧ (timesOf 10 0 sample2d.seconds).getLast? = some 13 ∧
    ¬ SetsTime (.setStart none) := by
  refine ⟨rfl, rfl, rfl, rfl, rfl, rfl, rfl, fun h => h⟩

/-- Asked for first, the table is shown; asked for after the other one, it is refused. -/
example : ((readerScript sampleClock (decimalText ℚ) lateReader [(sampleReaderWorld, .show .h2)]).2.map (·.isOk)) = [true] ∧
    ((readerScript sampleClock (decimalText ℚ) lateReader
      [(sampleReaderWorld, .show .h1), (sampleReaderWorld, .setStart none), (sampleReaderWorld, .show .h2)]).2.map (·.isOk)) =
        [true, true, false] := by decide +kernel

/-- A reader with tables, whose paths are set to other results. -/
def turnedReader : ReaderPlace ℚ :=
  ({ lateReader.1 with path1 := some "1d.nc".toList, window := ⟨some 9, some 12⟩ }, newReader.2)

example : turnedReader.1.path1 = some "1d.nc".toList ∧ brokenReaderWorld.read1 "1d.nc".toList = .error .osError ∧
    NoFiles (turnedReader.2 turnedReader.1.out) ∧ turnedReader.1.table .h2 = some (levels2d 10 sample2d sample1d.names) :=
  ⟨rfl, rfl, fun _ _ => rfl, rfl⟩

/-- A reader with only the path of the 2D results set. -/
def earlyReader : ReaderPlace ℚ := ({ newReader.1 with path2 := some "2d.nc".toList }, newReader.2)

example : openPath sampleReaderWorld.read2 earlyReader.1.path2 = .ok sample2d ∧ earlyReader.1.h1 = none ∧
    earlyReader.2 earlyReader.1.out "map_1d_2d.csv".toList = none := ⟨sampleReaderWorld_2d, rfl, rfl⟩

/-- A reader in a directory with tables. -/
def filledReader : ReaderPlace ℚ :=
  (newReader.1, fun _ => writeAll (fun _ => none)
    (writes1d sampleClock (decimalText ℚ) (levels1d 8 0 sample1d, discharges1d 8 0 sample1d)))

example : (filledReader.2 filledReader.1.out "1D_Q.csv".toList).isSome = true ∧
    (filledReader.2 filledReader.1.out "1D_H.csv".toList).isSome = true := by
  constructor <;> decide

end Fm2prof.Props
