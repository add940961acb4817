import Verif.Spec.ReaderObject
import Verif.Proofs.Reader

/-!
# A reader of results as an object: lemmas
-/

set_option linter.unusedSectionVars false

namespace Fm2prof.ReaderObjectProof

open Fm2prof Spec

variable {K : Type} [Field K] [LinearOrder K] [IsStrictOrderedRing K] [FloorRing K]

variable (clock : Clock) (ft : FloatText K) (w : ReaderWorld K)

/-- The settings of two readers are the same. -/
structure SameSettings (r r' : ReaderState K) : Prop where
  out : r.out = r'.out
  path1 : r.path1 = r'.path1
  path2 : r.path2 = r'.path2
  offset : r.offset = r'.offset
  window : r.window = r'.window

theorem SameSettings.refl (r : ReaderState K) : SameSettings r r := ⟨rfl, rfl, rfl, rfl, rfl⟩

theorem SameSettings.trans {a b c : ReaderState K} (h : SameSettings a b) (h' : SameSettings b c) : SameSettings a c :=
  ⟨h.1.trans h'.1, h.2.trans h'.2, h.3.trans h'.3, h.4.trans h'.4, h.5.trans h'.5⟩

theorem load1d_settings (r : ReaderState K) (dir : Store) : SameSettings r (r.load1d clock ft w dir).1 := by
  unfold ReaderState.load1d
  split
  · split
    · exact .refl r
    · split <;> exact ⟨rfl, rfl, rfl, rfl, rfl⟩
  · split
    · exact .refl r
    · split
      · exact .refl r
      · exact ⟨rfl, rfl, rfl, rfl, rfl⟩

theorem read2d_settings (r : ReaderState K) (dir : Store) : SameSettings r (r.read2d clock ft dir).1 := by
  unfold ReaderState.read2d
  split
  · exact .refl r
  · split <;> exact ⟨rfl, rfl, rfl, rfl, rfl⟩

theorem load2d_settings (r : ReaderState K) (dir : Store) : SameSettings r (r.load2d clock ft w dir).1 := by
  unfold ReaderState.load2d
  split
  · exact read2d_settings clock ft r dir
  · split
    · exact .refl r
    · exact read2d_settings clock ft r _

theorem readAll_settings (r : ReaderState K) (dir : Store) : SameSettings r (r.readAll clock ft w dir).1 := by
  have h1 := load1d_settings clock ft w r dir
  unfold ReaderState.readAll
  split
  · next he => rw [he] at h1; exact h1
  · next he =>
    rw [he] at h1
    split
    · exact h1
    · exact h1.trans (load2d_settings clock ft w _ _)

/-- Loading 1D data, in terms of the tables read. -/
theorem load1d_object (r : ReaderState K) (dir : Store) :
    (r.load1d clock ft w dir).2.1 = (load1d clock ft r.offset (openPath w.read1 r.path1) dir).1 ∧
    match (load1d clock ft r.offset (openPath w.read1 r.path1) dir).2 with
    | .ok hq => (r.load1d clock ft w dir).1 = { r with h1 := some hq.1, q1 := some hq.2 } ∧
        (r.load1d clock ft w dir).2.2 = .ok ()
    | .error e => (r.load1d clock ft w dir).2.2 = .error e := by
  unfold ReaderState.load1d load1d
  split
  · cases readFile clock ft dir file1dQ with
    | error e => exact ⟨rfl, rfl⟩
    | ok q =>
      cases readFile clock ft dir file1dH with
      | error e => exact ⟨rfl, rfl⟩
      | ok h => exact ⟨rfl, rfl, rfl⟩
  · cases openPath w.read1 r.path1 with
    | error e => exact ⟨rfl, rfl⟩
    | ok his =>
      simp only
      cases import1d clock r.offset his with
      | error e => exact ⟨rfl, rfl⟩
      | ok hq => exact ⟨rfl, rfl, rfl⟩

theorem getMap_object (r : ReaderState K) (h : Frame K) (hh : r.h1 = some h) (dir : Store) :
    r.getMap w dir = makeMap (openPath w.read2 r.path2) h.columns dir := by
  unfold ReaderState.getMap makeMap
  split
  · rfl
  · cases openPath w.read2 r.path2 with
    | error e => rfl
    | ok his => simp only [hh]

theorem read2d_object (r : ReaderState K) (dir : Store) :
    match read2d clock ft dir with
    | .ok hq => r.read2d clock ft dir = ({ r with h2 := some hq.1, q2 := some hq.2 }, .ok ())
    | .error e => (r.read2d clock ft dir).2 = .error e := by
  unfold ReaderState.read2d read2d
  cases readFile clock ft dir file2dQ with
  | error e => rfl
  | ok q =>
    cases readFile clock ft dir file2dH with
    | error e => rfl
    | ok h => rfl

theorem load2d_object (r : ReaderState K) (dir : Store) :
    (r.load2d clock ft w dir).2.1 = (load2d clock ft (openPath w.read2 r.path2) dir).1 ∧
    match (load2d clock ft (openPath w.read2 r.path2) dir).2 with
    | .ok hq => (r.load2d clock ft w dir).1 = { r with h2 := some hq.1, q2 := some hq.2 } ∧
        (r.load2d clock ft w dir).2.2 = .ok ()
    | .error e => (r.load2d clock ft w dir).2.2 = .error e := by
  unfold ReaderState.load2d load2d
  split
  · have h := read2d_object clock ft r dir
    revert h
    cases read2d clock ft dir with
    | error e => exact fun h => ⟨rfl, h⟩
    | ok hq =>
      intro h
      simp only at h
      simp only [h]
      exact ⟨trivial, trivial, trivial⟩
  · obtain ⟨dir', res⟩ := import2d clock ft (openPath w.read2 r.path2) dir
    cases res with
    | error e => exact ⟨rfl, rfl⟩
    | ok u =>
      have h := read2d_object clock ft r dir'
      revert h
      simp only
      cases read2d clock ft dir' with
      | error e => exact fun h => ⟨trivial, h⟩
      | ok hq =>
        intro h
        simp only at h
        simp only [h]
        exact ⟨trivial, trivial, trivial⟩

/-- Reading all data, in terms of the tables read. -/
theorem readAll_object (r : ReaderState K) (dir : Store) :
    (r.readAll clock ft w dir).2.1 =
      (readAllData clock ft r.offset (openPath w.read1 r.path1) (openPath w.read2 r.path2) dir).1 ∧
    match (readAllData clock ft r.offset (openPath w.read1 r.path1) (openPath w.read2 r.path2) dir).2 with
    | .ok t => (r.readAll clock ft w dir).1 =
        { r with h1 := some t.1.1, q1 := some t.1.2, h2 := some t.2.1, q2 := some t.2.2 } ∧
        (r.readAll clock ft w dir).2.2 = .ok ()
    | .error e => (r.readAll clock ft w dir).2.2 = .error e := by
  unfold ReaderState.readAll readAllData
  have h1 := load1d_object clock ft w r dir
  revert h1
  obtain ⟨dir1, res1⟩ := load1d clock ft r.offset (openPath w.read1 r.path1) dir
  obtain ⟨r1, dir1', res1'⟩ := r.load1d clock ft w dir
  intro h1
  cases res1 with
  | error e =>
    obtain ⟨h1, h2⟩ := h1
    simp only at h1 h2
    subst h1 h2
    exact ⟨rfl, rfl⟩
  | ok one =>
    obtain ⟨h1, h2, h3⟩ := h1
    simp only at h1 h2 h3
    subst h1 h2 h3
    simp only [getMap_object w { r with h1 := some one.1, q1 := some one.2 } one.1 rfl]
    obtain ⟨dir2, res2⟩ := makeMap (openPath w.read2 r.path2) one.1.columns dir1'
    cases res2 with
    | error e => exact ⟨rfl, rfl⟩
    | ok u =>
      have h2 := load2d_object clock ft w { r with h1 := some one.1, q1 := some one.2 } dir2
      revert h2
      simp only
      obtain ⟨dir3, res3⟩ := load2d clock ft (openPath w.read2 r.path2) dir2
      cases res3 with
      | error e => exact fun h => h
      | ok two => exact fun h => h

theorem setDir_same (dirs : Text → Store) (d : Text) (s : Store) : setDir dirs d s d = s := if_pos rfl

theorem setDir_other (dirs : Text → Store) (d d' : Text) (s : Store) (h : d' ≠ d) : setDir dirs d s d' = dirs d' := if_neg h

theorem script_append (s : ReaderPlace K) (xs ys : List (ReaderWorld K × ReaderOp)) :
    readerScript clock ft s (xs ++ ys) =
      ((readerScript clock ft (readerScript clock ft s xs).1 ys).1,
        (readerScript clock ft s xs).2 ++ (readerScript clock ft (readerScript clock ft s xs).1 ys).2) := by
  induction xs generalizing s with
  | nil => rfl
  | cons x xs ih =>
    simp only [List.cons_append, readerScript, ih]

/-! ## Settings -/

/-- A setting that only operations of one kind change has the value of the last of them. -/
theorem script_last {α : Type} (field : ReaderState K → α) (kind : ReaderOp → Prop) (v : α)
    (keep : ∀ w s op, ¬ kind op → field s.1 = v → field (readerStep clock ft w s op).1.1 = v) (op : ReaderOp)
    (good : ReaderWorld K → Prop) (set : ∀ w s, good w → field (readerStep clock ft w s op).1.1 = v) (s : ReaderPlace K)
    (ops : List (ReaderWorld K × ReaderOp)) (h : LastOfKind kind op good (field s.1 = v) ops) :
    field (readerScript clock ft s ops).1.1 = v := by
  have key : ∀ (after : List (ReaderWorld K × ReaderOp)) (x : ReaderPlace K), (∀ o ∈ after, ¬ kind o.2) → field x.1 = v →
      field (readerScript clock ft x after).1.1 = v := by
    intro after
    induction after with
    | nil => exact fun _ _ hs => hs
    | cons o after ih =>
      intro x ha hs
      exact ih _ (fun o' ho => ha o' (List.mem_cons_of_mem _ ho)) (keep o.1 x o.2 (ha o List.mem_cons_self) hs)
  rcases h with ⟨w, before, after, hg, rfl, ha⟩ | ⟨hs, ha⟩
  · rw [script_append]
    exact key after _ ha (set w (readerScript clock ft s before).1 hg)
  · exact key ops s ha hs

theorem step_path1 (s : ReaderPlace K) (op : ReaderOp) (h : ¬ ∃ p, op = .setPath1 p) :
    (readerStep clock ft w s op).1.1.path1 = s.1.path1 := by
  cases op with
  | setPath1 p => exact absurd ⟨p, rfl⟩ h
  | setPath2 p => show (s.1.setPath2 w p).1.path1 = _; unfold ReaderState.setPath2; split <;> rfl
  | setOutput d => show (s.1.setOutput w d).1.path1 = _; unfold ReaderState.setOutput; split <;> rfl
  | setOffset n => rfl
  | setStart t => cases t <;> rfl
  | setStop t => cases t <;> rfl
  | load1d => exact (load1d_settings clock ft w s.1 _).path1.symm
  | getMap => rfl
  | load2d => exact (load2d_settings clock ft w s.1 _).path1.symm
  | readAll => exact (readAll_settings clock ft w s.1 _).path1.symm
  | «show» t => show (s.1.data t).1.path1 = _; unfold ReaderState.data; split <;> rfl

theorem step_path2 (s : ReaderPlace K) (op : ReaderOp) (h : ¬ ∃ p, op = .setPath2 p) :
    (readerStep clock ft w s op).1.1.path2 = s.1.path2 := by
  cases op with
  | setPath1 p => show (s.1.setPath1 w p).1.path2 = _; unfold ReaderState.setPath1; split <;> rfl
  | setPath2 p => exact absurd ⟨p, rfl⟩ h
  | setOutput d => show (s.1.setOutput w d).1.path2 = _; unfold ReaderState.setOutput; split <;> rfl
  | setOffset n => rfl
  | setStart t => cases t <;> rfl
  | setStop t => cases t <;> rfl
  | load1d => exact (load1d_settings clock ft w s.1 _).path2.symm
  | getMap => rfl
  | load2d => exact (load2d_settings clock ft w s.1 _).path2.symm
  | readAll => exact (readAll_settings clock ft w s.1 _).path2.symm
  | «show» t => show (s.1.data t).1.path2 = _; unfold ReaderState.data; split <;> rfl

theorem step_output (s : ReaderPlace K) (op : ReaderOp) (h : ¬ ∃ p, op = .setOutput p) :
    (readerStep clock ft w s op).1.1.out = s.1.out := by
  cases op with
  | setPath1 p => show (s.1.setPath1 w p).1.out = _; unfold ReaderState.setPath1; split <;> rfl
  | setPath2 p => show (s.1.setPath2 w p).1.out = _; unfold ReaderState.setPath2; split <;> rfl
  | setOutput p => exact absurd ⟨p, rfl⟩ h
  | setOffset n => rfl
  | setStart t => cases t <;> rfl
  | setStop t => cases t <;> rfl
  | load1d => exact (load1d_settings clock ft w s.1 _).out.symm
  | getMap => rfl
  | load2d => exact (load2d_settings clock ft w s.1 _).out.symm
  | readAll => exact (readAll_settings clock ft w s.1 _).out.symm
  | «show» t => show (s.1.data t).1.out = _; unfold ReaderState.data; split <;> rfl

theorem step_offset (s : ReaderPlace K) (op : ReaderOp) (h : ¬ ∃ n, op = .setOffset n) :
    (readerStep clock ft w s op).1.1.offset = s.1.offset := by
  cases op with
  | setPath1 p => show (s.1.setPath1 w p).1.offset = _; unfold ReaderState.setPath1; split <;> rfl
  | setPath2 p => show (s.1.setPath2 w p).1.offset = _; unfold ReaderState.setPath2; split <;> rfl
  | setOutput d => show (s.1.setOutput w d).1.offset = _; unfold ReaderState.setOutput; split <;> rfl
  | setOffset n => exact absurd ⟨n, rfl⟩ h
  | setStart t => cases t <;> rfl
  | setStop t => cases t <;> rfl
  | load1d => exact (load1d_settings clock ft w s.1 _).offset.symm
  | getMap => rfl
  | load2d => exact (load2d_settings clock ft w s.1 _).offset.symm
  | readAll => exact (readAll_settings clock ft w s.1 _).offset.symm
  | «show» t => show (s.1.data t).1.offset = _; unfold ReaderState.data; split <;> rfl

/-- Showing a table keeps a start and a stop that are set. -/
theorem windowed_keeps (v : Window Int) (f : Frame K) (a : Int) :
    (v.start = some a → (windowed v f).1.start = some a) ∧ (v.stop = some a → (windowed v f).1.stop = some a) := by
  unfold windowed
  split
  · unfold applyWindow
    split
    · constructor
      · intro h
        show some (v.start.getD _) = _
        rw [h]
        rfl
      · intro h
        show some (v.stop.getD _) = _
        rw [h]
        rfl
    · split <;> exact ⟨fun h => h, fun h => h⟩
  · exact ⟨fun h => h, fun h => h⟩

theorem step_start (s : ReaderPlace K) (op : ReaderOp) (a : Int) (h : ¬ ∃ t, op = .setStart (some t))
    (hs : s.1.window.start = some a) : (readerStep clock ft w s op).1.1.window.start = some a := by
  cases op with
  | setPath1 p => show (s.1.setPath1 w p).1.window.start = _; unfold ReaderState.setPath1; split <;> exact hs
  | setPath2 p => show (s.1.setPath2 w p).1.window.start = _; unfold ReaderState.setPath2; split <;> exact hs
  | setOutput d => show (s.1.setOutput w d).1.window.start = _; unfold ReaderState.setOutput; split <;> exact hs
  | setOffset n => exact hs
  | setStart t =>
    cases t with
    | none => exact hs
    | some t => exact absurd ⟨t, rfl⟩ h
  | setStop t => cases t <;> exact hs
  | load1d => exact (congrArg Window.start (load1d_settings clock ft w s.1 _).window).symm.trans hs
  | getMap => exact hs
  | load2d => exact (congrArg Window.start (load2d_settings clock ft w s.1 _).window).symm.trans hs
  | readAll => exact (congrArg Window.start (readAll_settings clock ft w s.1 _).window).symm.trans hs
  | «show» t =>
    show (s.1.data t).1.window.start = _
    unfold ReaderState.data
    split
    · exact (windowed_keeps _ _ a).1 hs
    · exact hs

theorem step_stop (s : ReaderPlace K) (op : ReaderOp) (a : Int) (h : ¬ ∃ t, op = .setStop (some t))
    (hs : s.1.window.stop = some a) : (readerStep clock ft w s op).1.1.window.stop = some a := by
  cases op with
  | setPath1 p => show (s.1.setPath1 w p).1.window.stop = _; unfold ReaderState.setPath1; split <;> exact hs
  | setPath2 p => show (s.1.setPath2 w p).1.window.stop = _; unfold ReaderState.setPath2; split <;> exact hs
  | setOutput d => show (s.1.setOutput w d).1.window.stop = _; unfold ReaderState.setOutput; split <;> exact hs
  | setOffset n => exact hs
  | setStart t => cases t <;> exact hs
  | setStop t =>
    cases t with
    | none => exact hs
    | some t => exact absurd ⟨t, rfl⟩ h
  | load1d => exact (congrArg Window.stop (load1d_settings clock ft w s.1 _).window).symm.trans hs
  | getMap => exact hs
  | load2d => exact (congrArg Window.stop (load2d_settings clock ft w s.1 _).window).symm.trans hs
  | readAll => exact (congrArg Window.stop (readAll_settings clock ft w s.1 _).window).symm.trans hs
  | «show» t =>
    show (s.1.data t).1.window.stop = _
    unfold ReaderState.data
    split
    · exact (windowed_keeps _ _ a).2 hs
    · exact hs

/-- A reader after everything was set. -/
structure Settled (r : ReaderState K) (p1 p2 d : Text) (offset a b : Int) : Prop where
  path1 : r.path1 = some p1
  path2 : r.path2 = some p2
  out : r.out = d
  offset : r.offset = offset
  window : r.window = ⟨some a, some b⟩

theorem settled (s : ReaderPlace K) (ops : List (ReaderWorld K × ReaderOp)) (p1 p2 d : Text) (offset a b : Int)
    (h : Sets s.1 ops p1 p2 d offset a b) : Settled (readerScript clock ft s ops).1.1 p1 p2 d offset a b := by
  refine ⟨?_, ?_, ?_, ?_, ?_⟩
  · refine script_last clock ft ReaderState.path1 _ (some p1) (fun w s op hk hs => (step_path1 clock ft w s op hk).trans hs) _ _
      (fun w s hg => ?_) s ops h.path1
    show (s.1.setPath1 w p1).1.path1 = _
    unfold ReaderState.setPath1
    rw [if_pos hg]
  · refine script_last clock ft ReaderState.path2 _ (some p2) (fun w s op hk hs => (step_path2 clock ft w s op hk).trans hs) _ _
      (fun w s hg => ?_) s ops h.path2
    show (s.1.setPath2 w p2).1.path2 = _
    unfold ReaderState.setPath2
    rw [if_pos hg]
  · refine script_last clock ft ReaderState.out _ d (fun w s op hk hs => (step_output clock ft w s op hk).trans hs) _ _
      (fun w s hg => ?_) s ops h.out
    show (s.1.setOutput w d).1.out = _
    unfold ReaderState.setOutput
    rw [if_pos hg]
  · exact script_last clock ft ReaderState.offset _ offset (fun w s op hk hs => (step_offset clock ft w s op hk).trans hs) _ _
      (fun w s _ => rfl) s ops h.offset
  · have h5 := script_last clock ft (fun r => r.window.start) _ (some a)
      (fun w s op hk hs => step_start clock ft w s op a hk hs) _ _ (fun w s _ => rfl) s ops h.start
    have h6 := script_last clock ft (fun r => r.window.stop) _ (some b)
      (fun w s op hk hs => step_stop clock ft w s op b hk hs) _ _ (fun w s _ => rfl) s ops h.stop
    revert h5 h6
    generalize (readerScript clock ft s ops).1.1.window = v
    obtain ⟨x, y⟩ := v
    rintro rfl rfl
    rfl

/-- The answers of tables that were all read. -/
theorem shows_window (s : ReaderPlace K) (a b : Int) (hw : s.1.window = ⟨some a, some b⟩)
    (hall : ∀ t, ∃ f, s.1.table t = some f) (ts : List ReaderTable) (ws : List (ReaderWorld K))
    (h : ws.length = ts.length) :
    (readerScript clock ft s (ws.zip (ts.map .show))).2 =
      ts.map fun t => match s.1.table t with
        | none => .error .attributeError
        | some f => match (windowed ⟨some a, some b⟩ f).2 with
          | .error e => .error e
          | .ok rows => .ok (some rows) := by
  induction ts generalizing s ws with
  | nil => cases ws <;> rfl
  | cons t ts ih =>
    cases ws with
    | nil => cases h
    | cons v ws =>
      have hset : ∀ f : Frame K, (windowed (⟨some a, some b⟩ : Window Int) f).1 = ⟨some a, some b⟩ := by
        intro f
        unfold windowed
        split
        · unfold applyWindow
          split
          · rfl
          · rfl
        · rfl
      obtain ⟨f, hf⟩ := hall t
      have hd : s.1.data t = (s.1, match (windowed ⟨some a, some b⟩ f).2 with
          | .error e => .error e
          | .ok rows => .ok (some rows)) := by
        unfold ReaderState.data
        simp only [hf, hw, hset]
        refine Prod.ext ?_ rfl
        obtain ⟨r, dirs⟩ := s
        cases r
        simp only at hw
        subst hw
        rfl
      show (readerScript clock ft s ((v, .show t) :: ws.zip (ts.map .show))).2 = _
      unfold readerScript
      simp only [readerStep, hd]
      rw [ih (s.1, s.2) hw hall ws (Nat.succ.inj h)]
      simp only [List.map_cons, hf]

/-! ## What operations leave as it is -/

theorem step_window (s : ReaderPlace K) (op : ReaderOp) (a b : Int) (hw : s.1.window = ⟨some a, some b⟩) (h : ¬ SetsTime op) :
    (readerStep clock ft w s op).1.1.window = ⟨some a, some b⟩ := by
  cases op with
  | setPath1 p => show (s.1.setPath1 w p).1.window = _; unfold ReaderState.setPath1; split <;> exact hw
  | setPath2 p => show (s.1.setPath2 w p).1.window = _; unfold ReaderState.setPath2; split <;> exact hw
  | setOutput d => show (s.1.setOutput w d).1.window = _; unfold ReaderState.setOutput; split <;> exact hw
  | setOffset n => exact hw
  | setStart t =>
    cases t with
    | none => exact hw
    | some t => exact absurd trivial h
  | setStop t =>
    cases t with
    | none => exact hw
    | some t => exact absurd trivial h
  | load1d => exact (load1d_settings clock ft w s.1 _).window.symm.trans hw
  | getMap => exact hw
  | load2d => exact (load2d_settings clock ft w s.1 _).window.symm.trans hw
  | readAll => exact (readAll_settings clock ft w s.1 _).window.symm.trans hw
  | «show» t =>
    show (s.1.data t).1.window = _
    unfold ReaderState.data
    split
    · next f _ =>
      show (windowed s.1.window f).1 = _
      rw [hw]
      unfold windowed
      split
      · unfold applyWindow
        split
        · rfl
        · rfl
      · rfl
    · exact hw

theorem script_window (s : ReaderPlace K) (ops : List (ReaderWorld K × ReaderOp)) (a b : Int)
    (hw : s.1.window = ⟨some a, some b⟩) (h : ∀ op ∈ ops, ¬ SetsTime op.2) :
    (readerScript clock ft s ops).1.1.window = ⟨some a, some b⟩ := by
  induction ops generalizing s with
  | nil => exact hw
  | cons op ops ih =>
    exact ih _ (step_window clock ft op.1 s op.2 a b hw (h op List.mem_cons_self)) fun o ho => h o (List.mem_cons_of_mem _ ho)

theorem load1d_files (r : ReaderState K) (dir : Store) (f : Text) (hf : f ∉ readerFiles) :
    (r.load1d clock ft w dir).2.1 f = dir f := by
  unfold ReaderState.load1d
  split
  · split
    · rfl
    · split <;> rfl
  · split
    · rfl
    · split
      · rfl
      · next hq _ =>
        refine writeAll_other _ _ _ fun h => hf ?_
        have hsub : ∀ x ∈ [file1dH, file1dQ], x ∈ readerFiles := by decide
        exact hsub f h

theorem getMap_files (r : ReaderState K) (dir : Store) (f : Text) (hf : f ∉ readerFiles) : (r.getMap w dir).1 f = dir f := by
  have hne : f ≠ fileMap := fun h => hf (h ▸ (by decide : fileMap ∈ readerFiles))
  unfold ReaderState.getMap
  split
  · rfl
  · split
    · rfl
    · split <;> exact store_set_other _ _ _ _ hne

theorem import2d_files (his : Except PyErr (His2d K)) (dir : Store) (f : Text) (hf : f ∉ readerFiles) :
    (import2d clock ft his dir).1 f = dir f := by
  have hq : f ≠ file2dQ := fun h => hf (h ▸ (by decide : file2dQ ∈ readerFiles))
  have hh : f ≠ file2dH := fun h => hf (h ▸ (by decide : file2dH ∈ readerFiles))
  unfold import2d
  split
  · rfl
  · split
    · rfl
    · split
      · rfl
      · split
        · rfl
        · split
          · exact store_set_other _ _ _ _ hq
          · exact (store_set_other _ _ _ _ hh).trans (store_set_other _ _ _ _ hq)

theorem load2d_files (r : ReaderState K) (dir : Store) (f : Text) (hf : f ∉ readerFiles) :
    (r.load2d clock ft w dir).2.1 f = dir f := by
  unfold ReaderState.load2d
  split
  · rfl
  · have h := import2d_files clock ft (openPath w.read2 r.path2) dir f hf
    split
    · next he => rw [he] at h; exact h
    · next he => rw [he] at h; exact h

theorem readAll_files (r : ReaderState K) (dir : Store) (f : Text) (hf : f ∉ readerFiles) :
    (r.readAll clock ft w dir).2.1 f = dir f := by
  have h1 := load1d_files clock ft w r dir f hf
  unfold ReaderState.readAll
  split
  · next he => rw [he] at h1; exact h1
  · next r1 dir1 _ he =>
    rw [he] at h1
    have h2 := getMap_files w r1 dir1 f hf
    split
    · next he => rw [he] at h2; exact h2.trans h1
    · next he => rw [he] at h2; exact (load2d_files clock ft w _ _ f hf).trans (h2.trans h1)

theorem step_files (s : ReaderPlace K) (op : ReaderOp) (d f : Text) (h : f ∉ readerFiles ∨ d ≠ s.1.out) :
    (readerStep clock ft w s op).1.2 d f = s.2 d f := by
  have key : ∀ x : Store, (f ∉ readerFiles → x f = s.2 s.1.out f) → setDir s.2 s.1.out x d f = s.2 d f := by
    intro x hx
    by_cases hd : d = s.1.out
    · rw [hd, setDir_same]
      exact hx (h.resolve_right fun hne => hne hd)
    · rw [setDir_other _ _ _ _ hd]
  cases op with
  | load1d => exact key _ (load1d_files clock ft w s.1 _ f)
  | getMap => exact key _ (getMap_files w s.1 _ f)
  | load2d => exact key _ (load2d_files clock ft w s.1 _ f)
  | readAll => exact key _ (readAll_files clock ft w s.1 _ f)
  | _ => rfl

theorem step_out (s : ReaderPlace K) (op : ReaderOp) (d : Text) (hd : d ≠ s.1.out) (hop : op ≠ .setOutput d) :
    d ≠ (readerStep clock ft w s op).1.1.out := by
  cases op with
  | setPath1 p => show d ≠ (s.1.setPath1 w p).1.out; unfold ReaderState.setPath1; split <;> exact hd
  | setPath2 p => show d ≠ (s.1.setPath2 w p).1.out; unfold ReaderState.setPath2; split <;> exact hd
  | setOutput d' =>
    show d ≠ (s.1.setOutput w d').1.out
    unfold ReaderState.setOutput
    split
    · exact fun h => hop (congrArg ReaderOp.setOutput h.symm)
    · exact hd
  | setOffset n => exact hd
  | setStart t => cases t <;> exact hd
  | setStop t => cases t <;> exact hd
  | load1d => exact fun h => hd (h.trans (load1d_settings clock ft w s.1 _).out.symm)
  | getMap => exact hd
  | load2d => exact fun h => hd (h.trans (load2d_settings clock ft w s.1 _).out.symm)
  | readAll => exact fun h => hd (h.trans (readAll_settings clock ft w s.1 _).out.symm)
  | «show» t =>
    show d ≠ (s.1.data t).1.out
    unfold ReaderState.data
    split <;> exact hd

theorem script_files (s : ReaderPlace K) (ops : List (ReaderWorld K × ReaderOp)) (d f : Text)
    (h : f ∉ readerFiles ∨ (d ≠ s.1.out ∧ ∀ op ∈ ops, op.2 ≠ .setOutput d)) :
    (readerScript clock ft s ops).1.2 d f = s.2 d f := by
  induction ops generalizing s with
  | nil => rfl
  | cons op ops ih =>
    have h1 := step_files clock ft op.1 s op.2 d f (h.imp id And.left)
    refine (ih _ ?_).trans h1
    refine h.imp id fun ⟨hd, ho⟩ => ⟨step_out clock ft op.1 s op.2 d hd (ho op List.mem_cons_self), fun o hm =>
      ho o (List.mem_cons_of_mem _ hm)⟩

end Fm2prof.ReaderObjectProof
