import Verif.Spec.Log

/-!
# Lemmas about the log
-/

namespace Fm2prof

/-- A formatter that can be used: it knows whether it is in the introduction, and if it is for files no footer is due. -/
def Usable (f : Formatter) : Prop := f.intro.isSome = true ∧ (f.forFile = true → 0 ≤ f.phase)

/-- The kinds of all formatters. -/
def LogState.kinds (s : LogState) : List Bool := s.formatters.map (·.forFile)

/-- The invariant of the log after the first project was made. -/
structure GoodLog (s : LogState) : Prop where
  usable : ∀ (i : Nat) f, s.formatters[i]? = some f → Usable f
  console : s.kinds[s.console]? = some false
  forFiles : s.kinds[s.forFiles]? = some true
  files : ∀ h ∈ s.handlers, h.file.isSome = true → s.kinds[h.formatter]? = some true

theorem kinds_get {s : LogState} {n : Nat} {b : Bool} (h : s.kinds[n]? = some b) :
    ∃ f, s.formatters[n]? = some f ∧ f.forFile = b := by
  unfold LogState.kinds at h
  rw [List.getElem?_map] at h
  cases hf : s.formatters[n]? with
  | none => rw [hf] at h; cases h
  | some f => rw [hf] at h; exact ⟨f, rfl, Option.some.inj h⟩

theorem get_kinds {s : LogState} {n : Nat} {f : Formatter} (h : s.formatters[n]? = some f) :
    s.kinds[n]? = some f.forFile := by
  unfold LogState.kinds; rw [List.getElem?_map, h]; rfl

theorem get_update (s : LogState) (n : Nat) (g : Formatter → Formatter) (i : Nat) :
    (s.update n g).formatters[i]? = if n = i then (s.formatters[i]?).map g else s.formatters[i]? := by
  unfold LogState.update
  simp only [List.getElem?_modify]
  split
  · rfl
  · cases s.formatters[i]? <;> rfl

theorem kinds_update (s : LogState) (n : Nat) (g : Formatter → Formatter)
    (hg : ∀ f, s.formatters[n]? = some f → (g f).forFile = f.forFile) : (s.update n g).kinds = s.kinds := by
  apply List.ext_getElem?
  intro i
  unfold LogState.kinds
  rw [List.getElem?_map, List.getElem?_map, get_update]
  split
  · rename_i h
    subst h
    cases hf : s.formatters[n]? with
    | none => rfl
    | some f => simp only [Option.map_some]; rw [hg f hf]
  · rfl

theorem format_forFile (f : Formatter) (l : Level) (t : Text) : (f.format l t).1.forFile = f.forFile := by
  unfold Formatter.format
  split
  · rfl
  · rfl
  · split
    · rfl
    · split <;> rfl

theorem format_usable {f : Formatter} (hf : Usable f) (l : Level) (t : Text) : Usable (f.format l t).1 := by
  obtain ⟨hi, hp⟩ := hf
  unfold Formatter.format
  split
  · exact ⟨hi, hp⟩
  · exact ⟨hi, hp⟩
  · split
    · exact ⟨hi, fun _ => by change 0 ≤ f.phase - 1; omega⟩
    · split
      · rename_i h
        exact ⟨hi, fun hff => by have := hp hff; omega⟩
      · exact ⟨hi, hp⟩

/-- What does not change when a record is treated. -/
structure SameLog (s s' : LogState) : Prop where
  kinds : s'.kinds = s.kinds
  console : s'.console = s.console
  forFiles : s'.forFiles = s.forFiles
  handlers : s'.handlers = s.handlers

theorem SameLog.refl (s : LogState) : SameLog s s := ⟨rfl, rfl, rfl, rfl⟩

theorem SameLog.trans {a b c : LogState} (h : SameLog a b) (k : SameLog b c) : SameLog a c :=
  ⟨k.kinds.trans h.kinds, k.console.trans h.console, k.forFiles.trans h.forFiles, k.handlers.trans h.handlers⟩

theorem same_update (s : LogState) (n : Nat) (g : Formatter → Formatter)
    (hg : ∀ f, s.formatters[n]? = some f → (g f).forFile = f.forFile) : SameLog s (s.update n g) :=
  ⟨kinds_update s n g hg, rfl, rfl, rfl⟩

theorem handle_formatters (l : Level) (t : Text) (s : LogState) (h : Handler) :
    (handle l t s h).formatters = (match s.formatters[h.formatter]? with
      | none => s
      | some f => s.update h.formatter fun _ => (f.format l t).1).formatters := by
  unfold handle
  cases s.formatters[h.formatter]? with
  | none => rfl
  | some f =>
    simp only
    split <;> rfl

theorem handle_same (l : Level) (t : Text) (s : LogState) (h : Handler) : SameLog s (handle l t s h) := by
  unfold handle
  cases hf : s.formatters[h.formatter]? with
  | none => exact SameLog.refl s
  | some f =>
    simp only
    have hs := same_update s h.formatter (fun _ => (f.format l t).1) (by
      intro f' hf'
      rw [hf] at hf'
      cases hf'
      exact format_forFile f l t)
    split
    · exact ⟨hs.kinds, rfl, rfl, rfl⟩
    · exact hs

theorem handle_usable (l : Level) (t : Text) (s : LogState) (h : Handler)
    (hu : ∀ (i : Nat) f, s.formatters[i]? = some f → Usable f) :
    ∀ (i : Nat) f, (handle l t s h).formatters[i]? = some f → Usable f := by
  intro i f hi
  rw [handle_formatters] at hi
  cases hf : s.formatters[h.formatter]? with
  | none => rw [hf] at hi; exact hu i f hi
  | some f' =>
    rw [hf] at hi
    simp only [get_update] at hi
    split at hi
    · cases hs : s.formatters[i]? with
      | none => rw [hs] at hi; cases hi
      | some g =>
        rw [hs] at hi
        cases hi
        exact format_usable (hu _ _ hf) l t
    · exact hu i f hi

/-- The number of handlers writing to a file. -/
def writersTo (file : Text) (hs : List Handler) : Nat := hs.countP fun h => decide (h.file = some file)

/-- The line written by a usable formatter for files shows the message, unless it is critical. -/
theorem format_shows {f : Formatter} (hf : Usable f) (hff : f.forFile = true) {l : Level} {t : Text} (hl : l ≠ .critical) :
    ∃ line, (f.format l t).2 = some line ∧ Spec.Shows line (l, t) := by
  obtain ⟨hi, hp⟩ := hf
  have hp := hp hff
  unfold Formatter.format
  split
  · rename_i h; rw [h] at hi; cases hi
  · exact ⟨_, rfl, Or.inl rfl⟩
  · split
    · exact ⟨_, rfl, Or.inr (Or.inl rfl)⟩
    · split
      · omega
      · refine ⟨.message l t, ?_, Or.inr (Or.inr rfl)⟩
        simp [hl]

theorem handle_files (l : Level) (t : Text) (s : LogState) (h : Handler) (file : Text) :
    ((handle l t s h).files file = s.files file) ∨
    (h.file = some file ∧ ∃ f line, s.formatters[h.formatter]? = some f ∧ (f.format l t).2 = some line ∧
      (handle l t s h).files file = s.files file ++ [line]) := by
  unfold handle
  cases hf : s.formatters[h.formatter]? with
  | none => exact Or.inl rfl
  | some f =>
    simp only
    split
    · rename_i file' line hfile hline
      by_cases h' : file = file'
      · subst h'
        refine Or.inr ⟨hfile, f, line, rfl, hline, ?_⟩
        simp only [if_true]
      · exact Or.inl (if_neg h')
    · exact Or.inl rfl

theorem handle_written (l : Level) (t : Text) (s : LogState) (h : Handler) (file : Text) (hfile : h.file = some file)
    {f : Formatter} {line : Line} (hf : s.formatters[h.formatter]? = some f) (hl : (f.format l t).2 = some line) :
    (handle l t s h).files file = s.files file ++ [line] := by
  unfold handle
  rw [hf]
  simp only [hfile, hl]
  simp only [if_true]

theorem handle_not_written (l : Level) (t : Text) (s : LogState) (h : Handler) (file : Text) (hfile : h.file ≠ some file) :
    (handle l t s h).files file = s.files file := by
  rcases handle_files l t s h file with h' | ⟨h', _⟩
  · exact h'
  · exact absurd h' hfile

/-- What treating a record does to one log file. -/
theorem fold_handle (l : Level) (t : Text) (hl : l ≠ .critical) (file : Text) :
    ∀ (hs : List Handler) (s : LogState), (∀ (i : Nat) f, s.formatters[i]? = some f → Usable f) →
      (∀ h ∈ hs, h.file.isSome = true → s.kinds[h.formatter]? = some true) →
      SameLog s (hs.foldl (handle l t) s) ∧
      (∀ (i : Nat) f, (hs.foldl (handle l t) s).formatters[i]? = some f → Usable f) ∧
      ∃ lines, (hs.foldl (handle l t) s).files file = s.files file ++ lines ∧ lines.length = writersTo file hs ∧
        ∀ line ∈ lines, Spec.Shows line (l, t) := by
  intro hs
  induction hs with
  | nil => intro s hu _; exact ⟨SameLog.refl s, hu, [], (List.append_nil _).symm, rfl, by intro _ h; cases h⟩
  | cons h hs ih =>
    intro s hu hk
    have hsame := handle_same l t s h
    obtain ⟨h1, h2, lines, h3, h4, h5⟩ := ih (handle l t s h) (handle_usable l t s h hu) (by
      intro h' hh' hi
      rw [hsame.kinds]
      exact hk h' (List.mem_cons_of_mem _ hh') hi)
    refine ⟨hsame.trans h1, h2, ?_⟩
    by_cases hfile : h.file = some file
    · obtain ⟨f, hf, hff⟩ := kinds_get (hk h List.mem_cons_self (by rw [hfile]; rfl))
      obtain ⟨line, hline, hshow⟩ := format_shows (hu _ _ hf) hff (t := t) hl
      refine ⟨line :: lines, ?_, ?_, ?_⟩
      · rw [List.foldl_cons, h3, handle_written l t s h file hfile hf hline, List.append_assoc]; rfl
      · unfold writersTo at h4 ⊢
        rw [List.length_cons, h4, List.countP_cons_of_pos (by simp [hfile])]
      · intro x hx
        rcases List.mem_cons.mp hx with rfl | hx
        · exact hshow
        · exact h5 x hx
    · refine ⟨lines, ?_, ?_, h5⟩
      · rw [List.foldl_cons, h3, handle_not_written l t s h file hfile]
      · unfold writersTo at h4 ⊢
        rw [h4, List.countP_cons_of_neg (by simp [hfile])]

/-- The same without assuming anything about the level: the invariant is kept. -/
theorem fold_handle_same (l : Level) (t : Text) :
    ∀ (hs : List Handler) (s : LogState), (∀ (i : Nat) f, s.formatters[i]? = some f → Usable f) →
      SameLog s (hs.foldl (handle l t) s) ∧ (∀ (i : Nat) f, (hs.foldl (handle l t) s).formatters[i]? = some f → Usable f) := by
  intro hs
  induction hs with
  | nil => intro s hu; exact ⟨SameLog.refl s, hu⟩
  | cons h hs ih =>
    intro s hu
    obtain ⟨h1, h2⟩ := ih (handle l t s h) (handle_usable l t s h hu)
    exact ⟨(handle_same l t s h).trans h1, h2⟩

/-- Setting the flag of the introduction. -/
def setIntro (s : LogState) (header : Bool) : LogState :=
  (s.update s.console fun f => { f with intro := some header }).update s.forFiles fun f => { f with intro := some header }

theorem setIntro_same (s : LogState) (header : Bool) : SameLog s (setIntro s header) :=
  (same_update s s.console (fun f => { f with intro := some header }) (fun _ _ => rfl)).trans
    (same_update _ s.forFiles (fun f => { f with intro := some header }) (fun _ _ => rfl))

/-- All formatters are usable, except that the two in use may not yet know whether they are in the introduction. -/
def AlmostUsable (s : LogState) : Prop :=
  ∀ (i : Nat) f, s.formatters[i]? = some f → (f.forFile = true → 0 ≤ f.phase) ∧
    (i ≠ s.console → i ≠ s.forFiles → f.intro.isSome = true)

theorem setIntro_usable (s : LogState) (header : Bool) (hs : AlmostUsable s) :
    ∀ (i : Nat) f, (setIntro s header).formatters[i]? = some f → Usable f := by
  intro i f hi
  unfold setIntro at hi
  rw [get_update, get_update] at hi
  cases hf : s.formatters[i]? with
  | none =>
    rw [hf] at hi
    split at hi <;> split at hi <;> cases hi
  | some g =>
    rw [hf] at hi
    obtain ⟨h1, h2⟩ := hs i g hf
    change (if s.forFiles = i then _ else _) = _ at hi
    by_cases hF : s.forFiles = i
    · rw [if_pos hF] at hi
      by_cases hC : s.console = i
      · rw [if_pos hC] at hi; cases hi; exact ⟨rfl, h1⟩
      · rw [if_neg hC] at hi; cases hi; exact ⟨rfl, h1⟩
    · rw [if_neg hF] at hi
      by_cases hC : s.console = i
      · rw [if_pos hC] at hi; cases hi; exact ⟨rfl, h1⟩
      · rw [if_neg hC] at hi; cases hi; exact ⟨h2 (fun h => hC h.symm) (fun h => hF h.symm), h1⟩

theorem GoodLog.almost {s : LogState} (h : GoodLog s) : AlmostUsable s :=
  fun i f hf => ⟨(h.usable i f hf).2, fun _ _ => (h.usable i f hf).1⟩

/-- The parts of the invariant that do not concern the contents of the formatters. -/
structure WellLog (s : LogState) : Prop where
  almost : AlmostUsable s
  console : s.kinds[s.console]? = some false
  forFiles : s.kinds[s.forFiles]? = some true
  files : ∀ h ∈ s.handlers, h.file.isSome = true → s.kinds[h.formatter]? = some true

theorem GoodLog.well {s : LogState} (h : GoodLog s) : WellLog s := ⟨h.almost, h.console, h.forFiles, h.files⟩

theorem logMessage_good {s : LogState} (h : WellLog s) (l : Level) (t : Text) (header : Bool) :
    GoodLog (logMessage s l t header) ∧ SameLog s (logMessage s l t header) := by
  have h1 := setIntro_same s header
  obtain ⟨h2, h3⟩ := fold_handle_same l t (setIntro s header).handlers (setIntro s header) (setIntro_usable s header h.almost)
  have h4 : SameLog s (logMessage s l t header) := h1.trans h2
  refine ⟨⟨h3, ?_, ?_, ?_⟩, h4⟩
  · rw [h4.kinds, h4.console]; exact h.console
  · rw [h4.kinds, h4.forFiles]; exact h.forFiles
  · rw [h4.kinds, h4.handlers]; exact h.files

/-- What logging a message does to a log file. -/
theorem logMessage_file {s : LogState} (h : WellLog s) (l : Level) (t : Text) (header : Bool) (hl : l ≠ .critical)
    (file : Text) :
    ∃ lines, (logMessage s l t header).files file = s.files file ++ lines ∧
      lines.length = writersTo file s.handlers ∧ ∀ line ∈ lines, Spec.Shows line (l, t) := by
  have h1 := setIntro_same s header
  obtain ⟨_, _, lines, h5, h6, h7⟩ := fold_handle l t hl file (setIntro s header).handlers (setIntro s header)
    (setIntro_usable s header h.almost) (by rw [h1.handlers, h1.kinds]; exact h.files)
  refine ⟨lines, h5, ?_, h7⟩
  rw [h6, h1.handlers]

theorem setPhases_well {s : LogState} (h : WellLog s) :
    WellLog ((s.update s.console fun f => { f with phase := 1 }).update s.forFiles fun f => { f with phase := 1 }) := by
  have hs : SameLog s ((s.update s.console fun f => { f with phase := 1 }).update s.forFiles fun f => { f with phase := 1 }) :=
    (same_update s s.console (fun f => { f with phase := 1 }) (fun _ _ => rfl)).trans
      (same_update _ s.forFiles (fun f => { f with phase := 1 }) (fun _ _ => rfl))
  refine ⟨?_, ?_, ?_, ?_⟩
  · intro i f hi
    rw [get_update, get_update] at hi
    cases hf : s.formatters[i]? with
    | none =>
      rw [hf] at hi
      split at hi <;> split at hi <;> cases hi
    | some g =>
      rw [hf] at hi
      obtain ⟨h1, h2⟩ := h.almost i g hf
      split at hi <;> split at hi <;> cases hi
      · exact ⟨fun _ => (by decide : (0 : Int) ≤ 1), h2⟩
      · exact ⟨fun _ => (by decide : (0 : Int) ≤ 1), h2⟩
      · exact ⟨fun _ => (by decide : (0 : Int) ≤ 1), h2⟩
      · exact ⟨h1, h2⟩
  · rw [hs.kinds]; exact h.console
  · rw [hs.kinds]; exact h.forFiles
  · rw [hs.kinds]; exact h.files

theorem setFinish_well {s : LogState} (h : WellLog s) : WellLog (s.update s.console fun f => { f with phase := -1 }) := by
  have hs : SameLog s (s.update s.console fun f => { f with phase := -1 }) :=
    same_update s s.console (fun f => { f with phase := -1 }) (fun _ _ => rfl)
  refine ⟨?_, ?_, ?_, ?_⟩
  · intro i f hi
    rw [get_update] at hi
    cases hf : s.formatters[i]? with
    | none => rw [hf] at hi; split at hi <;> cases hi
    | some g =>
      rw [hf] at hi
      obtain ⟨h1, h2⟩ := h.almost i g hf
      split at hi <;> cases hi
      · rename_i hc
        refine ⟨fun hff => ?_, h2⟩
        have := get_kinds hf
        rw [← hc, h.console] at this
        change g.forFile = true at hff
        rw [hff] at this
        cases this
      · exact ⟨h1, h2⟩
  · rw [hs.kinds]; exact h.console
  · rw [hs.kinds]; exact h.forFiles
  · rw [hs.kinds]; exact h.files

theorem createLogger_well {s : LogState} (h : GoodLog s ∨ (s.formatters = [] ∧ s.handlers = [])) :
    WellLog (createLogger s) := by
  have hk : (createLogger s).kinds = s.kinds ++ [false, true] := by
    unfold createLogger LogState.kinds
    simp only [List.map_append]
    rfl
  have hlen : s.kinds.length = s.formatters.length := List.length_map _
  refine ⟨?_, ?_, ?_, ?_⟩
  · intro i f hi
    change (s.formatters ++ [_, _])[i]? = some f at hi
    change (f.forFile = true → 0 ≤ f.phase) ∧ (i ≠ s.formatters.length → i ≠ s.formatters.length + 1 → f.intro.isSome = true)
    rw [List.getElem?_append] at hi
    split at hi
    · rename_i hlt
      rcases h with h | ⟨h, _⟩
      · exact ⟨(h.usable i f hi).2, fun _ _ => (h.usable i f hi).1⟩
      · rw [h] at hlt; cases hlt
    · rename_i hge
      rcases Nat.lt_or_ge (i - s.formatters.length) 2 with hlt | hge'
      · have : i - s.formatters.length = 0 ∨ i - s.formatters.length = 1 := by omega
        rcases this with h0 | h0
        · rw [h0] at hi; cases hi
          exact ⟨fun h => (by cases h), fun hne _ => absurd (by omega) hne⟩
        · rw [h0] at hi; cases hi
          exact ⟨fun _ => by decide, fun _ hne => absurd (by omega) hne⟩
      · rw [List.getElem?_eq_none (by simpa using hge')] at hi; cases hi
  · rw [hk]
    change (s.kinds ++ [false, true])[s.formatters.length]? = _
    rw [← hlen, List.getElem?_append_right (Nat.le_refl _), Nat.sub_self]; rfl
  · rw [hk]
    change (s.kinds ++ [false, true])[s.formatters.length + 1]? = _
    rw [← hlen, List.getElem?_append_right (Nat.le_succ _), Nat.succ_sub (Nat.le_refl _), Nat.sub_self]; rfl
  · intro hd hhd hs
    rw [hk]
    unfold createLogger at hhd
    simp only at hhd
    have hold : hd ∈ s.handlers → (s.kinds ++ [false, true])[hd.formatter]? = some true := by
      intro hm
      rcases h with h | ⟨_, h⟩
      · have := h.files hd hm hs
        have hlt : hd.formatter < s.kinds.length := by
          rcases Nat.lt_or_ge hd.formatter s.kinds.length with h' | h'
          · exact h'
          · rw [List.getElem?_eq_none h'] at this; cases this
        rw [List.getElem?_append_left hlt]; exact this
      · rw [h] at hm; cases hm
    split at hhd
    · exact hold hhd
    · rcases List.mem_append.mp hhd with hm | hm
      · exact hold hm
      · rw [List.mem_singleton.mp hm] at hs; cases hs

theorem writersTo_create (s : LogState) (file : Text) : writersTo file (createLogger s).handlers = writersTo file s.handlers := by
  unfold createLogger writersTo
  simp only
  split
  · rfl
  · rw [List.countP_append, List.countP_cons_of_neg (by simp)]
    rfl

/-- One step keeps the invariant; what it does to a log file, and to the number of handlers writing to it. -/
theorem run_good {s : LogState} (h : GoodLog s) (op : LogOp) : GoodLog (op.run s) := by
  cases op with
  | project => exact (logMessage_good (setPhases_well (createLogger_well (Or.inl h))) _ _ _).1
  | message l t hd => exact (logMessage_good h.well l t hd).1
  | start name => exact (logMessage_good (setPhases_well h.well) _ _ _).1
  | finish => exact (logMessage_good (setFinish_well h.well) _ _ _).1
  | logfile f =>
    refine ⟨h.usable, h.console, h.forFiles, ?_⟩
    intro hd hhd hs
    rcases List.mem_append.mp hhd with hm | hm
    · exact h.files hd hm hs
    · rw [List.mem_singleton.mp hm]; exact h.forFiles

theorem open_good {s : LogState} (h : GoodLog s ∨ (s.formatters = [] ∧ s.handlers = [])) : GoodLog (openProject s) :=
  (logMessage_good (setPhases_well (createLogger_well h)) _ _ _).1

theorem runLog_good {s : LogState} (h : GoodLog s) (ops : List LogOp) : GoodLog (runLog s ops) := by
  induction ops generalizing s with
  | nil => exact h
  | cons op ops ih => exact ih (run_good h op)

theorem run_writers {s : LogState} (h : GoodLog s) (op : LogOp) (file : Text) (hop : op ≠ .logfile file) :
    writersTo file (op.run s).handlers = writersTo file s.handlers := by
  cases op with
  | project =>
    have := (logMessage_good (setPhases_well (createLogger_well (Or.inl h))) .info
      ("Starting new task: ".toList ++ "Loading configuration file".toList) false).2.handlers
    change writersTo file (logMessage _ _ _ _).handlers = _
    rw [this]
    exact writersTo_create s file
  | message l t hd =>
    change writersTo file (logMessage _ _ _ _).handlers = _
    rw [(logMessage_good h.well l t hd).2.handlers]
  | start name =>
    change writersTo file (logMessage _ _ _ _).handlers = _
    rw [(logMessage_good (setPhases_well h.well) _ _ _).2.handlers]; rfl
  | finish =>
    change writersTo file (logMessage _ _ _ _).handlers = _
    rw [(logMessage_good (setFinish_well h.well) _ _ _).2.handlers]; rfl
  | logfile f =>
    unfold writersTo
    change List.countP _ (s.handlers ++ [_]) = _
    rw [List.countP_append, List.countP_cons_of_neg (by
      simp only [decide_eq_true_eq, Option.some.injEq]
      intro h'
      exact hop (by rw [h']))]
    rfl

/-- One step: one line for each message and each handler. -/
theorem run_file {s : LogState} (h : GoodLog s) (op : LogOp) (file : Text) (hc : ∀ t hd, op ≠ .message .critical t hd) :
    ∃ lines, (op.run s).files file = s.files file ++ lines ∧
      lines.length = (Spec.logged op).length * writersTo file s.handlers ∧
      ∀ line ∈ lines, ∀ m ∈ Spec.logged op, Spec.Shows line m := by
  cases op with
  | project =>
    obtain ⟨lines, h1, h2, h3⟩ := logMessage_file (setPhases_well (createLogger_well (Or.inl h))) .info
      ("Starting new task: ".toList ++ "Loading configuration file".toList) false (by decide) file
    refine ⟨lines, h1, ?_, ?_⟩
    · rw [h2]
      change writersTo file (createLogger s).handlers = 1 * _
      rw [writersTo_create, Nat.one_mul]
    · intro line hline m hm
      rw [List.mem_singleton.mp hm]; exact h3 line hline
  | message l t hd =>
    obtain ⟨lines, h1, h2, h3⟩ := logMessage_file h.well l t hd (by
      intro hl; subst hl; exact hc t hd rfl) file
    refine ⟨lines, h1, ?_, ?_⟩
    · rw [h2]; exact (Nat.one_mul _).symm
    · intro line hline m hm
      rw [List.mem_singleton.mp hm]; exact h3 line hline
  | start name =>
    obtain ⟨lines, h1, h2, h3⟩ := logMessage_file (setPhases_well h.well) .info
      ("Starting new task: ".toList ++ name) false (by decide) file
    refine ⟨lines, h1, ?_, ?_⟩
    · rw [h2]; exact (Nat.one_mul _).symm
    · intro line hline m hm
      rw [List.mem_singleton.mp hm]; exact h3 line hline
  | finish =>
    obtain ⟨lines, h1, h2, h3⟩ := logMessage_file (setFinish_well h.well) .info [] false (by decide) file
    refine ⟨lines, h1, ?_, ?_⟩
    · rw [h2]; exact (Nat.one_mul _).symm
    · intro line hline m hm
      rw [List.mem_singleton.mp hm]; exact h3 line hline
  | logfile f =>
    refine ⟨[], (List.append_nil _).symm, ?_, by intro _ h; cases h⟩
    change 0 = 0 * _
    rw [Nat.zero_mul]

/-- A history with one handler writing to the file: one line for each message, in order. -/
theorem runLog_file (file : Text) : ∀ (ops : List LogOp) (s : LogState), GoodLog s → writersTo file s.handlers = 1 →
    LogOp.logfile file ∉ ops → Spec.NoCritical ops →
    ∃ lines, (runLog s ops).files file = s.files file ++ lines ∧ List.Forall₂ Spec.Shows lines (ops.flatMap Spec.logged) := by
  intro ops
  induction ops with
  | nil => intro s _ _ _ _; exact ⟨[], (List.append_nil _).symm, .nil⟩
  | cons op ops ih =>
    intro s hg hw hf hc
    obtain ⟨lines, h1, h2, h3⟩ := run_file hg op file (fun t hd he => hc t hd (by rw [he]; exact List.mem_cons_self))
    obtain ⟨lines', h4, h5⟩ := ih (op.run s) (run_good hg op)
      (by rw [run_writers hg op file (fun he => hf (by rw [he]; exact List.mem_cons_self))]; exact hw)
      (fun hm => hf (List.mem_cons_of_mem _ hm)) (fun t hd hm => hc t hd (List.mem_cons_of_mem _ hm))
    refine ⟨lines ++ lines', ?_, ?_⟩
    · change (runLog (op.run s) ops).files file = _
      rw [h4, h1, List.append_assoc]
    · rw [List.flatMap_cons]
      refine List.rel_append ?_ h5
      rw [hw, Nat.mul_one] at h2
      have hcase : (Spec.logged op).length = 0 ∨ (Spec.logged op).length = 1 := by
        cases op <;> first | exact Or.inr rfl | exact Or.inl rfl
      rcases hcase with h0 | h0
      · rw [h0] at h2
        rw [List.eq_nil_of_length_eq_zero h0, List.eq_nil_of_length_eq_zero h2]
        exact .nil
      · rw [h0] at h2
        obtain ⟨m, hm⟩ := List.length_eq_one_iff.mp h0
        obtain ⟨line, hline⟩ := List.length_eq_one_iff.mp h2
        rw [hm, hline]
        exact .cons (h3 line (by rw [hline]; exact List.mem_cons_self) m (by rw [hm]; exact List.mem_cons_self)) .nil

/-! ## The counts -/

theorem handle_other (l : Level) (t : Text) (s : LogState) (h : Handler) (n : Nat) (hn : h.formatter ≠ n) :
    (handle l t s h).formatters[n]? = s.formatters[n]? := by
  rw [handle_formatters]
  cases s.formatters[h.formatter]? with
  | none => rfl
  | some f => simp only [get_update]; rw [if_neg hn]

theorem fold_handle_other (l : Level) (t : Text) (n : Nat) : ∀ (hs : List Handler) (s : LogState),
    (∀ h ∈ hs, h.formatter ≠ n) → (hs.foldl (handle l t) s).formatters[n]? = s.formatters[n]? := by
  intro hs
  induction hs with
  | nil => intro s _; rfl
  | cons h hs ih =>
    intro s hn
    rw [List.foldl_cons, ih _ (fun h' hh' => hn h' (List.mem_cons_of_mem _ hh')),
      handle_other l t s h n (hn h List.mem_cons_self)]

theorem handle_own (l : Level) (t : Text) (s : LogState) (h : Handler) {f : Formatter}
    (hf : s.formatters[h.formatter]? = some f) : (handle l t s h).formatters[h.formatter]? = some (f.format l t).1 := by
  rw [handle_formatters, hf]
  simp only [get_update, if_true, hf]
  rfl

theorem setIntro_console (s : LogState) (header : Bool) (hne : s.console ≠ s.forFiles) :
    (setIntro s header).formatters[s.console]? = (s.formatters[s.console]?).map fun f => { f with intro := some header } := by
  unfold setIntro
  rw [get_update, if_neg (fun h => hne h.symm), get_update, if_pos rfl]

/-- The console belongs to the project, and so many warnings and errors have been counted. -/
structure OwnConsole (s : LogState) (f : Formatter) : Prop where
  ne : s.console ≠ s.forFiles
  fmt : s.formatters[s.console]? = some f
  handlers : ∃ hs, s.handlers = ⟨none, s.console⟩ :: hs ∧ ∀ h ∈ hs, h.formatter = s.forFiles

theorem fold_handle_shape (l : Level) (t : Text) : ∀ (hs : List Handler) (s : LogState), SameLog s (hs.foldl (handle l t) s) := by
  intro hs
  induction hs with
  | nil => intro s; exact SameLog.refl s
  | cons h hs ih => intro s; exact (handle_same l t s h).trans (ih _)

theorem logMessage_own {s : LogState} {f : Formatter} (h : OwnConsole s f) (l : Level) (t : Text) (header : Bool) :
    OwnConsole (logMessage s l t header) (({ f with intro := some header } : Formatter).format l t).1 := by
  have h1 := setIntro_same s header
  have h2 : SameLog s (logMessage s l t header) := h1.trans (fold_handle_shape l t _ _)
  obtain ⟨hs, hhs, hof⟩ := h.handlers
  refine ⟨by rw [h2.console, h2.forFiles]; exact h.ne, ?_, hs, by rw [h2.handlers, h2.console]; exact hhs,
    by rw [h2.forFiles]; exact hof⟩
  rw [h2.console]
  change ((setIntro s header).handlers.foldl (handle l t) (setIntro s header)).formatters[s.console]? = _
  rw [h1.handlers, hhs, List.foldl_cons, fold_handle_other l t s.console hs _ (by
    intro h' hh'
    rw [hof h' hh']
    exact fun he => h.ne he.symm)]
  have hc := setIntro_console s header h.ne
  rw [h.fmt] at hc
  exact handle_own l t (setIntro s header) ⟨none, s.console⟩ hc

theorem update_own {s : LogState} {f : Formatter} (h : OwnConsole s f) (g : Formatter → Formatter) :
    OwnConsole (s.update s.console g) (g f) := by
  refine ⟨h.ne, ?_, h.handlers⟩
  change (s.update s.console g).formatters[s.console]? = _
  rw [get_update, if_pos rfl, h.fmt]
  rfl

theorem update_own_other {s : LogState} {f : Formatter} (h : OwnConsole s f) (g : Formatter → Formatter) :
    OwnConsole (s.update s.forFiles g) f := by
  refine ⟨h.ne, ?_, h.handlers⟩
  change (s.update s.forFiles g).formatters[s.console]? = _
  rw [get_update, if_neg (fun he => h.ne he.symm)]
  exact h.fmt

/-- The formatter shows messages as messages, and has counted so many. -/
def Counted (f : Formatter) (w e : Nat) : Prop := f.phase ≤ 0 ∧ f.phase ≠ -1 ∧ f.warnings = w ∧ f.errors = e

theorem run_counts {s : LogState} {f : Formatter} {w e : Nat} (h : OwnConsole s f) (hc : Counted f w e) (op : LogOp)
    (hp : op ≠ .project) :
    ∃ f', OwnConsole (op.run s) f' ∧
      Counted f' (w + (Spec.countOf .warning [op])) (e + (Spec.countOf .error [op])) := by
  obtain ⟨h1, h2, h3, h4⟩ := hc
  cases op with
  | project => exact absurd rfl hp
  | message l t hd =>
    refine ⟨_, logMessage_own h l t hd, ?_⟩
    cases hd with
    | true =>
      have hz : ∀ k, Spec.countOf k [LogOp.message l t true] = 0 := by
        intro k
        unfold Spec.countOf
        rw [List.filter_cons_of_neg (by simp [Spec.IsOf])]
        rfl
      rw [hz, hz]
      exact ⟨h1, h2, h3, h4⟩
    | false =>
      have hz : ∀ k, Spec.countOf k [LogOp.message l t false] = if l = k then 1 else 0 := by
        intro k
        unfold Spec.countOf
        by_cases hk : l = k
        · rw [List.filter_cons_of_pos (by simp [Spec.IsOf, hk]), if_pos hk]; rfl
        · rw [List.filter_cons_of_neg (by simp [Spec.IsOf, hk]), if_neg hk]; rfl
      rw [hz, hz]
      unfold Formatter.format
      simp only
      rw [if_neg (by omega), if_neg h2]
      exact ⟨h1, h2, by simp only [h3], by simp only [h4]⟩
  | start name =>
    refine ⟨_, logMessage_own (update_own_other (update_own h fun f => { f with phase := 1 }) fun f => { f with phase := 1 })
      _ _ _, ?_⟩
    exact ⟨(by decide : (0 : Int) ≤ 0), (by decide : (0 : Int) ≠ -1), h3, h4⟩
  | finish =>
    refine ⟨_, logMessage_own (update_own h fun f => { f with phase := -1 }) _ _ _, ?_⟩
    exact ⟨(by decide : (-2 : Int) ≤ 0), (by decide : (-2 : Int) ≠ -1), h3, h4⟩
  | logfile file =>
    refine ⟨f, ⟨h.ne, h.fmt, ?_⟩, h1, h2, h3, h4⟩
    obtain ⟨hs, hhs, hof⟩ := h.handlers
    refine ⟨hs ++ [⟨some file, s.forFiles⟩], ?_, ?_⟩
    · change s.handlers ++ _ = _
      rw [hhs]; rfl
    · intro h' hh'
      rcases List.mem_append.mp hh' with hm | hm
      · exact hof h' hm
      · rw [List.mem_singleton.mp hm]; rfl

theorem countOf_cons (k : Level) (op : LogOp) (ops : List LogOp) :
    Spec.countOf k (op :: ops) = Spec.countOf k [op] + Spec.countOf k ops := by
  unfold Spec.countOf
  rw [← List.length_append, ← List.filter_append]
  rfl

theorem runLog_counts : ∀ (ops : List LogOp) (s : LogState) (f : Formatter) (w e : Nat), OwnConsole s f → Counted f w e →
    Spec.OneProject ops →
    ∃ f', OwnConsole (runLog s ops) f' ∧
      Counted f' (w + Spec.countOf .warning ops) (e + Spec.countOf .error ops) := by
  intro ops
  induction ops with
  | nil => intro s f w e h hc _; exact ⟨f, h, hc⟩
  | cons op ops ih =>
    intro s f w e h hc hp
    obtain ⟨f', h', hc'⟩ := run_counts h hc op (fun he => hp (by rw [he]; exact List.mem_cons_self))
    obtain ⟨f'', h'', hc''⟩ := ih _ f' _ _ h' hc' (fun hm => hp (List.mem_cons_of_mem _ hm))
    refine ⟨f'', h'', ?_⟩
    rw [countOf_cons .warning op, countOf_cons .error op, ← Nat.add_assoc, ← Nat.add_assoc]
    exact hc''

theorem open_first : ∃ f, OwnConsole (openProject noLog) f ∧ Counted f 0 0 := by
  refine ⟨_, logMessage_own (update_own_other (update_own (f := { forFile := false })
    (s := createLogger noLog) ⟨by decide, rfl, [], rfl, by intro _ h; cases h⟩ fun f => { f with phase := 1 })
    fun f => { f with phase := 1 }) _ _ _, ?_⟩
  exact ⟨by decide, by decide, rfl, rfl⟩

/-- The formatter of the console on the logger is not the one of any handler: nothing is counted. -/
structure LostConsole (s : LogState) : Prop where
  ne : s.console ≠ s.forFiles
  fmt : ∃ f, s.formatters[s.console]? = some f ∧ f.warnings = 0 ∧ f.errors = 0
  handlers : ∀ h ∈ s.handlers, h.formatter ≠ s.console

theorem logMessage_lost {s : LogState} (h : LostConsole s) (l : Level) (t : Text) (header : Bool) :
    LostConsole (logMessage s l t header) := by
  have h1 := setIntro_same s header
  have h2 : SameLog s (logMessage s l t header) := h1.trans (fold_handle_shape l t _ _)
  obtain ⟨f, hf, hw, he⟩ := h.fmt
  refine ⟨by rw [h2.console, h2.forFiles]; exact h.ne, ⟨{ f with intro := some header }, ?_, hw, he⟩,
    by rw [h2.handlers, h2.console]; exact h.handlers⟩
  rw [h2.console]
  change ((setIntro s header).handlers.foldl (handle l t) (setIntro s header)).formatters[s.console]? = _
  rw [fold_handle_other l t s.console _ _ (by rw [h1.handlers]; exact h.handlers), setIntro_console s header h.ne, hf]
  rfl

theorem update_lost {s : LogState} (h : LostConsole s) (n : Nat) (g : Formatter → Formatter)
    (hg : ∀ f, (g f).warnings = f.warnings ∧ (g f).errors = f.errors) : LostConsole (s.update n g) := by
  obtain ⟨f, hf, hw, he⟩ := h.fmt
  refine ⟨h.ne, ?_, h.handlers⟩
  change ∃ f, (s.update n g).formatters[s.console]? = some f ∧ _
  rw [get_update, hf]
  split
  · exact ⟨g f, rfl, by rw [(hg f).1, hw], by rw [(hg f).2, he]⟩
  · exact ⟨f, rfl, hw, he⟩

theorem run_lost {s : LogState} (h : LostConsole s) (op : LogOp) (hp : op ≠ .project) : LostConsole (op.run s) := by
  cases op with
  | project => exact absurd rfl hp
  | message l t hd => exact logMessage_lost h l t hd
  | start name =>
    exact logMessage_lost (update_lost (update_lost h _ (fun f => { f with phase := 1 }) (fun _ => ⟨rfl, rfl⟩)) _
      (fun f => { f with phase := 1 }) (fun _ => ⟨rfl, rfl⟩)) _ _ _
  | finish => exact logMessage_lost (update_lost h _ (fun f => { f with phase := -1 }) (fun _ => ⟨rfl, rfl⟩)) _ _ _
  | logfile file =>
    refine ⟨h.ne, h.fmt, ?_⟩
    intro h' hh'
    rcases List.mem_append.mp hh' with hm | hm
    · exact h.handlers h' hm
    · rw [List.mem_singleton.mp hm]
      exact fun he => h.ne he.symm

theorem runLog_lost {s : LogState} (h : LostConsole s) (ops : List LogOp) (hp : Spec.OneProject ops) :
    LostConsole (runLog s ops) := by
  induction ops generalizing s with
  | nil => exact h
  | cons op ops ih =>
    exact ih (run_lost h op (fun he => hp (by rw [he]; exact List.mem_cons_self))) (fun hm => hp (List.mem_cons_of_mem _ hm))

/-- The log has a console handler and all handlers have a formatter. -/
structure HasConsole (s : LogState) : Prop where
  some : s.handlers.any (fun h => h.file.isNone) = true
  valid : ∀ h ∈ s.handlers, h.formatter < s.formatters.length
  ff : s.forFiles < s.formatters.length

theorem same_length {s s' : LogState} (h : SameLog s s') : s'.formatters.length = s.formatters.length := by
  have := congrArg List.length h.kinds
  unfold LogState.kinds at this
  rw [List.length_map, List.length_map] at this
  exact this

theorem HasConsole.same {s s' : LogState} (h : HasConsole s) (hs : SameLog s s') : HasConsole s' :=
  ⟨by rw [hs.handlers]; exact h.some, by rw [hs.handlers, same_length hs]; exact h.valid,
    by rw [hs.forFiles, same_length hs]; exact h.ff⟩

theorem logMessage_same (s : LogState) (l : Level) (t : Text) (header : Bool) : SameLog s (logMessage s l t header) :=
  (setIntro_same s header).trans (fold_handle_shape l t _ _)

theorem startTask_same (s : LogState) (name : Text) : SameLog s (startTask s name) :=
  ((same_update s s.console (fun f => { f with phase := 1 }) (fun _ _ => rfl)).trans
    (same_update _ s.forFiles (fun f => { f with phase := 1 }) (fun _ _ => rfl))).trans (logMessage_same _ _ _ _)

theorem finishTask_same (s : LogState) : SameLog s (finishTask s) :=
  (same_update s s.console (fun f => { f with phase := -1 }) (fun _ _ => rfl)).trans (logMessage_same _ _ _ _)

theorem create_hasConsole {s : LogState} (h : ∀ hd ∈ s.handlers, hd.formatter < s.formatters.length) :
    HasConsole (createLogger s) := by
  refine ⟨?_, ?_, ?_⟩
  · unfold createLogger
    simp only
    split
    · assumption
    · simp
  · intro hd hhd
    change hd.formatter < (s.formatters ++ [_, _]).length
    rw [List.length_append]
    unfold createLogger at hhd
    simp only at hhd
    split at hhd
    · have := h hd hhd; omega
    · rcases List.mem_append.mp hhd with hm | hm
      · have := h hd hm; omega
      · rw [List.mem_singleton.mp hm]; change s.formatters.length < _ + 2; omega
  · change s.formatters.length + 1 < (s.formatters ++ [_, _]).length
    rw [List.length_append]
    change _ < _ + 2
    omega

theorem run_hasConsole {s : LogState} (h : HasConsole s) (op : LogOp) : HasConsole (op.run s) := by
  cases op with
  | project => exact (create_hasConsole h.valid).same (startTask_same _ _)
  | message l t hd => exact h.same (logMessage_same s l t hd)
  | start name => exact h.same (startTask_same s name)
  | finish => exact h.same (finishTask_same s)
  | logfile file =>
    refine ⟨?_, ?_, h.ff⟩
    · change (s.handlers ++ [_]).any _ = true
      rw [List.any_append, h.some]; rfl
    · intro hd hhd
      rcases List.mem_append.mp hhd with hm | hm
      · exact h.valid hd hm
      · rw [List.mem_singleton.mp hm]; exact h.ff

theorem runLog_hasConsole {s : LogState} (h : HasConsole s) (ops : List LogOp) : HasConsole (runLog s ops) := by
  induction ops generalizing s with
  | nil => exact h
  | cons op ops ih => exact ih (run_hasConsole h op)

theorem open_lost {s : LogState} (h : HasConsole s) : LostConsole (openProject s) := by
  have hc : LostConsole (createLogger s) := by
    refine ⟨?_, ⟨{ forFile := false }, ?_, rfl, rfl⟩, ?_⟩
    · change s.formatters.length ≠ s.formatters.length + 1
      omega
    · change (s.formatters ++ [_, _])[s.formatters.length]? = _
      rw [List.getElem?_append_right (Nat.le_refl _), Nat.sub_self]; rfl
    · intro hd hhd
      unfold createLogger at hhd
      simp only [h.some, if_true] at hhd
      have := h.valid hd hhd
      change hd.formatter ≠ s.formatters.length
      omega
  exact logMessage_lost (update_lost (update_lost hc _ (fun f => { f with phase := 1 }) (fun _ => ⟨rfl, rfl⟩)) _
      (fun f => { f with phase := 1 }) (fun _ => ⟨rfl, rfl⟩)) _ _ _

theorem open_hasConsole : HasConsole (openProject noLog) :=
  (create_hasConsole (by intro _ h; cases h)).same (startTask_same _ _)

/-! ## A file handler of the project's own -/

/-- One handler writes to the file; it is the only one with the formatter for files that is in use. -/
structure OwnFile (s : LogState) (file : Text) (f : Formatter) : Prop where
  ne : s.console ≠ s.forFiles
  fmt : s.formatters[s.forFiles]? = some f
  kind : f.forFile = true ∧ 0 ≤ f.phase ∧ f.phase ≤ 1
  handlers : ∃ hs, s.handlers = hs ++ [⟨some file, s.forFiles⟩] ∧ ∀ h ∈ hs, h.formatter ≠ s.forFiles ∧ h.file ≠ some file

theorem setIntro_forFiles (s : LogState) (header : Bool) (hne : s.console ≠ s.forFiles) :
    (setIntro s header).formatters[s.forFiles]? = (s.formatters[s.forFiles]?).map fun f => { f with intro := some header } := by
  unfold setIntro
  rw [get_update, if_pos rfl, get_update, if_neg hne]

theorem fold_handle_files_other (l : Level) (t : Text) (file : Text) : ∀ (hs : List Handler) (s : LogState),
    (∀ h ∈ hs, h.file ≠ some file) → (hs.foldl (handle l t) s).files file = s.files file := by
  intro hs
  induction hs with
  | nil => intro s _; rfl
  | cons h hs ih =>
    intro s hn
    rw [List.foldl_cons, ih _ (fun h' hh' => hn h' (List.mem_cons_of_mem _ hh')),
      handle_not_written l t s h file (hn h List.mem_cons_self)]

/-- Logging a message writes to the file what the formatter for files says. -/
theorem logMessage_ownFile {s : LogState} {file : Text} {f : Formatter} (h : OwnFile s file f) (l : Level) (t : Text)
    (header : Bool) {line : Line} (hl : (({ f with intro := some header } : Formatter).format l t).2 = some line) :
    OwnFile (logMessage s l t header) file (({ f with intro := some header } : Formatter).format l t).1 ∧
      (logMessage s l t header).files file = s.files file ++ [line] := by
  have h1 := setIntro_same s header
  have h2 := logMessage_same s l t header
  obtain ⟨hs, hhs, hof⟩ := h.handlers
  obtain ⟨k1, k2, k3⟩ := h.kind
  have hmsg : logMessage s l t header = handle l t (hs.foldl (handle l t) (setIntro s header)) ⟨some file, s.forFiles⟩ := by
    change (setIntro s header).handlers.foldl (handle l t) (setIntro s header) = _
    rw [h1.handlers, hhs, List.foldl_append]
    rfl
  have hF : (hs.foldl (handle l t) (setIntro s header)).formatters[s.forFiles]? = some { f with intro := some header } := by
    rw [fold_handle_other l t s.forFiles hs _ (fun h' hh' => (hof h' hh').1), setIntro_forFiles s header h.ne, h.fmt]
    rfl
  refine ⟨⟨by rw [h2.console, h2.forFiles]; exact h.ne, ?_, ?_, hs, by rw [h2.handlers, h2.forFiles]; exact hhs,
    by rw [h2.forFiles]; exact hof⟩, ?_⟩
  · rw [h2.forFiles, hmsg]
    exact handle_own l t _ ⟨some file, s.forFiles⟩ hF
  · refine ⟨by rw [format_forFile]; exact k1, ?_⟩
    unfold Formatter.format
    simp only
    cases header with
    | true => exact ⟨k2, k3⟩
    | false =>
      simp only
      split
      · change 0 ≤ f.phase - 1 ∧ f.phase - 1 ≤ 1
        constructor <;> omega
      · rw [if_neg (by omega)]; exact ⟨k2, k3⟩
  · rw [hmsg, handle_written l t _ ⟨some file, s.forFiles⟩ file rfl hF hl,
      fold_handle_files_other l t file hs _ (fun h' hh' => (hof h' hh').2)]
    rfl

theorem update_ownFile_console {s : LogState} {file : Text} {f : Formatter} (h : OwnFile s file f) (g : Formatter → Formatter) :
    OwnFile (s.update s.console g) file f := by
  refine ⟨h.ne, ?_, h.kind, h.handlers⟩
  change (s.update s.console g).formatters[s.forFiles]? = _
  rw [get_update, if_neg h.ne]
  exact h.fmt

theorem update_ownFile {s : LogState} {file : Text} {f : Formatter} (h : OwnFile s file f) :
    OwnFile (s.update s.forFiles fun f => { f with phase := 1 }) file { f with phase := 1 } := by
  refine ⟨h.ne, ?_, ⟨h.kind.1, (by decide : (0 : Int) ≤ 1), (by decide : (1 : Int) ≤ 1)⟩, h.handlers⟩
  change (s.update s.forFiles _).formatters[s.forFiles]? = _
  rw [get_update, if_pos rfl, h.fmt]
  rfl

theorem format_own {f : Formatter} (hk : f.forFile = true ∧ 0 ≤ f.phase ∧ f.phase ≤ 1) (l : Level) (t : Text)
    (hl : l ≠ .critical) :
    ∃ line, (({ f with intro := some false } : Formatter).format l t).2 = some line ∧
      (line = .header t ∨ line = .message l t) := by
  unfold Formatter.format
  simp only
  split
  · exact ⟨_, rfl, Or.inl rfl⟩
  · rw [if_neg (by omega)]
    exact ⟨.message l t, by simp [hl], Or.inr rfl⟩

/-- A step of the project's own history. -/
theorem run_ownFile {s : LogState} {file : Text} {f : Formatter} (h : OwnFile s file f) (op : LogOp) (hp : op ≠ .project)
    (hf : ∀ g, op ≠ .logfile g) (hc : ∀ t, op ≠ .message .critical t false) :
    ∃ f' line, OwnFile (op.run s) file f' ∧ (op.run s).files file = s.files file ++ [line] ∧ Spec.ShowsStep line op := by
  cases op with
  | project => exact absurd rfl hp
  | logfile g => exact absurd rfl (hf g)
  | message l t hd =>
    cases hd with
    | true =>
      obtain ⟨h1, h2⟩ := logMessage_ownFile h l t true (line := .intro t) rfl
      exact ⟨_, _, h1, h2, rfl⟩
    | false =>
      obtain ⟨line, hl, hs⟩ := format_own h.kind l t (by intro he; subst he; exact hc t rfl)
      obtain ⟨h1, h2⟩ := logMessage_ownFile h l t false hl
      exact ⟨_, _, h1, h2, hs⟩
  | start name =>
    obtain ⟨h1, h2⟩ := logMessage_ownFile (update_ownFile (update_ownFile_console h fun f => { f with phase := 1 })) .info
      ("Starting new task: ".toList ++ name) false (line := .header ("Starting new task: ".toList ++ name)) rfl
    exact ⟨_, _, h1, h2, rfl⟩
  | finish =>
    obtain ⟨line, hl, hs⟩ := format_own h.kind .info [] (by decide)
    obtain ⟨h1, h2⟩ := logMessage_ownFile (update_ownFile_console h fun f => { f with phase := -1 }) .info [] false hl
    exact ⟨_, _, h1, h2, hs⟩

theorem runLog_ownFile (file : Text) : ∀ (ops : List LogOp) (s : LogState) (f : Formatter), OwnFile s file f →
    Spec.OneProject ops → (∀ g, LogOp.logfile g ∉ ops) → (∀ t, LogOp.message .critical t false ∉ ops) →
    ∃ lines, (runLog s ops).files file = s.files file ++ lines ∧ List.Forall₂ Spec.ShowsStep lines ops := by
  intro ops
  induction ops with
  | nil => intro s _ _ _ _ _; exact ⟨[], (List.append_nil _).symm, .nil⟩
  | cons op ops ih =>
    intro s f h hp hf hc
    obtain ⟨f', line, h1, h2, h3⟩ := run_ownFile h op (fun he => hp (by rw [he]; exact List.mem_cons_self))
      (fun g he => hf g (by rw [he]; exact List.mem_cons_self)) (fun t he => hc t (by rw [he]; exact List.mem_cons_self))
    obtain ⟨lines, h4, h5⟩ := ih (op.run s) f' h1 (fun hm => hp (List.mem_cons_of_mem _ hm))
      (fun g hm => hf g (List.mem_cons_of_mem _ hm)) (fun t hm => hc t (List.mem_cons_of_mem _ hm))
    refine ⟨line :: lines, ?_, .cons h3 h5⟩
    change (runLog (op.run s) ops).files file = _
    rw [h4, h2, List.append_assoc]
    rfl

theorem no_writers {file : Text} {hs : List Handler} (h : writersTo file hs = 0) : ∀ hd ∈ hs, hd.file ≠ some file := by
  unfold writersTo at h
  intro hd hm he
  exact absurd (decide_eq_true he) ((List.countP_eq_zero.mp h) hd hm)

theorem logMessage_files_other (s : LogState) (l : Level) (t : Text) (header : Bool) (file : Text)
    (h : ∀ hd ∈ s.handlers, hd.file ≠ some file) : (logMessage s l t header).files file = s.files file := by
  change ((setIntro s header).handlers.foldl (handle l t) (setIntro s header)).files file = _
  rw [fold_handle_files_other l t file _ _ (by rw [(setIntro_same s header).handlers]; exact h)]
  rfl

/-- A step writes nothing to a file that has no handler. -/
theorem run_file_none (s : LogState) (op : LogOp) (file : Text) (hw : writersTo file s.handlers = 0)
    (hf : s.files file = []) : (op.run s).files file = [] := by
  have h := no_writers hw
  cases op with
  | project =>
    change (logMessage _ _ _ _).files file = []
    rw [logMessage_files_other _ _ _ _ _ (no_writers (by
      change writersTo file (createLogger s).handlers = 0
      rw [writersTo_create]
      exact hw))]
    exact hf
  | message l t hd => exact (logMessage_files_other s l t hd file h).trans hf
  | start name =>
    change (logMessage _ _ _ _).files file = []
    rw [logMessage_files_other _ _ _ _ file (by exact h)]
    exact hf
  | finish =>
    change (logMessage _ _ _ _).files file = []
    rw [logMessage_files_other _ _ _ _ file (by exact h)]
    exact hf
  | logfile g => exact hf

/-- Before its handler is made, nothing is in a log file. -/
theorem before_file (file : Text) : ∀ (before : List LogOp) (s : LogState), GoodLog s → LogOp.logfile file ∉ before →
    writersTo file s.handlers = 0 → s.files file = [] →
    writersTo file (runLog s before).handlers = 0 ∧ (runLog s before).files file = [] := by
  intro before
  induction before with
  | nil => intro s _ _ hw hf; exact ⟨hw, hf⟩
  | cons op before ih =>
    intro s hg hm hw hf
    have hne : op ≠ .logfile file := fun he => hm (by rw [he]; exact List.mem_cons_self)
    exact ih (op.run s) (run_good hg op) (fun h => hm (List.mem_cons_of_mem _ h))
      (by rw [run_writers hg op file hne]; exact hw) (run_file_none s op file hw hf)

theorem open_ownFile (before : List LogOp) (file : Text) (h0 : LogOp.logfile file ∉ before) :
    ∃ f, OwnFile (setLogfile (openProject (runLog (openProject noLog) before)) file) file f ∧
      (setLogfile (openProject (runLog (openProject noLog) before)) file).files file = [] := by
  have hg0 : GoodLog (openProject noLog) := open_good (Or.inr ⟨rfl, rfl⟩)
  obtain ⟨hw, hf⟩ := before_file file before _ hg0 h0 rfl rfl
  have hcon := runLog_hasConsole open_hasConsole before
  have hg := runLog_good hg0 before
  revert hw hf hcon hg
  generalize runLog (openProject noLog) before = s
  intro hw hf hcon hg
  have hsame := startTask_same (createLogger s) "Loading configuration file".toList
  have hhand : (createLogger s).handlers = s.handlers := by
    unfold createLogger
    simp only [hcon.some, if_true]
  have hne : ∀ h ∈ s.handlers, h.formatter ≠ s.formatters.length + 1 := by
    intro h hh
    have := hcon.valid h hh
    omega
  refine ⟨{ forFile := true, phase := 1, intro := some false }, ⟨?_, ?_, ⟨rfl, by decide, by decide⟩, s.handlers, ?_, ?_⟩, ?_⟩
  · change (startTask _ _).console ≠ (startTask _ _).forFiles
    rw [hsame.console, hsame.forFiles]
    change s.formatters.length ≠ s.formatters.length + 1
    omega
  · change (startTask _ _).formatters[(startTask _ _).forFiles]? = _
    rw [hsame.forFiles]
    change (logMessage _ _ _ _).formatters[s.formatters.length + 1]? = _
    change (List.foldl (handle _ _) (setIntro _ _) (setIntro _ _).handlers).formatters[_]? = _
    rw [(setIntro_same _ _).handlers]
    change (List.foldl (handle _ _) (setIntro _ _) (createLogger s).handlers).formatters[_]? = _
    rw [hhand, fold_handle_other _ _ _ _ _ hne]
    have hlast : (createLogger s).formatters[s.formatters.length + 1]? = some { forFile := true } := by
      change (s.formatters ++ [_, _])[s.formatters.length + 1]? = _
      rw [List.getElem?_append_right (Nat.le_succ _), Nat.succ_sub (Nat.le_refl _), Nat.sub_self]
      rfl
    have hnn : ¬ (s.formatters.length = s.formatters.length + 1) := by omega
    have := setIntro_forFiles (((createLogger s).update (createLogger s).console fun f => { f with phase := 1 }).update
      (createLogger s).forFiles fun f => { f with phase := 1 }) false hnn
    refine Eq.trans this ?_
    change Option.map _ ((((createLogger s).update (createLogger s).console fun f => { f with phase := 1 }).update
      (createLogger s).forFiles fun f => { f with phase := 1 }).formatters[s.formatters.length + 1]?) = _
    rw [get_update, get_update]
    change Option.map _ (if s.formatters.length + 1 = s.formatters.length + 1 then Option.map _
      (if s.formatters.length = s.formatters.length + 1 then _ else _) else _) = _
    rw [if_pos rfl, if_neg hnn, hlast]
    rfl
  · change (startTask _ _).handlers ++ [_] = _
    rw [hsame.handlers, hhand]
    rfl
  · intro h hh
    refine ⟨?_, no_writers hw h hh⟩
    change h.formatter ≠ (startTask _ _).forFiles
    rw [hsame.forFiles]
    exact hne h hh
  · exact run_file_none s .project file hw hf

end Fm2prof
