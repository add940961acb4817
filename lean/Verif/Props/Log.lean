import Verif.Proofs.Log

/-!
# Properties of the log: C64, C93, C94
-/

namespace Fm2prof.Props

open Fm2prof Fm2prof.Spec

/-- C64, partial: for the first project of the process, the numbers reported are those of the warnings and errors logged since
the project was made. Missing: the same for a single run of it and for later projects, see `C64_second_run_violated` and
`C64_second_project_violated`. -/
theorem C64_counts_partial (ops : List LogOp) (h : OneProject ops) :
    logReport (runLog (openProject noLog) ops) = some (countOf .warning ops, countOf .error ops) := by
  obtain ⟨f, h1, h2⟩ := open_first
  obtain ⟨f', h3, _, _, h5, h6⟩ := runLog_counts ops _ f 0 0 h1 h2 h
  unfold logReport
  rw [h3.fmt, Option.map_some, h5, h6, Nat.zero_add, Nat.zero_add]

/-- What a run may log: a start, a warning, an error, a finish. -/
def sampleRun : List LogOp :=
  [.start "Initialising FM2PROF".toList, .message .warning "w".toList false, .finish, .start "Finalizing".toList,
    .message .error "e".toList false, .message .info "Warnings: 1".toList false, .finish]

/-- What the constructor of a project logs after its log file is set. -/
def sampleOpening (file : Text) : List LogOp :=
  [.logfile file, .finish, .message .info "FM2PROF".toList true]

example : OneProject (sampleOpening "a/fm2prof.log".toList ++ sampleRun) ∧
    countOf .warning (sampleOpening "a/fm2prof.log".toList ++ sampleRun) = 1 ∧
    countOf .error (sampleOpening "a/fm2prof.log".toList ++ sampleRun) = 1 := by
  unfold OneProject
  decide

/-- C64 is false of a second run of a project: it reports the warnings and errors of both runs. -/
theorem C64_second_run_violated :
    ∃ before run : List LogOp, OneProject before ∧ OneProject run ∧
      logReport (runLog (runLog (openProject noLog) before) run) ≠ some (countOf .warning run, countOf .error run) :=
  ⟨sampleRun, sampleRun, by unfold OneProject; decide, by unfold OneProject; decide, by decide⟩

/-- C64 is false of every project after the first: whatever is logged, it reports no warnings and no errors. -/
theorem C64_second_project_violated (before ops : List LogOp) (h : OneProject ops) :
    logReport (runLog (openProject (runLog (openProject noLog) before)) ops) = some (0, 0) := by
  have h1 := runLog_lost (open_lost (runLog_hasConsole open_hasConsole before)) ops h
  obtain ⟨f, hf, hw, he⟩ := h1.fmt
  unfold logReport
  rw [hf, Option.map_some, hw, he]

example : OneProject sampleRun ∧ (0, 0) ≠ (countOf .warning sampleRun, countOf .error sampleRun) := by
  unfold OneProject
  decide

/-- C93, partial: after a log file is added, in any history of projects, it gets one line for every message logged, in the order
in which they are logged, if none is critical. Missing: critical messages, see `C93_critical_violated`. -/
theorem C93_complete_partial (before ops : List LogOp) (file : Text) (h0 : LogOp.logfile file ∉ before)
    (h1 : LogOp.logfile file ∉ ops) (hc : NoCritical ops) :
    List.Forall₂ Shows ((runLog (openProject noLog) (before ++ .logfile file :: ops)).files file) (ops.flatMap logged) := by
  have hg0 : GoodLog (openProject noLog) := open_good (Or.inr ⟨rfl, rfl⟩)
  obtain ⟨hw, hf⟩ := before_file file before _ hg0 h0 rfl rfl
  have hsplit : runLog (openProject noLog) (before ++ .logfile file :: ops) =
      runLog (setLogfile (runLog (openProject noLog) before) file) ops := by
    unfold runLog
    rw [List.foldl_append]
    rfl
  rw [hsplit]
  have hg1 := runLog_good hg0 before
  obtain ⟨lines, h2, h3⟩ := runLog_file file ops _ (run_good hg1 (.logfile file)) (by
    unfold writersTo at hw ⊢
    change List.countP _ (_ ++ [_]) = 1
    rw [List.countP_append, hw, List.countP_cons_of_pos (by simp)]
    rfl) h1 hc
  have h2' : (runLog (setLogfile (runLog (openProject noLog) before) file) ops).files file = lines := by
    have : (LogOp.run (runLog (openProject noLog) before) (.logfile file)).files file = [] := hf
    rw [this] at h2
    exact h2
  rw [h2']
  exact h3

/-- A project with a log file, and another one made after it. -/
example : LogOp.logfile "a/fm2prof.log".toList ∉ ([] : List LogOp) ∧
    LogOp.logfile "a/fm2prof.log".toList ∉ sampleRun ++ .project :: sampleOpening "b/fm2prof.log".toList ++ sampleRun ∧
    NoCritical (sampleRun ++ .project :: sampleOpening "b/fm2prof.log".toList ++ sampleRun) ∧
    ((sampleRun ++ .project :: sampleOpening "b/fm2prof.log".toList ++ sampleRun).flatMap logged).length = 17 := by
  refine ⟨by decide, by decide, ?_, by decide⟩
  intro t h hm
  simp only [sampleRun, sampleOpening, List.cons_append, List.nil_append, List.mem_cons, LogOp.message.injEq, reduceCtorEq,
    false_and, or_self, List.not_mem_nil] at hm

/-- C93 is false of critical messages: an ordinary critical message does not get into the log file. -/
theorem C93_critical_violated :
    ∃ (ops : List LogOp) (file : Text), LogOp.logfile file ∉ ops ∧ OneProject ops ∧
      ¬ List.Forall₂ Shows ((runLog (openProject noLog) (.logfile file :: ops)).files file) (ops.flatMap logged) := by
  refine ⟨[.finish, .message .critical "c".toList false], "fm2prof.log".toList, by decide, by unfold OneProject; decide, ?_⟩
  intro h
  exact absurd h.length_eq (by decide)

/-- C93: during the life of one project with one log file, every step is shown as intended in the project's log file. -/
theorem C93_own_partial (before ops : List LogOp) (file : Text) (h0 : LogOp.logfile file ∉ before)
    (hp : OneProject ops) (hf : ∀ g, LogOp.logfile g ∉ ops) (hc : ∀ t, LogOp.message .critical t false ∉ ops) :
    List.Forall₂ ShowsStep ((runLog (openProject (runLog (openProject noLog) before)) (.logfile file :: ops)).files file) ops := by
  obtain ⟨f, h1, h2⟩ := open_ownFile before file h0
  obtain ⟨lines, h3, h4⟩ := runLog_ownFile file ops _ f h1 hp hf hc
  have : (runLog (openProject (runLog (openProject noLog) before)) (.logfile file :: ops)).files file = lines := by
    change (runLog (setLogfile (openProject (runLog (openProject noLog) before)) file) ops).files file = _
    rw [h3, h2]
    rfl
  rw [this]
  exact h4

example : OneProject (.finish :: .message .info "FM2PROF".toList true :: sampleRun) ∧
    (∀ g, LogOp.logfile g ∉ .finish :: .message .info "FM2PROF".toList true :: sampleRun) ∧
    (∀ t, LogOp.message .critical t false ∉ .finish :: .message .info "FM2PROF".toList true :: sampleRun) := by
  refine ⟨by unfold OneProject; decide, ?_, ?_⟩ <;> intro t hm <;>
    simp only [sampleRun, List.mem_cons, LogOp.message.injEq, reduceCtorEq, false_and, or_self, List.not_mem_nil] at hm

/-- C94, partial: as long as no other project is made, the log file of a project has no line that is not about a message of that
project. Missing: other projects, see `C94_violated`. -/
theorem C94_only_own_partial (before ops : List LogOp) (file : Text) (h0 : LogOp.logfile file ∉ before)
    (hp : OneProject ops) (hf : ∀ g, LogOp.logfile g ∉ ops) (hc : ∀ t, LogOp.message .critical t false ∉ ops) :
    ∀ line ∈ (runLog (openProject (runLog (openProject noLog) before)) (.logfile file :: ops)).files file,
      ∃ op ∈ ops, ShowsStep line op := by
  have h := C93_own_partial before ops file h0 hp hf hc
  intro line hline
  obtain ⟨i, hi, rfl⟩ := List.mem_iff_getElem.mp hline
  refine ⟨ops[i]'(by rw [← h.length_eq]; exact hi), List.getElem_mem _, ?_⟩
  exact h.get hi (by rw [← h.length_eq]; exact hi)

/-- C94 is false: whatever a later project logs is written to the log file of the first as well. -/
theorem C94_violated (ops later : List LogOp) (file : Text) (h1 : LogOp.logfile file ∉ ops) (h2 : LogOp.logfile file ∉ later)
    (hc : NoCritical ops) (hc' : NoCritical later) :
    ∃ own others, (runLog (openProject noLog) (.logfile file :: ops ++ .project :: later)).files file = own ++ others ∧
      List.Forall₂ Shows own (ops.flatMap logged) ∧
      List.Forall₂ Shows others ((LogOp.project :: later).flatMap logged) := by
  have h := C93_complete_partial [] (ops ++ .project :: later) file (by intro h; cases h)
    (by
      intro hm
      rcases List.mem_append.mp hm with hm | hm
      · exact h1 hm
      · rcases List.mem_cons.mp hm with hm | hm
        · cases hm
        · exact h2 hm)
    (by
      intro t hd hm
      rcases List.mem_append.mp hm with hm | hm
      · exact hc t hd hm
      · rcases List.mem_cons.mp hm with hm | hm
        · cases hm
        · exact hc' t hd hm)
  rw [List.flatMap_append] at h
  refine ⟨_, _, (List.take_append_drop (ops.flatMap logged).length _).symm, ?_, ?_⟩
  · exact List.forall₂_take_append _ _ _ h
  · exact List.forall₂_drop_append _ _ _ h

example : LogOp.logfile "a/fm2prof.log".toList ∉ sampleOpening "b/fm2prof.log".toList ++ sampleRun ∧
    ((LogOp.project :: sampleOpening "b/fm2prof.log".toList ++ sampleRun).flatMap logged).length = 10 := by decide

end Fm2prof.Props
