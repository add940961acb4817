import Verif.Model.Text

/-!
# The log

Models the formatters, the logger and its handlers (`common.py`). Python's `logging` keeps one logger for the process: every
project replaces the formatters stored on it, while handlers made for earlier projects stay with theirs. A line is what is
logged, with the way it is shown; times, colours and progress bars are left out. A file is named by its path; two handlers
on one path append to the same file.
-/

namespace Fm2prof

/-- The levels accepted by `set_logger_message` (common.py:269-282). -/
inductive Level where
  | debug
  | info
  | warning
  | error
  | critical
  deriving DecidableEq, Repr

/-- How a record is shown (common.py:97-124). A footer does not show the message. -/
inductive Line where
  | intro (text : Text)
  | header (text : Text)
  | footer
  | message (level : Level) (text : Text)
  deriving DecidableEq, Repr

/-- `ElapsedFormatter` (common.py:48-159); `forFile` for `ElapsedFileFormatter` (common.py:162-175), which has no colours for
critical messages. `phase` is `__new_iteration`; `intro` is `_intro`, which does not exist before it is first set. -/
structure Formatter where
  forFile : Bool
  phase : Int := 1
  intro : Option Bool := none
  warnings : Nat := 0
  errors : Nat := 0
  deriving DecidableEq

/-- `ElapsedFormatter.format` (common.py:86-124): the formatter afterwards and the line. No line if an exception is raised, which
logging reports on the error stream and otherwise ignores. -/
def Formatter.format (f : Formatter) (level : Level) (text : Text) : Formatter × Option Line :=
  match f.intro with
  | none => (f, none)
  | some true => (f, some (.intro text))
  | some false =>
    if 0 < f.phase then ({ f with phase := f.phase - 1 }, some (.header text))
    else if f.phase = -1 then ({ f with phase := f.phase - 1 }, some .footer)
    else
      ({ f with
          warnings := f.warnings + (if level = .warning then 1 else 0)
          errors := f.errors + (if level = .error then 1 else 0) },
        if f.forFile && decide (level = .critical) then none else some (.message level text))

/-- A handler of the logger: the console or a file, and the number of its formatter. -/
structure Handler where
  file : Option Text
  formatter : Nat
  deriving DecidableEq

/-- The logger of the process: all formatters made so far, the numbers of the two stored on the logger, and the handlers.
`files` is what has been written to log files. -/
structure LogState where
  formatters : List Formatter
  console : Nat
  forFiles : Nat
  handlers : List Handler
  files : Text → List Line

/-- Before the first project. -/
def noLog : LogState := ⟨[], 0, 0, [], fun _ => []⟩

/-- `create_logger` (common.py:206-222). -/
def createLogger (s : LogState) : LogState :=
  { s with
    formatters := s.formatters ++ [{ forFile := false }, { forFile := true }]
    console := s.formatters.length
    forFiles := s.formatters.length + 1
    handlers := if s.handlers.any fun h => h.file.isNone then s.handlers
      else s.handlers ++ [⟨none, s.formatters.length⟩] }

/-- Changing a formatter. -/
def LogState.update (s : LogState) (n : Nat) (g : Formatter → Formatter) : LogState :=
  { s with formatters := s.formatters.modify n g }

/-- One handler treating a record: only lines of files are kept. -/
def handle (level : Level) (text : Text) (s : LogState) (h : Handler) : LogState :=
  match s.formatters[h.formatter]? with
  | none => s
  | some f =>
    let r := f.format level text
    let s' := s.update h.formatter fun _ => r.1
    match h.file, r.2 with
    | some file, some line => { s' with files := fun p => if p = file then s.files p ++ [line] else s.files p }
    | _, _ => s'

/-- A record goes to all handlers (`Logger.callHandlers`). -/
def emit (s : LogState) (level : Level) (text : Text) : LogState := s.handlers.foldl (handle level text) s

/-- `set_logger_message` (common.py:243-282). -/
def logMessage (s : LogState) (level : Level) (text : Text) (header : Bool) : LogState :=
  emit ((s.update s.console fun f => { f with intro := some header }).update s.forFiles fun f => { f with intro := some header })
    level text

/-- `start_new_log_task` (common.py:284-295). -/
def startTask (s : LogState) (name : Text) : LogState :=
  logMessage ((s.update s.console fun f => { f with phase := 1 }).update s.forFiles fun f => { f with phase := 1 })
    .info ("Starting new task: ".toList ++ name) false

/-- `finish_log_task` (common.py:297-304). -/
def finishTask (s : LogState) : LogState :=
  logMessage (s.update s.console fun f => { f with phase := -1 }) .info [] false

/-- `set_logfile` (common.py:314-331). -/
def setLogfile (s : LogState) (file : Text) : LogState :=
  { s with handlers := s.handlers ++ [⟨some file, s.forFiles⟩] }

/-- What the constructor of a project does to the log first (fm2prof_runner.py:90-94). -/
def openProject (s : LogState) : LogState := startTask (createLogger s) "Loading configuration file".toList

/-- What is done to the log: a project is made, a message is logged, a task is started or finished, a log file is added. -/
inductive LogOp where
  | project
  | message (level : Level) (text : Text) (header : Bool)
  | start (name : Text)
  | finish
  | logfile (file : Text)
  deriving DecidableEq

/-- Doing it. -/
def LogOp.run (s : LogState) : LogOp → LogState
  | .project => openProject s
  | .message level text header => logMessage s level text header
  | .start name => startTask s name
  | .finish => finishTask s
  | .logfile file => setLogfile s file

/-- A history of the log. -/
def runLog (s : LogState) (ops : List LogOp) : LogState := ops.foldl LogOp.run s

/-- `_print_log_report` (fm2prof_runner.py:958-961): the numbers of warnings and errors reported. -/
def logReport (s : LogState) : Option (Nat × Nat) := (s.formatters[s.console]?).map fun f => (f.warnings, f.errors)

end Fm2prof
