import Verif.Model.Log

/-!
# What the log is expected to say
-/

namespace Fm2prof.Spec

/-- An ordinary message of a level, that is not part of the introduction. -/
def IsOf (level : Level) : LogOp → Bool
  | .message l _ header => decide (l = level) && !header
  | _ => false

/-- The number of messages of a level in a history. -/
def countOf (level : Level) (ops : List LogOp) : Nat := (ops.filter (IsOf level)).length

/-- No other project is made during the history. -/
def OneProject (ops : List LogOp) : Prop := LogOp.project ∉ ops

/-- No critical message is logged during the history. -/
def NoCritical (ops : List LogOp) : Prop := ∀ t h, LogOp.message .critical t h ∉ ops

/-- A message: its level, its text. -/
abbrev Message := Level × Text

/-- The messages logged by a step of a history. -/
def logged : LogOp → List Message
  | .project => [(.info, "Starting new task: Loading configuration file".toList)]
  | .message l t _ => [(l, t)]
  | .start name => [(.info, "Starting new task: ".toList ++ name)]
  | .finish => [(.info, [])]
  | .logfile _ => []

/-- A line shows a message: in the introduction, as the header of a task, or with its level. -/
def Shows (line : Line) (m : Message) : Prop := line = .intro m.2 ∨ line = .header m.2 ∨ line = .message m.1 m.2

/-- A line shows a step of the project's own history as intended: an introduction as such, the start of a task as a header,
other messages with their level unless they open the task. -/
def ShowsStep (line : Line) : LogOp → Prop
  | .message _ t true => line = .intro t
  | .message l t false => line = .header t ∨ line = .message l t
  | .start name => line = .header ("Starting new task: ".toList ++ name)
  | .finish => line = .header [] ∨ line = .message .info []
  | _ => False

end Fm2prof.Spec
