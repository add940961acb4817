import Verif.Model.Crash
import Verif.Spec.Runner

/-!
# Runs that are interrupted
-/

namespace Fm2prof.Spec

variable {S C : Type}

/-- The files in the output directory after runs of a project that were all stopped from outside: each one after some of its
writes, possibly inside the next one. -/
inductive AfterInterruptions (j : Job S C) (s : Store) : Store → Prop
  | start : AfterInterruptions j s s
  | again {s' : Store} (overwrite : Bool) (n : Nat) (p : Option Nat) :
    AfterInterruptions j s s' → AfterInterruptions j s (afterCrash s' (runWrites j overwrite s') n p)

end Fm2prof.Spec
