import Verif.Spec.OneSetting
import Mathlib.Logic.Function.Iterate

/-!
# Profiles with a larger smallest width
-/

namespace Fm2prof.Spec

variable {K : Type} [LinearOrder K]

/-- Each width of the second list is that of the first, or it is larger and not more than the smallest width `w` with as many of the
small steps `bump` as there are points below: these keep the widths apart. -/
def RaisedTo (bump : K → K) (w : K) (ws ws' : List K) : Prop :=
  ws'.length = ws.length ∧
    ∀ j a a', ws[j]? = some a → ws'[j]? = some a' → a' = a ∨ (a < a' ∧ a' ≤ bump^[j] w)

end Fm2prof.Spec
