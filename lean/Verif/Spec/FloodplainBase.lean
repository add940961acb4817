import Verif.Spec.OneSetting

/-!
# Configurations that differ in the margin of the floodplain base level
-/

namespace Fm2prof.Spec

variable {K : Type}

/-- Another margin between the crest level of summer dikes and the floodplain base level: `SDFloodplainBase`. -/
def RunConfig.withMargin (t : K) (c : RunConfig K) : RunConfig K := { c with floodplainTolerance := t }

/-- Two definitions that agree in everything but the floodplain base level, which in the second is not higher, and lower by at
most `delta`. -/
def LowerBase [Field K] [LinearOrder K] (delta : K) (d d' : CssDef K) : Prop :=
  SameButDike d d' ∧ d'.sdCrest = d.sdCrest ∧ d'.sdFlowArea = d.sdFlowArea ∧ d'.sdTotalArea = d.sdTotalArea ∧
    ∃ b b', d.sdBaseLevel = some b ∧ d'.sdBaseLevel = some b' ∧ b' ≤ b ∧ b ≤ b' + delta

end Fm2prof.Spec
