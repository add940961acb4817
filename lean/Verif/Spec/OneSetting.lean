import Verif.Spec.Pipeline

/-!
# Configurations that differ in one setting
-/

namespace Fm2prof.Spec

variable {K : Type}

/-- Another treatment of the volume behind summer dikes: `SDCorrection`, `SDOptimisationMethod`, `SDTransitionHeight` and
`SDFloodplainBase`. -/
def RunConfig.withSummerdike (on : Bool) (method : Int) (height tolerance : K) (c : RunConfig K) : RunConfig K :=
  { c with
    pipeline := { c.pipeline with sdCorrection := on, sdOptimisationMethod := method, sdTransitionHeight := height }
    floodplainTolerance := tolerance }

/-- Another maximum for the number of points of a profile: `MaximumPointsInProfile`. -/
def RunConfig.withPoints (n : Int) (c : RunConfig K) : RunConfig K :=
  { c with pipeline := { c.pipeline with maximumPoints := n } }

/-- Another smallest width: `MinimumTotalWidth`. -/
def RunConfig.withMinimumWidth (w : K) (c : RunConfig K) : RunConfig K :=
  { c with pipeline := { c.pipeline with minimumWidth := w } }

/-- Other files besides the results: `ExportCSSData` and `ExportMapFiles`. -/
def RunConfig.withExtraFiles (data maps : Bool) (c : RunConfig K) : RunConfig K :=
  { c with exportCssData := data, exportMapFiles := maps }

/-- Two definitions that agree in everything but the volume behind summer dikes. -/
def SameButDike [Field K] (d d' : CssDef K) : Prop :=
  d'.id = d.id ∧ d'.levels = d.levels ∧ d'.flowWidth = d.flowWidth ∧ d'.totalWidth = d.totalWidth ∧
    d'.mainSectionWidth = d.mainSectionWidth ∧ d'.fp1SectionWidth = d.fp1SectionWidth

/-- Two definitions that agree in the volume behind summer dikes. -/
def SameDike [Field K] (d d' : CssDef K) : Prop :=
  d'.id = d.id ∧ d'.sdCrest = d.sdCrest ∧ d'.sdFlowArea = d.sdFlowArea ∧ d'.sdTotalArea = d.sdTotalArea ∧
    d'.sdBaseLevel = d.sdBaseLevel

/-- The points of a definition. -/
def CssDef.points [Field K] (d : CssDef K) : List ((Option K × Option K) × Option K) := (d.levels.zip d.flowWidth).zip d.totalWidth

/-- A definition and one of the same cross-section with more points: it has only points that are in the other as well, in the same
order, from the same lowest to the same highest one, and everything else is the same. -/
def FewerPoints [Field K] (d d' : CssDef K) : Prop :=
  SameDike d d' ∧ d'.mainSectionWidth = d.mainSectionWidth ∧ d'.fp1SectionWidth = d.fp1SectionWidth ∧
    (CssDef.points d).Sublist (CssDef.points d') ∧ (CssDef.points d').head? = (CssDef.points d).head? ∧
    (CssDef.points d').getLast? = (CssDef.points d).getLast? ∧ d.levels.length = (CssDef.points d).length ∧
    d'.levels.length = (CssDef.points d').length

end Fm2prof.Spec
