import Mathlib.Analysis.SpecialFunctions.Pow.Real
import Verif.Model.Build
import Verif.Model.Simplify

/-!
# The volume correction and the geometry pipeline of one cross-section

Models `CrossSection.calculate_correction`, `_optimize_sd_storage`, `_get_extra_total_area`, `_return_volume_error`
(`cross_section.py`) and `_build_cross_section_geometry`, `_perform_2D_volume_correction`, `_reduce_css_points`
(`fm2prof_runner.py`).
-/

namespace Fm2prof

section Release

/-- `CrossSection._get_extra_total_area` (cross_section.py:1362-1378) at one level, over the real numbers. -/
noncomputable def releaseFraction (level crest transition : ℝ) : ℝ :=
  1 / (1 + (Real.exp 1) ^ (Real.log (1 / 100000) / transition * (level - (crest + 1 / 2 * transition))))

end Release

variable {K : Type} [Field K] [LinearOrder K] [IsStrictOrderedRing K]

/-- `CrossSection._return_volume_error` (cross_section.py:1388-1401): points with a missing value in either series are
dropped. -/
def volumeError (predicted measured : List (Option K)) : K :=
  ((predicted.zip measured).filterMap fun (p, m) =>
    p.bind fun p => m.map fun m => ((p - m) / max m 1) * ((p - m) / max m 1)).sum

/-- `np.max([a, b])` of a float that may be NaN and a number: NaN wins. -/
def omax (a : Option K) (b : K) : Option K := a.map fun x => max x b

/-- `np.min([a, b])` of two floats that may be NaN: NaN wins. -/
def omin2 (a b : Option K) : Option K := a.bind fun x => b.map fun y => min x y

/-- `np.max([a, b])` of two floats that may be NaN: NaN wins. -/
def omax2 (a b : Option K) : Option K := a.bind fun x => b.map fun y => max x y

/-- The calls of `scipy.optimize.minimize` in `_optimize_sd_storage` (cross_section.py:841-847, 853-859, 891-896). The
answers are arbitrary numbers, NaN included, and a call may raise. `crestAndVolume` gets the volume curve and the start
values, `volume` the volume curve, the crest level and the start value. -/
structure Optimiser (K : Type) where
  crestAndVolume : List K → K × Option K → Except PyErr (Option K × Option K)
  volume : List K → Option K → Option K → Except PyErr (Option K)
  both : K × Option K × Option K → Except PyErr (Option K × Option K × Option K)

/-- Result of the optimisation (cross_section.py:902-908). -/
structure SdResult (K : Type) where
  crest : Option K
  totalVolume : Option K
  flowVolume : Option K
  deriving DecidableEq

/-- Method 0 (cross_section.py:837-860). -/
def optimiseTotal (opt : Optimiser K) (total flow : List K) (crest0 : K) (total0 flow0 : Option K) :
    Except PyErr (SdResult K) :=
  match opt.crestAndVolume total (crest0, total0) with
  | .error e => .error e
  | .ok (crest, v) =>
    match opt.volume flow crest flow0 with
    | .error e => .error e
    | .ok w => .ok { crest := crest, totalVolume := omax v 0, flowVolume := omin2 (omax w 0) (omax v 0) }

/-- Method 1 (cross_section.py:862-884). -/
def optimiseFlow (opt : Optimiser K) (total flow : List K) (crest0 : K) (total0 flow0 : Option K) :
    Except PyErr (SdResult K) :=
  match opt.crestAndVolume flow (crest0, total0) with
  | .error e => .error e
  | .ok (crest, v) =>
    match opt.volume total crest flow0 with
    | .error e => .error e
    | .ok w => .ok { crest := crest, totalVolume := omax2 (omax w 0) (omax v 0), flowVolume := omax v 0 }

/-- Method 2 (cross_section.py:886-900). -/
def optimiseBoth (opt : Optimiser K) (crest0 : K) (total0 flow0 : Option K) : Except PyErr (SdResult K) :=
  match opt.both (crest0, total0, flow0) with
  | .error e => .error e
  | .ok (crest, v, w) =>
    .ok { crest := crest, totalVolume := omax v 0, flowVolume := omin2 (omax w 0) (omax v 0) }

/-- `CrossSection._optimize_sd_storage` (cross_section.py:812-908): an unknown method number counts as 0. -/
def optimizeSdStorage (opt : Optimiser K) (method : Int) (total flow : List K) (crest0 : K)
    (total0 flow0 : Option K) : Except PyErr (SdResult K) :=
  if method = 1 then optimiseFlow opt total flow crest0 total0 flow0
  else if method = 2 then optimiseBoth opt crest0 total0 flow0
  else optimiseTotal opt total flow crest0 total0 flow0

/-- The attributes of a cross-section concerned with geometry and correction (cross_section.py:174-214). The arrays
written by `build_geometry` are in `raw`; `z`, `totalWidth` and `flowWidth` are the published profile. The attribute
`extra_flow_volume` does not exist before the first correction and the corrected volumes are `None` before the geometry is built:
outer `none`. -/
structure Css (K : Type) where
  length : K
  raw : Built K
  totalVolumeCorrected : Option (List (Option K))
  flowVolumeCorrected : Option (List (Option K))
  crestLevel : Option K
  transitionHeight : K
  extraTotalVolume : Option K
  extraFlowVolume : Option (Option K)
  extraTotalArea : Option K
  extraFlowArea : Option K
  extraAreaPercentage : List (Option K)
  isCorrected : Bool
  z : List K
  totalWidth : List K
  flowWidth : List K
  isReduced : Bool
  deriving DecidableEq

/-- A cross-section after `__init__` (cross_section.py:174-214) and `build_geometry` (cross_section.py:401-416): until there is a
correction the volumes count as the corrected ones (cross_section.py:410-412). -/
def Css.ofBuilt (length : K) (b : Built K) : Css K :=
  { length := length, raw := b, totalVolumeCorrected := some (b.totalVolume1d.map some)
    flowVolumeCorrected := some (b.flowVolume1d.map some), crestLevel := some 0, transitionHeight := 1 / 2, extraTotalVolume := some 0, extraFlowVolume := none, extraTotalArea := some 0
    extraFlowArea := some 0, extraAreaPercentage := [], isCorrected := false, z := [], totalWidth := []
    flowWidth := [], isReduced := false }

/-- Local variables of `calculate_correction`. -/
structure Locals (K : Type) where
  crest0 : K
  total0 : Option K
  flow0 : Option K
  sd : SdResult K
  fraction : List (Option K)

/-- What a running method can see and change. -/
structure Machine (K : Type) where
  css : Css K
  loc : Locals K

/-- A statement either finishes in a new state or raises in the state it leaves behind. -/
abbrev Stmt (K : Type) := Machine K → Machine K × Option PyErr

/-- Executing statements in order; an exception ends the method where it is. -/
def exec {K : Type} : List (Stmt K) → Machine K → Machine K × Option PyErr
  | [], m => (m, none)
  | s :: ss, m =>
    match s m with
    | (m', some e) => (m', some e)
    | (m', none) => exec ss m'

/-- `np.nanargmin`: position of the first smallest value present (`ValueError` when there is none). -/
def nanargmin (l : List (Option K)) : Except PyErr Nat :=
  match nanmin l with
  | none => .error .valueError
  | some m =>
    match l.findIdx? (· = some m) with
    | some i => .ok i
    | none => .error .valueError

/-- `self._css_total_volume - self._fm_total_volume` (cross_section.py:477-478). -/
def volumeDifference (v1d : List K) (v2d : List (Option K)) : List (Option K) :=
  List.zipWith (fun a b => b.map fun b => a - b) v1d v2d

/-- Initial values (cross_section.py:477-482). -/
def sdInitial (b : Built K) : Except PyErr (K × Option K × Option K) :=
  match nanargmin (volumeDifference b.totalVolume1d b.totalVolume2d) with
  | .error e => .error e
  | .ok i =>
    match b.z[i]?, (volumeDifference b.totalVolume1d b.totalVolume2d).getLast?,
      (volumeDifference b.flowVolume1d b.flowVolume2d).getLast? with
    | some z, some t, some f => .ok (z, t.map fun x => |x|, f.map fun x => |x|)
    | _, _, _ => .error .indexError

/-- Computing the initial values into local variables. -/
def stInitial : Stmt K := fun m =>
  match sdInitial m.css.raw with
  | .error e => (m, some e)
  | .ok (c, t, f) => ({ m with loc := { m.loc with crest0 := c, total0 := t, flow0 := f } }, none)

/-- A log message (cross_section.py:484-502, 517-536), which may raise. -/
def stLog (fails : Option PyErr) : Stmt K := fun m => (m, fails)

/-- Running the optimisation (cross_section.py:505-515). -/
def stOptimise (opt : Optimiser K) (method : Int) : Stmt K := fun m =>
  match optimizeSdStorage opt method m.css.raw.totalVolume1d m.css.raw.flowVolume1d m.loc.crest0 m.loc.total0
    m.loc.flow0 with
  | .error e => (m, some e)
  | .ok sd => ({ m with loc := { m.loc with sd := sd } }, none)

/-- Computing the released fraction at every level (cross_section.py:538-542). -/
def stFraction (release : K → K → K → K) (height : K) : Stmt K := fun m =>
  ({ m with loc := { m.loc with
      fraction := m.css.raw.z.map fun z => m.loc.sd.crest.map fun c => release z c height } }, none)

/-- `v + fraction * extra` (cross_section.py:545-550). -/
def addExtra (v : List K) (fraction : List (Option K)) (extra : Option K) : List (Option K) :=
  List.zipWith (fun v p => p.bind fun p => extra.map fun x => v + p * x) v fraction

/-- An assignment to an attribute. -/
def stWrite (f : Locals K → Css K → Css K) : Stmt K := fun m => ({ m with css := f m.loc m.css }, none)

/-- The statements of `CrossSection.calculate_correction` (cross_section.py:476-558). `log` says which of the ten
log messages raise. Dividing numpy floats never raises. -/
def correctionProgram (opt : Optimiser K) (method : Int) (release : K → K → K → K) (height : K)
    (log : Nat → Option PyErr) : List (Stmt K) :=
  [ stInitial, stLog (log 0), stLog (log 1), stLog (log 2), stLog (log 3), stLog (log 4), stOptimise opt method,
    stLog (log 5), stLog (log 6), stLog (log 7), stLog (log 8), stLog (log 9), stFraction release height,
    stWrite fun l c =>
      { c with totalVolumeCorrected := some (addExtra c.raw.totalVolume1d l.fraction l.sd.totalVolume) },
    stWrite fun l c =>
      { c with flowVolumeCorrected := some (addExtra c.raw.flowVolume1d l.fraction l.sd.flowVolume) },
    stWrite fun l c => { c with crestLevel := l.sd.crest },
    stWrite fun _ c => { c with transitionHeight := height },
    stWrite fun l c => { c with extraTotalVolume := l.sd.totalVolume },
    stWrite fun l c => { c with extraFlowVolume := some l.sd.flowVolume },
    stWrite fun l c => { c with extraTotalArea := l.sd.totalVolume.map (· / c.length) },
    stWrite fun l c => { c with extraFlowArea := l.sd.flowVolume.map (· / c.length) },
    stWrite fun l c => { c with extraAreaPercentage := l.fraction },
    stWrite fun _ c => { c with isCorrected := true } ]

/-- Unassigned local variables. -/
def Locals.start : Locals K :=
  { crest0 := 0, total0 := none, flow0 := none, sd := ⟨none, none, none⟩, fraction := [] }

/-- `calculate_correction`: the cross-section afterwards and the exception raised, if any. -/
def calculateCorrection (opt : Optimiser K) (method : Int) (release : K → K → K → K) (height : K)
    (log : Nat → Option PyErr) (css : Css K) : Css K × Option PyErr :=
  match exec (correctionProgram opt method release height log) ⟨css, Locals.start⟩ with
  | (m, e) => (m.css, e)

/-- Parameters of the pipeline. -/
structure PipelineConfig (K : Type) where
  build : BuildConfig K
  sdCorrection : Bool
  sdOptimisationMethod : Int
  sdTransitionHeight : K
  minimumWidth : K
  maximumPoints : Int

/-- `_perform_2D_volume_correction` (fm2prof_runner.py:931-956): exceptions are caught and logged. -/
def performCorrection (opt : Optimiser K) (cfg : PipelineConfig K) (release : K → K → K → K)
    (log : Nat → Option PyErr) (css : Css K) : Css K :=
  if cfg.sdCorrection then
    (calculateCorrection opt cfg.sdOptimisationMethod release cfg.sdTransitionHeight log css).1
  else css

/-- `check_requirements` on the unreduced arrays (cross_section.py:418-431). -/
def checkCss (bump : K → K) (minWidth : K) (css : Css K) : Except PyErr (Css K) :=
  match checkRequirements bump minWidth
      { z := css.raw.z, totalWidth := css.raw.totalWidth, flowWidth := css.raw.flowWidth } with
  | .error e => .error e
  | .ok g => .ok { css with raw := { css.raw with z := g.z, totalWidth := g.totalWidth, flowWidth := g.flowWidth } }

/-- `_reduce_css_points` (fm2prof_runner.py:885-913): exceptions are caught and logged. -/
def reduceCss (n : Int) (css : Css K) : Css K :=
  match reducePoints n { z := css.raw.z, totalWidth := css.raw.totalWidth, flowWidth := css.raw.flowWidth } with
  | .error _ => css
  | .ok g => { css with z := g.z, totalWidth := g.totalWidth, flowWidth := g.flowWidth, isReduced := true }

/-- `_build_cross_section_geometry` (fm2prof_runner.py:676-709). -/
def buildCrossSectionGeometry (opt : Optimiser K) (cfg : PipelineConfig K) (bump : K → K)
    (release : K → K → K → K) (log : Nat → Option PyErr) (length : K) (centre : Nat) (cv : ControlVolume K) :
    Except PyErr (Css K) :=
  match buildGeometry cfg.build length centre cv with
  | .error e => .error e
  | .ok b =>
    match checkCss bump cfg.minimumWidth (performCorrection opt cfg release log (Css.ofBuilt length b)) with
    | .error e => .error e
    | .ok css => .ok (reduceCss cfg.maximumPoints css)

end Fm2prof
