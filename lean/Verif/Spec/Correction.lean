import Verif.Model.Correction

/-!
# Specifications for the volume correction

They mention the attributes of a cross-section but none of the functions of the model.
-/

namespace Fm2prof.Spec

variable {K : Type} [Field K] [LinearOrder K] [IsStrictOrderedRing K]

/-- A pair of extra volumes (or areas) that makes sense: neither is negative and the flow part is at most the total.
A missing value satisfies everything. -/
def Physical (total flow : Option K) : Prop :=
  (∀ t, total = some t → 0 ≤ t) ∧ (∀ f, flow = some f → 0 ≤ f) ∧ ∀ t f, total = some t → flow = some f → f ≤ t

/-- `css'` is `css` with a correction applied: crest level `crest`, extra volumes `total` and `flow` and released
fractions `fraction` per level. Everything not mentioned is as it was. -/
structure CorrectedWith (css css' : Css K) (crest total flow : Option K) (fraction : K → Option K) (height : K) :
    Prop where
  crestLevel : css'.crestLevel = crest
  transitionHeight : css'.transitionHeight = height
  extraTotalVolume : css'.extraTotalVolume = total
  extraFlowVolume : css'.extraFlowVolume = some flow
  extraTotalArea : css'.extraTotalArea = total.map (· / css.length)
  extraFlowArea : css'.extraFlowArea = flow.map (· / css.length)
  percentage : css'.extraAreaPercentage = css.raw.z.map fraction
  totalVolume : css'.totalVolumeCorrected = some ((css.raw.totalVolume1d.zip css.raw.z).map fun (v, z) =>
    (fraction z).bind fun p => total.map fun x => v + p * x)
  flowVolume : css'.flowVolumeCorrected = some ((css.raw.flowVolume1d.zip css.raw.z).map fun (v, z) =>
    (fraction z).bind fun p => flow.map fun x => v + p * x)
  marked : css'.isCorrected = true
  unchanged : css'.length = css.length ∧ css'.raw = css.raw ∧ css'.z = css.z ∧ css'.totalWidth = css.totalWidth ∧
    css'.flowWidth = css.flowWidth ∧ css'.isReduced = css.isReduced

/-- Relative squared difference of two volume curves over the points where both are present; a measured volume below
one cubic metre counts as one. -/
def relativeSquaredError (pairs : List (K × K)) : K :=
  (pairs.map fun (p, m) => (p - m) ^ 2 / (max m 1) ^ 2).sum

end Fm2prof.Spec
