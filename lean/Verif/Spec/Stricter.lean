import Verif.Spec.Conveyance

/-!
# Stricter criteria for the conveying part
-/

namespace Fm2prof.Spec

open Fm2prof

variable {K : Type}

/-- Other velocity thresholds: `AbsoluteVelocityThreshold` and `RelativeVelocityThreshold`. -/
def RunConfig.withThresholds (absolute relative : K) (c : RunConfig K) : RunConfig K :=
  { c with
    pipeline := { c.pipeline with
      build := { c.pipeline.build with absoluteVelocityThreshold := absolute, relativeVelocityThreshold := relative } } }

/-- A number read from a file that is at most another one. -/
def AtMost [LE K] (a b : Option K) : Prop := ∃ x y, a = some x ∧ b = some y ∧ x ≤ y

/-- Numbers that are printed with four decimals, the first of them at most `e` above the second one before they are printed. -/
def PrintedWithin [Field K] [LinearOrder K] [IsStrictOrderedRing K] [FloorRing K] (ft : FloatText K) (e : K) (a b : Option K) : Prop :=
  ∃ p q, a = as4 ft p ∧ b = as4 ft q ∧ p ≤ q + e

/-- Two definitions of the same cross-section with the same levels and total widths, the flow widths of the second one at most `e`
above those of the first one. -/
def NoWider [Field K] [LinearOrder K] [IsStrictOrderedRing K] [FloorRing K] (ft : FloatText K) (e : K) (d d' : CssDef K) : Prop :=
  SameTotal d d' ∧ List.Forall₂ (PrintedWithin ft e) d'.flowWidth d.flowWidth

end Fm2prof.Spec
