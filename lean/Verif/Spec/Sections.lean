import Verif.Model.Sections
import Verif.Spec.Build

/-!
# Specifications for sections
-/

namespace Fm2prof.Spec

variable {K : Type} [Field K] [LinearOrder K] [IsStrictOrderedRing K]

/-- The three sections of a profile. -/
inductive ProfileSection where
  | main
  | floodplain1
  | floodplain2
  deriving DecidableEq

/-- What a label says: 1, 2, 3 or the names; no data counts as main. Other labels say nothing. -/
def meaning : SectionLabel → Option ProfileSection
  | .num 1 => some .main
  | .num (-999) => some .main
  | .num 2 => some .floodplain1
  | .num 3 => some .floodplain2
  | .name "main" => some .main
  | .name "floodplain1" => some .floodplain1
  | .name "floodplain2" => some .floodplain2
  | _ => none

/-- Area of the faces that belong to a section. -/
def areaLabelled (faces : List (SectionFace K)) (s : ProfileSection) : K :=
  (faces.map fun f => if meaning f.label = some s then f.area else 0).sum

/-- Known bed levels of the faces of the first floodplain. -/
def floodplainBeds (faces : List (SectionFace K)) : List K :=
  faces.filterMap fun f => if meaning f.label = some .floodplain1 then f.bed else none

/-- Sum of the section widths. -/
def sumOfWidths (w : SectionWidths K) : K := w.main + w.floodplain1 + w.floodplain2

end Fm2prof.Spec
