import Verif.Model.Pipeline

/-!
# The formats of the exports

`export_geometry` and `export_roughness` (export.py:51-104), with the name of a format.
-/

namespace Fm2prof

variable {K : Type} [Field K] [LinearOrder K] [IsStrictOrderedRing K] [FloorRing K]

/-- `_write_roughness_testformat` (export.py:191-216): the text written and the exception. The tables that it asks for are not an
attribute of cross-sections. -/
def testRoughnessText (cs : List (ExportCss K)) : Text × Option PyErr :=
  (unlines ["chainage,type,waterlevel,chezy roughness".toList], if cs.isEmpty then none else some .attributeError)

/-- `export_geometry` (export.py:51-76): the file is opened before the format is looked at. -/
def exportGeometryAs (ft : FloatText K) (w : WriteFaults) (cs : List (ExportCss K)) (file fmt : Text) (s : Store) :
    Store × Option PyErr :=
  if fmt = "sobek3".toList then writeFile w file (exportSobekGeometry ft cs) none s
  else if fmt = "dflow1d".toList then writeFile w file (exportDefinitions ft cs) none s
  else if fmt = "testformat".toList then writeFile w file (testText ft cs).1 (testText ft cs).2 s
  else writeFile w file [] none s

/-- `export_roughness` (export.py:78-104). -/
def exportRoughnessAs (ft : FloatText K) (sig : K → Text) (w : WriteFaults) (cs : List (ExportCss K)) (file fmt section' : Text)
    (s : Store) : Store × Option PyErr :=
  if fmt = "sobek3".toList then writeFile w file (sobekRoughnessText ft cs).1 (sobekRoughnessText ft cs).2 s
  else if fmt = "dflow1d".toList then writeFile w file (exportRoughness ft sig cs section') none s
  else if fmt = "testformat".toList then writeFile w file (testRoughnessText cs).1 (testRoughnessText cs).2 s
  else writeFile w file [] none s

end Fm2prof
