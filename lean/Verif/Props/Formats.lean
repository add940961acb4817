import Verif.Model.Formats
import Verif.Props.Export

/-!
# C154: the formats of the exports
-/

set_option linter.unusedSectionVars false

namespace Fm2prof.Props

open Fm2prof Spec

variable {K : Type} [Field K] [LinearOrder K] [IsStrictOrderedRing K] [FloorRing K]

private theorem write_normal (w : WriteFaults) (file text : Text) (e : Option PyErr) (s : Store) (h1 : w.refuses file = false)
    (h2 : w.breaks file = none) : writeFile w file text e s = (s.set file text, e) := by
  unfold writeFile
  rw [h1, h2]
  rfl

private theorem set_same (s : Store) (file text : Text) : (s.set file text) file = some text := if_pos rfl

private theorem set_other (s : Store) (file text other : Text) (h : other ≠ file) : (s.set file text) other = s other := if_neg h

/-- **C154, partial.** Where nothing is wrong with the disk, an export of the geometry in one of the three formats, and one of the
roughness in one of the first two, leaves a file in this format (see C43, C45, C79, C80 and C83 for what is in it) and all other files as
they are. Missing: the roughness in the third format, and unknown formats. -/
theorem C154_formats_partial (ft : FloatText K) (sig : K → Text) (w : WriteFaults) (cs : List (ExportCss K)) (file : Text) (s : Store)
    (h1 : w.refuses file = false) (h2 : w.breaks file = none) :
    ((exportGeometryAs ft w cs file "sobek3".toList s).1 file = some (exportSobekGeometry ft cs) ∧
      (exportGeometryAs ft w cs file "sobek3".toList s).2 = none) ∧
    ((exportGeometryAs ft w cs file "dflow1d".toList s).1 file = some (exportDefinitions ft cs) ∧
      (exportGeometryAs ft w cs file "dflow1d".toList s).2 = none) ∧
    ((exportGeometryAs ft w cs file "testformat".toList s).1 file = some (testText ft cs).1 ∧
      (exportGeometryAs ft w cs file "testformat".toList s).2 = (testText ft cs).2) ∧
    (∀ section', (exportRoughnessAs ft sig w cs file "dflow1d".toList section' s).1 file = some (exportRoughness ft sig cs section') ∧
      (exportRoughnessAs ft sig w cs file "dflow1d".toList section' s).2 = none) ∧
    (∀ section', (exportRoughnessAs ft sig w cs file "sobek3".toList section' s).1 file = some (sobekRoughnessText ft cs).1 ∧
      (exportRoughnessAs ft sig w cs file "sobek3".toList section' s).2 = (sobekRoughnessText ft cs).2) ∧
    (∀ fmt other, other ≠ file → (exportGeometryAs ft w cs file fmt s).1 other = s other ∧
      ∀ section', (exportRoughnessAs ft sig w cs file fmt section' s).1 other = s other) := by
  have n1 : "dflow1d".toList ≠ "sobek3".toList := by decide
  refine ⟨?_, ?_, ?_, fun section' => ?_, fun section' => ?_, fun fmt other ho => ⟨?_, fun section' => ?_⟩⟩
  · unfold exportGeometryAs
    rw [if_pos rfl, write_normal _ _ _ _ _ h1 h2]
    exact ⟨set_same _ _ _, rfl⟩
  · unfold exportGeometryAs
    rw [if_neg n1, if_pos rfl, write_normal _ _ _ _ _ h1 h2]
    exact ⟨set_same _ _ _, rfl⟩
  · unfold exportGeometryAs
    rw [if_neg (by decide), if_neg (by decide), if_pos rfl, write_normal _ _ _ _ _ h1 h2]
    exact ⟨set_same _ _ _, rfl⟩
  · unfold exportRoughnessAs
    rw [if_neg n1, if_pos rfl, write_normal _ _ _ _ _ h1 h2]
    exact ⟨set_same _ _ _, rfl⟩
  · unfold exportRoughnessAs
    rw [if_pos rfl, write_normal _ _ _ _ _ h1 h2]
    exact ⟨set_same _ _ _, rfl⟩
  · unfold exportGeometryAs
    simp only [write_normal _ _ _ _ _ h1 h2]
    split
    · exact set_other _ _ _ _ ho
    · split
      · exact set_other _ _ _ _ ho
      · split <;> exact set_other _ _ _ _ ho
  · unfold exportRoughnessAs
    simp only [write_normal _ _ _ _ _ h1 h2]
    split
    · exact set_other _ _ _ _ ho
    · split
      · exact set_other _ _ _ _ ho
      · split <;> exact set_other _ _ _ _ ho

/-- **C154, violated: other formats.** With a name that is not one of the formats nothing is raised, and the file is empty afterwards,
whatever was in it. -/
theorem C154_unknown_violated (ft : FloatText K) (sig : K → Text) (w : WriteFaults) (cs : List (ExportCss K)) (file fmt : Text)
    (s : Store) (h1 : w.refuses file = false) (h2 : w.breaks file = none)
    (h : fmt ∉ ["sobek3".toList, "dflow1d".toList, "testformat".toList]) :
    exportGeometryAs ft w cs file fmt s = (s.set file [], none) ∧
    ∀ section', exportRoughnessAs ft sig w cs file fmt section' s = (s.set file [], none) := by
  have n1 : fmt ≠ "sobek3".toList := fun e => h (e ▸ List.mem_cons_self)
  have n2 : fmt ≠ "dflow1d".toList := fun e => h (e ▸ List.mem_cons_of_mem _ List.mem_cons_self)
  have n3 : fmt ≠ "testformat".toList := fun e => h (e ▸ List.mem_cons_of_mem _ (List.mem_cons_of_mem _ List.mem_cons_self))
  refine ⟨?_, fun section' => ?_⟩
  · unfold exportGeometryAs
    rw [if_neg n1, if_neg n2, if_neg n3, write_normal _ _ _ _ _ h1 h2]
  · unfold exportRoughnessAs
    rw [if_neg n1, if_neg n2, if_neg n3, write_normal _ _ _ _ _ h1 h2]

/-- **C154, violated: roughness in the test format.** The export raises `AttributeError` for every list of cross-sections but the empty
one, and leaves a file with a header and no rows. -/
theorem C154_test_roughness_violated (ft : FloatText K) (sig : K → Text) (w : WriteFaults) (cs : List (ExportCss K)) (hne : cs ≠ [])
    (file section' : Text) (s : Store) (h1 : w.refuses file = false) (h2 : w.breaks file = none) :
    ∃ text, exportRoughnessAs ft sig w cs file "testformat".toList section' s = (s.set file text, some .attributeError) ∧
      (rows text).length = 1 := by
  refine ⟨unlines ["chainage,type,waterlevel,chezy roughness".toList], ?_, by decide +kernel⟩
  unfold exportRoughnessAs
  rw [if_neg (by decide), if_neg (by decide), if_pos rfl, write_normal _ _ _ _ _ h1 h2]
  unfold testRoughnessText
  cases cs with
  | nil => exact absurd rfl hne
  | cons c cs => rfl

/-- A file that was there is lost. -/
example : (exportGeometryAs (decimalText ℚ) ⟨fun _ => false, fun _ => none⟩ [] "g.csv".toList "sobek".toList
    (fun _ => some "old".toList)).1 "g.csv".toList = some [] := by
  decide +kernel

end Fm2prof.Props
