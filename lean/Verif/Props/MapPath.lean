import Verif.Props.Project
import Verif.Props.Settings

/-!
# C150: how the map file is given
-/

set_option linter.unusedSectionVars false

namespace Fm2prof.Props

open Fm2prof Spec ProjectProof

variable {K : Type} [Field K] [LinearOrder K] [IsStrictOrderedRing K] [FloorRing K]

/-- **C150, partial.** Without polygon files it makes no difference for a run whether the map file has been given as a text or as a
`Path`. Missing: with polygon files it does, see `C150_text_violated`. -/
theorem C150_without_polygons_partial (x : Tools K) (g : Geometries K) (o : Surroundings) (c : Settings K) (overwrite : Bool)
    (d : ProjectFiles K) (s : Store) (hr : c.regionPath = []) (hs : c.sectionPath = []) (isText : Bool) :
    projectRun x g o { c with mapIsText := isText } overwrite d s = projectRun x g o c overwrite d s := by
  have h1 : optionalRegions d c.regionPath = .ok none := by unfold optionalRegions; rw [if_pos hr]
  have h2 : optionalSections d c.sectionPath = .ok none := by unfold optionalSections; rw [if_pos hs]
  have key : ∀ m, projectInputs x.ft g { c with mapIsText := isText } m d = projectInputs x.ft g c m d := by
    intro m
    unfold projectInputs
    simp only
    rw [h1, h2]
    cases m.data with
    | error e => rfl
    | ok a => cases (cssFile x.ft ',' (d.texts c.cssPath)).map locationsOf <;> rfl
  unfold projectRun
  simp only [key]

/-- **C150, violated: the run.** The README gives the map file as a text. When there is a polygon file as well, every run that is not
refused then raises `AttributeError`, with files that can all be read. -/
theorem C150_text_violated (x : Tools K) (g : Geometries K) (o : Surroundings) (c : Settings K) (overwrite : Bool)
    (d : ProjectFiles K) (s : Store) (m : MapFile K) (a : MapData K) (t : Text) (css : CssColumns K)
    (hm : d.maps c.mapPath = some m) (ha : m.data = .ok a) (ht : d.texts c.cssPath = some t)
    (hc : cssFile x.ft ',' (some t) = .ok css) (ho : overwrite = true ∨ ¬ HasResults s)
    (hr : c.regionPath = [] ∨ ∃ ps, readPolygons d c.regionPath = .ok ps)
    (hs : c.sectionPath = [] ∨ ∃ ps, readSections d c.sectionPath = .ok ps)
    (hone : c.regionPath ≠ [] ∨ c.sectionPath ≠ []) (htext : c.mapIsText = true) :
    projectRun x g o c overwrite d s = (s, d, .error .attributeError) := by
  have hcss : (cssFile x.ft ',' (d.texts c.cssPath)).map locationsOf = .ok (locationsOf css) := by rw [ht, hc]; rfl
  have er : ∃ rs, optionalRegions d c.regionPath = .ok rs ∧ (rs = none → c.regionPath = []) := by
    unfold optionalRegions
    by_cases hp : c.regionPath = []
    · exact ⟨none, by rw [if_pos hp], fun _ => hp⟩
    · rcases hr with h | ⟨ps, h⟩
      · exact absurd h hp
      · exact ⟨some ps, by rw [if_neg hp, h]; rfl, fun h => by cases h⟩
  have es : ∃ ss, optionalSections d c.sectionPath = .ok ss ∧ (ss = none → c.sectionPath = []) := by
    unfold optionalSections
    by_cases hp : c.sectionPath = []
    · exact ⟨none, by rw [if_pos hp], fun _ => hp⟩
    · rcases hs with h | ⟨ps, h⟩
      · exact absurd h hp
      · exact ⟨some ps, by rw [if_neg hp, h]; rfl, fun h => by cases h⟩
  obtain ⟨rs, hr1, hr2⟩ := er
  obtain ⟨ss, hs1, hs2⟩ := es
  have hi := inputs_text x.ft g c m d a _ ha hcss rs ss hr1 hs1 htext
  have hload : setModelData x.nn (projectInputs x.ft g c m d).1 = .error .attributeError := by
    rw [hi]
    cases rs with
    | some rs => rfl
    | none =>
      cases ss with
      | some ss => rfl
      | none => rcases hone with h | h; exacts [absurd (hr2 rfl) h, absurd (hs2 rfl) h]
  rw [projectRun_eq x g o c overwrite d s m t hm ht, load_failed x c.run _ o overwrite s _ ho hload,
    if_neg (by rintro (h | h) <;> cases h), hi, ite_self]

/-- **C150, violated: from Python.** So setting the map file of a usable configuration to a text, in any capitalisation of the name,
gives settings with which every run raises, whereas setting it to a `Path` gives the same settings but for this. -/
theorem C150_set_text_violated (x : Tools K) (g : Geometries K) (o : Surroundings) (cfg : Config K)
    (hcfg : keysOf cfg = keysOf (template (K := K))) (p : Settings K) (h : settingsOf x.ft cfg = some p) (k : Text)
    (hk : lower k = lower "2DMapOutput".toList) (path : Text) (overwrite : Bool) (d : ProjectFiles K) (s : Store) (m : MapFile K)
    (a : MapData K) (t : Text) (css : CssColumns K) (hm : d.maps path = some m) (ha : m.data = .ok a)
    (ht : d.texts p.cssPath = some t) (hc : cssFile x.ft ',' (some t) = .ok css) (ho : overwrite = true ∨ ¬ HasResults s)
    (hr : p.regionPath = [] ∨ ∃ ps, readPolygons d p.regionPath = .ok ps)
    (hs : p.sectionPath = [] ∨ ∃ ps, readSections d p.sectionPath = .ok ps) (hone : p.regionPath ≠ [] ∨ p.sectionPath ≠ []) :
    ∃ c₁ c₂ p₁ p₂, setInputFile k (.str path) cfg = .ok (c₁, true) ∧ setInputFile k (.path path) cfg = .ok (c₂, true) ∧
      settingsOf x.ft c₁ = some p₁ ∧ settingsOf x.ft c₂ = some p₂ ∧ p₁ = { p₂ with mapIsText := true } ∧ p₂.mapIsText = false ∧
      projectRun x g o p₁ overwrite d s = (s, d, .error .attributeError) := by
  have hq : ("2DMapOutput", fun b t c => { c with mapPath := t, mapIsText := b }) ∈ inputFiles (K := K) := List.mem_cons_self
  obtain ⟨c₁, g1, g2⟩ := C141_input_files x.ft cfg hcfg p h k _ hq hk true path
  obtain ⟨c₂, g3, g4⟩ := C141_input_files x.ft cfg hcfg p h k _ hq hk false path
  exact ⟨c₁, c₂, _, _, g1, g3, g2, g4, rfl, rfl,
    C150_text_violated x g o _ overwrite d s m a t css hm ha ht hc ho hr hs hone rfl⟩

/-- The project of the other examples runs with a `Path` and raises with a text. -/
example :
    (projectRun sampleTools sampleGeometries sampleSurroundings sampleSettings false sampleProject noFiles).2.2.toOption = some true ∧
    (match (projectRun sampleTools sampleGeometries sampleSurroundings { sampleSettings with mapIsText := true } false sampleProject
      noFiles).2.2 with | .error .attributeError => true | _ => false) = true := by
  constructor <;> decide +kernel

/-- It can be read. -/
example : sampleProject.maps sampleSettings.mapPath = some sampleMapFile ∧ sampleMapFile.data.toOption.isSome = true ∧
    (cssFile sampleTools.ft ',' (sampleProject.texts sampleSettings.cssPath)).toOption.isSome = true ∧
    (readPolygons sampleProject sampleSettings.regionPath).toOption.isSome = true ∧
    (readSections sampleProject sampleSettings.sectionPath).toOption.isSome = true :=
  ⟨rfl, by decide +kernel, by decide +kernel, by decide +kernel, by decide +kernel⟩

end Fm2prof.Props
