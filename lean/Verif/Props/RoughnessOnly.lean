import Verif.Proofs.RoughnessOnly
import Verif.Props.Territory

/-!
# Properties of runs on maps that differ in their roughness only

C193: the roughness of the 2D model decides the roughness of the 1D model and nothing else, given polygons of the sections.
-/

set_option linter.unusedSectionVars false

namespace Fm2prof.Props

open Fm2prof Spec RoughnessOnlyProof

variable {K : Type} [Field K] [LinearOrder K] [IsStrictOrderedRing K] [FloorRing K]

/-- **C193, any roughness.** There are polygons of the sections, and the map file has other roughness values: any series at the edges
(one for each edge, as before) and any values at the faces. The run ends in the same way, and every result file without roughness is the
same, to the letter. -/
theorem C193_profiles (x : Tools K) (cfg : RunConfig K) (i : Inputs K) (d : MapData K) (hd : i.map = .ok d)
    (sections : Except PyErr SectionLabels) (hs : i.sections = some sections) (chezy mean : List (List (Option K)))
    (hlen : chezy.length = d.edges.chezy.length) (o : Surroundings) (overwrite : Bool) (s : Store) :
    (run (jobOf x cfg { i with map := .ok (MapData.withRoughness d chezy mean) } o) overwrite s).2
      = (run (jobOf x cfg i o) overwrite s).2 ∧
    ∀ f, IsResult f → ¬ HoldsRoughness f →
      (run (jobOf x cfg { i with map := .ok (MapData.withRoughness d chezy mean) } o) overwrite s).1 f
        = (run (jobOf x cfg i o) overwrite s).1 f :=
  run_sim (rough_jobs smooth smooth (fun f => ¬ HoldsRoughness f) x x x.sig rfl cfg i d hd sections hs chezy mean o
    (fun m hm l => build_smooth x cfg m { m with edges := { m.edges with chezy := chezy } } rfl chezy (by rw [hm]; exact hlen) rfl rfl
      rfl l)
    (fun cs cs' h s f hf => output_smooth x o.faults o.dirExists cs cs' h s f hf)) overwrite s

/-- **C193, a multiple of the roughness.** There are polygons of the sections, and all roughness values of the map file are multiplied by
`k ≠ 0`. The roughness files for D-Flow 1D are those of the run on the original map, except that where it prints a roughness `v` now
`k * v` is printed. -/
theorem C193_multiple (k : K) (hk : k ≠ 0) (x : Tools K) (cfg : RunConfig K) (i : Inputs K) (d : MapData K) (hd : i.map = .ok d)
    (sections : Except PyErr SectionLabels) (hs : i.sections = some sections) (o : Surroundings) (overwrite : Bool) (s : Store)
    (f : Text) (hf : IsRoughness f) :
    (run (jobOf x cfg { i with map := .ok (MapData.rougher k d) } o) overwrite s).1 f
      = (run (jobOf { x with sig := fun v => x.sig (k * v) } cfg i o) overwrite s).1 f := by
  have hres : IsResult f := by
    obtain ⟨p, hp, rfl⟩ := hf
    exact ⟨p.2.1, by revert p; decide, rfl⟩
  have hj := rough_jobs (fun c => out k c.out) (fun c => c.out) IsRoughness x { x with sig := fun v => x.sig (k * v) }
    (fun v => x.sig (k * v)) rfl cfg i d hd sections hs (d.edges.chezy.map fun r => r.map (Option.map (k * ·)))
    (d.chezyMean.map fun r => r.map (Option.map (k * ·))) o
    (fun m hm l => build_mul k hk x { x with sig := fun v => x.sig (k * v) } (fun v => x.sig (k * v)) rfl cfg m
      { m with edges := { m.edges with chezy := d.edges.chezy.map fun r => r.map (Option.map (k * ·)) } } rfl (by rw [hm]) rfl rfl l)
    (fun cs cs' h s f hf => output_mul k x o.faults o.dirExists cs cs' h s f hf)
  exact (run_sim hj overwrite s).2 f hres hf

private theorem ok_of' {α : Type} {e : Except PyErr α} {a : α} (h : e.toOption = some a) : e = .ok a := by
  cases e with
  | error e => cases h
  | ok b => exact congrArg Except.ok (Option.some.inj h)

/-- Other roughness at the edges of the sample. -/
def otherChezy : List (List (Option ℚ)) := [[some 1, some 2, some 3, none], [none], [], [some 9, some 9, some 9, some 9]]

/-- The sample with polygons of the sections: the files with roughness change, those without do not and are there. -/
example : ∃ d sections, sampleSectionInputs.map = .ok d ∧ sampleSectionInputs.sections = some sections ∧
    otherChezy.length = d.edges.chezy.length ∧
    (run (jobOf idleTools sampleRunConfig sampleSectionInputs sampleSurroundings) false noFiles).2 = .ok true ∧
    (∀ f ∈ ["CrossSectionDefinitions.ini", "geometry.csv", "geometry_test.csv"], IsResult f.toList ∧ ¬ HoldsRoughness f.toList ∧
      ((run (jobOf idleTools sampleRunConfig sampleSectionInputs sampleSurroundings) false noFiles).1 f.toList).isSome = true) ∧
    (run (jobOf idleTools sampleRunConfig { sampleSectionInputs with map := .ok (MapData.withRoughness d otherChezy []) }
      sampleSurroundings) false noFiles).1 "roughness-Main.ini".toList ≠
      (run (jobOf idleTools sampleRunConfig sampleSectionInputs sampleSurroundings) false noFiles).1 "roughness-Main.ini".toList ∧
    IsRoughness "roughness-Main.ini".toList ∧
    (run (jobOf idleTools sampleRunConfig { sampleSectionInputs with map := .ok (MapData.rougher 2 d) }
      sampleSurroundings) false noFiles).1 "roughness-Main.ini".toList ≠
      (run (jobOf idleTools sampleRunConfig sampleSectionInputs sampleSurroundings) false noFiles).1 "roughness-Main.ini".toList := by
  refine ⟨sampleMap, _, rfl, rfl, rfl, ok_of' (by decide +kernel), ?_, by decide +kernel, ⟨_, List.mem_cons_self, rfl⟩,
    by decide +kernel⟩
  intro f hf
  have h1 : ∀ f ∈ ["CrossSectionDefinitions.ini", "geometry.csv", "geometry_test.csv"], f ∈ resultFiles := by decide
  have h2 : ∀ f ∈ ["CrossSectionDefinitions.ini", "geometry.csv", "geometry_test.csv"],
      (∀ p ∈ roughnessFiles, f.toList ≠ p.2.1.toList) ∧ f.toList ≠ "roughness.csv".toList := by decide
  have h3 : ∀ f ∈ ["CrossSectionDefinitions.ini", "geometry.csv", "geometry_test.csv"],
      ((run (jobOf idleTools sampleRunConfig sampleSectionInputs sampleSurroundings) false noFiles).1 f.toList).isSome = true := by
    decide +kernel
  refine ⟨⟨f, h1 f hf, rfl⟩, ?_, h3 f hf⟩
  rintro (⟨p, hp, e⟩ | e)
  · exact (h2 f hf).1 p hp e
  · exact (h2 f hf).2 e

/-- Another roughness of the faces of the sample: the first seven faces are smooth, the others rough. -/
def otherMean : List (List (Option ℚ)) := (List.range 13).map fun i => [some 0, some 0, some 0, if i < 7 then some 50 else some 20]

private theorem other_sections :
    (run (jobOf idleTools sampleRunConfig sampleInputs sampleSurroundings) false noFiles).2.toOption = some true ∧
    (run (jobOf idleTools sampleRunConfig { sampleInputs with map := .ok (MapData.withRoughness sampleMap sampleMap.edges.chezy otherMean) }
      sampleSurroundings) false noFiles).2.toOption = some true ∧
    (run (jobOf idleTools sampleRunConfig { sampleInputs with map := .ok (MapData.withRoughness sampleMap sampleMap.edges.chezy otherMean) }
      sampleSurroundings) false noFiles).1 "CrossSectionDefinitions.ini".toList ≠
    (run (jobOf idleTools sampleRunConfig sampleInputs sampleSurroundings) false noFiles).1 "CrossSectionDefinitions.ini".toList := by
  decide +kernel

/-- **C193, without polygons of the sections.** Then the roughness of the 2D model decides the sections and with them the widths in the
definition file: another roughness of the faces gives another definition file, though both runs report success. -/
theorem C193_needs_polygons : ∃ (x : Tools ℚ) (cfg : RunConfig ℚ) (o : Surroundings) (i : Inputs ℚ) (d : MapData ℚ)
    (mean : List (List (Option ℚ))), i.map = .ok d ∧ i.sections = none ∧ mean.length = d.chezyMean.length ∧
    (run (jobOf x cfg i o) false noFiles).2 = .ok true ∧
    (run (jobOf x cfg { i with map := .ok (MapData.withRoughness d d.edges.chezy mean) } o) false noFiles).2 = .ok true ∧
    (run (jobOf x cfg { i with map := .ok (MapData.withRoughness d d.edges.chezy mean) } o) false noFiles).1
      "CrossSectionDefinitions.ini".toList ≠ (run (jobOf x cfg i o) false noFiles).1 "CrossSectionDefinitions.ini".toList :=
  ⟨idleTools, sampleRunConfig, sampleSurroundings, sampleInputs, sampleMap, otherMean, rfl, rfl, by decide +kernel,
    ok_of' other_sections.1, ok_of' other_sections.2.1, other_sections.2.2⟩

end Fm2prof.Props
