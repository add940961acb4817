import Verif.Proofs.ProjectCrash
import Verif.Props.Project

/-!
# C168: runs of a project with polygons that are interrupted
-/

set_option linter.unusedSectionVars false

namespace Fm2prof.Props

open Fm2prof Spec ProjectProof

variable {K : Type} [Field K] [LinearOrder K] [IsStrictOrderedRing K] [FloorRing K]

/-- **C168, the writes.** A run that is not refused leaves the cache files it writes, one after the other, and after them its results. -/
theorem C168_writes (x : Tools K) (g : Geometries K) (o : Surroundings) (c : Settings K) (overwrite : Bool) (d : ProjectFiles K)
    (s : Store) (m : MapFile K) (t : Text) (hm : d.maps c.mapPath = some m) (ht : d.texts c.cssPath = some t)
    (ho : overwrite = true ∨ ¬ HasResults s) :
    (projectRun x g o c overwrite d s).2.1 = { d with caches := writeCaches d.caches (cacheWrites x.ft g c m d) } ∧
    (projectRun x g o c overwrite d s).1 = writeAll s (runWrites (jobOf x c.run (projectInputs x.ft g c m d).1
        { o with configured := true, mapIsFile := true, cssIsFile := true }) overwrite s) := by
  rw [projectRun_eq x g o c overwrite d s m t hm ht, (refused_iff s overwrite).2 ho, inputs_written]
  exact ⟨rfl, run_writes _ _ _⟩

/-- **C168, partial.** When a run was stopped at any moment at which it did not write a cache file, running again with the overwrite
option gives the files and the report of a run that was not stopped. Missing: stops inside a cache file, see
`C168_torn_violated`. -/
theorem C168_repeat_partial (x : Tools K) (g : Geometries K) (o : Surroundings) (c : Settings K) (overwrite : Bool)
    (d : ProjectFiles K) (s : Store) (m : MapFile K) (t : Text) (hm : d.maps c.mapPath = some m) (ht : d.texts c.cssPath = some t)
    (d' : ProjectFiles K) (s' : Store) (h : Stopped x g o c overwrite d s m false d' s') :
    projectRun x g o c true d' s' = projectRun x g o c true d s := by
  have he := fun (ov : Bool) (k : Caches) (s : Store) => projectRun_eq x g o c ov { d with caches := k } s m t hm ht
  have hcrash : ∀ n, cachesAfterCrash d.caches (cacheWrites x.ft g c m d) n false =
      writeCaches d.caches ((cacheWrites x.ft g c m d).take n) := fun n => rfl
  have hall : (projectInputs x.ft g c m d).2 = writeCaches d.caches ((cacheWrites x.ft g c m d).take (cacheWrites x.ft g c m d).length) := by
    rw [List.take_length, inputs_written]
  cases h with
  | loading n =>
    rw [hcrash, he true _ s, projectRun_eq x g o c true d s m t hm ht, inputs_again]
    simp only [Bool.not_true, Bool.and_false, Bool.false_eq_true, if_false]
  | writing n p =>
    rw [he true _ _, projectRun_eq x g o c true d s m t hm ht]
    have e : projectInputs x.ft g c m { d with caches := (projectInputs x.ft g c m d).2 } = projectInputs x.ft g c m d := by
      rw [hall, inputs_again]
    rw [e, C166_overwrite _ s _ (.again overwrite n p .start)]
    simp only [Bool.not_true, Bool.and_false, Bool.false_eq_true, if_false]

/-- **C168, violated.** When a run that would have succeeded was stopped while it wrote a cache file, every later run that is not
refused raises `JSONDecodeError` and changes nothing: no run of the project succeeds until the cache file is removed by hand. -/
theorem C168_torn_violated (x : Tools K) (g : Geometries K) (o : Surroundings) (c : Settings K) (overwrite : Bool)
    (d : ProjectFiles K) (s : Store) (m : MapFile K) (hm : d.maps c.mapPath = some m)
    (hrun : (projectRun x g o c overwrite d s).2.2 = .ok true) (d' : ProjectFiles K) (s' : Store)
    (h : Stopped x g o c overwrite d s m true d' s') :
    s' = s ∧ ∀ (overwrite' : Bool) (s'' : Store), (overwrite' = true ∨ ¬ HasResults s'') →
      projectRun x g o c overwrite' d' s'' = (s'', d', .error .valueError) := by
  obtain ⟨m', t, m2, hm', ht, hl, -⟩ := run_true x g o c overwrite d s (projectRun x g o c overwrite d s).2.1 (Prod.ext rfl hrun)
  rw [hm] at hm'
  obtain rfl := Option.some.inj hm'
  cases h with
  | caching n hn =>
  have he := fun (ov : Bool) (k : Caches) (s : Store) => projectRun_eq x g o c ov { d with caches := k } s m t hm ht
  refine ⟨rfl, fun overwrite' s'' ho => ?_⟩
  rw [he overwrite' _ s'']
  have key : ∃ i : Inputs K, setModelData x.nn i = .error .valueError ∧
      projectInputs x.ft g c m { d with caches := cachesAfterCrash d.caches (cacheWrites x.ft g c m d) n true } =
        (i, cachesAfterCrash d.caches (cacheWrites x.ft g c m d) n true) := by
    obtain ⟨a, css, rs, ss, k, h1, h2, h3, h4, h5, h6, h7, h8⟩ := inputs_ok _ _ _ _ _ _ _ hl
    refine torn_inputs x g c m d a css rs ss n h1 h3 h5 h6 hn ?_
    rcases h7 with ⟨h7, -⟩ | ⟨ps, lr, r, h7, hp, hg, hr, -⟩
    · exact .inl h7
    · exact .inr ⟨ps, lr, r, k, h7, by unfold gridLabelsAt; rw [hp]; exact hg, hr⟩
  obtain ⟨i, hi, e⟩ := key
  rw [e, load_failed x c.run i o overwrite' s'' _ ho hi, ite_self]
  rfl

/-! ## Examples -/

/-- The sample project: it has its files, it writes two cache files, and a run succeeds. -/
example : (sampleProject.maps sampleSettings.mapPath).isSome = true ∧ (sampleProject.texts sampleSettings.cssPath).isSome = true ∧
    ((cacheWrites sampleTools.ft sampleGeometries sampleSettings sampleMapFile sampleProject).map fun w => String.ofList w.1) =
      ["map.region_cache.json", "map.section_cache.json"] ∧
    (projectRun sampleTools sampleGeometries sampleSurroundings sampleSettings false sampleProject noFiles).2.2.toOption = some true := by
  decide +kernel

/-- The project after a run that was stopped while it wrote the second cache file. -/
noncomputable def sampleTorn : ProjectFiles ℚ :=
  { sampleProject with
    caches := cachesAfterCrash sampleProject.caches
      (cacheWrites sampleTools.ft sampleGeometries sampleSettings sampleMapFile sampleProject) 1 true }

/-- Such a stop is possible; the cache of regions is whole, that of sections is not, and running again raises an error. -/
example :
    Stopped sampleTools sampleGeometries sampleSurroundings sampleSettings false sampleProject noFiles sampleMapFile true sampleTorn
      noFiles ∧
    ((sampleTorn.caches "map.region_cache.json".toList).map fun c => match c with | .damaged => false | .labels _ => true) = some true ∧
    ((sampleTorn.caches "map.section_cache.json".toList).map fun c => match c with | .damaged => false | .labels _ => true) =
      some false ∧
    (match (projectRun sampleTools sampleGeometries sampleSurroundings sampleSettings true sampleTorn noFiles).2.2 with
      | .error .valueError => true | _ => false) = true :=
  ⟨.caching 1 (by decide +kernel), by decide +kernel, by decide +kernel, by decide +kernel⟩

/-- A run that was stopped between two cache files, and one that was stopped while it wrote its second result. -/
example :
    (∃ d', Stopped sampleTools sampleGeometries sampleSurroundings sampleSettings false sampleProject noFiles sampleMapFile false d'
      noFiles ∧ (d'.caches "map.region_cache.json".toList).isSome = true ∧ (d'.caches "map.section_cache.json".toList).isSome = false) ∧
    ∃ d' s', Stopped sampleTools sampleGeometries sampleSurroundings sampleSettings false sampleProject noFiles sampleMapFile false d'
      s' ∧ outputExists s' = true :=
  ⟨⟨_, .loading 1, by decide +kernel, by decide +kernel⟩, ⟨_, _, .writing 2 (some 1), by decide +kernel⟩⟩

end Fm2prof.Props
