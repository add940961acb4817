import Verif.Model.Parallel
import Verif.Spec.Runner

/-!
# Runs at the same time
-/

namespace Fm2prof.Spec

variable {K : Type} [Field K] [LinearOrder K] [IsStrictOrderedRing K] [FloorRing K]

/-- A cache file that belongs to settings: that of the map file, for each of the two polygon files that is given. -/
def UsesCache (c : Settings K) (key : Text) : Prop :=
  (c.regionPath ≠ [] ∧ withSuffix ".region_cache.json".toList c.mapPath = .ok key) ∨
  (c.sectionPath ≠ [] ∧ withSuffix ".section_cache.json".toList c.mapPath = .ok key)

/-- A cache file that was made for the map file as it is now. -/
def UpToDate (d : ProjectFiles K) (caches : Caches) (c : Settings K) (key : Text) : Prop :=
  ∃ m kept, d.maps c.mapPath = some m ∧ caches key = some (.labels kept) ∧ kept.stamp = m.stamp

/-- The files in the output directory, the files of the project and what is returned, when a run is on its own. -/
noncomputable def onItsOwn (a : Launch K) (d : ProjectFiles K) (σ : Shared) : Store × ProjectFiles K × Except PyErr Bool :=
  projectRun a.tools a.geometries a.surroundings a.settings a.overwrite { d with caches := σ.caches } (σ.results a.dir)

end Fm2prof.Spec
