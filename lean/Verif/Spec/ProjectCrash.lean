import Verif.Model.ProjectCrash
import Verif.Spec.Runner

/-!
# Runs of a project that are interrupted
-/

namespace Fm2prof.Spec

variable {K : Type} [Field K] [LinearOrder K] [IsStrictOrderedRing K] [FloorRing K]

/-- The files of a project and those in its output directory after a run that was stopped from outside. `torn` tells that it was
stopped while it wrote a cache file. -/
inductive Stopped (x : Tools K) (g : Geometries K) (o : Surroundings) (c : Settings K) (overwrite : Bool) (d : ProjectFiles K)
    (s : Store) (m : MapFile K) : Bool → ProjectFiles K → Store → Prop
  | loading (n : Nat) : Stopped x g o c overwrite d s m false
      { d with caches := cachesAfterCrash d.caches (cacheWrites x.ft g c m d) n false } s
  | caching (n : Nat) (hn : n < (cacheWrites x.ft g c m d).length) : Stopped x g o c overwrite d s m true
      { d with caches := cachesAfterCrash d.caches (cacheWrites x.ft g c m d) n true } s
  | writing (n : Nat) (p : Option Nat) : Stopped x g o c overwrite d s m false
      { d with caches := (projectInputs x.ft g c m d).2 }
      (afterCrash s (runWrites (jobOf x c.run (projectInputs x.ft g c m d).1
        { o with configured := true, mapIsFile := true, cssIsFile := true }) overwrite s) n p)

end Fm2prof.Spec
