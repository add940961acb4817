import Verif.Model.Project
import Verif.Model.Crash

/-!
# The order in which a run of a project writes its cache files

The cache files are written while the input is loaded, before anything is written to the output directory.
-/

namespace Fm2prof

variable {K : Type} [Field K] [LinearOrder K] [IsStrictOrderedRing K] [FloorRing K]

/-- The cache file that one call of `get_gridpoints_in_polygon` (polygon_file.py:174-223) writes, if any. -/
def callWrites (isText : Bool) (g : Geometries K) (property default : String) (ps : List (Polygon K)) (path : Text) (m : MapFile K)
    (caches : Caches) : List (Text × CacheFile (Nat × Nat) Labels) :=
  if isText then []
  else
    match withSuffix ('.' :: property.toList ++ "_cache.json".toList) path with
    | .error _ => []
    | .ok key =>
      match readCache (caches key) with
      | .error _ => []
      | .ok kept =>
        match kept.filter fun c => c.stamp = m.stamp with
        | some _ => []
        | none =>
          match freshLabels g property default ps m with
          | .error _ => []
          | .ok ls => [(key, ⟨m.stamp, ls⟩)]

/-- The cache files that `_set_fm_model_data` (fm2prof_runner.py:405-472) writes, in order. -/
def cacheWrites (ft : FloatText K) (g : Geometries K) (c : Settings K) (m : MapFile K) (d : ProjectFiles K) :
    List (Text × CacheFile (Nat × Nat) Labels) :=
  match m.data, (cssFile ft ',' (d.texts c.cssPath)).map locationsOf, optionalRegions d c.regionPath,
    optionalSections d c.sectionPath with
  | .ok _, .ok _, .ok none, .ok none => []
  | .ok _, .ok _, .ok none, .ok (some ss) =>
    callWrites c.mapIsText g "section" (String.ofList c.defaultSection) ss c.mapPath m d.caches
  | .ok _, .ok _, .ok (some rs), .ok none =>
    callWrites c.mapIsText g "region" (String.ofList c.defaultRegion) rs c.mapPath m d.caches
  | .ok _, .ok _, .ok (some rs), .ok (some ss) =>
    callWrites c.mapIsText g "region" (String.ofList c.defaultRegion) rs c.mapPath m d.caches ++
      match gridLabelsAt c.mapIsText g "region" (String.ofList c.defaultRegion) rs c.mapPath m d.caches with
      | (.error _, _) => []
      | (.ok _, k) => callWrites c.mapIsText g "section" (String.ofList c.defaultSection) ss c.mapPath m k
  | _, _, _, _ => []

/-- Writing cache files one after the other. -/
def writeCaches (caches : Caches) : List (Text × CacheFile (Nat × Nat) Labels) → Caches
  | [] => caches
  | w :: ws => writeCaches (storeCache w.1 (.labels w.2) caches) ws

/-- The cache files when the program is stopped after it has written the first `n`, or, if `torn`, while it writes the next one.
Opening a file for writing empties it, and no beginning of the text of a JSON object is JSON, so that the file is damaged
whatever part of the text has arrived. -/
def cachesAfterCrash (caches : Caches) (ws : List (Text × CacheFile (Nat × Nat) Labels)) (n : Nat) (torn : Bool) : Caches :=
  match torn, ws[n]? with
  | true, some w => storeCache w.1 .damaged (writeCaches caches (ws.take n))
  | _, _ => writeCaches caches (ws.take n)

end Fm2prof
