import Verif.Spec.Program

/-! Specification of histories: commands that leave a project alone. -/

namespace Fm2prof.Spec

open Fm2prof

variable {K : Type} [Field K] [LinearOrder K] [IsStrictOrderedRing K] [FloorRing K]

/-- The cache files of a map file: beside it, with its name without extension. -/
def IsCacheOf (mapPath t : Text) : Prop :=
  withSuffix ".region_cache.json".toList mapPath = .ok t ∨ withSuffix ".section_cache.json".toList mapPath = .ok t

/-- A command that leaves the project at `path` alone: it creates another file than the configuration file and the location file,
checks or compares any project, runs the project itself, or runs a documented project whose map file has other cache files. -/
def LeavesAlone (path mapPath cssPath : Text) (w : AllFiles K) : Command → Prop
  | .create n => n ++ ".ini".toList ≠ path ∧ n ++ ".ini".toList ≠ cssPath
  | .check _ => True
  | .compare _ _ _ _ => True
  | .run n _ _ => withSuffix ".ini".toList n = .ok path ∨ ∃ path' f' out', ProjectAt w n path' f' out' ∧
      ∀ mapPath', namedFile (parentPath path') w.disk.files f' "2DMapOutput" = some mapPath' →
        ∀ t, IsCacheOf mapPath t → ¬ IsCacheOf mapPath' t

/-- Commands that leave a project alone, each in the state in which it is given. -/
def AllLeaveAlone (e : Computer K) (path mapPath cssPath : Text) : AllFiles K → List Command → Prop
  | _, [] => True
  | w, a :: as => LeavesAlone path mapPath cssPath w a ∧ AllLeaveAlone e path mapPath cssPath (program e w a).1 as

end Fm2prof.Spec
