import Verif.Spec.History
import Verif.Model.ProjectCrash

/-! Specification of histories with commands that are stopped from outside. -/

namespace Fm2prof.Spec

open Fm2prof

variable {K : Type} [Field K] [LinearOrder K] [IsStrictOrderedRing K] [FloorRing K]

/-- All files when `run` of a documented project has been stopped from outside: before it has read its input, while it read it and
wrote cache files, or while it wrote its results. `torn` tells that it was stopped while it wrote a cache file. -/
inductive StoppedRun (e : Computer K) (w : AllFiles K) (path : Text) (f : FileContent) (out : Text) (overwrite : Bool) :
    Bool → AllFiles K → Prop
  | opening (dirs : List Text) (s : Store) (hs : s = w.results out ∨ s = opened e.logText (w.results out)) :
    StoppedRun e w path f out overwrite false ⟨w.inputs, ⟨w.disk.files, dirs⟩, fun d => if d = out then s else w.results d⟩
  | loading (dirs : List Text) (m : MapFile K)
      (hm : w.inputs.maps (settingsIn e.tools.ft (parentPath path) w.disk.files f).mapPath = some m) (n : Nat) (torn : Bool)
      (hn : torn = true → n < (cacheWrites e.tools.ft e.geometries (settingsIn e.tools.ft (parentPath path) w.disk.files f) m
        w.inputs).length) :
    StoppedRun e w path f out overwrite torn
      ⟨{ w.inputs with caches := cachesAfterCrash w.inputs.caches (cacheWrites e.tools.ft e.geometries
          (settingsIn e.tools.ft (parentPath path) w.disk.files f) m w.inputs) n torn }, ⟨w.disk.files, dirs⟩,
        fun d => if d = out then opened e.logText (w.results out) else w.results d⟩
  | writing (dirs : List Text) (m : MapFile K)
      (hm : w.inputs.maps (settingsIn e.tools.ft (parentPath path) w.disk.files f).mapPath = some m) (n : Nat) (p : Option Nat) :
    StoppedRun e w path f out overwrite false
      ⟨{ w.inputs with caches := (projectInputs e.tools.ft e.geometries (settingsIn e.tools.ft (parentPath path) w.disk.files f) m
          w.inputs).2 }, ⟨w.disk.files, dirs⟩,
        fun d => if d = out then afterCrash (opened e.logText (w.results out)) (runWrites (jobOf e.tools
          (settingsIn e.tools.ft (parentPath path) w.disk.files f).run (projectInputs e.tools.ft e.geometries
            (settingsIn e.tools.ft (parentPath path) w.disk.files f) m w.inputs).1 (ready e.faults)) overwrite
            (opened e.logText (w.results out))) n p else w.results d⟩

/-- What may have happened to a project that is left alone: commands that leave it alone, runs of it that were stopped, but not while a
cache file was written, and stopped runs of documented projects with other cache files. -/
inductive LeftAlone (e : Computer K) (path mapPath cssPath : Text) (f : FileContent) (out : Text) (w : AllFiles K) : AllFiles K → Prop
  | start : LeftAlone e path mapPath cssPath f out w w
  | command {w' : AllFiles K} (a : Command) : LeftAlone e path mapPath cssPath f out w w' → LeavesAlone path mapPath cssPath w' a →
    LeftAlone e path mapPath cssPath f out w (program e w' a).1
  | stopped {w' w'' : AllFiles K} (overwrite : Bool) : LeftAlone e path mapPath cssPath f out w w' →
    StoppedRun e w' path f out overwrite false w'' → LeftAlone e path mapPath cssPath f out w w''
  | other {w' w'' : AllFiles K} (n path' : Text) (f' : FileContent) (out' : Text) (overwrite torn : Bool) :
    LeftAlone e path mapPath cssPath f out w w' → ProjectAt w' n path' f' out' →
    (∀ mapPath', namedFile (parentPath path') w'.disk.files f' "2DMapOutput" = some mapPath' →
      ∀ t, IsCacheOf mapPath t → ¬ IsCacheOf mapPath' t) →
    StoppedRun e w' path' f' out' overwrite torn w'' → LeftAlone e path mapPath cssPath f out w w''

end Fm2prof.Spec
