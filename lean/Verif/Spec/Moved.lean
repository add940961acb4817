import Verif.Spec.Program

/-! Specification of projects that are moved to another directory. -/

namespace Fm2prof.Spec

open Fm2prof

variable {K : Type}

/-- A path that is relative to a directory. -/
def IsRelative (x : Text) : Prop := x ≠ [] ∧ x.head? ≠ some '/'

/-- What is in the directory `p` in `v` is in the directory `q` in `w`; the directory can be the current one, `.`. Nothing is said about
anything else, except that no file has the empty path. -/
structure Moved (p q : Text) (v w : AllFiles K) : Prop where
  maps : ∀ x, IsRelative x → v.inputs.maps (joinPath p x) = w.inputs.maps (joinPath q x)
  texts : ∀ x, IsRelative x → v.inputs.texts (joinPath p x) = w.inputs.texts (joinPath q x)
  polygons : ∀ x, IsRelative x → v.inputs.polygons (joinPath p x) = w.inputs.polygons (joinPath q x)
  caches : ∀ x, IsRelative x → v.inputs.caches (joinPath p x) = w.inputs.caches (joinPath q x)
  files : ∀ x, IsRelative x → (joinPath p x ∈ v.disk.files ↔ joinPath q x ∈ w.disk.files)
  results : ∀ x, IsRelative x → v.results (joinPath p x) = w.results (joinPath q x)
  unnamed : v.inputs.maps [] = none ∧ w.inputs.maps [] = none ∧ v.inputs.texts [] = none ∧ w.inputs.texts [] = none

/-- A configuration file that names its input files and its output directory relative to its own directory. The path
of an input file has a name other than `.` in it. -/
def Relocatable (f : FileContent) : Prop :=
  (∀ key x, fileValue f "input".toList key = some x → IsRelative x ∧ pathName x ≠ []) ∧
    ∀ x, fileValue f "output".toList "OutputDirectory".toList = some x → IsRelative x

/-- What can be done with a project that exists. -/
inductive Task where
  | check
  | run (overwrite post : Bool)
  | compare (path1 path2 routes : Text)

/-- The command for a task. -/
def Task.command (name : Text) : Task → Command
  | .check => .check name
  | .run overwrite post => .run name overwrite post
  | .compare path1 path2 routes => .compare name path1 path2 routes

/-- The results that are compared are files in both cases, or in neither. -/
def Task.SameFiles (v w : Disk) : Task → Prop
  | .compare path1 path2 _ => (path1 ∈ v.files ↔ path1 ∈ w.files) ∧ (path2 ∈ v.files ↔ path2 ∈ w.files)
  | _ => True

end Fm2prof.Spec
