import Verif.Model.Runner

/-!
# What a run is expected to do

Names of the result files, the groups in which they are exported, requested cross-sections and histories of runs.
-/

namespace Fm2prof.Spec

/-- The names of the result files. -/
def resultFiles : List String :=
  ["CrossSectionLocations.ini", "CrossSectionDefinitions.ini", "roughness-Main.ini", "roughness-FloodPlain1.ini",
    "roughness-FloodPlain2.ini", "geometry.csv", "roughness.csv", "geometry_test.csv", "roughness_test.csv",
    "volumes.csv"]

/-- A name of a result file. -/
def IsResult (f : Text) : Prop := ∃ r ∈ resultFiles, f = r.toList

/-- There is a result file in the directory. -/
def HasResults (s : Store) : Prop := ∃ f, IsResult f ∧ (s f).isSome

/-- The files written by a run, in the groups and in the order in which they are written. -/
def groups : List (List Text) :=
  [["CrossSectionLocations.ini".toList, "CrossSectionDefinitions.ini".toList, "roughness-FloodPlain1.ini".toList,
      "roughness-FloodPlain2.ini".toList, "roughness-Main.ini".toList],
    ["geometry.csv".toList, "roughness.csv".toList], ["geometry_test.csv".toList, "volumes.csv".toList]]

/-- File `f` comes after file `p` in the same group. -/
def After (p f : Text) : Prop := ∃ g ∈ groups, List.Sublist [p, f] g

/-- Two situations that differ at most in what happens to the file `p`. -/
def SameFaultsBut (p : Text) (w w' : WriteFaults) : Prop :=
  ∀ f, f ≠ p → w.refuses f = w'.refuses f ∧ w.breaks f = w'.breaks f

/-- Nothing goes wrong with a file. -/
def Sound (w : WriteFaults) (f : Text) : Prop := w.refuses f = false ∧ w.breaks f = none

/-- The element at a position, counted from the end when negative. -/
def IsAt {α : Type} (l : List α) (i : Int) (x : α) : Prop :=
  (0 ≤ i ∧ l[i.toNat]? = some x) ∨ (i < 0 ∧ (-i).toNat ≤ l.length ∧ l[l.length - (-i).toNat]? = some x)

/-- The requested elements: all of them, or those at the positions of the selection, in the order of the selection. -/
def Requested {α : Type} (selection : List Int) (l xs : List α) : Prop :=
  (selection = [] ∧ xs = l) ∨ (selection ≠ [] ∧ List.Forall₂ (IsAt l) selection xs)

/-- The files of one directory on top of those of another one. -/
def overlay (new old : Store) : Store := fun f => (new f).or (old f)

/-- A directory without files. -/
def noFiles : Store := fun _ => none

/-- Runs one after the other on the same directory, with what each returns. -/
def runs {S C : Type} : List (Job S C × Bool) → Store → Store × List (Except PyErr Bool)
  | [], s => (s, [])
  | (j, overwrite) :: rest, s =>
    ((runs rest (run j overwrite s).1).1, (run j overwrite s).2 :: (runs rest (run j overwrite s).1).2)

/-- A location that a cross-section is made for: its data are there and it has at least ten faces. -/
def Eligible {S C : Type} (j : Job S C) (x : S) : Bool := j.valid x && decide (10 ≤ j.faces x)

/-- The data of a location are to be stored, and cannot be: those it is given, or with at least ten faces its flow mask. -/
def Unstorable {S C : Type} (j : Job S C) (x : S) : Prop :=
  j.exportCssData = true ∧ (¬ Sound j.faults (j.name x ++ ".pickle".toList) ∨
    10 ≤ j.faces x ∧ (j.mask x).isSome ∧ ¬ Sound j.faults (j.name x ++ "_flowmask.pickle".toList))

/-- Making the cross-section of a location raises `e`: its data cannot be stored, or building it raises. -/
def FailsWith {S C : Type} (j : Job S C) (x : S) (e : PyErr) : Prop :=
  j.valid x = true ∧ ((Unstorable j x ∧ e = .osError) ∨ (¬ Unstorable j x ∧ 10 ≤ j.faces x ∧ j.build x = .error e))

end Fm2prof.Spec
