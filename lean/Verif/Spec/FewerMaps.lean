import Verif.Spec.CutMaps

/-!
# Map files that are written less often
-/

namespace Fm2prof.Spec

open Fm2prof

variable {K : Type} [Field K] [LinearOrder K]

/-- The values of a series at some of the maps. -/
def pickMaps (ts : List Nat) (r : List (Option K)) : List (Option K) := ts.filterMap fun t => r[t]?

/-- The input of a run with only some of the maps in the map file. -/
def Inputs.onlyMaps (ts : List Nat) (i : Inputs K) : Inputs K := { i with map := i.map.map (MapData.editMaps (pickMaps ts) ts.length) }

/-- Some of the maps of `n`, in their order, of which map `s` is the first after `s` others. -/
structure Selects (n s : Nat) (ts : List Nat) : Prop where
  order : ts.Pairwise (· < ·)
  within : ∀ t ∈ ts, t < n
  first : ts[s]? = some s

/-- A column of a table with the ten rows below the first level, and a row for each of the maps from map `s` on: what is left of it
with only the maps `ts`. -/
def keepMaps {β : Type} (s : Nat) (ts : List Nat) (column : List β) : List β :=
  column.take 10 ++ (ts.drop s).filterMap fun t => column[10 + (t - s)]?

/-- The control volume with only some of the maps. -/
def ControlVolume.onlyMaps (ts : List Nat) (cv : ControlVolume K) : ControlVolume K :=
  { nMaps := ts.length
    cells := cv.cells.map fun c =>
      { c with
        depth := fun t => ts[t]?.bind c.depth
        level := fun t => ts[t]?.bind c.level
        velocity := fun t => ts[t]?.bind c.velocity } }

/-- From map `s` on the water level is known and rises from each map to the next. -/
def RisingFrom (s n : Nat) (level : Nat → Option K) : Prop :=
  (∀ t, s ≤ t → t < n → ∃ z, level t = some z ∧ z ≠ -999) ∧
    ∀ t t', s ≤ t → t < t' → t' < n → ∀ a b, level t = some a → level t' = some b → a < b

end Fm2prof.Spec
