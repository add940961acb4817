import Verif.Model.Pipeline
import Verif.Spec.Build

/-!
# Stored data and flow masks
-/

namespace Fm2prof.Spec

open Fm2prof

variable {K : Type} [Field K] [LinearOrder K] [IsStrictOrderedRing K]

/-- The file with the data of a location. -/
def dataFile (id : Text) : Text := id ++ ".pickle".toList

/-- The file with the flow mask of a location. -/
def maskFile (id : Text) : Text := id ++ "_flowmask.pickle".toList

/-- The files of a location are its own: no other location has the name, and none is called like a flow mask. -/
def OwnFiles (xs : List (Loc K)) : Prop :=
  ∀ l ∈ xs, ∀ l' ∈ xs, (l.id = l'.id → l = l') ∧ l'.id ≠ l.id ++ "_flowmask".toList

/-- How many of `n` maps are used: all but the first `skip`, or the last `-skip` when it is negative. -/
def usedMaps (n : Nat) (skip : Int) : Nat := if 0 ≤ skip then n - skip.toNat else min n (-skip).toNat

/-- The total area of the faces that a mask marks at a map. -/
def markedArea (areas : List K) (mask : List (List Bool)) (t : Nat) : K :=
  ((areas.zip mask).map fun p => if p.2[t]? = some true then p.1 else 0).sum

end Fm2prof.Spec
