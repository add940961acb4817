import Verif.Spec.Build
import Verif.Model.Correction

/-!
# Maps and faces that should not matter

A map in which the water is not higher than before, and a face that is divided into smaller ones.
-/

namespace Fm2prof.Spec

open Fm2prof

variable {K : Type} [Field K] [LinearOrder K]

/-- A series without its entry number `p`. -/
def without {α : Type} (p : Nat) (f : Nat → α) : Nat → α := fun t => if t < p then f t else f (t + 1)

/-- A cell without map number `p`. -/
def Cell.without (p : Nat) (c : Cell K) : Cell K :=
  { c with depth := Spec.without p c.depth, level := Spec.without p c.level, velocity := Spec.without p c.velocity }

/-- The data of a control volume without map number `p`. -/
def ControlVolume.without (p : Nat) (cv : ControlVolume K) : ControlVolume K :=
  { nMaps := cv.nMaps - 1, cells := cv.cells.map (Cell.without p) }

/-- The data of a control volume without its last `k` maps. -/
def ControlVolume.withoutLast : Nat → ControlVolume K → ControlVolume K
  | 0, cv => cv
  | k + 1, cv => ControlVolume.withoutLast k (ControlVolume.without (cv.nMaps - 1) cv)

/-- The profile, the extra volumes and the curves of a cross-section, without the list of the levels of all maps. -/
def profileOf (c : Css K) : Css K := { c with raw := { c.raw with zRoughness := [] } }

/-- Smaller cells that together are the given ones: each cell is divided into cells with the same levels, depths and velocities, and
areas that add up to its own. -/
inductive Divided : List (Cell K) → List (Cell K) → Prop
  | nil : Divided [] []
  | cons {c : Cell K} {cells parts rest : List (Cell K)}
      (hd : ∀ p ∈ parts, p.bed = c.bed ∧ p.depth = c.depth ∧ p.level = c.level ∧ p.velocity = c.velocity)
      (ha : (parts.map (·.area)).sum = c.area) (ih : Divided cells rest) : Divided (c :: cells) (parts ++ rest)

/-- Two cells hold the same water: they differ at most in area. -/
def SameWater (c c' : Cell K) : Prop := c'.bed = c.bed ∧ c'.depth = c.depth ∧ c'.level = c.level ∧ c'.velocity = c.velocity

/-- At map `t` all velocities are known in both sets of cells, and the mean of the three largest is the same. -/
def SameFastest (cells cells' : List (Cell K)) (t : Nat) : Prop :=
  ∃ vs vs' : List K, cells.map (fun c => c.velocity t) = vs.map some ∧ cells'.map (fun c => c.velocity t) = vs'.map some ∧
    -999 ∉ vs ∧ -999 ∉ vs' ∧ ∀ top top', Largest 3 vs top → Largest 3 vs' top' → mean top = mean top'

/-- What a profile says about all of the water: levels, widths, areas and volumes, without those of the flowing part. -/
def totalsOf (b : Built K) : Built K := { b with flowWidth := [], flowArea := [], flowVolume2d := [], flowVolume1d := [] }

end Fm2prof.Spec
