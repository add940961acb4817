import Mathlib.Algebra.Order.Floor.Ring
import Mathlib.Algebra.Order.Field.Basic
import Mathlib.Data.List.Sort
import Mathlib.Order.WithBot
import Verif.Model.Geometry

/-!
# Visvalingam-Whyatt simplification

Models `fm2prof/lib/polysimplify.py` and `CrossSection.reduce_points`. Importance values ("areas", "thresholds")
are elements of `WithTop K`; `⊤` is `np.inf`.
-/

namespace Fm2prof

variable {K : Type} [Field K] [LinearOrder K] [IsStrictOrderedRing K]

/-- `triangle_area` (polysimplify.py:41-48). -/
def triangleArea (p₁ p₂ p₃ : K × K) : K :=
  |p₁.1 * (p₂.2 - p₃.2) + p₂.1 * (p₃.2 - p₁.2) + p₃.1 * (p₁.2 - p₂.2)| / 2

/-- The vectorised part of `triangle_areas_from_array` (polysimplify.py:64-81): one area per interior point. -/
def interiorAreas : List (K × K) → List (WithTop K)
  | p₁ :: p₂ :: p₃ :: ps => ((triangleArea p₁ p₂ p₃ : K) : WithTop K) :: interiorAreas (p₂ :: p₃ :: ps)
  | _ => []

/-- `triangle_areas_from_array` (polysimplify.py:51-83): infinite at both ends; `result[0]` of an empty array
raises `IndexError`; for a single point both ends are the same element. -/
def triangleAreas : List (K × K) → Except PyErr (List (WithTop K))
  | [] => .error .indexError
  | [_] => .ok [⊤]
  | p₁ :: p₂ :: ps => .ok (⊤ :: interiorAreas (p₁ :: p₂ :: ps) ++ [⊤])

/-- `remove(s, i)`: `s[i:-1] = s[i+1:]` (polysimplify.py:89-97). The length stays, the last value is repeated. -/
def shiftOut (s : List (WithTop K)) (i : Nat) : List (WithTop K) :=
  match s.getLast? with
  | some l => if i < s.length then s.eraseIdx i ++ [l] else s
  | none => s

/-- `numpy.argmin`: the first index of a smallest element. -/
def argmin (l : List (WithTop K)) : Nat :=
  l.findIdx fun x => l.all fun y => decide (x ≤ y)

/-- Variables of the loop in `build_thresholds` (polysimplify.py:122-131): the shifted copy `areas`, the list `i` of
live indices, `real_areas`, the position `min_vert` and `this_area`. -/
structure VWState (K : Type) where
  areas : List (WithTop K)
  live : List Nat
  real : List (WithTop K)
  minVert : Nat
  thisArea : WithTop K

/-- `min_vert = skip or argmin(areas)` (polysimplify.py:126 and 183). `skip` is `none` for `False`; a `skip` of zero
is falsy as well. -/
def vwPick (areas : List (WithTop K)) : Option Nat → Nat
  | some (k + 1) => k + 1
  | _ => argmin areas

/-- Selecting and taking out the next vertex (polysimplify.py:126-131 and 183-187): `i.pop(min_vert)`,
`this_area = areas[min_vert]`, `remove(areas, min_vert)`. -/
def vwChoose (areas : List (WithTop K)) (live : List Nat) (real : List (WithTop K)) (skip : Option Nat) :
    Except PyErr (VWState K) :=
  match live[vwPick areas skip]?, areas[vwPick areas skip]? with
  | some _, some a =>
    .ok { areas := shiftOut areas (vwPick areas skip), live := live.eraseIdx (vwPick areas skip), real := real,
          minVert := vwPick areas skip, thisArea := a }
  | _, _ => .error .indexError

/-- The area of the right neighbour (polysimplify.py:144-168), `none` when an index is out of range (the `IndexError`
that the code passes over). In the loop `min_vert` is at least one (proved in `Proofs/Simplify`), so Python's negative
index never occurs. -/
def vwRightArea (pts : List (K × K)) (live : List Nat) (mv : Nat) : Option (Nat × K) := do
  let p₁ ← pts[← live[mv - 1]?]?
  let r ← live[mv]?
  let p₂ ← pts[r]?
  let p₃ ← pts[← live[mv + 1]?]?
  return (r, triangleArea p₁ p₂ p₃)

/-- The area of the left neighbour (polysimplify.py:172-174); an `IndexError` here is not caught. -/
def vwLeftArea (pts : List (K × K)) (live : List Nat) (mv : Nat) : Except PyErr (Nat × K) :=
  match (do
    let p₁ ← pts[← live[mv - 2]?]?
    let l ← live[mv - 1]?
    let p₂ ← pts[l]?
    let p₃ ← pts[← live[mv]?]?
    return (l, triangleArea p₁ p₂ p₃) : Option (Nat × K)) with
  | some r => .ok r
  | none => .error .indexError

/-- Updating the right neighbour of the vertex just removed (polysimplify.py:142-168): new `areas`, `real_areas` and
`skip`. -/
def vwRight (pts : List (K × K)) (s : VWState K) : List (WithTop K) × List (WithTop K) × Option Nat :=
  match vwRightArea pts s.live s.minVert with
  | none => (s.areas, s.real, none)
  | some (r, a) =>
    if (a : WithTop K) ≤ s.thisArea then
      (s.areas.set s.minVert s.thisArea, s.real.set r s.thisArea, some s.minVert)
    else (s.areas.set s.minVert (a : WithTop K), s.real.set r (a : WithTop K), none)

/-- Updating both neighbours of the vertex just removed (polysimplify.py:142-180). -/
def vwUpdate (pts : List (K × K)) (s : VWState K) :
    Except PyErr (List (WithTop K) × List (WithTop K) × Option Nat) :=
  match vwRight pts s with
  | (areas, real, skip) =>
    if 1 < s.minVert then
      match vwLeftArea pts s.live s.minVert with
      | .error e => .error e
      | .ok (l, a) =>
        if (a : WithTop K) ≤ s.thisArea then
          .ok (areas.set (s.minVert - 1) s.thisArea, real.set l s.thisArea, some (s.minVert - 1))
        else .ok (areas.set (s.minVert - 1) (a : WithTop K), real.set l (a : WithTop K), skip)
    else .ok (areas, real, skip)

/-- The `while this_area < np.inf` loop (polysimplify.py:134-195). `fuel` bounds the number of rounds; running out is
the separate outcome `outOfFuel`, proved impossible. -/
def vwLoop (pts : List (K × K)) : Nat → VWState K → Except PyErr (List (WithTop K))
  | fuel, s =>
    if s.thisArea < ⊤ then
      match fuel with
      | 0 => .error .outOfFuel
      | fuel + 1 =>
        match vwUpdate pts s with
        | .error e => .error e
        | .ok (areas, real, skip) =>
          match vwChoose areas s.live real skip with
          | .error e => .error e
          | .ok s' => vwLoop pts fuel s'
    else .ok s.real

/-- `VWSimplifier.build_thresholds` (polysimplify.py:109-195). -/
def buildThresholds (pts : List (K × K)) : Except PyErr (List (WithTop K)) :=
  match triangleAreas pts with
  | .error e => .error e
  | .ok real =>
    match vwChoose real (List.range pts.length) real none with
    | .error e => .error e
    | .ok s => vwLoop pts pts.length s

/-- `sorted(self.thresholds, reverse=True)` (polysimplify.py:107). -/
def orderedThresholds (thresholds : List (WithTop K)) : List (WithTop K) :=
  thresholds.insertionSort (fun a b => b ≤ a)

/-- `VWSimplifier.from_number_index(n)` (polysimplify.py:208-214). `none` is the case in which the method returns the
points instead of a mask (`IndexError` on `thresholds[int(n)]`). -/
def fromNumberIndex (thresholds : List (WithTop K)) (n : Int) : Option (List Bool) :=
  match pyIndex thresholds.length n with
  | .ok k =>
    match (orderedThresholds thresholds)[k]? with
    | some t => some (thresholds.map fun a => decide (t < a))
    | none => none
  | .error _ => none

/-- `VWSimplifier.from_threshold(threshold)` (polysimplify.py:197-198), as a mask. -/
def fromThreshold (thresholds : List (WithTop K)) (t : WithTop K) : List Bool :=
  thresholds.map fun a => decide (t ≤ a)

/-- `VWSimplifier.from_number(n)` (polysimplify.py:200-206): the points, all of them on `IndexError`. -/
def fromNumber (pts : List (K × K)) (thresholds : List (WithTop K)) (n : Int) : List (K × K) :=
  match fromNumberIndex thresholds n with
  | some m => maskSelect m pts
  | none => pts

/-- `VWSimplifier.from_ratio(r)` (polysimplify.py:216-220). `int` of a positive number is its floor. -/
def fromRatio [FloorRing K] (pts : List (K × K)) (thresholds : List (WithTop K)) (r : K) : Except PyErr (List (K × K)) :=
  if r ≤ 0 ∨ 1 < r then .error .valueError else .ok (fromNumber pts thresholds ⌊r * (thresholds.length : K)⌋)

/-- `CrossSection.reduce_points(count_after)` (cross_section.py:586-646). The simplifier's own exceptions are
caught and leave all points; indexing the arrays with something that is not a mask (the points, floats) raises
`IndexError`. The result is the published profile `z`, `total_width`, `flow_width`. -/
def reducePoints (countAfter : Int) (g : Geometry K) : Except PyErr (Geometry K) :=
  let n := g.totalWidth.length
  let points := g.z.zip g.totalWidth
  let index : Option (List Bool) :=
    if countAfter < (n : Int) then
      match buildThresholds points with
      | .error _ => some (List.replicate n true)
      | .ok th => fromNumberIndex th countAfter
    else some (List.replicate n true)
  match index with
  | some m =>
    .ok { z := maskSelect m g.z, totalWidth := maskSelect m g.totalWidth, flowWidth := maskSelect m g.flowWidth }
  | none => .error .indexError

end Fm2prof
