import Mathlib.Algebra.Order.Field.Basic
import Verif.Model.Basic

/-!
# Repairs applied to a cross-section's geometry

Models `fm2prof/cross_section.py`: `_check_monotonicity`, `check_requirements` with its four repairs, and the
two purely list-based parts of the construction (`_compute_css_above_z0`, `cumulative_trapezoid`).
-/

namespace Fm2prof

section Compare
variable {α : Type} [LinearOrder α]

/-- `a > b` on floats: a missing value (`none`) never compares. -/
def fgt : Option α → Option α → Bool
  | some a, some b => decide (b < a)
  | _, _ => false

/-- `np.argwhere(mask)[-1][0]`: the index of the last `True`; `none` when there is none (Python raises). -/
def lastTrue (mask : List Bool) : Option Nat :=
  (mask.zipIdx.filter (·.1)).getLast?.map (·.2)

/-- One round of the loop in `_check_monotonicity` (cross_section.py:1424-1429): compare element `i` with the
element at the last accepted index and append the answer to the mask. -/
def monoStep (arr : List (Option α)) (mask : List Bool) (i : Nat) : List Bool :=
  match lastTrue mask with
  | some j => mask ++ [fgt (arr[i]?.join) (arr[j]?.join)]
  | none => mask ++ [false]

/-- `CrossSection._check_monotonicity(arr, method=1)` (cross_section.py:1422-1431). The mask starts as `[True]`
even for an empty array. `none` elements are NaN. -/
def checkMonotonicity (arr : List (Option α)) : List Bool :=
  (List.range' 1 (arr.length - 1)).foldl (monoStep arr) [true]

/-- Loop of `_check_increasing_order` (cross_section.py:910-914) from the second element on; `prev` is the
already repaired `list_points[i-1]`, `bump` is the float operation `· + 0.001`. -/
def increasingFrom (bump : α → α) (prev : α) : List α → List α
  | [] => []
  | x :: xs =>
    let x' := if x ≤ prev then bump prev else x
    x' :: increasingFrom bump x' xs

/-- `CrossSection._check_increasing_order` (cross_section.py:910-914). -/
def checkIncreasingOrder (bump : α → α) : List α → List α
  | [] => []
  | x :: xs => x :: increasingFrom bump x xs

/-- `CrossSection._check_remove_zero_widths` (cross_section.py:752-759). -/
def removeZeroWidths (minWidth : α) (w : List α) : List α :=
  w.map fun x => if x < minWidth then minWidth else x

/-- `CrossSection._check_total_width_greater_than_flow_width` (cross_section.py:1437-1444); returns the new flow
widths. The two arrays have equal length in the code (numpy would raise otherwise). -/
def capFlowWidth (total flow : List α) : List α :=
  List.zipWith (fun t f => if t < f then t else f) total flow

/-- Flow-width correction of `_compute_css_above_z0` (cross_section.py:1158-1161): from the last but one element
backwards, `w[-i] = min(w[-i], w[-i+1])`. -/
def backMin : List α → List α
  | [] => []
  | x :: xs =>
    match backMin xs with
    | [] => [x]
    | y :: ys => min x y :: y :: ys

end Compare

section Field
variable {K : Type} [Field K] [LinearOrder K] [IsStrictOrderedRing K]

/-- `CrossSection._check_remove_duplicate_zeroes` (cross_section.py:743-746): raises `IndexError` when every total
width is zero. -/
def firstNonzeroIndex (total : List K) : Except PyErr Nat :=
  match total.findIdx? (· ≠ 0) with
  | some i => .ok (max 1 i)
  | none => .error .indexError

/-- The geometry arrays of a cross-section that the repairs work on (cross_section.py:197-204). -/
structure Geometry (K : Type) where
  z : List K
  totalWidth : List K
  flowWidth : List K
  deriving DecidableEq, Repr

/-- `CrossSection.check_requirements` (cross_section.py:418-431): the steps in the order of the code. -/
def checkRequirements (bump : K → K) (minWidth : K) (g : Geometry K) : Except PyErr (Geometry K) := do
  let _ ← firstNonzeroIndex g.totalWidth
  let total := removeZeroWidths minWidth g.totalWidth
  let flow := removeZeroWidths minWidth g.flowWidth
  let z := checkIncreasingOrder bump g.z
  let total := checkIncreasingOrder bump total
  let flow := checkIncreasingOrder bump flow
  let flow := capFlowWidth total flow
  return { z := z, totalWidth := total, flowWidth := flow }

/-- Loop of `scipy.integrate.cumulative_trapezoid(y, x)` with the running sum `acc`. -/
def cumTrapzFrom (acc : K) : List K → List K → List K
  | y₀ :: y₁ :: ys, x₀ :: x₁ :: xs =>
    let acc' := acc + (x₁ - x₀) * ((y₁ + y₀) / 2)
    acc' :: cumTrapzFrom acc' (y₁ :: ys) (x₁ :: xs)
  | _, _ => []

/-- `np.append([0], cumulative_trapezoid(width, z) * length)` (cross_section.py:401-408). -/
def volume1d (width z : List K) (length : K) : List K :=
  0 :: (cumTrapzFrom 0 width z).map (· * length)

end Field

end Fm2prof
