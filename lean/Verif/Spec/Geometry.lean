import Mathlib.Algebra.Order.Field.Basic

/-!
# Specifications for profile geometry

These definitions speak about plain lists of numbers only; they do not refer to the model.
-/

namespace Fm2prof.Spec

variable {α : Type} [LinearOrder α]

/-- Output map `i` may contribute a profile point: it is the first map, or the first map has a level, map `i` has
a level, and that level is strictly above every level present at an earlier map. -/
def Rising (levels : List (Option α)) (i : Nat) : Prop :=
  i = 0 ∨ ∃ x x₀, levels[i]? = some (some x) ∧ levels[0]? = some (some x₀) ∧
    ∀ j < i, ∀ y, levels[j]? = some (some y) → y < x

/-- Strictly increasing with the index. -/
def StrictlyIncreasing (l : List α) : Prop := l.Pairwise (· < ·)

/-- Non-decreasing with the index. -/
def NonDecreasing (l : List α) : Prop := l.Pairwise (· ≤ ·)

/-- Same length and nowhere larger. -/
def PointwiseLE (l m : List α) : Prop := List.Forall₂ (· ≤ ·) l m

/-- Everything the 1D model demands of a profile: strictly increasing levels and widths, flow width at most total
width, both at least the minimum width, and equally many of each. -/
structure ValidProfile (minWidth : α) (z total flow : List α) : Prop where
  lengths : total.length = z.length ∧ flow.length = z.length
  levelsUp : StrictlyIncreasing z
  totalUp : StrictlyIncreasing total
  flowUp : StrictlyIncreasing flow
  ordered : PointwiseLE flow total
  minTotal : ∀ w ∈ total, minWidth ≤ w
  minFlow : ∀ w ∈ flow, minWidth ≤ w

/-- Area under the broken line through the points with the given heights and abscissae. -/
def trapezoidArea {K : Type} [Field K] : List K → List K → K
  | y₀ :: y₁ :: ys, x₀ :: x₁ :: xs => (x₁ - x₀) * (y₀ + y₁) / 2 + trapezoidArea (y₁ :: ys) (x₁ :: xs)
  | _, _ => 0

end Fm2prof.Spec
