import Mathlib.Algebra.Order.Field.Basic
import Mathlib.Order.WithBot

/-!
# Specification of Visvalingam-Whyatt elimination

A line is a list of point numbers. `tri a b c` is the importance of `b` between its neighbours `a` and `c`. At
each step *some* least important interior point is removed; its neighbours (unless they are endpoints) get the
importance they have in the shortened line, but never less than that of the point just removed.
-/

namespace Fm2prof.Spec

variable {W : Type} [LinearOrder W]

/-- The points of a line other than its two ends. -/
def interior (line : List Nat) : List Nat := line.tail.dropLast

/-- Importances after `floor` was the importance of the point removed between `a` and `c`; the shortened line is
`pre ++ a :: c :: post`. -/
def reweigh (tri : Nat → Nat → Nat → W) (imp : Nat → W) (floor : W) (pre : List Nat) (a c : Nat)
    (post : List Nat) : Nat → W := fun x =>
  if x = a then
    match pre.getLast? with
    | some p => max (tri p a c) floor
    | none => imp a
  else if x = c then
    match post.head? with
    | some q => max (tri a c q) floor
    | none => imp c
  else imp x

/-- `Elimination tri line imp order final`: starting with the given importances, removing the points `order` one
after the other from `line` leaves only the ends, and `final` are the importances the points had when removed. -/
inductive Elimination (tri : Nat → Nat → Nat → W) :
    List Nat → (Nat → W) → List Nat → (Nat → W) → Prop
  | done {line imp} : line.length ≤ 2 → Elimination tri line imp [] imp
  | remove {pre a b c post imp order final} :
      (∀ x ∈ interior (pre ++ a :: b :: c :: post), imp b ≤ imp x) →
      Elimination tri (pre ++ a :: c :: post) (reweigh tri imp (imp b) pre a c post) order final →
      Elimination tri (pre ++ a :: b :: c :: post) imp (b :: order) final

section Triangle
variable {K : Type} [Field K] [LinearOrder K]

/-- Area of the triangle `p q r`: half the absolute cross product of two of its sides. -/
def triArea (p q r : K × K) : K :=
  |(q.1 - p.1) * (r.2 - p.2) - (r.1 - p.1) * (q.2 - p.2)| / 2

/-- Importance of point `b` between points `a` and `c` of a list: the area of their triangle (infinite when one of
the numbers does not denote a point). -/
def importance (pts : List (K × K)) (a b c : Nat) : WithTop K :=
  match pts[a]?, pts[b]?, pts[c]? with
  | some p, some q, some r => ((triArea p q r : K) : WithTop K)
  | _, _, _ => ⊤

/-- Importances in the full line: the triangle with both neighbours, infinite at the ends. -/
def startImportance (pts : List (K × K)) (i : Nat) : WithTop K :=
  if i = 0 then ⊤ else importance pts (i - 1) i (i + 1)

end Triangle

end Fm2prof.Spec

namespace Fm2prof.Spec

/-- The lists `a'`, `b'`, `c'` hold the entries of `a`, `b`, `c` at one and the same increasing selection `keep` of
positions. -/
def SubProfile {α : Type} (keep : List Nat) (a b c a' b' c' : List α) : Prop :=
  keep.Pairwise (· < ·) ∧ a'.map some = keep.map (a[·]?) ∧ b'.map some = keep.map (b[·]?) ∧
    c'.map some = keep.map (c[·]?)

end Fm2prof.Spec
