import Verif.Model.Roughness
import Verif.Spec.Build
import Verif.Spec.Geometry

/-!
# Specifications for roughness tables
-/

namespace Fm2prof.Spec

variable {K : Type} [Field K] [LinearOrder K] [IsStrictOrderedRing K]
variable {σ : Type} [LinearOrder σ]

/-- The roughness values of wet links: present and not zero. -/
def wetValues (values : List (Option K)) : List K := (present values).filter (· ≠ 0)

/-- The mean roughness of the wet links, zero when there is none. -/
def meanWet (values : List (Option K)) : K := if wetValues values = [] then 0 else mean (wetValues values)

/-- Weighted mean. -/
def weightedMean (pairs : List (K × K)) : K := (pairs.map fun p => p.1 * p.2).sum / (pairs.map (·.1)).sum

/-- The value at `x` on the line through two points. -/
def onLine (x₀ y₀ x₁ y₁ x : K) : K := (y₀ * (x₁ - x) + y₁ * (x - x₀)) / (x₁ - x₀)

/-- `v` is what one reads off at level `z` from a roughness table: constant below the first and above the last level,
on the straight line between two successive levels. -/
structure ReadAt (level friction : List K) (z v : K) : Prop where
  below : ∀ a f, level.head? = some a → friction.head? = some f → z ≤ a → v = f
  above : ∀ a f, level.getLast? = some a → friction.getLast? = some f → a ≤ z → v = f
  between : ∀ (j : Nat) a b fa fb, level[j]? = some a → level[j + 1]? = some b → friction[j]? = some fa →
    friction[j + 1]? = some fb → a ≤ z → z ≤ b → v = onLine a fa b fb z

/-- All levels at which section `s` has a roughness in some cross-section. -/
def levelsOf (s : σ) (l : List (List (σ × FrictionTable K))) : List K :=
  l.flatMap fun css => css.flatMap fun p => if p.1 = s then p.2.level else []

/-- `m` is the least element. -/
def IsLeastOf (m : K) (l : List K) : Prop := m ∈ l ∧ ∀ x ∈ l, m ≤ x

/-- `m` is the greatest element. -/
def IsGreatestOf (m : K) (l : List K) : Prop := m ∈ l ∧ ∀ x ∈ l, x ≤ m

/-- The levels from `lo` on in steps of 0.1 m, below `hi`. -/
def UniformGrid (lo hi : K) (levels : List K) : Prop :=
  ∀ (k : Nat) (z : K), levels[k]? = some z ↔ z = lo + (k : K) / 10 ∧ z < hi

/-- A roughness table as the program makes it: not empty, as many values as levels, levels within plus or minus
10^20 m. -/
structure WellFormedTable (t : FrictionTable K) : Prop where
  nonempty : t.level ≠ []
  lengths : t.level.length = t.friction.length
  bounded : ∀ z ∈ t.level, -10 ^ 20 ≤ z ∧ z ≤ 10 ^ 20

end Fm2prof.Spec
