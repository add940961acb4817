import Verif.Model.Fit
import Verif.Spec.Correction

/-!
# Specifications for the fit of the volume correction

A fit is judged by the points where the 2D model gives a volume. They mention none of the functions of the model.
-/

namespace Fm2prof.Spec

variable {K : Type} [Field K] [LinearOrder K] [IsStrictOrderedRing K]

/-- Level, 1D volume and 2D volume of all points where the latter is known. -/
def measured (z volume1d : List K) (volume2d : List (Option K)) : List (K × K × K) :=
  ((z.zip volume1d).zip volume2d).filterMap fun ((z, v), m) => m.map fun m => (z, v, m)

/-- Relative squared misfit when the fraction `fraction z` of a volume `extra` is added at level `z`; a 2D volume below
one cubic metre counts as one. -/
def misfit (fraction : K → K) (points : List (K × K × K)) (extra : K) : K :=
  (points.map fun (z, v, m) => (v + fraction z * extra - m) ^ 2 / (max m 1) ^ 2).sum

/-- Relative squared misfit of a volume curve, which may have missing values. -/
def curveMisfit (volume : List (Option K)) (volume2d : List (Option K)) : K :=
  relativeSquaredError ((volume.zip volume2d).filterMap fun (p, m) => p.bind fun p => m.map fun m => (p, m))

/-- The search finds numbers, and nothing is better than what it finds. -/
def Exact (s : Search K) : Prop :=
  ∀ n f x0 x, s.minimise n f x0 = .ok x →
    ∃ y : Fin n → K, (x = fun i => some (y i)) ∧ ∀ y' : Fin n → K, f x ≤ f fun i => some (y' i)

end Fm2prof.Spec
