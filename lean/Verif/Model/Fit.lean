import Mathlib.Data.Fin.VecNotation
import Verif.Model.Correction

/-!
# The cost functions of the volume correction

Models `CrossSection._optimisation_func` and `_combined_optimisation_func` (`cross_section.py`) and the three ways
`_optimize_sd_storage` hands them to `scipy.optimize.minimize`.
-/

namespace Fm2prof

variable {K : Type} [Field K] [LinearOrder K] [IsStrictOrderedRing K]

/-- `scipy.optimize.minimize(..., method="Nelder-Mead", tol=1e-6)` (cross_section.py:841-847, 853-859, 868-874, 878-884,
891-896): a function of `n` floats and a start give a point or an exception. What is assumed about the library is
`no_worse` alone: the start is a corner of the first simplex and the best corner is only replaced by a better one. -/
structure Search (K : Type) [LE K] where
  minimise : (n : Nat) → ((Fin n → Option K) → K) → (Fin n → Option K) → Except PyErr (Fin n → Option K)
  no_worse : ∀ n f x0 x, minimise n f x0 = .ok x → f x ≤ f x0

/-- `CrossSection._optimisation_func` (cross_section.py:783-810) for one volume curve, crest level and extra volume. The
2D volumes are always the total ones, whichever curve is given. -/
def fitCost (release : K → K → K → K) (height : K) (b : Built K) (volume : List K) (crest extra : Option K) : K :=
  volumeError (addExtra volume (b.z.map fun z => crest.map fun c => release z c height) extra) b.totalVolume2d

/-- `CrossSection._combined_optimisation_func` (cross_section.py:761-781). -/
def combinedCost (release : K → K → K → K) (height : K) (b : Built K) (crest total flow : Option K) : K :=
  volumeError
    (List.zipWith oadd
      (addExtra b.totalVolume1d (b.z.map fun z => crest.map fun c => release z c height) total)
      (addExtra b.flowVolume1d (b.z.map fun z => crest.map fun c => release z c height) flow))
    (List.zipWith oadd b.totalVolume2d b.flowVolume2d)

/-- The calls of the library in `_optimize_sd_storage` (cross_section.py:841-847, 853-859, 868-874, 878-884, 891-896). -/
def fitOptimiser (s : Search K) (release : K → K → K → K) (height : K) (b : Built K) : Optimiser K where
  crestAndVolume volume start :=
    match s.minimise 2 (fun x => fitCost release height b volume (x 0) (x 1)) ![some start.1, start.2] with
    | .error e => .error e
    | .ok x => .ok (x 0, x 1)
  volume volume crest start :=
    match s.minimise 1 (fun x => fitCost release height b volume crest (x 0)) ![start] with
    | .error e => .error e
    | .ok x => .ok (x 0)
  both start :=
    match s.minimise 3 (fun x => combinedCost release height b (x 0) (x 1) (x 2))
      ![some start.1, start.2.1, start.2.2] with
    | .error e => .error e
    | .ok x => .ok (x 0, x 1, x 2)

end Fm2prof
