import Mathlib.Algebra.Order.Floor.Ring
import Verif.Model.Build

/-!
# Roughness tables

Models `_build_roughness_tables`, `_friction_weighing_simple`, `_friction_weighing_area` (`cross_section.py`),
`FrictionTable` (`common.py`) and `CrossSectionHelpers.interpolate_friction_across_cross_sections`
(`cross_section.py`). Section names are elements of an arbitrary ordered type `σ` (strings in the code).
-/

namespace Fm2prof

variable {K : Type} [Field K] [LinearOrder K] [IsStrictOrderedRing K]
variable {σ : Type} [LinearOrder σ]

/-- A flow link: its section, the two faces it joins and its roughness per map. -/
structure Link (σ K : Type) where
  sect : σ
  faces : Int × Int
  chezy : Nat → Option K

/-- `link_chezy.replace(0, np.nan)` (cross_section.py:946, 966). -/
def zeroToNan : Option K → Option K
  | some x => if x = 0 then none else some x
  | none => none

/-- `_friction_weighing_simple` (cross_section.py:943-949) at one map. -/
def frictionSimple (links : List (Link σ K)) (t : Nat) : K :=
  (nanmean (links.map fun l => zeroToNan (l.chezy t))).getD 0

/-- Sum that is NaN when a term is. -/
def nansum : List (Option K) → Option K
  | [] => some 0
  | x :: xs => oadd x (nansum xs)

/-- Product of floats that may be NaN. -/
def omul (a b : Option K) : Option K := a.bind fun x => b.map fun y => x * y

/-- `area_full.reindex(ef).mean()` (cross_section.py:970): the mean area of the two faces, missing ones skipped. -/
def linkArea (area : Int → Option K) (l : Link σ K) : Option K := nanmean [area l.faces.1, area l.faces.2]

/-- `link_area / np.sum(link_area)` (cross_section.py:972). Division by a zero sum is NaN. -/
def linkWeight (area : Int → Option K) (links : List (Link σ K)) (l : Link σ K) : Option K :=
  match nansum (links.map (linkArea area)) with
  | none => none
  | some s => if s = 0 then none else (linkArea area l).map (· / s)

/-- `_friction_weighing_area` (cross_section.py:951-974) at one map. -/
def frictionArea (area : Int → Option K) (links : List (Link σ K)) (t : Nat) : K :=
  (nansum (links.map fun l => omul (zeroToNan (l.chezy t)) (linkWeight area links l))).getD 0

/-- `FrictionTable` (common.py:349-377). -/
structure FrictionTable (K : Type) where
  level : List K
  friction : List K
  deriving DecidableEq

/-- `FrictionTable.__init__` with its validation (common.py:352-356, 367-377). -/
def FrictionTable.make (level friction : List K) : Except PyErr (FrictionTable K) :=
  if level.length = friction.length then .ok ⟨level, friction⟩ else .error .valueError

/-- `np.unique` of section names: sorted, without repetitions. -/
def npUnique {σ : Type} [LinearOrder σ] (l : List σ) : List σ := l.dedup.insertionSort (· ≤ ·)

/-- Friction of one section for all maps after the skipped ones (cross_section.py:926-936). `areaFull` is the entry
`area_full` of the cross-section's data: `None` when absent, and then using it raises `AttributeError`. -/
def sectionFriction (method : Int) (areaFull : Option (Int → Option K)) (skip nMaps : Nat) (links : List (Link σ K)) :
    Except PyErr (List K) :=
  if method = 0 then .ok ((List.range (nMaps - skip)).map fun t => frictionSimple links (skip + t))
  else if method = 1 then
    match areaFull with
    | none => .error .attributeError
    | some area => .ok ((List.range (nMaps - skip)).map fun t => frictionArea area links (skip + t))
  else .error .valueError

/-- The loop over the sections (cross_section.py:925-941). -/
def buildTablesFor (method : Int) (areaFull : Option (Int → Option K)) (skip nMaps : Nat) (level : List K)
    (links : List (Link σ K)) : List σ → Except PyErr (List (σ × FrictionTable K))
  | [] => .ok []
  | s :: ss =>
    match sectionFriction method areaFull skip nMaps (links.filter fun l => l.sect = s) with
    | .error e => .error e
    | .ok fr =>
      match FrictionTable.make level fr with
      | .error e => .error e
      | .ok t =>
        match buildTablesFor method areaFull skip nMaps level links ss with
        | .error e => .error e
        | .ok ts => .ok ((s, t) :: ts)

/-- `_build_roughness_tables` (cross_section.py:916-941). The number of skipped maps is not negative here. -/
def buildRoughnessTables (method : Int) (areaFull : Option (Int → Option K)) (skip nMaps : Nat) (level : List K)
    (links : List (Link σ K)) : Except PyErr (List (σ × FrictionTable K)) :=
  buildTablesFor method areaFull skip nMaps level links (npUnique (links.map (·.sect)))

/-- Index `j` of the interval used by `np.interp` between the first and the last level: the linear search that numpy
uses for at most four levels, which for sorted levels is the result of its binary search as well. -/
def interpSearch (x : K) : List K → Nat → Nat
  | [], i => i
  | a :: as, i => if a ≤ x then interpSearch x as (i + 1) else i

/-- `np.interp(x, xp, fp)` at one point: the first value below, the last above, the value itself at a level found and
linear in between. `none`: empty table (numpy raises `ValueError`). -/
def interp1 (xp fp : List K) (x : K) : Option K :=
  match xp.head?, xp.getLast?, fp.head?, fp.getLast? with
  | some x₀, some x₁, some f₀, some f₁ =>
    if x₁ < x then some f₁
    else if x < x₀ then some f₀
    else
      match xp[interpSearch x xp.tail 0]?, fp[interpSearch x xp.tail 0]? with
      | some a, some fa =>
        match xp[interpSearch x xp.tail 0 + 1]?, fp[interpSearch x xp.tail 0 + 1]? with
        | some b, some fb => if a = x then some fa else some ((fb - fa) / (b - a) * (x - a) + fa)
        | _, _ => some fa
      | _, _ => none
  | _, _, _, _ => none

/-- `FrictionTable.interpolate` (common.py:358-365). -/
def FrictionTable.interpolate (t : FrictionTable K) (newZ : List K) : Except PyErr (FrictionTable K) :=
  match allSome (newZ.map (interp1 t.level t.friction)) with
  | some fr => .ok ⟨newZ, fr⟩
  | none => .error .valueError

/-- `np.arange(start, stop, 0.1)`. -/
def arange01 [FloorRing K] (start stop : K) : List K :=
  (List.range ⌈(stop - start) / (1 / 10)⌉.toNat).map fun (i : Nat) => start + (i : K) * (1 / 10)

/-- The friction tables of one cross-section: a dictionary without repeated keys. -/
abbrev Tables (σ K : Type) := List (σ × FrictionTable K)

/-- `css.friction_tables.get(section)`. -/
def Tables.get (ts : Tables σ K) (s : σ) : Option (FrictionTable K) := (ts.find? fun p => p.1 = s).map (·.2)

/-- Lowest and highest level of a section over all cross-sections (cross_section.py:90-103), with the sentinels of the
code; `np.min` of an empty array raises `ValueError`. -/
def levelRange (s : σ) : List (Tables σ K) → K × K → Except PyErr (K × K)
  | [], r => .ok r
  | css :: rest, r =>
    match css.get s with
    | none => levelRange s rest r
    | some t =>
      match t.level.min?, t.level.max? with
      | some lo, some hi => levelRange s rest (min r.1 lo, max r.2 hi)
      | _, _ => .error .valueError

/-- Replacing the table of section `s` in place. -/
def Tables.setTable (ts : Tables σ K) (s : σ) (t : FrictionTable K) : Tables σ K :=
  ts.map fun p => if p.1 = s then (p.1, t) else p

/-- Resampling one cross-section (cross_section.py:107-110). -/
def resampleCss (s : σ) (newZ : List K) (css : Tables σ K) : Except PyErr (Tables σ K) :=
  match css.get s with
  | none => .ok css
  | some t =>
    match t.interpolate newZ with
    | .error e => .error e
    | .ok t' => .ok (css.setTable s t')

/-- The loop over the cross-sections (cross_section.py:106-112): the list afterwards, and whether all went well. -/
def resampleAll (s : σ) (newZ : List K) : List (Tables σ K) → List (Tables σ K) × Bool
  | [] => ([], true)
  | css :: rest =>
    match resampleCss s newZ css with
    | .error _ => (css :: rest, false)
    | .ok css' => ((css' :: (resampleAll s newZ rest).1), (resampleAll s newZ rest).2)

/-- One section (cross_section.py:86-112). -/
def harmoniseSection [FloorRing K] (s : σ) (l : List (Tables σ K)) : List (Tables σ K) × Bool :=
  match levelRange s l (10 ^ 20, -10 ^ 20) with
  | .error _ => (l, false)
  | .ok (lo, hi) => resampleAll s (arange01 lo hi) l

/-- The loop over the sections (cross_section.py:86-112); an exception ends it. -/
def harmoniseSections [FloorRing K] : List σ → List (Tables σ K) → List (Tables σ K) × Bool
  | [], l => (l, true)
  | s :: ss, l =>
    if (harmoniseSection s l).2 then harmoniseSections ss (harmoniseSection s l).1
    else harmoniseSection s l

/-- `CrossSectionHelpers.interpolate_friction_across_cross_sections` (cross_section.py:48-114): the changed tables and
the returned flag. -/
def harmonise [FloorRing K] (l : List (Tables σ K)) : List (Tables σ K) × Bool :=
  harmoniseSections (npUnique (l.flatMap fun css => css.map (·.1))) l

end Fm2prof
