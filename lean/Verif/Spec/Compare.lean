import Verif.Model.Compare

/-!
# What a comparison of 1D and 2D results is expected to show
-/

namespace Fm2prof.Spec

/-- `m` is the first name that starts with the first nine characters of `n`, or empty when there is none. -/
def IsMatch (names : List Text) (n m : Text) : Prop :=
  (∃ before after, names = before ++ m :: after ∧ n.take 9 <+: m ∧ ∀ x ∈ before, ¬ n.take 9 <+: x) ∨
    (m = [] ∧ ∀ x ∈ names, ¬ n.take 9 <+: x)

variable {K : Type} [Field K] [LinearOrder K] [IsStrictOrderedRing K]

/-- The mean of some numbers, none for no numbers. -/
def meanOf (xs : List K) : Option K := if xs = [] then none else some (xs.sum / (xs.length : K))

/-- The levels known at the times at which the discharge satisfies a condition. -/
def levelsWhere (P : K → Bool) (rows : List (Option K × Option K)) : List K :=
  rows.filterMap fun r => match r with | (some q, some h) => if P q then some h else none | _ => none

/-- A station whose name marks it as a measuring station. -/
def IsMeasuring (name : Text) : Prop := ∃ a b, lower name = a ++ "lmw".toList ++ b

/-- The labels chosen along a route: going along it, measuring stations closer than five kilometres to the last label are
left out, all others are labelled. -/
inductive Labelled : Option K → List (Text × K) → List (Text × K) → Prop
  | done (last : Option K) : Labelled last [] []
  | other (last : Option K) (name : Text) (loc : K) (rest out : List (Text × K)) :
      ¬ IsMeasuring name → Labelled last rest out → Labelled last ((name, loc) :: rest) out
  | close (p : K) (name : Text) (loc : K) (rest out : List (Text × K)) :
      IsMeasuring name → |p - loc| < 5 → Labelled (some p) rest out → Labelled (some p) ((name, loc) :: rest) out
  | label (last : Option K) (name : Text) (loc : K) (rest out : List (Text × K)) :
      IsMeasuring name → (∀ p, last = some p → 5 ≤ |p - loc|) → Labelled (some loc) rest out →
        Labelled last ((name, loc) :: rest) ((name, loc) :: out)

/-- The branch of a station: its name up to the first underscore. -/
def IsBranch (name branch : Text) : Prop := '_' ∉ branch ∧ (name = branch ∨ ∃ rest, name = branch ++ '_' :: rest)

/-- The kilometre in a name: the part between the first and the second underscore, if there is one and it is a number. -/
def IsKm (parse : Text → Option K) (name : Text) (km : K) : Prop :=
  ∃ branch t rest, name = branch ++ '_' :: (t ++ rest) ∧ '_' ∉ branch ∧ '_' ∉ t ∧ (rest = [] ∨ ∃ r, rest = '_' :: r) ∧
    parse t = some km

variable {T : Type} [LinearOrder T]

/-- The differences at the times at which both series have a value. -/
def commonDiffs (a b : List (T × Option K)) : List K :=
  a.filterMap fun r => match r.2, seriesAt b r.1 with | some x, some y => some (x - y) | _, _ => none

end Fm2prof.Spec
