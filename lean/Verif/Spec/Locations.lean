import Verif.Model.Locations

/-! Specifications for location files: what a line says, and what the columns of a list of locations are. -/

namespace Fm2prof.Spec

open Fm2prof

variable {K : Type} [Field K] [LinearOrder K] [IsStrictOrderedRing K] [FloorRing K]

/-- A line of fields joined by the delimiter, none of which contains it. -/
def IsLineOf (d : Char) (line : Text) (fields : List Text) : Prop :=
  line = joinWith [d] fields ∧ ∀ f ∈ fields, d ∉ f

/-- What a data line says. Six fields: id, x, y, length, branch, chainage. Five fields (the old format): x, y, branch,
length, chainage, and the id is the branch, an underscore and the chainage rounded to a whole number. -/
inductive LineFor (ft : FloatText K) (d : Char) : Text → Loc K → Prop
  | current {line cssid x y len branch chainage : Text} {xv yv lv cv : K}
      (hl : IsLineOf d line [cssid, x, y, len, branch, chainage]) (hx : ft.parse x = some xv) (hy : ft.parse y = some yv)
      (hlen : ft.parse len = some lv) (hc : ft.parse chainage = some cv) :
      LineFor ft d line ⟨cssid, xv, yv, lv, branch, cv⟩
  | old {line x y branch len chainage : Text} {xv yv lv cv : K}
      (hl : IsLineOf d line [x, y, branch, len, chainage]) (hx : ft.parse x = some xv) (hy : ft.parse y = some yv)
      (hlen : ft.parse len = some lv) (hc : ft.parse chainage = some cv) :
      LineFor ft d line ⟨branch ++ "_".toList ++ intText (roundEven cv), xv, yv, lv, branch, cv⟩

/-- A header that is skipped: the field for x is not a number. With five fields the last one must be a number. -/
inductive IsHeader (ft : FloatText K) (d : Char) : Text → Prop
  | current {line cssid x y len branch chainage : Text} (hl : IsLineOf d line [cssid, x, y, len, branch, chainage])
      (hx : ft.parse x = none) : IsHeader ft d line
  | old {line x y branch len chainage : Text} {cv : K} (hl : IsLineOf d line [x, y, branch, len, chainage])
      (hx : ft.parse x = none) (hc : ft.parse chainage = some cv) : IsHeader ft d line

/-- The columns of a list of locations; spaces around the branch are removed. -/
def columnsOf (locs : List (Loc K)) : CssColumns K :=
  { xy := locs.map fun l => (l.x, l.y)
    id := locs.map (·.id)
    branchid := locs.map fun l => strip l.branch
    length := locs.map (·.length)
    chainage := locs.map (·.chainage) }

/-- The points a branch rule keeps, by number, on a branch with `n` points. -/
def keptBy (rule : String) (n : Nat) : List Nat :=
  match rule with
  | "norule" => List.range n
  | "onlyedges" => [0, n - 1]
  | "ignoreedges" => (List.range n).filter fun i => i ≠ 0 ∧ i ≠ n - 1
  | "ignorelast" => (List.range n).filter fun i => i ≠ n - 1
  | "ignorefirst" => (List.range n).filter fun i => i ≠ 0
  | "onlyfirst" => [0]
  | "onlylast" => [n - 1]
  | _ => []

/-- The seven rules. -/
def knownRules : List String :=
  ["norule", "onlyedges", "ignoreedges", "ignorelast", "ignorefirst", "onlyfirst", "onlylast"]

/-- The entries at the given positions. -/
def entriesAt {α : Type} (l : List α) (is : List Nat) : List α := is.filterMap fun (i : Nat) => l[i]?

/-- The six columns have the same length. -/
def SameLength (p : Points K) : Prop :=
  p.y.length = p.x.length ∧ p.cid.length = p.x.length ∧ p.cdis.length = p.x.length ∧ p.bid.length = p.x.length ∧
    p.coff.length = p.x.length

instance (p : Points K) : Decidable (SameLength p) := by unfold SameLength; infer_instance

/-- How a rule hands over the lengths of the points it removes. -/
inductive HandOver : String → List K → List K → Prop
  | norule (l : List K) : HandOver "norule" l l
  | onlyedges (l : List K) : HandOver "onlyedges" l [l.sum / 2, l.sum / 2]
  | onlyfirst (l : List K) : HandOver "onlyfirst" l [l.sum]
  | onlylast (l : List K) : HandOver "onlylast" l [l.sum]
  | ignorefirst (a b : K) (l : List K) : HandOver "ignorefirst" (a :: b :: l) ((a + b) :: l)
  | ignorelast (a b : K) (l : List K) : HandOver "ignorelast" (l ++ [a, b]) (l ++ [a + b])
  | ignoreedges (a b c d : K) (l : List K) :
      HandOver "ignoreedges" ([a, b] ++ l ++ [c, d]) ([a + b] ++ l ++ [c + d])

/-- The number of points a branch needs for a rule to be carried out. -/
def pointsNeeded (rule : String) : Nat :=
  match rule with
  | "norule" => 0
  | "ignoreedges" => 4
  | "ignorelast" => 2
  | "ignorefirst" => 2
  | _ => 1

/-- The entries of a column at the points whose id is not excepted. -/
def entriesWhere {α : Type} (keep : Text → Bool) (cid : List Text) (col : List α) : List α :=
  ((cid.zip col).filter fun q => keep q.1).map (·.2)

end Fm2prof.Spec
