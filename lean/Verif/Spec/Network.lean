import Verif.Spec.Locations

/-! Specifications for network definition files and branch rule files. -/

namespace Fm2prof.Spec

open Fm2prof

variable {K : Type} [Field K] [LinearOrder K] [IsStrictOrderedRing K] [FloorRing K]

/-- The key of a line: what is before the first equals sign, in lower case, without spaces around it. -/
def keyOf (line : Text) : Text := strip ((splitSep '=' (lower (strip line))).headD [])

/-- The value of a line: what is between the first and the second equals sign, in lower case. -/
def valueOf (line : Text) : Option Text := (splitSep '=' (lower (strip line)))[1]?

/-- A text of numbers between spaces. -/
def Numbers (ft : FloatText K) (t : Text) (vs : List K) : Prop := List.Forall₂ (fun w v => ft.parse w = some v) (splitWs t) vs

/-- The lines hold the key, and every line with that key has a value for which `P` holds. -/
def Says (body : List Text) (key : String) (P : Text → Prop) : Prop :=
  (∃ l ∈ body, keyOf l = key.toList) ∧ ∀ l ∈ body, keyOf l = key.toList → ∃ t, valueOf l = some t ∧ P t

/-- A branch of the network: its name, and the coordinates, ids and offsets of its grid points. -/
structure Branch (K : Type) where
  name : Text
  x : List K
  y : List K
  ids : List Text
  offsets : List K

/-- The lines that describe a branch: a line with the section name, a line with the name of the branch, and ten lines
that give the four lists of grid point data (and anything else) in any order. -/
inductive IsBlock (ft : FloatText K) : List Text → Branch K → Prop
  | block {head idLine : Text} {body : List Text} {b : Branch K} {t : Text} (hh : lower (strip head) = "[branch]".toList)
      (hi : (splitSep '=' idLine)[1]? = some t) (hn : strip t = b.name) (hb : body.length = 10)
      (hx : Says body "gridpointx" fun t => Numbers ft t b.x) (hy : Says body "gridpointy" fun t => Numbers ft t b.y)
      (hids : Says body "gridpointids" fun t => (splitSep ';' t).map strip = b.ids)
      (ho : Says body "gridpointoffsets" fun t => Numbers ft t b.offsets) :
      IsBlock ft (head :: idLine :: body) b

/-- A network: blocks, and other lines in between. -/
inductive IsNetwork (ft : FloatText K) : List Text → List (Branch K) → Prop
  | nil : IsNetwork ft [] []
  | other {line : Text} {lines : List Text} {bs : List (Branch K)} (h : lower (strip line) ≠ "[branch]".toList)
      (ih : IsNetwork ft lines bs) : IsNetwork ft (line :: lines) bs
  | block {lines block : List Text} {b : Branch K} {bs : List (Branch K)} (h : IsBlock ft block b)
      (ih : IsNetwork ft lines bs) : IsNetwork ft (block ++ lines) (b :: bs)

/-- The locations of a branch before rules: the grid points with their ends moved, the control lengths, and the name of
the branch at each point. -/
def IsPointsOf (b : Branch K) (p : Points K) : Prop :=
  moveEnds b.offsets b.x = .ok p.x ∧ moveEnds b.offsets b.y = .ok p.y ∧ p.cid = b.ids ∧
    p.cdis = controlLengths b.offsets ∧ p.bid = b.x.map (fun _ => b.name) ∧ p.coff = b.offsets

/-- The locations of a branch after its rule, if it has one. -/
def IsResultOf (rules : List (Text × BranchRule)) (b : Branch K) (p : Points K) : Prop :=
  ∃ q, IsPointsOf b q ∧
    (rulesGet rules b.name = none ∧ p = q ∨ ∃ r, rulesGet rules b.name = some r ∧ applyBranchRule r q = .ok p)

/-- The columns one after the other. -/
def concat (ps : List (Points K)) : Points K :=
  { x := (ps.map (·.x)).flatten, y := (ps.map (·.y)).flatten, cid := (ps.map (·.cid)).flatten
    cdis := (ps.map (·.cdis)).flatten, bid := (ps.map (·.bid)).flatten, coff := (ps.map (·.coff)).flatten }

/-- The point at a distance from the start along a line through the given values at rising offsets: linear between two
neighbouring offsets. -/
def OnLine (offs vals : List K) (s v : K) : Prop :=
  ∃ (i : Nat) (a b fa fb : K), offs[i]? = some a ∧ offs[i + 1]? = some b ∧ vals[i]? = some fa ∧ vals[i + 1]? = some fb ∧
    a ≤ s ∧ s ≤ b ∧ (v - fa) * (b - a) = (fb - fa) * (s - a)

end Fm2prof.Spec
