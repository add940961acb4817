import Verif.Model.Text
import Verif.Model.Roughness

/-!
# Cross-section locations

Models `ImportInputFiles.css_file` (`data_import.py`) and `GenerateCrossSectionLocationFile` (`utils.py`). Line breaks
are single newline characters. The literals of `float` for infinity and NaN are not modelled.
-/

namespace Fm2prof

variable {K : Type} [Field K] [LinearOrder K] [IsStrictOrderedRing K] [FloorRing K]

/-! ## Reading a location file -/

/-- One entry of the location table. -/
structure Loc (K : Type) where
  id : Text
  x : K
  y : K
  length : K
  branch : Text
  chainage : K
  deriving DecidableEq

/-- The five columns returned by `css_file` (data_import.py:302). -/
structure CssColumns (K : Type) where
  xy : List (K × K)
  id : List Text
  branchid : List Text
  length : List K
  chainage : List K
  deriving DecidableEq

/-- Appending to the columns (data_import.py:317-321), with the branch stripped. -/
def CssColumns.push (c : CssColumns K) (l : Loc K) : CssColumns K :=
  { xy := c.xy ++ [(l.x, l.y)], id := c.id ++ [l.id], branchid := c.branchid ++ [strip l.branch]
    length := c.length ++ [l.length], chainage := c.chainage ++ [l.chainage] }

/-- Converting the fields of one line (data_import.py:310-321): `none` when the line is skipped as header. -/
def cssFields (ft : FloatText K) (lineno : Nat) (cssid x y length branchid chainage : Text) :
    Except PyErr (Option (Loc K)) :=
  match ft.parse x with
  | none => if lineno = 0 then .ok none else .error .valueError
  | some xv =>
    match ft.parse y, ft.parse length, ft.parse chainage with
    | some yv, some lv, some cv => .ok (some ⟨cssid, xv, yv, lv, branchid, cv⟩)
    | _, _, _ => .error .valueError

/-- One line (data_import.py:303-322): six fields, or five in the old format. -/
def cssLine (ft : FloatText K) (delimiter : Char) (lineno : Nat) (line : Text) : Except PyErr (Option (Loc K)) :=
  match splitSep delimiter line with
  | [cssid, x, y, length, branchid, chainage] => cssFields ft lineno cssid x y length branchid chainage
  | [x, y, branchid, length, chainage] =>
    match ft.parse chainage with
    | none => .error .valueError
    | some c => cssFields ft lineno (branchid ++ '_' :: intText (roundEven c)) x y length branchid chainage
  | _ => .error .valueError

/-- The loop over the lines (data_import.py:303-322). -/
def cssLines (ft : FloatText K) (delimiter : Char) : Nat → List Text → CssColumns K → Except PyErr (CssColumns K)
  | _, [], cols => .ok cols
  | lineno, line :: rest, cols =>
    match cssLine ft delimiter lineno line with
    | .error e => .error e
    | .ok none => cssLines ft delimiter (lineno + 1) rest cols
    | .ok (some l) => cssLines ft delimiter (lineno + 1) rest (cols.push l)

/-- `ImportInputFiles.css_file` (data_import.py:293-327). `file` is the content of the file, if it exists. -/
def cssFile (ft : FloatText K) (delimiter : Char) (file : Option Text) : Except PyErr (CssColumns K) :=
  match file with
  | none => .error .osError
  | some text => cssLines ft delimiter 0 (fileLines text) ⟨[], [], [], [], []⟩

/-! ## Writing a location file -/

/-- One line of the location file (utils.py:415). -/
def locationLine (l : Loc K) : Text :=
  l.id ++ ", ".toList ++ fmtFixed 4 l.x ++ ", ".toList ++ fmtFixed 4 l.y ++ ", ".toList ++ fmtFixed 2 l.length ++
    ", ".toList ++ l.branch ++ ", ".toList ++ fmtFixed 2 l.chainage

/-- The six lists of points (utils.py:260). -/
structure Points (K : Type) where
  x : List K
  y : List K
  cid : List Text
  cdis : List K
  bid : List Text
  coff : List K
  deriving DecidableEq

/-- The loop over `range(len(x))` (utils.py:414-415): indexing a shorter list raises `IndexError`. -/
def Points.rows (p : Points K) : List Nat → Except PyErr (List (Loc K))
  | [] => .ok []
  | i :: is =>
    match p.cid[i]?, p.x[i]?, p.y[i]?, p.cdis[i]?, p.bid[i]?, p.coff[i]? with
    | some c, some x, some y, some d, some b, some o =>
      match p.rows is with
      | .error e => .error e
      | .ok ls => .ok (⟨c, x, y, d, b, o⟩ :: ls)
    | _, _, _, _, _, _ => .error .indexError

/-- `_write_cross_section_location_file` (utils.py:394-415): the text of the file. -/
def writeLocations (p : Points K) : Except PyErr Text :=
  match p.rows (List.range p.x.length) with
  | .error e => .error e
  | .ok ls => .ok ("name,x,y,length,branch,offset\n".toList ++ (ls.map fun l => locationLine l ++ ['\n']).flatten)

/-! ## Control lengths and branch rules -/

/-- `np.diff`. -/
def diffs : List K → List K
  | a :: b :: l => (b - a) :: diffs (b :: l)
  | _ => []

/-- `np.append(np.diff(c) / 2, [0]) + np.append([0], np.diff(c) / 2)` (utils.py:209). -/
def controlLengths (offsets : List K) : List K :=
  List.zipWith (· + ·) ((diffs offsets).map (· / 2) ++ [0]) (0 :: (diffs offsets).map (· / 2))

/-- `bfunc` (utils.py:344-355): the points kept by a rule; `none` for an unknown rule. -/
def ruleKeep {α : Type} (rule : Text) (x : List α) : Option (Except PyErr (List α)) :=
  if rule = "norule".toList then some (.ok x)
  else if rule = "onlyedges".toList then
    some (match x.head?, x.getLast? with
      | some a, some b => .ok [a, b]
      | _, _ => .error .indexError)
  else if rule = "ignoreedges".toList then some (.ok (x.tail.dropLast))
  else if rule = "ignorelast".toList then some (.ok x.dropLast)
  else if rule = "ignorefirst".toList then some (.ok x.tail)
  else if rule = "onlyfirst".toList then
    some (match x.head? with
      | some a => .ok [a]
      | none => .error .indexError)
  else if rule = "onlylast".toList then
    some (match x.getLast? with
      | some a => .ok [a]
      | none => .error .indexError)
  else none

/-- `x[-2:]`. -/
def lastTwo (x : List K) : List K := x.drop (x.length - 2)

/-- `disfunc` (utils.py:356-365): the lengths after a rule. -/
def ruleLengths (rule : Text) (x : List K) : List K :=
  if rule = "onlyedges".toList then [x.sum / 2, x.sum / 2]
  else if rule = "ignoreedges".toList then
    [(x.take 2).sum] ++ (x.take (x.length - 2)).drop 2 ++ [(lastTwo x).sum]
  else if rule = "ignorelast".toList then x.take (x.length - 2) ++ [(lastTwo x).sum]
  else if rule = "ignorefirst".toList then (x.take 2).sum :: x.drop 2
  else if rule = "onlyfirst".toList then [x.sum]
  else if rule = "onlylast".toList then [x.sum]
  else x

/-- `_apply_branch_rules` (utils.py:326-375). For an unknown rule it returns `None`, and the caller fails to unpack
it: `TypeError`. -/
def applyRule (rule : Text) (p : Points K) : Except PyErr (Points K) :=
  match ruleKeep (strip (lower rule)) p.x, ruleKeep (strip (lower rule)) p.y, ruleKeep (strip (lower rule)) p.cid,
    ruleKeep (strip (lower rule)) p.bid, ruleKeep (strip (lower rule)) p.coff with
  | some (.ok x), some (.ok y), some (.ok c), some (.ok b), some (.ok o) =>
    .ok ⟨x, y, c, ruleLengths (strip (lower rule)) p.cdis, b, o⟩
  | none, _, _, _, _ => .error .typeError
  | _, _, _, _, _ => .error .indexError

/-- `list.pop(i)`. -/
def popAt {α : Type} (i : Nat) (l : List α) : Except PyErr (List α) :=
  if i < l.length then .ok (l.eraseIdx i) else .error .indexError

/-- `l[i] += v`. -/
def addAt (i : Nat) (v : K) (l : List K) : Except PyErr (List K) :=
  match l[i]? with
  | some a => .ok (l.set i (a + v))
  | none => .error .indexError

/-- Removing a point that is neither the first nor the last (utils.py:315-322). -/
def popInner (i : Nat) (p : Points K) : Except PyErr (Points K) :=
  match p.cdis[i]? with
  | none => .error .indexError
  | some d =>
    match addAt (i - 1) (d / 2) p.cdis with
    | .error e => .error e
    | .ok c1 =>
      match c1[i]? with
      | none => .error .indexError
      | some d' =>
        match addAt (i + 1) (d' / 2) c1 with
        | .error e => .error e
        | .ok c2 =>
          match popAt i p.x, popAt i p.y, popAt i p.cid, popAt i c2, popAt i p.bid, popAt i p.coff with
          | .ok x, .ok y, .ok c, .ok cd, .ok b, .ok o => .ok ⟨x, y, c, cd, b, o⟩
          | _, _, _, _, _, _ => .error .indexError

/-- One round of the loop in `_apply_branch_exceptions` (utils.py:296-322). -/
def popPoint (i : Nat) (p : Points K) : Except PyErr (Points K) :=
  if i = 0 then applyRule "ignorefirst".toList p
  else if i + 1 = p.x.length then applyRule "ignorelast".toList p
  else popInner i p

/-- The loop itself. -/
def popPoints : List Nat → Points K → Except PyErr (Points K)
  | [], p => .ok p
  | i :: is, p =>
    match popPoint i p with
    | .error e => .error e
    | .ok p' => popPoints is p'

/-- `[cid.index(exc) for exc in exceptions]` (utils.py:294): an unknown id raises `ValueError`. -/
def popIndices (cid : List Text) : List Text → Except PyErr (List Nat)
  | [] => .ok []
  | e :: es =>
    match cid.findIdx? (· = e) with
    | none => .error .valueError
    | some i =>
      match popIndices cid es with
      | .error err => .error err
      | .ok is => .ok (i :: is)

/-- `_apply_branch_exceptions` (utils.py:279-324). -/
def applyExceptions (exceptions : List Text) (p : Points K) : Except PyErr (Points K) :=
  match popIndices p.cid exceptions with
  | .error e => .error e
  | .ok is => popPoints (is.insertionSort fun a b => b ≤ a) p

/-- A branch rule (utils.py:390). -/
structure BranchRule where
  rule : Text
  exceptions : List Text
  deriving DecidableEq

/-- Whether the six lists have the same length (utils.py:249-252). -/
def Points.aligned (p : Points K) : Bool :=
  p.y.length = p.x.length && p.cid.length = p.x.length && p.cdis.length = p.x.length && p.bid.length = p.x.length &&
    p.coff.length = p.x.length

/-- Applying the rule of a branch (utils.py:229-252). -/
def applyBranchRule (r : BranchRule) (p : Points K) : Except PyErr (Points K) :=
  match (if r.rule = [] then .ok p else applyRule r.rule p) with
  | .error e => .error e
  | .ok p1 =>
    match (if r.exceptions = [] then .ok p1 else applyExceptions r.exceptions p1) with
    | .error e => .error e
    | .ok p2 => if p2.aligned then .ok p2 else .error .valueError

/-! ## Reading a branch rule file -/

/-- `dict.get` on a dictionary of branch rules. -/
def rulesGet (rules : List (Text × BranchRule)) (b : Text) : Option BranchRule :=
  (rules.find? fun p => p.1 = b).map (·.2)

/-- One line of the branch rule file (utils.py:384-390). -/
def ruleLine (line : Text) : Except PyErr (Text × BranchRule) :=
  match splitSep ',' (strip line) with
  | b :: r :: es => .ok (strip b, ⟨strip r, es.map strip⟩)
  | _ => .error .indexError

/-- `_parse_branch_rule_file` (utils.py:377-392). Later lines replace earlier ones of the same branch; the dictionary
is a list in which the first entry of a branch counts, so new entries go in front. -/
def parseRules : List Text → List (Text × BranchRule) → Except PyErr (List (Text × BranchRule))
  | [], acc => .ok acc
  | l :: ls, acc =>
    match ruleLine l with
    | .error e => .error e
    | .ok entry => parseRules ls (entry :: acc)

/-- `_parse_branch_rule_file` on the text of the file: lines of one character are skipped. -/
def parseRuleFile (text : Text) : Except PyErr (List (Text × BranchRule)) :=
  parseRules ((fileLines text).filter fun l => 1 < l.length) []

/-! ## Reading a network definition file -/

/-- The local variables of a branch (utils.py:197-209): `none` while unassigned. They keep their values from one branch
to the next. -/
structure BranchVars (K : Type) where
  x : Option (List K)
  y : Option (List K)
  cid : Option (List Text)
  coff : Option (List K)
  cdis : Option (List K)

/-- Where the reader is in the file: between branches, before the line with the id, or inside a branch with so many of
the ten lines still to come (utils.py:193-197). -/
inductive NetMode where
  | between
  | header
  | inside (branch : Text) (left : Nat)

/-- The state of the reader: mode, local variables and the points so far. -/
structure NetState (K : Type) where
  mode : NetMode
  vars : BranchVars K
  points : Points K

/-- `list(map(float, words))`. -/
def parseFloats (ft : FloatText K) (ws : List Text) : Except PyErr (List K) :=
  match ws with
  | [] => .ok []
  | w :: ws =>
    match ft.parse w with
    | none => .error .valueError
    | some v =>
      match parseFloats ft ws with
      | .error e => .error e
      | .ok vs => .ok (v :: vs)

/-- One of the ten lines of a branch (utils.py:198-209). -/
def branchLine (ft : FloatText K) (line : Text) (v : BranchVars K) : Except PyErr (BranchVars K) :=
  let parts := splitSep '=' (lower (strip line))
  let key := strip (parts.headD [])
  if key = "gridpointx".toList then
    match parts[1]? with
    | none => .error .indexError
    | some t =>
      match parseFloats ft (splitWs t) with
      | .error e => .error e
      | .ok l => .ok { v with x := some l }
  else if key = "gridpointy".toList then
    match parts[1]? with
    | none => .error .indexError
    | some t =>
      match parseFloats ft (splitWs t) with
      | .error e => .error e
      | .ok l => .ok { v with y := some l }
  else if key = "gridpointids".toList then
    match parts[1]? with
    | none => .error .indexError
    | some t => .ok { v with cid := some (splitSep ';' t) }
  else if key = "gridpointoffsets".toList then
    match parts[1]? with
    | none => .error .indexError
    | some t =>
      match parseFloats ft (splitWs t) with
      | .error e => .error e
      | .ok l => .ok { v with coff := some l, cdis := some (controlLengths l) }
  else .ok v

/-- Moving the end points of a branch one metre inwards (utils.py:218-226). `np.interp` raises `ValueError` when the
lists are empty or differ in length. -/
def moveEnds (coff x : List K) : Except PyErr (List K) :=
  if coff.length = x.length then
    match coff.getLast?, interp1 coff x 1 with
    | some last, some a =>
      match interp1 coff (x.set 0 a) (last - 1) with
      | some b => .ok ((x.set 0 a).set (x.length - 1) b)
      | none => .error .valueError
    | _, _ => .error .valueError
  else .error .valueError

/-- The points of a branch from its variables (utils.py:211-226). -/
def branchPoints (branch : Text) (v : BranchVars K) : Except PyErr (Points K) :=
  match v.cdis, v.x, v.cid, v.coff, v.y with
  | some cdis, some x, some cid, some coff, some y =>
    match moveEnds coff x, moveEnds coff y with
    | .ok x', .ok y' => .ok ⟨x', y', cid.map strip, cdis, x.map fun _ => branch, coff⟩
    | .error e, _ => .error e
    | _, .error e => .error e
  | _, _, _, _, _ => .error .nameError

/-- Concatenation of points (utils.py:254-260). -/
def Points.append (p q : Points K) : Points K :=
  ⟨p.x ++ q.x, p.y ++ q.y, p.cid ++ q.cid, p.cdis ++ q.cdis, p.bid ++ q.bid, p.coff ++ q.coff⟩

/-- Applying the rule of a branch if it has one (utils.py:228-252). -/
def applyRuleFor (rules : List (Text × BranchRule)) (branch : Text) (p : Points K) : Except PyErr (Points K) :=
  match rulesGet rules branch with
  | none => .ok p
  | some r => applyBranchRule r p

/-- End of a branch (utils.py:211-260). -/
def finishBranch (rules : List (Text × BranchRule)) (branch : Text) (v : BranchVars K) (points : Points K) :
    Except PyErr (NetState K) :=
  match branchPoints branch v with
  | .error e => .error e
  | .ok p =>
    match applyRuleFor rules branch p with
    | .error e => .error e
    | .ok p' => .ok ⟨.between, ⟨some p'.x, some p'.y, some p'.cid, some p'.coff, some p'.cdis⟩, points.append p'⟩

/-- One line of the network definition file (utils.py:193-209). -/
def netLine (ft : FloatText K) (rules : List (Text × BranchRule)) (s : NetState K) (line : Text) :
    Except PyErr (NetState K) :=
  match s.mode with
  | .between => .ok (if lower (strip line) = "[branch]".toList then { s with mode := .header } else s)
  | .header =>
    match (splitSep '=' line)[1]? with
    | none => .error .indexError
    | some t => .ok { s with mode := .inside (strip t) 10 }
  | .inside branch left =>
    match branchLine ft line s.vars with
    | .error e => .error e
    | .ok v =>
      if left ≤ 1 then finishBranch rules branch v s.points else .ok { s with mode := .inside branch (left - 1), vars := v }

/-- All lines. -/
def netLines (ft : FloatText K) (rules : List (Text × BranchRule)) : List Text → NetState K → Except PyErr (NetState K)
  | [], s => .ok s
  | l :: ls, s =>
    match netLine ft rules s l with
    | .error e => .error e
    | .ok s' => netLines ft rules ls s'

/-- The end of the file, where `readline` returns empty lines. -/
def netEnd (rules : List (Text × BranchRule)) (s : NetState K) : Except PyErr (Points K) :=
  match s.mode with
  | .between => .ok s.points
  | .header => .error .indexError
  | .inside branch _ =>
    match finishBranch rules branch s.vars s.points with
    | .error e => .error e
    | .ok s' => .ok s'.points

/-- `_parse_network_definition_file` (utils.py:171-262). -/
def parseNetwork (ft : FloatText K) (rules : List (Text × BranchRule)) (text : Text) : Except PyErr (Points K) :=
  match netLines ft rules (fileLines text) ⟨.between, ⟨none, none, none, none, none⟩, ⟨[], [], [], [], [], []⟩⟩ with
  | .error e => .error e
  | .ok s => netEnd rules s

/-- Reading the branch rules if there is such a file (utils.py:270-273). -/
def optionalRules (ruleText : Option Text) : Except PyErr (List (Text × BranchRule)) :=
  match ruleText with
  | none => .ok []
  | some t => parseRuleFile t

/-- `_network_definition_file_to_input` (utils.py:264-277): the text of the location file. -/
def generateLocations (ft : FloatText K) (ruleText : Option Text) (network : Text) : Except PyErr Text :=
  match optionalRules ruleText with
  | .error e => .error e
  | .ok rules =>
    match parseNetwork ft rules network with
    | .error e => .error e
    | .ok p => writeLocations p

end Fm2prof
