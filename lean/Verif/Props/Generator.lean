import Verif.Model.Generator
import Verif.Proofs.Reader
import Verif.Props.Network

/-!
# The location generator and its files: C163
-/

set_option linter.unusedSectionVars false

namespace Fm2prof.Props

open Fm2prof Spec

variable {K : Type} [Field K] [LinearOrder K] [IsStrictOrderedRing K] [FloorRing K]

/-- The locations of a branch by the lines of a rule file: those of its grid points if no line names it, and otherwise what the rule and the
exceptions of the last line that names it make of them. -/
def RuledBy (es : List (Text × BranchRule)) (b : Branch K) (p : Points K) : Prop :=
  ∃ q, IsPointsOf b q ∧
    ((es.filter fun e => e.1 = b.name) = [] ∧ p = q ∨
      ∃ e, (es.filter fun e => e.1 = b.name).getLast? = some e ∧ applyBranchRule e.2 q = .ok p)

/-- What the importer makes of the locations in a file: numbers as they are written, names without spaces around them. -/
def asWritten (ft : FloatText K) (p : Points K) : CssColumns K :=
  { xy := (p.x.zip p.y).map fun q => (ft.near (roundTo 4 q.1), ft.near (roundTo 4 q.2))
    id := p.cid
    branchid := p.bid.map strip
    length := p.cdis.map fun v => ft.near (roundTo 2 v)
    chainage := p.coff.map fun v => ft.near (roundTo 2 v) }

private theorem rows_written (p : Points K) (is : List Nat) :
    (∀ ls, p.rows is = .ok ls → locationRows p is = ((ls.map fun l => locationLine l ++ ['\n']).flatten, none)) ∧
      ((∃ e, p.rows is = .error e) → (locationRows p is).2 = some .indexError) := by
  induction is with
  | nil =>
    refine ⟨fun ls h => ?_, fun ⟨e, h⟩ => by cases h⟩
    obtain rfl := Except.ok.inj h
    rfl
  | cons i is ih =>
    unfold Points.rows locationRows
    have bad : (∀ ls : List (Loc K), (Except.error PyErr.indexError : Except PyErr (List (Loc K))) = .ok ls →
        (([], some .indexError) : Text × Option PyErr) = ((ls.map fun l => locationLine l ++ ['\n']).flatten, none)) ∧
        ((∃ e, (Except.error PyErr.indexError : Except PyErr (List (Loc K))) = .error e) →
          (([], some .indexError) : Text × Option PyErr).2 = some .indexError) :=
      ⟨fun ls h => (by cases h), fun _ => rfl⟩
    cases p.cid[i]? with
    | none => exact bad
    | some c =>
      cases p.x[i]? with
      | none => exact bad
      | some x =>
        cases p.y[i]? with
        | none => exact bad
        | some y =>
          cases p.cdis[i]? with
          | none => exact bad
          | some d =>
            cases p.bid[i]? with
            | none => exact bad
            | some b =>
              cases p.coff[i]? with
              | none => exact bad
              | some o =>
                simp only
                cases hr : p.rows is with
                | error e => exact ⟨fun ls h => (by cases h), fun _ => ih.2 ⟨e, hr⟩⟩
                | ok ls' =>
                  refine ⟨fun ls h => ?_, fun ⟨e, h⟩ => by cases h⟩
                  obtain rfl := Except.ok.inj h
                  rw [ih.1 ls' hr, List.map_cons, List.flatten_cons]
                  simp only [List.append_assoc, List.cons_append, List.nil_append]

private theorem written_file (s : Store) (path : Text) (p : Points K) (file : Text) (h : writeLocations p = .ok file) :
    writeLocationFile s path p = (s.set path file, none) := by
  unfold writeLocations at h
  unfold writeLocationFile
  cases hr : p.rows (List.range p.x.length) with
  | error e => rw [hr] at h; cases h
  | ok ls =>
    rw [hr] at h
    obtain rfl := Except.ok.inj h
    rw [(rows_written p _).1 ls hr]

/-- The rules of the generator are those of the rule file. -/
private theorem ruled_iff (es : List (Text × BranchRule)) (rules : List (Text × BranchRule))
    (h : ∀ b, rulesGet rules b = ((es.filter fun e => e.1 = b).getLast?).map (·.2)) (b : Branch K) (p : Points K) :
    IsResultOf rules b p ↔ RuledBy es b p := by
  unfold IsResultOf RuledBy
  rw [h b.name]
  constructor
  · rintro ⟨q, hq, ⟨h1, h2⟩ | ⟨r, h1, h2⟩⟩
    · refine ⟨q, hq, .inl ⟨?_, h2⟩⟩
      rw [Option.map_eq_none_iff] at h1
      exact List.getLast?_eq_none_iff.1 h1
    · obtain ⟨e, he, rfl⟩ := Option.map_eq_some_iff.1 h1
      exact ⟨q, hq, .inr ⟨e, he, h2⟩⟩
  · rintro ⟨q, hq, ⟨h1, h2⟩ | ⟨e, h1, h2⟩⟩
    · refine ⟨q, hq, .inl ⟨?_, h2⟩⟩
      rw [h1]
      rfl
    · refine ⟨q, hq, .inr ⟨e.2, ?_, h2⟩⟩
      rw [h1]
      rfl

/-- The lists of a branch have the same length. -/
def Regular (b : Branch K) : Prop :=
  b.offsets ≠ [] ∧ b.y.length = b.x.length ∧ b.ids.length = b.x.length ∧ b.offsets.length = b.x.length

private theorem parsed_aligned (ft : FloatText K) (rules : List (Text × BranchRule)) (text : Text) (bs : List (Branch K))
    (h : IsNetwork ft (fileLines text) bs) (p : Points K) (hp : parseNetwork ft rules text = .ok p) (hl : ∀ b ∈ bs, Regular b) :
    SameLength p := by
  obtain ⟨ps, hps, rfl⟩ := (C76_own_points_partial ft rules text bs h p).1 hp
  clear hp h
  induction hps with
  | nil => exact ⟨rfl, rfl, rfl, rfl, rfl⟩
  | @cons b q bs ps hr _ ih =>
    obtain ⟨hne, h1, h2, h3⟩ := hl b List.mem_cons_self
    obtain ⟨a1, a2, a3, a4, a5⟩ := (C55_branch_total rules b q hr h1 h2 h3 hne).1
    obtain ⟨b1, b2, b3, b4, b5⟩ := ih fun c hc => hl c (List.mem_cons_of_mem _ hc)
    simp only [concat] at b1 b2 b3 b4 b5
    simp only [SameLength, concat, List.map_cons, List.flatten_cons, List.length_append]
    omega

private theorem generate_write (ft : FloatText K) (s : Store) (network locations rules : Text) (net : Text) (hn : s network = some net)
    (rs : List (Text × BranchRule)) (hr : optionalRules (if rules = [] then none else s rules) = .ok rs) (p : Points K)
    (hp : parseNetwork ft rs net = .ok p) :
    generateFile ft s network locations rules = writeLocationFile s locations p := by
  unfold generateFile
  rw [hn]
  simp only
  rw [hr]
  simp only
  rw [hp]

private theorem generated (ft : FloatText K) (s : Store) (network locations rules : Text) (net : Text) (hn : s network = some net)
    (rs : List (Text × BranchRule)) (hr : optionalRules (if rules = [] then none else s rules) = .ok rs) (bs : List (Branch K))
    (h : IsNetwork ft (fileLines net) bs) (hl : ∀ b ∈ bs, Regular b) (ps : List (Points K))
    (hps : List.Forall₂ (IsResultOf rs) bs ps)
    (hid : ∀ t ∈ (concat ps).cid, ',' ∉ t ∧ '\n' ∉ t) (hbr : ∀ t ∈ (concat ps).bid, ',' ∉ t ∧ '\n' ∉ t) :
    ∃ file, generateFile ft s network locations rules = (s.set locations file, none) ∧
      cssFile ft ',' (some file) = .ok (asWritten ft (concat ps)) := by
  have hp := (C76_own_points_partial ft rs net bs h (concat ps)).2 ⟨ps, hps, rfl⟩
  obtain ⟨file, e1, e2⟩ := C36_read_back ft (concat ps) (parsed_aligned ft rs net bs h _ hp hl) hid hbr
  exact ⟨file, by rw [generate_write ft s network locations rules net hn rs hr _ hp, written_file s locations _ file e1], e2⟩

/-- **C163, partial.** For a network file of branches whose lists have the same length, and a rule file whose lines name a branch and a rule,
let the rules be such that they can be carried out. Then the generator writes the location file and nothing else, and the importer reads
from it the locations of the branches one after the other, each as its last line in the rule file says. Names have no commas. What is
missing: a rule file that is not there, see `C163_missing_rules_violated`, and lists of different lengths, see `C163_torn_violated`. -/
theorem C163_generated_partial (ft : FloatText K) (s : Store) (network locations rules net ruleText : Text) (hn : s network = some net)
    (hr : rules ≠ []) (hrt : s rules = some ruleText) (bs : List (Branch K)) (h : IsNetwork ft (fileLines net) bs)
    (hl : ∀ b ∈ bs, Regular b) (es : List (Text × BranchRule))
    (hes : List.Forall₂ (fun l e => lineSays l e.1 e.2) ((fileLines ruleText).filter fun l => 1 < l.length) es) (ps : List (Points K))
    (hps : List.Forall₂ (RuledBy es) bs ps)
    (hid : ∀ t ∈ (concat ps).cid, ',' ∉ t ∧ '\n' ∉ t) (hbr : ∀ t ∈ (concat ps).bid, ',' ∉ t ∧ '\n' ∉ t) :
    ∃ file, generateFile ft s network locations rules = (s.set locations file, none) ∧
      cssFile ft ',' (some file) = .ok (asWritten ft (concat ps)) := by
  obtain ⟨rs, hrs, hget⟩ := (C78_rule_file ruleText).1 es hes
  refine generated ft s network locations rules net hn rs ?_ bs h hl ps ?_ hid hbr
  · rw [if_neg hr, hrt]
    exact hrs
  · exact hps.imp fun b p hbp => (ruled_iff es rs hget b p).2 hbp

/-- **C163, without rules.** Without a rule file the locations are those of the grid points. -/
theorem C163_no_rules (ft : FloatText K) (s : Store) (network locations net : Text) (hn : s network = some net)
    (bs : List (Branch K)) (h : IsNetwork ft (fileLines net) bs) (hl : ∀ b ∈ bs, Regular b) (ps : List (Points K))
    (hps : List.Forall₂ IsPointsOf bs ps)
    (hid : ∀ t ∈ (concat ps).cid, ',' ∉ t ∧ '\n' ∉ t) (hbr : ∀ t ∈ (concat ps).bid, ',' ∉ t ∧ '\n' ∉ t) :
    ∃ file, generateFile ft s network locations [] = (s.set locations file, none) ∧
      cssFile ft ',' (some file) = .ok (asWritten ft (concat ps)) :=
  generated ft s network locations [] net hn [] rfl bs h hl ps
    (hps.imp fun _ p hbp => ⟨p, hbp, .inl ⟨rfl, rfl⟩⟩) hid hbr

/-- **C163, errors.** If the generator fails on such a network, all files stay as they were; without a network file it does, too. -/
theorem C163_error (ft : FloatText K) (s : Store) (network locations rules : Text)
    (h : ∀ net, s network = some net → ∃ bs : List (Branch K), IsNetwork ft (fileLines net) bs ∧ ∀ b ∈ bs, Regular b) (e : PyErr)
    (he : (generateFile ft s network locations rules).2 = some e) : (generateFile ft s network locations rules).1 = s := by
  cases hn : s network with
  | none =>
    unfold generateFile
    rw [hn]
  | some net =>
    cases hr : optionalRules (if rules = [] then none else s rules) with
    | error e' =>
      unfold generateFile
      rw [hn]
      simp only
      rw [hr]
    | ok rs =>
      cases hp : parseNetwork ft rs net with
      | error e' =>
        unfold generateFile
        rw [hn]
        simp only
        rw [hr]
        simp only
        rw [hp]
      | ok p =>
        exfalso
        obtain ⟨bs, hb, hl⟩ := h net hn
        have ha := parsed_aligned ft rs net bs hb p hp hl
        obtain ⟨ls, h1, _⟩ := pointRows p (by
          obtain ⟨a1, a2, a3, a4, a5⟩ := ha
          unfold Points.aligned
          simp only [Bool.and_eq_true, decide_eq_true_eq]
          exact ⟨⟨⟨⟨a1, a2⟩, a3⟩, a4⟩, a5⟩) (List.range p.x.length) fun i hi => List.mem_range.1 hi
        rw [generate_write ft s network locations rules net hn rs hr p hp] at he
        unfold writeLocationFile at he
        rw [(rows_written p _).1 ls h1] at he
        cases he

/-- **C163, violated: a rule file that is not there.** If the rule file does not exist (its path has a mistake, say), the generator does what
it does without rules, and reports nothing. -/
theorem C163_missing_rules_violated (ft : FloatText K) (s : Store) (network locations rules : Text) (h : s rules = none) :
    generateFile ft s network locations rules = generateFile ft s network locations [] := by
  unfold generateFile
  rw [h, if_pos rfl, ite_self]

/-- **C163, violated: a torn file.** When a list of ids is too short for the network, the location file that was there is lost: what is left
is the part before the first location without an id, and `IndexError` is raised. -/
theorem C163_torn_violated (ft : FloatText K) (s : Store) (network locations rules net : Text) (hn : s network = some net)
    (rs : List (Text × BranchRule)) (hr : optionalRules (if rules = [] then none else s rules) = .ok rs) (p : Points K)
    (hp : parseNetwork ft rs net = .ok p) (hc : p.cid.length < p.x.length) :
    (generateFile ft s network locations rules).2 = some .indexError ∧
      ∃ ls : List (Loc K), ls.length ≤ p.cid.length ∧ (generateFile ft s network locations rules).1 =
        s.set locations ("name,x,y,length,branch,offset\n".toList ++ (ls.map fun l => locationLine l ++ ['\n']).flatten) := by
  rw [generate_write ft s network locations rules net hn rs hr p hp]
  have fails : ∀ is : List Nat, (∃ i ∈ is, p.cid.length ≤ i) → ∃ e, p.rows is = .error e := by
    intro is
    induction is with
    | nil => rintro ⟨i, hi, _⟩; cases hi
    | cons i is ih =>
      rintro ⟨j, hj, hjl⟩
      unfold Points.rows
      split
      · rename_i hci _ _ _ _ _
        have hi : i < p.cid.length := (List.getElem?_eq_some_iff.1 hci).1
        obtain ⟨e, he⟩ := ih ⟨j, by
          rcases List.mem_cons.1 hj with e | e
          · omega
          · exact e, hjl⟩
        rw [he]
        exact ⟨e, rfl⟩
      · exact ⟨_, rfl⟩
  have parts : ∀ (n k : Nat), k ≤ p.cid.length → ∃ ls : List (Loc K), ls.length + k ≤ p.cid.length ∧
      (locationRows p (List.range' k n)).1 = (ls.map fun l => locationLine l ++ ['\n']).flatten := by
    intro n
    induction n with
    | zero => intro k hk; exact ⟨[], (by rw [List.length_nil]; omega), rfl⟩
    | succ n ih =>
      intro k hk
      rw [List.range'_succ]
      unfold locationRows
      split
      · rename_i c x y d b o hci _ _ _ _ _
        have hi : k < p.cid.length := (List.getElem?_eq_some_iff.1 hci).1
        obtain ⟨ls, h1, h2⟩ := ih (k + 1) hi
        refine ⟨⟨c, x, y, d, b, o⟩ :: ls, (by rw [List.length_cons]; omega), ?_⟩
        simp only
        rw [h2, List.map_cons, List.flatten_cons]
        simp only [List.append_assoc, List.cons_append, List.nil_append]
      · exact ⟨[], (by rw [List.length_nil]; omega), rfl⟩
  refine ⟨(rows_written p _).2 (fails _ ⟨p.cid.length, List.mem_range.2 hc, le_refl _⟩), ?_⟩
  obtain ⟨ls, h1, h2⟩ := parts p.x.length 0 (Nat.zero_le _)
  refine ⟨ls, by omega, ?_⟩
  unfold writeLocationFile
  rw [List.range_eq_range', h2]

/-- The files of a case: the network with two branches, a rule file, and an earlier location file. -/
private def caseFiles : Store := fun f =>
  if f = "net".toList then some twoBranches
  else if f = "rules".toList then some "Waal, ignoreLast\n\nMaas, noRule, m_50\n".toList
  else if f = "loc".toList then some "earlier".toList
  else none

/-- With the rule file the last point of the one and the middle point of the other branch are left out. -/
example : ((generateFile (decimalText ℚ) caseFiles "net".toList "loc".toList "rules".toList).1 "loc".toList =
    some ("name,x,y,length,branch,offset\nm_0, 1.0000, 0.0000, 50.00, Maas, 0.00\nm_100, 99.0000, 0.0000, 50.00, Maas, 100.00\n" ++
      "w_0, 5.0000, 1.0000, 5.00, Waal, 0.00\nw_10, 5.0000, 10.0000, 15.00, Waal, 10.00\n").toList) ∧
    (generateFile (decimalText ℚ) caseFiles "net".toList "loc".toList "rules".toList).2 = none := by
  decide +kernel

/-- A network with one id too few. -/
private def oneIdLess : Text :=
  ("[Branch]\nid = A\n1\n2\n3\n4\n5\n6\ngridPointX = 0 100\ngridPointY = 0 0\ngridPointIds = a0\ngridPointOffsets = 0 100\n").toList

example : (generateFile (decimalText ℚ) (caseFiles.set "net".toList oneIdLess) "net".toList "loc".toList []).1 "loc".toList =
      some "name,x,y,length,branch,offset\na0, 1.0000, 0.0000, 50.00, A, 0.00\n".toList ∧
    (generateFile (decimalText ℚ) (caseFiles.set "net".toList oneIdLess) "net".toList "loc".toList []).2 = some .indexError := by
  decide +kernel

end Fm2prof.Props
