import Mathlib.Algebra.Order.Field.Rat
import Mathlib.Data.Rat.Floor
import Verif.Proofs.Network
import Verif.Props.Locations

/-!
# Properties of the location generator: C36, C55, C57, C76, C77, C78
-/

set_option linter.unusedSectionVars false

namespace Fm2prof.Props

open Fm2prof Spec

variable {K : Type} [Field K] [LinearOrder K] [IsStrictOrderedRing K] [FloorRing K]

/-! ## C76: each branch is read with its own points -/

/-- **C76.** For a network in which the ten lines after the name of each branch hold the four lists of grid point data,
the generator gives the locations of the branches one after the other, each made from the lists of its own block and
subjected to the rule for its own name. (In full, the claim asks this of every branch section.) -/
theorem C76_own_points_partial (ft : FloatText K) (rules : List (Text × BranchRule)) (text : Text)
    (bs : List (Branch K)) (h : IsNetwork ft (fileLines text) bs) (p : Points K) :
    parseNetwork ft rules text = .ok p ↔
      ∃ ps, List.Forall₂ (IsResultOf rules) bs ps ∧ p = concat ps := by
  have e : parseNetwork ft rules text =
      netRun ft rules (fileLines text) ⟨.between, ⟨none, none, none, none, none⟩, ⟨[], [], [], [], [], []⟩⟩ := rfl
  rw [e, netRun_iff ft rules _ bs h]
  have : ∀ q : Points K, (⟨[], [], [], [], [], []⟩ : Points K).append q = q := fun q => by simp [Points.append]
  simp only [this]

/-- **C76.** Such a network without rules is accepted when each branch has as many coordinates as offsets, at least
one. -/
theorem C76_accepted (ft : FloatText K) (text : Text) (bs : List (Branch K)) (h : IsNetwork ft (fileLines text) bs)
    (hb : ∀ b ∈ bs, b.offsets ≠ [] ∧ b.x.length = b.offsets.length ∧ b.y.length = b.offsets.length) :
    ∃ p, parseNetwork ft [] text = .ok p ∧ p.bid = (bs.map fun b => b.x.map fun _ => b.name).flatten ∧
      p.cid = (bs.map (·.ids)).flatten ∧ p.cdis = (bs.map fun b => controlLengths b.offsets).flatten ∧
      p.coff = (bs.map (·.offsets)).flatten ∧ p.x.length = (bs.map (·.x.length)).sum := by
  have hp : ∃ ps, List.Forall₂ (IsResultOf ([] : List (Text × BranchRule))) bs ps := by
    clear h
    induction bs with
    | nil => exact ⟨[], .nil⟩
    | cons b bs ih =>
      obtain ⟨ps, hps⟩ := ih fun c hc => hb c (List.mem_cons_of_mem _ hc)
      obtain ⟨hne, hx, hy⟩ := hb b (by simp)
      obtain ⟨x', ex⟩ := moveEnds_exists b.offsets b.x hx.symm hne
      obtain ⟨y', ey⟩ := moveEnds_exists b.offsets b.y hy.symm hne
      exact ⟨⟨x', y', b.ids, controlLengths b.offsets, b.x.map fun _ => b.name, b.offsets⟩ :: ps,
        .cons ⟨_, ⟨ex, ey, rfl, rfl, rfl, rfl⟩, .inl ⟨rfl, rfl⟩⟩ hps⟩
  obtain ⟨ps, hps⟩ := hp
  refine ⟨concat ps, (C76_own_points_partial ft [] text bs h _).2 ⟨ps, hps, rfl⟩, ?_⟩
  clear h hb
  induction hps with
  | nil => simp [concat]
  | @cons b p bs ps hr _ ih =>
    obtain ⟨q, ⟨m1, m2, m3, m4, m5, m6⟩, ⟨_, rfl⟩ | ⟨r, hr, _⟩⟩ := hr
    · obtain ⟨i1, i2, i3, i4, i5⟩ := ih
      unfold concat at i1 i2 i3 i4 i5 ⊢
      simp only at i1 i2 i3 i4 i5 ⊢
      simp only [List.map_cons, List.flatten_cons, List.sum_cons, List.length_append, i1, i2, i3, i4, i5, m3, m4, m5, m6,
        (moveEnds_ok _ _ _ m1).2.1, and_self]
    · cases hr

/-- The text of a network with two branches, with lines of other sections around them. -/
def twoBranches : Text :=
  ("[General]\n version=1\n[Branch]\nid = Maas\n1\n2\n3\n4\n5\n6\ngridPointX = 0 50 100\ngridPointY = 0 0 0\n" ++
    "gridPointIds = M_0; M_50 ;M_100\ngridPointOffsets = 0 50 100\n\n[branch]\nid = Waal\ngridPointOffsets = 0 10 20\n" ++
    "gridPointY = 0 10 20\ngridPointIds = w_0;w_10;w_20\ngridPointX = 5 5 5\n1\n2\n3\n4\n5\n6\n").toList

example : parseNetwork (decimalText ℚ) [("Waal".toList, ⟨"ignoreLast".toList, []⟩)] twoBranches =
    .ok ⟨[1, 50, 99, 5, 5], [0, 0, 0, 1, 10],
      ["m_0".toList, "m_50".toList, "m_100".toList, "w_0".toList, "w_10".toList], [25, 50, 25, 5, 15],
      ["Maas".toList, "Maas".toList, "Maas".toList, "Waal".toList, "Waal".toList], [0, 50, 100, 0, 10]⟩ := by
  decide +kernel

private def maasBody : List Text :=
  ["1\n".toList, "2\n".toList, "3\n".toList, "4\n".toList, "5\n".toList, "6\n".toList, "gridPointX = 0 50 100\n".toList,
    "gridPointY = 0 0 0\n".toList, "gridPointIds = M_0; M_50 ;M_100\n".toList, "gridPointOffsets = 0 50 100\n".toList]

/-- The hypothesis of `C76_own_points_partial` is met by the first branch of that network. -/
example : IsBlock (decimalText ℚ) ("[Branch]\n".toList :: "id = Maas\n".toList :: maasBody)
    ⟨"Maas".toList, [0, 50, 100], [0, 0, 0], ["m_0".toList, "m_50".toList, "m_100".toList], [0, 50, 100]⟩ := by
  have numbers : ∀ (t : Text) (vs : List ℚ), parseFloats (decimalText ℚ) (splitWs t) = .ok vs →
      Numbers (decimalText ℚ) t vs := fun t vs h => (parseFloats_iff _ _ _).1 h
  refine .block (t := " Maas\n".toList) (by decide +kernel) (by decide +kernel) (by decide +kernel) rfl
    ⟨by decide +kernel, ?_⟩ ⟨by decide +kernel, ?_⟩ ⟨by decide +kernel, ?_⟩ ⟨by decide +kernel, ?_⟩ <;>
    · intro l hl hk
      have : ∀ l ∈ maasBody, keyOf l = keyOf l → valueOf l = none ∨ l ∈ maasBody.drop 6 := by decide +kernel
      simp only [maasBody, List.mem_cons, List.not_mem_nil, or_false] at hl
      rcases hl with rfl | rfl | rfl | rfl | rfl | rfl | rfl | rfl | rfl | rfl <;>
        first
        | (exfalso; revert hk; decide +kernel)
        | exact ⟨_, rfl, numbers _ _ (by decide +kernel)⟩
        | exact ⟨_, rfl, by decide +kernel⟩

/-- **C76.** A branch whose ids come after the tenth line silently gets the ids of the branch before it. -/
theorem C76_previous_branch_violated :
    parseNetwork (decimalText ℚ) [] (("[Branch]\nid = A\n1\n2\n3\n4\n5\n6\ngridPointX = 0 50 100\ngridPointY = 0 0 0\n" ++
      "gridPointIds = a0;a1;a2\ngridPointOffsets = 0 50 100\n[Branch]\nid = B\n1\n2\n3\n4\n5\n6\n7\n" ++
      "gridPointX = 5 5 5\ngridPointY = 0 10 20\ngridPointOffsets = 0 10 20\ngridPointIds = b0;b1;b2\n").toList) =
    .ok ⟨[1, 50, 99, 5, 5, 5], [0, 0, 0, 1, 10, 19],
      ["a0".toList, "a1".toList, "a2".toList, "a0".toList, "a1".toList, "a2".toList], [25, 50, 25, 5, 10, 5],
      ["A".toList, "A".toList, "A".toList, "B".toList, "B".toList, "B".toList], [0, 50, 100, 0, 10, 20]⟩ := by
  decide +kernel

/-- **C76.** A branch with one id too many shifts the ids of all branches after it: in the file the first point of the
second branch carries an id of the first branch, and nothing is reported. -/
theorem C76_extra_id_violated :
    generateLocations (decimalText ℚ) none (("[Branch]\nid = A\n1\n2\n3\n4\n5\n6\ngridPointX = 0 100\ngridPointY = 0 0\n" ++
      "gridPointIds = a0;a1;\ngridPointOffsets = 0 100\n[Branch]\nid = B\n1\n2\n3\n4\n5\n6\n" ++
      "gridPointX = 5 5\ngridPointY = 0 10\ngridPointOffsets = 0 10\ngridPointIds = b0;b1\n").toList) =
    .ok ("name,x,y,length,branch,offset\na0, 1.0000, 0.0000, 50.00, A, 0.00\na1, 99.0100, 0.0000, 50.00, A, 100.00\n" ++
      ", 5.0000, 1.0000, 5.00, B, 0.00\nb0, 5.0000, 9.1000, 5.00, B, 10.00\n").toList := by
  decide +kernel

/-! ## C55, C36: from network to location file -/

private theorem points_sameLength (b : Branch K) (q : Points K) (h : IsPointsOf b q)
    (hy : b.y.length = b.x.length) (hi : b.ids.length = b.x.length) (ho : b.offsets.length = b.x.length)
    (hne : b.offsets ≠ []) : SameLength q := by
  obtain ⟨h1, h2, h3, h4, h5, h6⟩ := h
  have l1 := (moveEnds_ok _ _ _ h1).2.1
  have l2 := (moveEnds_ok _ _ _ h2).2.1
  refine ⟨by omega, by rw [h3]; omega, ?_, by rw [h5, List.length_map]; omega, by rw [h6]; omega⟩
  rw [h4, (C55_sum b.offsets hne).1]; omega

/-- **C55, C56, C57.** The locations given for a branch, whatever its rule and exceptions, have lengths that add up to
the distance between its first and last grid point. -/
theorem C55_branch_total (rules : List (Text × BranchRule)) (b : Branch K) (p : Points K) (h : IsResultOf rules b p)
    (hy : b.y.length = b.x.length) (hi : b.ids.length = b.x.length) (ho : b.offsets.length = b.x.length)
    (hne : b.offsets ≠ []) : SameLength p ∧ p.cdis.sum = b.offsets.getLast hne - b.offsets.head hne := by
  obtain ⟨q, hq, hr⟩ := h
  have hs := points_sameLength b q hq hy hi ho hne
  have hsum : q.cdis.sum = b.offsets.getLast hne - b.offsets.head hne := by
    rw [hq.2.2.2.1]; exact (C55_sum b.offsets hne).2
  rcases hr with ⟨_, rfl⟩ | ⟨r, _, hr⟩
  · exact ⟨hs, hsum⟩
  · obtain ⟨h1, h2⟩ := C56_conserved r q p hs hr
    exact ⟨h1, h2.trans hsum⟩

private theorem concat_sameLength (ps : List (Points K)) (h : ∀ p ∈ ps, SameLength p) : SameLength (concat ps) := by
  induction ps with
  | nil => simp [SameLength, concat]
  | cons p ps ih =>
    obtain ⟨a1, a2, a3, a4, a5⟩ := h p (by simp)
    obtain ⟨b1, b2, b3, b4, b5⟩ := ih fun q hq => h q (List.mem_cons_of_mem _ hq)
    simp only [concat] at b1 b2 b3 b4 b5
    simp only [SameLength, concat, List.map_cons, List.flatten_cons, List.length_append]
    omega

/-- **C36, C76.** The location file generated for a network whose branches have lists of equal length is accepted by
the importer, which gets the locations of the branches (numbers rounded as they are written). -/
theorem C36_generated (ft : FloatText K) (rules : List (Text × BranchRule)) (text : Text) (bs : List (Branch K))
    (h : IsNetwork ft (fileLines text) bs) (p : Points K) (hp : parseNetwork ft rules text = .ok p)
    (hl : ∀ b ∈ bs, b.offsets ≠ [] ∧ b.y.length = b.x.length ∧ b.ids.length = b.x.length ∧
      b.offsets.length = b.x.length)
    (hid : ∀ t ∈ p.cid, ',' ∉ t ∧ '\n' ∉ t) (hbr : ∀ t ∈ p.bid, ',' ∉ t ∧ '\n' ∉ t) :
    ∃ file cols, writeLocations p = .ok file ∧ cssFile ft ',' (some file) = .ok cols ∧ cols.id = p.cid ∧
      cols.branchid = p.bid.map strip ∧ cols.xy.length = p.x.length := by
  obtain ⟨ps, hps, rfl⟩ := (C76_own_points_partial ft rules text bs h p).1 hp
  have hs : SameLength (concat ps) := by
    apply concat_sameLength
    clear hp hid hbr h
    induction hps with
    | nil => simp
    | @cons b p bs ps hr _ ih =>
      intro q hq
      rcases List.mem_cons.1 hq with rfl | hq
      · obtain ⟨hne, h1, h2, h3⟩ := hl b (by simp)
        exact (C55_branch_total rules b q hr h1 h2 h3 hne).1
      · exact ih (fun c hc => hl c (List.mem_cons_of_mem _ hc)) q hq
  obtain ⟨file, e1, e2⟩ := C36_read_back ft (concat ps) hs hid hbr
  refine ⟨file, _, e1, e2, rfl, rfl, ?_⟩
  simp only [List.length_map, List.length_zip, hs.1, min_self]

/-- **C57.** Ids in the network are read in lower case but exceptions are not: an id written alike in both files is not
found, and the generator stops. -/
theorem C57_capitals_violated :
    generateLocations (decimalText ℚ) (some "Maas, noRule, M_50\n".toList) twoBranches = .error .valueError ∧
      ∃ t, generateLocations (decimalText ℚ) (some "Maas, noRule, m_50\n".toList) twoBranches = .ok t := by
  refine ⟨by decide +kernel, ?_⟩
  have : ((generateLocations (decimalText ℚ) (some "Maas, noRule, m_50\n".toList) twoBranches).toOption).isSome := by
    decide +kernel
  cases hg : generateLocations (decimalText ℚ) (some "Maas, noRule, m_50\n".toList) twoBranches with
  | error e => rw [hg] at this; cases this
  | ok t => exact ⟨t, rfl⟩

/-! ## C77: end points -/

/-- **C77.** Moving the end points leaves all other points where they are. -/
theorem C77_inner_points (offs x x' : List K) (h : moveEnds offs x = .ok x') :
    x'.length = x.length ∧ ∀ (i : Nat), i ≠ 0 → i + 1 ≠ x.length → x'[i]? = x[i]? := by
  obtain ⟨_, hl, last, a, b, _, _, _, rfl⟩ := moveEnds_ok offs x x' h
  refine ⟨hl, fun i h0 h1 => ?_⟩
  by_cases hi : i < x.length
  · rw [List.getElem?_set_ne (by omega), List.getElem?_set_ne (by omega)]
  · rw [List.getElem?_eq_none (by simp; omega), List.getElem?_eq_none (by omega)]

/-- **C77.** On a branch with rising offsets from zero and at least three points, whose first and last reach are longer
than a metre, the first point moves to one metre from the start of the branch and the last one to one metre from its
end, on the line through the grid points. (In full, the claim asks this of branches with two points as well.) -/
theorem C77_ends_partial (offs x x' : List K) (h : moveEnds offs x = .ok x') (hr : StrictlyIncreasing offs) (n : Nat)
    (hn : offs.length = n + 3) (o₁ o₂ last : K) (h0 : offs[0]? = some 0) (h1 : offs[1]? = some o₁)
    (h2 : offs[n + 1]? = some o₂) (hlast : offs[n + 2]? = some last) (g1 : 1 < o₁) (g2 : 1 < last - o₂) :
    ∃ a b, x'[0]? = some a ∧ x'[n + 2]? = some b ∧ OnLine offs x 1 a ∧ OnLine offs x (last - 1) b := by
  obtain ⟨hl, _, last', a, b, e1, e2, e3, rfl⟩ := moveEnds_ok offs x x' h
  have hx : x.length = n + 3 := by omega
  have hlast' : last' = last := by
    rw [List.getLast?_eq_getElem?, hn, show n + 3 - 1 = n + 2 by omega, hlast] at e1
    exact (Option.some.inj e1).symm
  subst hlast'
  have gx : ∀ (i : Nat), i < n + 3 → ∃ v, x[i]? = some v := fun i hi =>
    ⟨x[i], List.getElem?_eq_getElem (by omega)⟩
  obtain ⟨x0, hx0⟩ := gx 0 (by omega)
  obtain ⟨x1, hx1⟩ := gx 1 (by omega)
  obtain ⟨xm, hxm⟩ := gx (n + 1) (by omega)
  obtain ⟨xe, hxe⟩ := gx (n + 2) (by omega)
  have ea := interp1_between offs x hr hl 0 0 o₁ x0 x1 1 h0 h1 hx0 hx1 (by norm_num) g1
  have sm : (x.set 0 a)[n + 1]? = some xm := by rw [List.getElem?_set_ne (by omega), hxm]
  have se : (x.set 0 a)[n + 1 + 1]? = some xe := by rw [List.getElem?_set_ne (by omega), hxe]
  have eb := interp1_between offs (x.set 0 a) hr (by simp [hl]) (n + 1) o₂ last' xm xe (last' - 1) h2 hlast sm se
    (by linarith) (by linarith)
  rw [e2] at ea
  rw [e3] at eb
  have ea' := Option.some.inj ea
  have eb' := Option.some.inj eb
  refine ⟨a, b, ?_, ?_, ⟨0, 0, o₁, x0, x1, h0, h1, hx0, hx1, by norm_num, g1.le, ?_⟩,
    ⟨n + 1, o₂, last', xm, xe, h2, hlast, hxm, hxe, by linarith, by linarith, ?_⟩⟩
  · rw [List.getElem?_set_ne (by omega), List.getElem?_set_self (by omega)]
  · rw [show n + 2 = x.length - 1 by omega, List.getElem?_set_self (by simp; omega)]
  · rw [ea']; unfold onLine
    have : o₁ - 0 ≠ 0 := by linarith
    field_simp; ring
  · rw [eb']; unfold onLine
    have : last' - o₂ ≠ 0 := by linarith
    field_simp; ring

example : moveEnds [0, 50, 100] [0, 50, 150] = .ok [(1 : ℚ), 50, 148] ∧ StrictlyIncreasing [(0 : ℚ), 50, 100] := by
  refine ⟨by decide +kernel, by unfold StrictlyIncreasing; decide +kernel⟩

/-- **C77.** On a branch of two points, a straight line of ten metres along x, the second point is put at 9.1 m instead of
9 m: the moved first point is used with its old offset. -/
theorem C77_two_points_violated :
    moveEnds [0, 10] [0, 10] = .ok [(1 : ℚ), 91 / 10] ∧ OnLine [0, 10] [0, 10] (10 - 1) (9 : ℚ) ∧
      ¬ OnLine [0, 10] [0, 10] (10 - 1) (91 / 10 : ℚ) := by
  refine ⟨by decide +kernel, ⟨0, 0, 10, 0, 10, rfl, rfl, rfl, rfl, by norm_num, by norm_num, by norm_num⟩, ?_⟩
  rintro ⟨i, a, b, fa, fb, h1, h2, h3, h4, h5, h6, h7⟩
  match i with
  | 0 =>
    obtain rfl := Option.some.inj h1
    obtain rfl := Option.some.inj h2
    obtain rfl := Option.some.inj h3
    obtain rfl := Option.some.inj h4
    norm_num at h7
  | i + 1 => simp at h2

/-! ## C78: branch rule files -/

/-- What a line of the rule file says: the branch, the rule and the exceptions. -/
def lineSays (line : Text) (b : Text) (r : BranchRule) : Prop :=
  ∃ f₁ f₂ fs, IsLineOf ',' (strip line) (f₁ :: f₂ :: fs) ∧ b = strip f₁ ∧ r = ⟨strip f₂, fs.map strip⟩

private theorem ruleLine_iff (line b : Text) (r : BranchRule) : ruleLine line = .ok (b, r) ↔ lineSays line b r := by
  unfold ruleLine lineSays
  constructor
  · intro h
    split at h
    · rename_i f₁ f₂ fs hs
      obtain ⟨rfl, rfl⟩ := Prod.mk.inj (Except.ok.inj h)
      exact ⟨f₁, f₂, fs, (splitSep_eq_iff _ _ _ (by simp)).1 hs, rfl, rfl⟩
    · cases h
  · rintro ⟨f₁, f₂, fs, h, rfl, rfl⟩
    rw [(splitSep_eq_iff _ _ _ (by simp)).2 h]

private theorem parseRules_iff (lines : List Text) (acc rules : List (Text × BranchRule)) :
    parseRules lines acc = .ok rules ↔
      ∃ es, List.Forall₂ (fun l e => lineSays l e.1 e.2) lines es ∧ rules = es.reverse ++ acc := by
  induction lines generalizing acc with
  | nil =>
    rw [parseRules]
    constructor
    · intro h; exact ⟨[], .nil, by rw [← Except.ok.inj h]; rfl⟩
    · rintro ⟨es, h, rfl⟩; cases h; rfl
  | cons l ls ih =>
    rw [parseRules]
    cases hl : ruleLine l with
    | error e =>
      constructor
      · intro h; cases h
      · rintro ⟨es, h, _⟩
        cases h with
        | cons h1 _ => rw [(ruleLine_iff l _ _).2 h1] at hl; cases hl
    | ok e =>
      simp only
      rw [ih]
      constructor
      · rintro ⟨es, h, rfl⟩
        exact ⟨e :: es, .cons ((ruleLine_iff l _ _).1 hl) h, by simp⟩
      · rintro ⟨es, h, rfl⟩
        cases h with
        | @cons _ e' _ es h1 h2 =>
          rw [(ruleLine_iff l _ _).2 h1] at hl
          obtain rfl := Except.ok.inj hl
          exact ⟨es, h2, by simp⟩

/-- **C78.** A rule file is accepted exactly when every line of more than one character names a branch and a rule; the
rule and the exceptions that hold for a branch are those of its last line. -/
theorem C78_rule_file (text : Text) :
    (∀ es : List (Text × BranchRule),
      List.Forall₂ (fun l e => lineSays l e.1 e.2) ((fileLines text).filter fun l => 1 < l.length) es →
        ∃ rules, parseRuleFile text = .ok rules ∧
          ∀ b, rulesGet rules b = ((es.filter fun e => e.1 = b).getLast?).map (·.2)) ∧
      (∀ rules, parseRuleFile text = .ok rules →
        ∃ es : List (Text × BranchRule),
          List.Forall₂ (fun l e => lineSays l e.1 e.2) ((fileLines text).filter fun l => 1 < l.length) es) := by
  constructor
  · intro es h
    refine ⟨es.reverse ++ [], (parseRules_iff _ [] _).2 ⟨es, h, rfl⟩, fun b => ?_⟩
    unfold rulesGet
    rw [List.append_nil]
    congr 1
    rw [← List.head?_filter, List.filter_reverse, List.head?_reverse]
  · intro rules h
    obtain ⟨es, h1, _⟩ := (parseRules_iff _ [] _).1 h
    exact ⟨es, h1⟩

example : parseRuleFile "Maas, ignoreFirst\n\n Waal ,noRule, w_10 ,w_20\nMaas,onlyLast\n".toList =
    .ok [("Maas".toList, ⟨"onlyLast".toList, []⟩), ("Waal".toList, ⟨"noRule".toList, ["w_10".toList, "w_20".toList]⟩),
      ("Maas".toList, ⟨"ignoreFirst".toList, []⟩)] := by decide +kernel

end Fm2prof.Props
