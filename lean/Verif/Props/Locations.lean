import Mathlib.Algebra.Order.Field.Rat
import Mathlib.Data.Rat.Floor
import Verif.Proofs.Decimal
import Verif.Proofs.Locations

/-!
# Properties of location files and branch rules: C35, C36, C55, C56, C57
-/

set_option linter.unusedSectionVars false

namespace Fm2prof.Props

open Fm2prof Spec

variable {K : Type} [Field K] [LinearOrder K] [IsStrictOrderedRing K] [FloorRing K]

/-! ## C35: reading a location file -/

/-- **C35.** A location file is accepted exactly when all its lines are data lines, possibly after one header; the
columns then hold one entry per data line, in the order of the file. -/
theorem C35_read_iff (ft : FloatText K) (d : Char) (text : Text) (cols : CssColumns K) :
    cssFile ft d (some text) = .ok cols ↔
      ∃ locs, (List.Forall₂ (LineFor ft d) (fileLines text) locs ∨
        ∃ h rest, fileLines text = h :: rest ∧ IsHeader ft d h ∧ List.Forall₂ (LineFor ft d) rest locs) ∧
        cols = columnsOf locs := by
  have nilAdd : ∀ c : CssColumns K, (⟨[], [], [], [], []⟩ : CssColumns K).add c = c := fun c => by
    simp [CssColumns.add]
  have push0 : ∀ l : Loc K, (⟨[], [], [], [], []⟩ : CssColumns K).push l = columnsOf [l] := fun l => by
    simp [CssColumns.push, columnsOf]
  have addCons : ∀ (l : Loc K) ls, (columnsOf [l]).add (columnsOf ls) = columnsOf (l :: ls) := fun l ls => by
    simp [CssColumns.add, columnsOf]
  unfold cssFile
  simp only
  cases hf : fileLines text with
  | nil =>
    rw [cssLines]
    constructor
    · intro h
      exact ⟨[], .inl .nil, by rw [← Except.ok.inj h]; rfl⟩
    · rintro ⟨locs, h | ⟨_, _, h, _⟩, rfl⟩
      · cases h; rfl
      · cases h
  | cons line rest =>
    rw [cssLines]
    cases hl : cssLine ft d 0 line with
    | error e =>
      simp only
      constructor
      · intro h; cases h
      · rintro ⟨locs, h | ⟨_, _, h, hh, _⟩, rfl⟩
        · cases h with
          | cons h1 h2 => rw [(cssLine_some_iff ft d 0 line _).2 h1] at hl; cases hl
        · obtain ⟨rfl, rfl⟩ := List.cons.inj h
          rw [(cssLine_none_iff ft d 0 line).2 ⟨rfl, hh⟩] at hl; cases hl
    | ok o =>
      cases o with
      | none =>
        simp only
        rw [cssLines_iff ft d (0 + 1) (by omega)]
        constructor
        · rintro ⟨locs, h, rfl⟩
          exact ⟨locs, .inr ⟨line, rest, rfl, ((cssLine_none_iff ft d 0 line).1 hl).2, h⟩, nilAdd _⟩
        · rintro ⟨locs, h | ⟨_, _, h, hh, h'⟩, rfl⟩
          · cases h with
            | cons h1 h2 => rw [(cssLine_some_iff ft d 0 line _).2 h1] at hl; cases hl
          · obtain ⟨rfl, rfl⟩ := List.cons.inj h
            exact ⟨locs, h', (nilAdd _).symm⟩
      | some l =>
        simp only
        rw [cssLines_iff ft d (0 + 1) (by omega), push0]
        constructor
        · rintro ⟨locs, h, rfl⟩
          exact ⟨l :: locs, .inl (.cons ((cssLine_some_iff ft d 0 line l).1 hl) h), addCons l locs⟩
        · rintro ⟨locs, h | ⟨_, _, h, hh, _⟩, rfl⟩
          · cases h with
            | @cons _ b _ bs h1 h2 =>
              rw [(cssLine_some_iff ft d 0 line _).2 h1] at hl
              obtain rfl := Option.some.inj (Except.ok.inj hl)
              exact ⟨bs, h2, (addCons _ _).symm⟩
          · obtain ⟨rfl, rfl⟩ := List.cons.inj h
            rw [(cssLine_none_iff ft d 0 line).2 ⟨rfl, hh⟩] at hl; cases hl

/-- **C35.** The five columns always have the same length. -/
theorem C35_columns_aligned (ft : FloatText K) (d : Char) (file : Option Text) (cols : CssColumns K)
    (h : cssFile ft d file = .ok cols) :
    cols.id.length = cols.xy.length ∧ cols.branchid.length = cols.xy.length ∧ cols.length.length = cols.xy.length ∧
      cols.chainage.length = cols.xy.length := by
  cases file with
  | none => cases h
  | some text =>
    obtain ⟨locs, _, rfl⟩ := (C35_read_iff ft d text cols).1 h
    simp [columnsOf]

/-- **C35.** A missing file is reported as such; any other file that is not accepted raises `ValueError`. -/
theorem C35_errors (ft : FloatText K) (d : Char) :
    cssFile ft d none = .error .osError ∧
      ∀ text e, cssFile ft d (some text) = .error e → e = .valueError :=
  ⟨rfl, fun _ e h => cssLines_error ft d 0 _ _ e h⟩

/-- **C35.** A file with lines in both formats after a header, one of them with the rounded chainage in its id. -/
example : cssFile (decimalText ℚ) ',' (some "name,x,y,length,branch,offset\na,1.5,2,10, b1 ,0\n3,4,b2,20,7.6\n".toList) =
    .ok ⟨[(3/2, 2), (3, 4)], ["a".toList, "b2_8".toList], ["b1".toList, "b2".toList], [10, 20], [0, 38/5]⟩ := by
  decide +kernel

/-- **C35.** A header above lines in the old format is not skipped: the file is rejected. -/
theorem C35_legacy_header_violated :
    cssFile (decimalText ℚ) ',' (some "1,2,b,3,4\n".toList) =
        .ok ⟨[(1, 2)], ["b_4".toList], ["b".toList], [3], [4]⟩ ∧
      cssFile (decimalText ℚ) ',' (some "x,y,branch,length,chainage\n1,2,b,3,4\n".toList) = .error .valueError := by
  decide +kernel

/-- **C35.** So is a file with an empty line, even at its end. -/
theorem C35_blank_line_violated :
    cssFile (decimalText ℚ) ',' (some "c,1,2,3,b,4\n\n".toList) = .error .valueError := by
  decide +kernel

/-! ## C36: a written location file is read back -/

private theorem sameLength_iff (p : Points K) : SameLength p ↔ p.aligned = true := by
  unfold SameLength Points.aligned
  simp only [Bool.and_eq_true, decide_eq_true_eq]
  tauto

private theorem columns_of_rows (ft : FloatText K) (ls : List (Loc K)) (p : Points K) (hx : ls.map (·.x) = p.x)
    (hy : ls.map (·.y) = p.y) (hc : ls.map (·.id) = p.cid) (hd : ls.map (·.length) = p.cdis)
    (hb : ls.map (·.branch) = p.bid) (ho : ls.map (·.chainage) = p.coff) :
    columnsOf (ls.map (readBack ft)) =
      { xy := (p.x.zip p.y).map fun q => (ft.near (roundTo 4 q.1), ft.near (roundTo 4 q.2))
        id := p.cid
        branchid := p.bid.map strip
        length := p.cdis.map fun v => ft.near (roundTo 2 v)
        chainage := p.coff.map fun v => ft.near (roundTo 2 v) } := by
  have hs : ∀ t : Text, strip (' ' :: t) = strip t := fun t => by
    have h : lstrip (' ' :: t) = lstrip t := List.dropWhile_cons_of_pos rfl
    unfold strip; rw [h]
  rw [← hx, ← hy, ← hc, ← hd, ← hb, ← ho, List.zip_map']
  unfold columnsOf
  congr 1 <;> simp [readBack, hs]

/-- **C36.** Writing aligned columns and reading the file gives the same ids in the same order, the same branches up to
spaces around them, coordinates to four decimals and lengths and chainages to two decimals (`near` is the conversion of
a decimal number to a float). -/
theorem C36_read_back (ft : FloatText K) (p : Points K) (ha : SameLength p)
    (hid : ∀ t ∈ p.cid, ',' ∉ t ∧ '\n' ∉ t) (hbr : ∀ t ∈ p.bid, ',' ∉ t ∧ '\n' ∉ t) :
    ∃ text, writeLocations p = .ok text ∧ cssFile ft ',' (some text) = .ok
      { xy := (p.x.zip p.y).map fun q => (ft.near (roundTo 4 q.1), ft.near (roundTo 4 q.2))
        id := p.cid
        branchid := p.bid.map strip
        length := p.cdis.map fun v => ft.near (roundTo 2 v)
        chainage := p.coff.map fun v => ft.near (roundTo 2 v) } := by
  obtain ⟨ls, h1, hx, hy, hc, hd, hb, ho⟩ := pointRows p ((sameLength_iff p).1 ha) (List.range p.x.length)
    (fun i hi => List.mem_range.1 hi)
  obtain ⟨a1, a2, a3, a4, a5⟩ := ha
  rw [entriesAt_range] at hx
  rw [← a1, entriesAt_range] at hy
  rw [← a2, entriesAt_range] at hc
  rw [← a3, entriesAt_range] at hd
  rw [← a4, entriesAt_range] at hb
  rw [← a5, entriesAt_range] at ho
  refine ⟨"name,x,y,length,branch,offset\n".toList ++ (ls.map fun l => locationLine l ++ ['\n']).flatten, ?_, ?_⟩
  · unfold writeLocations; rw [h1]
  · rw [C35_read_iff]
    have hids : ∀ l ∈ ls, ',' ∉ l.id ∧ '\n' ∉ l.id := fun l hl => hid _ (by rw [← hc]; exact List.mem_map_of_mem hl)
    have hbrs : ∀ l ∈ ls, ',' ∉ l.branch ∧ '\n' ∉ l.branch := fun l hl =>
      hbr _ (by rw [← hb]; exact List.mem_map_of_mem hl)
    have hlines : fileLines ("name,x,y,length,branch,offset\n".toList ++
        (ls.map fun l => locationLine l ++ ['\n']).flatten) =
        "name,x,y,length,branch,offset\n".toList :: ls.map fun l => locationLine l ++ ['\n'] := by
      have e := fileLines_flatten
        ("name,x,y,length,branch,offset".toList :: ls.map locationLine) (by
          intro t ht
          rcases List.mem_cons.1 ht with rfl | ht
          · decide +kernel
          · obtain ⟨l, hl, rfl⟩ := List.mem_map.1 ht
            exact locationLine_noBreak l (hids l hl).2 (hbrs l hl).2)
      have e2 : "name,x,y,length,branch,offset\n".toList = "name,x,y,length,branch,offset".toList ++ ['\n'] := by
        decide +kernel
      rw [e2]
      have e3 := e []
      rw [List.append_nil, List.map_cons, List.flatten_cons, List.map_map] at e3
      rw [show fileLines [] = [] from rfl, List.append_nil] at e3
      exact e3
    refine ⟨ls.map (readBack ft), .inr ⟨_, _, hlines, ?_, ?_⟩, (columns_of_rows ft ls p hx hy hc hd hb ho).symm⟩
    · refine .current (cssid := "name".toList) (x := "x".toList) (y := "y".toList) (len := "length".toList)
        (branch := "branch".toList) (chainage := "offset\n".toList) ⟨by decide +kernel, by decide +kernel⟩
        (ft.parse_x _ (by decide +kernel))
    · clear h1 hx hy hc hd hb ho hlines
      induction ls with
      | nil => exact .nil
      | cons l ls ih =>
        refine .cons (locationLine_reads ft l (hids l (by simp)).1 (hbrs l (by simp)).1) ?_
        exact ih (fun l hl => hids l (List.mem_cons_of_mem _ hl)) (fun l hl => hbrs l (List.mem_cons_of_mem _ hl))

/-- **C36.** What is lost is at most half a unit in the last decimal; nothing is lost of values that have no more
decimals than are written. -/
theorem C36_precision (d : Nat) (x : K) :
    |roundTo d x - x| ≤ 1 / 2 / 10 ^ d ∧ ((∃ k : ℤ, x * 10 ^ d = k) → roundTo d x = x) := by
  refine ⟨roundTo_spec d x, ?_⟩
  rintro ⟨k, hk⟩
  have hp : (10 : K) ^ d ≠ 0 := (pow10_pos d).ne'
  have hk' : -x * 10 ^ d = ((-k : ℤ) : K) := by push_cast; rw [← hk]; ring
  unfold roundTo
  rw [hk, hk', roundEven_intCast, roundEven_intCast, ← hk', ← hk]
  split <;> field_simp

/-- **C36.** Columns whose numbers survive being written, and whose branches have no spaces around them, come back
unchanged. -/
theorem C36_exact (ft : FloatText K) (p : Points K) (ha : SameLength p)
    (hid : ∀ t ∈ p.cid, ',' ∉ t ∧ '\n' ∉ t) (hbr : ∀ t ∈ p.bid, ',' ∉ t ∧ '\n' ∉ t ∧ strip t = t)
    (h4 : ∀ v ∈ p.x ++ p.y, ft.near (roundTo 4 v) = v) (h2 : ∀ v ∈ p.cdis ++ p.coff, ft.near (roundTo 2 v) = v) :
    ∃ text, writeLocations p = .ok text ∧
      cssFile ft ',' (some text) = .ok ⟨p.x.zip p.y, p.cid, p.bid, p.cdis, p.coff⟩ := by
  obtain ⟨text, e1, e2⟩ := C36_read_back ft p ha hid fun t ht => ⟨(hbr t ht).1, (hbr t ht).2.1⟩
  refine ⟨text, e1, ?_⟩
  rw [e2]
  congr 2
  · conv_rhs => rw [← List.map_id (p.x.zip p.y)]
    refine List.map_congr_left fun q hq => ?_
    rw [h4 _ (List.mem_append_left _ (List.of_mem_zip hq).1), h4 _ (List.mem_append_right _ (List.of_mem_zip hq).2)]
    rfl
  · conv_rhs => rw [← List.map_id p.bid]
    exact List.map_congr_left fun t ht => (hbr t ht).2.2
  · conv_rhs => rw [← List.map_id p.cdis]
    exact List.map_congr_left fun v hv => h2 v (List.mem_append_left _ hv)
  · conv_rhs => rw [← List.map_id p.coff]
    exact List.map_congr_left fun v hv => h2 v (List.mem_append_right _ hv)

/-- Two locations on one branch. -/
example : let p : Points ℚ := ⟨[1/2, 100], [2, 7], ["a".toList, "b c".toList], [50, 201/4], ["Maas".toList, "Maas".toList],
      [0, 401/4]⟩
    SameLength p ∧ (∀ t ∈ p.cid, ',' ∉ t ∧ '\n' ∉ t) ∧ (∀ t ∈ p.bid, ',' ∉ t ∧ '\n' ∉ t ∧ strip t = t) ∧
      (∀ v ∈ p.x ++ p.y, (decimalText ℚ).near (roundTo 4 v) = v) ∧
      (∀ v ∈ p.cdis ++ p.coff, (decimalText ℚ).near (roundTo 2 v) = v) ∧
      writeLocations p = .ok ("name,x,y,length,branch,offset\na, 0.5000, 2.0000, 50.00, Maas, 0.00\n" ++
        "b c, 100.0000, 7.0000, 50.25, Maas, 100.25\n").toList := by
  decide +kernel

/-! ## C55: control lengths -/

/-- **C55.** There is one length per grid point; the lengths add up to the distance between the first and the last. -/
theorem C55_sum (offsets : List K) (h : offsets ≠ []) :
    (controlLengths offsets).length = offsets.length ∧
      (controlLengths offsets).sum = offsets.getLast h - offsets.head h := by
  have hl := diffs_length offsets
  have hpos : 0 < offsets.length := List.length_pos_of_ne_nil h
  unfold controlLengths
  refine ⟨by simp [hl]; omega, ?_⟩
  rw [sum_zipWith_add _ _ (by simp), List.sum_append, List.sum_cons, sum_map_half]
  obtain ⟨a, l, rfl⟩ := List.exists_cons_of_ne_nil h
  simp only [sum_map_half, diffs_sum, List.sum_cons, List.sum_nil, List.head_cons]
  ring

/-- **C55.** An inner point has half the distance between its neighbours. -/
theorem C55_inner (offsets : List K) (i : Nat) (a b c : K) (ha : offsets[i]? = some a) (hb : offsets[i + 1]? = some b)
    (hc : offsets[i + 2]? = some c) : (controlLengths offsets)[i + 1]? = some ((c - a) / 2) := by
  have hl := diffs_length offsets
  have h1 := diffs_getElem? offsets i a b ha hb
  have h2 := diffs_getElem? offsets (i + 1) b c hb hc
  unfold controlLengths
  rw [List.getElem?_zipWith, List.getElem?_append_left (by
    simp only [List.length_map]; exact (List.getElem?_eq_some_iff.1 h2).1), List.getElem?_map, h2,
    List.getElem?_cons_succ, List.getElem?_map, h1]
  simp only [Option.map_some]
  congr 1
  ring

/-- **C55.** The first and the last point have half the distance to their neighbour. -/
theorem C55_ends (offsets : List K) (a b c d : K) (ha : offsets[0]? = some a) (hb : offsets[1]? = some b)
    (n : Nat) (hn : offsets.length = n + 2) (hc : offsets[n]? = some c) (hd : offsets[n + 1]? = some d) :
    (controlLengths offsets)[0]? = some ((b - a) / 2) ∧ (controlLengths offsets)[n + 1]? = some ((d - c) / 2) := by
  have hl := diffs_length offsets
  have h1 := diffs_getElem? offsets 0 a b ha hb
  have h2 := diffs_getElem? offsets n c d hc hd
  unfold controlLengths
  constructor
  · rw [List.getElem?_zipWith, List.getElem?_append_left (by
      simp only [List.length_map]; exact (List.getElem?_eq_some_iff.1 h1).1), List.getElem?_map, h1]
    simp
  · rw [List.getElem?_zipWith, List.getElem?_append_right (by simp only [List.length_map]; omega), List.length_map,
      List.getElem?_cons_succ, List.getElem?_map, h2]
    have : n + 1 - (diffs offsets).length = 0 := by omega
    rw [this]
    simp

/-- **C55.** With rising offsets every length is positive. -/
theorem C55_positive (offsets : List K) (h2 : 2 ≤ offsets.length) (hr : offsets.Pairwise (· < ·)) :
    ∀ v ∈ controlLengths offsets, 0 < v := by
  intro v hv
  obtain ⟨j, hj, rfl⟩ := List.getElem_of_mem hv
  obtain ⟨n, hn⟩ : ∃ n, offsets.length = n + 2 := ⟨offsets.length - 2, by omega⟩
  have hlen := (C55_sum offsets (by intro e; rw [e] at h2; simp at h2)).1
  have lt : ∀ (i k : Nat) (hi : i < offsets.length) (hk : k < offsets.length), i < k → offsets[i] < offsets[k] :=
    fun i k hi hk hik => List.pairwise_iff_getElem.1 hr i k hi hk hik
  have get : ∀ (i : Nat) (hi : i < offsets.length), offsets[i]? = some offsets[i] := fun i hi =>
    List.getElem?_eq_getElem hi
  have ends := C55_ends offsets _ _ _ _ (get 0 (by omega)) (get 1 (by omega)) n hn (get n (by omega))
    (get (n + 1) (by omega))
  have key : ∀ w, (controlLengths offsets)[j]? = some w → 0 < w → 0 < (controlLengths offsets)[j] := by
    intro w hw hpos
    rw [List.getElem?_eq_getElem hj] at hw
    rw [Option.some.inj hw]; exact hpos
  rcases Nat.eq_zero_or_pos j with rfl | hpos
  · exact key _ ends.1 (by have := lt 0 1 (by omega) (by omega) (by omega); linarith)
  · by_cases hjn : j = n + 1
    · exact key _ (by rw [hjn]; exact ends.2) (by have := lt n (n + 1) (by omega) (by omega) (by omega); linarith)
    · obtain ⟨i, rfl⟩ : ∃ i, j = i + 1 := ⟨j - 1, by omega⟩
      exact key _ (C55_inner offsets i _ _ _ (get i (by omega)) (get (i + 1) (by omega)) (get (i + 2) (by omega)))
        (by have := lt i (i + 2) (by omega) (by omega) (by omega); linarith)

/-- Four grid points with unequal distances. -/
example : controlLengths ([0, 100, 250, 300] : List ℚ) = [50, 125, 100, 25] ∧
    ([0, 100, 250, 300] : List ℚ).Pairwise (· < ·) := by decide +kernel

/-! ## C56: branch rules -/

private theorem entriesAt_map_succ {α : Type} (a : α) (l : List α) (is : List Nat) :
    entriesAt (a :: l) (is.map (· + 1)) = entriesAt l is := by
  unfold entriesAt
  induction is with
  | nil => rfl
  | cons i is ih => rw [List.map_cons, List.filterMap_cons, List.filterMap_cons, ih]; simp

private theorem kept_last {α : Type} (l : List α) :
    entriesAt l ((List.range l.length).filter fun i => i ≠ l.length - 1) = l.dropLast := by
  induction l using List.reverseRecOn with
  | nil => rfl
  | append_singleton l a _ =>
    have e : (List.range (l ++ [a]).length).filter (fun i => i ≠ (l ++ [a]).length - 1) = List.range l.length := by
      rw [List.length_append, List.length_singleton, List.range_succ, List.filter_append]
      simp only [Nat.add_sub_cancel, ne_eq, decide_not]
      rw [List.filter_eq_self.2]
      · simp
      · intro i hi
        have := List.mem_range.1 hi
        simp; omega
    rw [e, List.dropLast_concat]
    conv_rhs => rw [← entriesAt_range l]
    unfold entriesAt
    refine List.filterMap_congr fun i hi => ?_
    rw [List.getElem?_append_left (List.mem_range.1 hi)]

private theorem kept_first {α : Type} (a : α) (l : List α) (P : Nat → Bool) :
    entriesAt (a :: l) ((List.range (a :: l).length).filter fun i => i ≠ 0 ∧ P i) =
      entriesAt l ((List.range l.length).filter fun i => P (i + 1)) := by
  rw [List.length_cons, List.range_succ_eq_map, List.filter_cons, if_neg (by simp)]
  rw [List.filter_map]
  have : (List.filter ((fun i => decide (i ≠ 0 ∧ P i = true)) ∘ Nat.succ) (List.range l.length)).map Nat.succ =
      ((List.range l.length).filter fun i => P (i + 1)).map (· + 1) := by
    congr 1
    refine List.filter_congr fun i _ => ?_
    simp [Nat.succ_eq_add_one]
  rw [this, entriesAt_map_succ]

private theorem ruleKeep_kept {α : Type} (r : String) (hr : r ∈ knownRules) (x : List α) (hx : x ≠ []) :
    ruleKeep r.toList x = some (.ok (entriesAt x (keptBy r x.length))) := by
  obtain ⟨a, l, rfl⟩ := List.exists_cons_of_ne_nil hx
  have hlast : (a :: l)[l.length]? = some ((a :: l).getLast hx) := by
    rw [List.getLast_eq_getElem]
    simp
  have hglast : (a :: l).getLast? = some ((a :: l).getLast hx) := List.getLast?_eq_some_getLast hx
  simp only [knownRules, List.mem_cons, List.not_mem_nil, or_false] at hr
  rcases hr with rfl | rfl | rfl | rfl | rfl | rfl | rfl
  · rw [keep_norule]; unfold keptBy; simp only [entriesAt_range]
  · rw [keep_onlyedges a _ _ rfl hglast]
    simp only [keptBy, entriesAt, List.length_cons, Nat.add_sub_cancel, List.filterMap_cons, hlast, List.filterMap_nil,
      List.getElem?_cons_zero]
  · rw [keep_ignoreedges]
    simp only [keptBy]
    have := kept_first a l fun i => decide (i ≠ (a :: l).length - 1)
    simp only [decide_eq_true_eq] at this
    rw [this, List.tail_cons]
    congr 2
    rw [← kept_last l]
    cases l with
    | nil => rfl
    | cons b l =>
      congr 1
      refine List.filter_congr fun i _ => ?_
      simp
  · rw [keep_ignorelast]; simp only [keptBy]; rw [kept_last]
  · rw [keep_ignorefirst]
    simp only [keptBy]
    have := kept_first a l fun _ => true
    simp only [and_true] at this
    rw [this, List.tail_cons]
    simp only [List.filter_true, entriesAt_range]
  · rw [keep_onlyfirst a _ rfl]; simp [keptBy, entriesAt]
  · rw [keep_onlylast _ _ hglast]
    simp only [keptBy, entriesAt, List.length_cons, Nat.add_sub_cancel, List.filterMap_cons, hlast, List.filterMap_nil]

/-- **C56.** On a branch with points, a known rule (in any mix of capitals, with spaces around it) keeps in all five
point columns exactly the points it says, in order. -/
theorem C56_kept_points (r : String) (hr : r ∈ knownRules) (rule : Text) (hrule : strip (lower rule) = r.toList)
    (p : Points K) (ha : SameLength p) (hn : 1 ≤ p.x.length) :
    ∃ p', applyRule rule p = .ok p' ∧ p'.x = entriesAt p.x (keptBy r p.x.length) ∧
      p'.y = entriesAt p.y (keptBy r p.x.length) ∧ p'.cid = entriesAt p.cid (keptBy r p.x.length) ∧
      p'.bid = entriesAt p.bid (keptBy r p.x.length) ∧ p'.coff = entriesAt p.coff (keptBy r p.x.length) := by
  obtain ⟨a1, a2, a3, a4, a5⟩ := ha
  have ne : ∀ {α : Type} (l : List α), l.length = p.x.length → l ≠ [] := fun l hl e => by
    rw [e] at hl; simp at hl; omega
  refine ⟨_, by
    unfold applyRule
    rw [hrule, ruleKeep_kept r hr p.x (ne _ rfl), ruleKeep_kept r hr p.y (ne _ a1), ruleKeep_kept r hr p.cid (ne _ a2),
      ruleKeep_kept r hr p.bid (ne _ a4), ruleKeep_kept r hr p.coff (ne _ a5)], rfl, ?_, ?_, ?_, ?_⟩
  · rw [a1]
  · rw [a2]
  · rw [a4]
  · rw [a5]

private theorem handOver_ruleLengths (r : String) (hr : r ∈ knownRules) (l : List K) (hn : pointsNeeded r ≤ l.length) :
    HandOver r l (ruleLengths r.toList l) := by
  simp only [knownRules, List.mem_cons, List.not_mem_nil, or_false] at hr
  rcases hr with rfl | rfl | rfl | rfl | rfl | rfl | rfl
  · rw [len_norule]; exact .norule l
  · rw [len_onlyedges]; exact .onlyedges l
  · simp only [pointsNeeded] at hn
    obtain ⟨m, c, d, rfl⟩ := two_last l (by omega)
    match m, hn with
    | a :: b :: m, hn =>
      have e1 : (lastTwo (a :: b :: m ++ [c, d])) = [c, d] := lastTwo_append _ _ _
      have e2 : ((a :: b :: m ++ [c, d]).take ((a :: b :: m ++ [c, d]).length - 2)).drop 2 = m := by simp
      rw [len_ignoreedges, e1, e2]
      have := HandOver.ignoreedges a b c d m
      simpa using this
    | [a], hn => simp at hn
    | [], hn => simp at hn
  · simp only [pointsNeeded] at hn
    obtain ⟨m, c, d, rfl⟩ := two_last l (by omega)
    have e2 : (m ++ [c, d]).take ((m ++ [c, d]).length - 2) = m := by simp
    rw [len_ignorelast, lastTwo_append, e2]
    simpa using HandOver.ignorelast c d m
  · simp only [pointsNeeded] at hn
    match l, hn with
    | a :: b :: l, _ =>
      rw [len_ignorefirst]
      simpa using HandOver.ignorefirst a b l
    | [a], hn => simp at hn
    | [], hn => simp at hn
  · rw [len_onlyfirst]; exact .onlyfirst l
  · rw [len_onlylast]; exact .onlylast l

/-- **C56.** On a branch with enough points the lengths of removed points go to their neighbours as the specification
`HandOver` says: to the next one at an end, or evenly over (or all to) the points that are left. -/
theorem C56_lengths (r : String) (hr : r ∈ knownRules) (rule : Text) (hrule : strip (lower rule) = r.toList)
    (p p' : Points K) (hn : pointsNeeded r ≤ p.cdis.length) (h : applyRule rule p = .ok p') :
    HandOver r p.cdis p'.cdis := by
  obtain ⟨_, _, _, _, _, _, h6⟩ := applyRule_ok rule p p' h
  rw [h6, hrule]
  exact handOver_ruleLengths r hr p.cdis hn

private theorem applyBranchRule_good (r : BranchRule) (p p' : Points K) (ha : SameLength p)
    (h : applyBranchRule r p = .ok p') : p'.good p.cdis.sum := by
  have hp : p.good p.cdis.sum := by
    obtain ⟨h1, h2⟩ := (aligned_iff p).1 ((sameLength_iff p).1 ha)
    exact ⟨h1, h2, rfl⟩
  unfold applyBranchRule at h
  split at h
  · cases h
  · rename_i p1 h1
    have g1 : p1.good p.cdis.sum ∨ p1.bad := by
      split at h1
      · rw [← Except.ok.inj h1]; exact .inl hp
      · exact applyRule_good r.rule _ p p1 hp h1
    split at h
    · cases h
    · rename_i p2 h2
      have g2 : p2.good p.cdis.sum ∨ p2.bad := by
        split at h2
        · rw [← Except.ok.inj h2]; exact g1
        · unfold applyExceptions at h2
          split at h2
          · cases h2
          · exact popPoints_good _ _ p1 p2 g1 h2
      split at h
      · rename_i hal
        obtain rfl := Except.ok.inj h
        rcases g2 with g | ⟨_, hb⟩
        · exact g
        · have := ((aligned_iff p2).1 hal).2
          omega
      · cases h

/-- **C56, C57.** Whatever rule and exceptions are given: if the branch is accepted, all columns have the same length
and the lengths add up to what they added up to before. -/
theorem C56_conserved (r : BranchRule) (p p' : Points K) (ha : SameLength p) (h : applyBranchRule r p = .ok p') :
    SameLength p' ∧ p'.cdis.sum = p.cdis.sum := by
  obtain ⟨⟨h1, h2, h3, h4, h5⟩, hl, hs⟩ := applyBranchRule_good r p p' ha h
  exact ⟨⟨h2, h3, hl, h4, h5⟩, hs⟩

private def keptCount (r : String) (n : Nat) : Nat :=
  match r with
  | "norule" => n
  | "onlyedges" => 2
  | "ignoreedges" => n - 2
  | "ignorelast" => n - 1
  | "ignorefirst" => n - 1
  | _ => 1

private def lengthCount (r : String) (n : Nat) : Nat :=
  match r with
  | "norule" => n
  | "onlyedges" => 2
  | "ignoreedges" => (n - 4) + 2
  | "ignorelast" => (n - 2) + 1
  | "ignorefirst" => (n - 2) + 1
  | _ => 1

private theorem keptBy_length {α : Type} (r : String) (hr : r ∈ knownRules) (x : List α) (hx : 1 ≤ x.length) :
    (entriesAt x (keptBy r x.length)).length = keptCount r x.length := by
  have hne : x ≠ [] := fun e => by rw [e] at hx; simp at hx
  have hk := ruleKeep_kept r hr x hne
  obtain ⟨a, l, rfl⟩ := List.exists_cons_of_ne_nil hne
  have hglast : (a :: l).getLast? = some ((a :: l).getLast hne) := List.getLast?_eq_some_getLast hne
  simp only [knownRules, List.mem_cons, List.not_mem_nil, or_false] at hr
  have fin : ∀ {l1 l2 : List α}, some (Except.ok (ε := PyErr) l1) = some (.ok l2) → l2.length = l1.length := fun h => by
    rw [Except.ok.inj (Option.some.inj h)]
  rcases hr with rfl | rfl | rfl | rfl | rfl | rfl | rfl
  · rw [keep_norule] at hk; exact fin hk
  · rw [keep_onlyedges a _ _ rfl hglast] at hk; exact fin hk
  · rw [keep_ignoreedges] at hk
    rw [fin hk]; simp [keptCount]
  · rw [keep_ignorelast] at hk
    rw [fin hk]; simp [keptCount]
  · rw [keep_ignorefirst] at hk
    rw [fin hk]; simp [keptCount]
  · rw [keep_onlyfirst a _ rfl] at hk; exact fin hk
  · rw [keep_onlylast _ _ hglast] at hk; exact fin hk

private theorem ruleLengths_length (r : String) (hr : r ∈ knownRules) (l : List K) :
    (ruleLengths r.toList l).length = lengthCount r l.length := by
  simp only [knownRules, List.mem_cons, List.not_mem_nil, or_false] at hr
  rcases hr with rfl | rfl | rfl | rfl | rfl | rfl | rfl
  · rw [len_norule]; rfl
  · rw [len_onlyedges]; rfl
  · rw [len_ignoreedges]; simp [lengthCount]; omega
  · rw [len_ignorelast]; simp [lengthCount]
  · rw [len_ignorefirst]; simp [lengthCount]
  · rw [len_onlyfirst]; rfl
  · rw [len_onlylast]; rfl

/-- **C56.** Of the branches with points exactly those with enough points for the rule are accepted; for the others
`ValueError` is raised. (In full, the claim asks that every branch that keeps a point be accepted.) -/
theorem C56_accepted_partial (r : String) (hr : r ∈ knownRules) (rule : Text) (hrule : strip (lower rule) = r.toList)
    (p : Points K) (ha : SameLength p) (hn : 1 ≤ p.x.length) :
    (pointsNeeded r ≤ p.x.length → ∃ p', applyBranchRule ⟨rule, []⟩ p = .ok p') ∧
      (p.x.length < pointsNeeded r → applyBranchRule ⟨rule, []⟩ p = .error .valueError) := by
  obtain ⟨p', h, hx, _⟩ := C56_kept_points r hr rule hrule p ha hn
  have hne : rule ≠ [] := by
    rintro rfl
    have : r.toList = [] := hrule.symm
    simp only [knownRules, List.mem_cons, List.not_mem_nil, or_false] at hr
    rcases hr with rfl | rfl | rfl | rfl | rfl | rfl | rfl <;> exact absurd this (by decide +kernel)
  have e : applyBranchRule ⟨rule, []⟩ p = if p'.aligned then .ok p' else .error .valueError := by
    unfold applyBranchRule
    simp only [hne, if_false, h]
    rfl
  have hnear := ((aligned_iff p).1 ((sameLength_iff p).1 ha)).1
  have hnear' := applyRule_near rule p p' _ hnear h
  obtain ⟨_, _, _, _, _, _, h6⟩ := applyRule_ok rule p p' h
  have hl1 := keptBy_length r hr p.x hn
  have hl2 := ruleLengths_length r hr p.cdis
  rw [← hx] at hl1
  rw [← hrule, ← h6, ha.2.2.1] at hl2
  have hal : p'.aligned = true ↔ pointsNeeded r ≤ p.x.length := by
    rw [aligned_iff]
    constructor
    · rintro ⟨_, hc⟩
      rw [hl1, hl2] at hc
      simp only [knownRules, List.mem_cons, List.not_mem_nil, or_false] at hr
      rcases hr with rfl | rfl | rfl | rfl | rfl | rfl | rfl <;> simp [keptCount, lengthCount, pointsNeeded] at hc ⊢ <;>
        omega
    · intro hpn
      refine ⟨hnear', ?_⟩
      rw [hl1, hl2]
      simp only [knownRules, List.mem_cons, List.not_mem_nil, or_false] at hr
      rcases hr with rfl | rfl | rfl | rfl | rfl | rfl | rfl <;> simp [keptCount, lengthCount, pointsNeeded] at hpn ⊢ <;>
        omega
  constructor
  · intro hpn
    exact ⟨p', by rw [e, if_pos (hal.2 hpn)]⟩
  · intro hlt
    rw [e, if_neg]
    intro hc
    have := hal.1 hc
    omega

/-- A branch of five points, used in the examples below. -/
def fivePoints : Points ℚ :=
  ⟨[1, 100, 200, 300, 399], [0, 0, 0, 0, 0], ["a".toList, "b".toList, "c".toList, "d".toList, "e".toList],
    [50, 100, 100, 100, 50], ["r".toList, "r".toList, "r".toList, "r".toList, "r".toList], [0, 100, 200, 300, 400]⟩

example : SameLength fivePoints ∧ strip (lower " IgnoreEdges ".toList) = "ignoreedges".toList ∧
    "ignoreedges" ∈ knownRules ∧ pointsNeeded "ignoreedges" ≤ fivePoints.x.length ∧
    applyBranchRule ⟨" IgnoreEdges ".toList, ["c".toList]⟩ fivePoints =
      .ok ⟨[100, 300], [0, 0], ["b".toList, "d".toList], [200, 200], ["r".toList, "r".toList], [100, 300]⟩ := by
  decide +kernel

/-- A branch of three points. -/
def threePoints : Points ℚ :=
  ⟨[1, 100, 199], [0, 0, 0], ["a".toList, "b".toList, "c".toList], [50, 100, 50],
    ["r".toList, "r".toList, "r".toList], [0, 100, 200]⟩

/-- **C56.** `ignoreEdges` on a branch of three points leaves one point, but two lengths: the branch is refused instead
of giving the middle point the length of the branch. -/
theorem C56_three_points_violated :
    keptBy "ignoreedges" threePoints.x.length = [1] ∧ threePoints.cdis.sum = 200 ∧
      applyBranchRule ⟨"ignoreEdges".toList, []⟩ threePoints = .error .valueError := by
  decide +kernel

/-- **C56.** `onlyEdges` on a branch of a single point gives that point twice. -/
theorem C56_single_point_violated :
    applyBranchRule ⟨"onlyEdges".toList, []⟩ (⟨[1], [0], ["a".toList], [0], ["r".toList], [0]⟩ : Points ℚ) =
      .ok ⟨[1, 1], [0, 0], ["a".toList, "a".toList], [0, 0], ["r".toList, "r".toList], [0, 0]⟩ := by
  decide +kernel

/-- **C56.** A rule that is not one of the seven stops the generator. -/
theorem C56_unknown_rule (rule : Text) (h : ∀ r ∈ knownRules, strip (lower rule) ≠ r.toList) (p : Points K) :
    applyRule rule p = .error .typeError := by
  unfold applyRule
  have hk : ∀ {α : Type} (x : List α), ruleKeep (strip (lower rule)) x = none := by
    intro α x
    cases hx : ruleKeep (strip (lower rule)) x with
    | none => rfl
    | some l =>
      obtain ⟨r, hr, e⟩ := List.mem_map.1 (known_of_keep _ x _ hx)
      exact absurd e.symm (h r hr)
  rw [hk, hk, hk, hk, hk]

example : ∀ r ∈ knownRules, strip (lower "no rule".toList) ≠ r.toList := by decide +kernel

/-! ## C57: exceptions -/

/-- **C57.** Removing an inner point gives half its length to each neighbour and leaves all other points as they are. -/
theorem C57_inner_point (p : Points K) (ha : SameLength p) (l m : List K) (a d b : K)
    (hc : p.cdis = l ++ [a, d, b] ++ m) :
    popPoint (l.length + 1) p = .ok ⟨p.x.eraseIdx (l.length + 1), p.y.eraseIdx (l.length + 1),
      p.cid.eraseIdx (l.length + 1), l ++ [a + d / 2, b + d / 2] ++ m, p.bid.eraseIdx (l.length + 1),
      p.coff.eraseIdx (l.length + 1)⟩ := by
  obtain ⟨a1, a2, a3, a4, a5⟩ := ha
  have hlen : p.x.length = l.length + 3 + m.length := by rw [← a3, hc]; simp; omega
  unfold popPoint
  rw [if_neg (by omega), if_neg (by omega)]
  have e1 : p.cdis[l.length + 1]? = some d := by rw [hc]; simp
  have e2 : addAt (l.length + 1 - 1) (d / 2) p.cdis = .ok (l ++ [a + d / 2, d, b] ++ m) := by
    unfold addAt; rw [hc]; simp
  have e3 : (l ++ [a + d / 2, d, b] ++ m)[l.length + 1]? = some d := by simp
  have e4 : addAt (l.length + 1 + 1) (d / 2) (l ++ [a + d / 2, d, b] ++ m) =
      .ok (l ++ [a + d / 2, d, b + d / 2] ++ m) := by
    have g : (l ++ [a + d / 2, d, b] ++ m)[l.length + 1 + 1]? = some b := by
      rw [List.append_assoc, List.getElem?_append_right (by omega), show l.length + 1 + 1 - l.length = 2 by omega]; rfl
    unfold addAt
    rw [g]
    simp only
    congr 1
    rw [List.append_assoc, List.set_append_right _ _ (by omega), show l.length + 1 + 1 - l.length = 2 by omega]
    simp
  have e5 : popAt (l.length + 1) (l ++ [a + d / 2, d, b + d / 2] ++ m) =
      .ok (l ++ [a + d / 2, b + d / 2] ++ m) := by
    unfold popAt
    rw [if_pos (by simp)]
    congr 1
    rw [List.append_assoc, List.eraseIdx_append_of_length_le (by omega)]
    simp
  have pop : ∀ {α : Type} (v : List α), v.length = p.x.length →
      popAt (l.length + 1) v = .ok (v.eraseIdx (l.length + 1)) := fun v hv => by
    unfold popAt; rw [if_pos (by omega)]
  unfold popInner
  rw [e1]; simp only
  rw [e2]; simp only
  rw [e3]; simp only
  rw [e4]; simp only
  rw [e5, pop _ rfl, pop _ a1, pop _ a2, pop _ a4, pop _ a5]

/-- **C57.** Removing an end point gives all its length to its neighbour. -/
theorem C57_end_points (p : Points K) (ha : SameLength p) (a b : K) (l : List K) :
    (p.cdis = a :: b :: l → popPoint 0 p =
        .ok ⟨p.x.tail, p.y.tail, p.cid.tail, (a + b) :: l, p.bid.tail, p.coff.tail⟩) ∧
      (p.cdis = l ++ [a, b] → popPoint (l.length + 1) p =
        .ok ⟨p.x.dropLast, p.y.dropLast, p.cid.dropLast, l ++ [a + b], p.bid.dropLast, p.coff.dropLast⟩) := by
  constructor
  · intro hc
    unfold popPoint
    rw [if_pos rfl, apply_ignorefirst, hc]
    simp
  · intro hc
    have hlen : p.x.length = l.length + 2 := by rw [← ha.2.2.1, hc]; simp
    unfold popPoint
    rw [if_neg (by omega), if_pos (by omega), apply_ignorelast, hc, lastTwo_append]
    simp

private theorem pairwise_gt_of_sorted (is : List Nat) (hn : is.Nodup) :
    (is.insertionSort fun a b => b ≤ a).Pairwise (· > ·) := by
  have h1 : (is.insertionSort fun a b => b ≤ a).Pairwise (fun a b => b ≤ a) :=
    List.pairwise_insertionSort (fun a b : Nat => b ≤ a) is
  have h2 : (is.insertionSort fun a b => b ≤ a).Nodup :=
    (List.perm_insertionSort (fun a b : Nat => b ≤ a) is).nodup_iff.2 hn
  exact List.Pairwise.imp₂ (fun a b hab hne => by
    have : a ≠ b := hne
    omega) h1 h2

private theorem entriesWhere_mask {α : Type} (keep : Text → Bool) (cid : List Text) (col : List α) :
    entriesWhere keep cid col = maskSelect (cid.map keep) col := by
  unfold entriesWhere maskSelect
  rw [List.zip_map_left, List.filter_map, List.map_map]
  rfl

/-- **C57.** With distinct ids and distinct known exceptions that leave at least one point, exactly the excepted points
disappear, all others stay in order, and the sum of the lengths is unchanged. (In full, the claim asks this of every
list of exceptions.) -/
theorem C57_remaining_partial (p : Points K) (ha : SameLength p) (es : List Text) (hc : p.cid.Nodup) (he : es.Nodup)
    (hk : ∀ e ∈ es, e ∈ p.cid) (hn : es.length < p.x.length) :
    ∃ p', applyExceptions es p = .ok p' ∧ SameLength p' ∧ p'.cdis.sum = p.cdis.sum ∧
      p'.x = entriesWhere (fun c => c ∉ es) p.cid p.x ∧ p'.y = entriesWhere (fun c => c ∉ es) p.cid p.y ∧
      p'.cid = p.cid.filter (fun c => c ∉ es) ∧ p'.bid = entriesWhere (fun c => c ∉ es) p.cid p.bid ∧
      p'.coff = entriesWhere (fun c => c ∉ es) p.cid p.coff := by
  obtain ⟨is, h1, h2, h3, h4⟩ := popIndices_ok p.cid es hc he hk
  have hp : p.good p.cdis.sum := by
    obtain ⟨g1, g2⟩ := (aligned_iff p).1 ((sameLength_iff p).1 ha)
    exact ⟨g1, g2, rfl⟩
  obtain ⟨a1, a2, a3, a4, a5⟩ := ha
  have hmem : ∀ (i : Nat), i ∈ (is.insertionSort fun a b => b ≤ a) ↔ ∃ e ∈ es, p.cid[i]? = some e := fun i => by
    rw [List.mem_insertionSort]; exact h4 i
  obtain ⟨p', e1, g, ex, ey, ec, eb, eo⟩ := popPoints_spec (is.insertionSort fun a b => b ≤ a) p.cdis.sum p hp
    (pairwise_gt_of_sorted is h2)
    (fun i hi => by
      obtain ⟨e, _, hg⟩ := (hmem i).1 hi
      have := (List.getElem?_eq_some_iff.1 hg).1
      omega)
    (by rw [List.length_insertionSort, h3]; exact hn)
  have hmask : ∀ (i : Nat), (p.cid.map fun c => decide (c ∉ es))[i]? = some false ↔
      i ∈ (is.insertionSort fun a b => b ≤ a) := by
    intro i
    rw [hmem, List.getElem?_map, Option.map_eq_some_iff]
    constructor
    · rintro ⟨c, h, hd⟩
      exact ⟨c, by simpa using hd, h⟩
    · rintro ⟨c, h, hd⟩
      exact ⟨c, hd, by simpa using h⟩
  have col : ∀ {α : Type} (l : List α), l.length = p.x.length →
      (is.insertionSort fun a b => b ≤ a).foldl (fun l i => l.eraseIdx i) l =
        entriesWhere (fun c => c ∉ es) p.cid l := fun l hl => by
    rw [entriesWhere_mask]
    exact foldl_eraseIdx _ (pairwise_gt_of_sorted is h2) _ l (by rw [List.length_map]; omega) hmask
  refine ⟨p', ?_, ⟨g.1.2.1, g.1.2.2.1, g.2.1, g.1.2.2.2.1, g.1.2.2.2.2⟩, g.2.2, ?_, ?_, ?_, ?_, ?_⟩
  · unfold applyExceptions
    rw [h1]; exact e1
  · rw [ex, col _ rfl]
  · rw [ey, col _ a1]
  · rw [ec, col _ a2]
    unfold entriesWhere
    generalize p.cid = cid
    induction cid with
    | nil => rfl
    | cons c cs ih =>
      rw [List.zip_cons_cons, List.filter_cons, List.filter_cons]
      split <;> simp_all
  · rw [eb, col _ a4]
  · rw [eo, col _ a5]

example : SameLength fivePoints ∧ fivePoints.cid.Nodup ∧ ["d".toList, "a".toList].Nodup ∧
    (∀ e ∈ ["d".toList, "a".toList], e ∈ fivePoints.cid) ∧ ["d".toList, "a".toList].length < fivePoints.x.length ∧
    applyExceptions ["d".toList, "a".toList] fivePoints =
      .ok ⟨[100, 200, 399], [0, 0, 0], ["b".toList, "c".toList, "e".toList], [150, 150, 100],
        ["r".toList, "r".toList, "r".toList], [100, 200, 400]⟩ := by
  decide +kernel

/-- **C57.** An id that is not on the branch stops the generator, although the message logged for it suggests that it
is passed over. -/
theorem C57_unknown_violated (p : Points K) (es : List Text) (e : Text) (he : e ∈ es) (hc : e ∉ p.cid) :
    applyExceptions es p = .error .valueError := by
  have : popIndices p.cid es = .error .valueError := by
    induction es with
    | nil => cases he
    | cons f es ih =>
      rw [popIndices]
      cases hf : p.cid.findIdx? (· = f) with
      | none => rfl
      | some i =>
        rcases List.mem_cons.1 he with rfl | he
        · rw [List.findIdx?_eq_some_iff_getElem] at hf
          obtain ⟨hlt, heq, _⟩ := hf
          exact absurd (by rw [← of_decide_eq_true heq]; exact List.getElem_mem hlt) hc
        · simp only [ih he]
  unfold applyExceptions
  rw [this]

example : "z".toList ∈ ["a".toList, "z".toList] ∧ "z".toList ∉ fivePoints.cid := by decide +kernel

/-- **C57.** An id listed twice removes two points: the second one is a point that was not excepted. -/
theorem C57_duplicate_violated :
    applyExceptions ["b".toList, "b".toList] fivePoints =
      .ok ⟨[1, 300, 399], [0, 0, 0], ["a".toList, "d".toList, "e".toList], [175, 175, 50],
        ["r".toList, "r".toList, "r".toList], [0, 300, 400]⟩ := by
  decide +kernel

end Fm2prof.Props
