import Verif.Proofs.Export

/-! Helper lemmas about the exported roughness files. -/

set_option linter.unusedSectionVars false

namespace Fm2prof

open Spec

variable {K : Type} [Field K] [LinearOrder K] [IsStrictOrderedRing K] [FloorRing K]

/-! ## Lines up to the spaces around them -/

/-- A text has these lines, up to spaces around them and one blank line at the end. -/
def HasLines (t : Text) (ls : List Text) : Prop :=
  (fileLines t).map strip = ls.map strip ∨ (fileLines t).map strip = ls.map strip ++ [[]]

theorem hasLines_nil : HasLines [] [] := .inl rfl

theorem hasLines_unlines (a : List Text) (t : Text) (ls : List Text) (ha : ∀ l ∈ a, '\n' ∉ l) (h : HasLines t ls) :
    HasLines (unlines a ++ t) (a.map (· ++ ['\n']) ++ ls) := by
  unfold HasLines
  rw [fileLines_unlines a ha, List.map_append, List.map_append, List.append_assoc]
  rcases h with h | h
  · exact .inl (by rw [h])
  · exact .inr (by rw [h])

theorem fileLines_pad (p t : Text) (hp : ∀ c ∈ p, isSpace c = true) (hb : '\n' ∉ p) (ht : t ≠ []) :
    (fileLines (p ++ t)).map strip = (fileLines t).map strip := by
  induction p with
  | nil => rfl
  | cons c p ih =>
    have ih := ih (fun d hd => hp d (by simp [hd])) fun h => hb (by simp [h])
    rw [← ih]
    have hc : c ≠ '\n' := fun e => hb (by simp [e])
    rw [List.cons_append, fileLines, if_neg hc]
    cases hf : fileLines (p ++ t) with
    | nil =>
      exfalso
      have := flatten_fileLines (p ++ t)
      rw [hf] at this
      simp at this
      exact ht this.2
    | cons l ls =>
      simp only [List.map_cons]
      congr 1
      have := strip_pad [c] l [] (fun d hd => by rw [List.mem_singleton.1 hd]; exact hp c (by simp)) (by simp)
      simpa using this

theorem hasLines_pad (p t : Text) (ls : List Text) (hp : ∀ c ∈ p, isSpace c = true) (hb : '\n' ∉ p) (h : HasLines t ls) :
    HasLines (p ++ t) ls := by
  by_cases ht : t = []
  · subst ht
    have hl : ls = [] := by
      rcases h with h | h
      · simpa [fileLines] using h.symm
      · simp [fileLines] at h
    subst hl
    by_cases hp' : p = []
    · subst hp'; exact .inl rfl
    · right
      rw [List.append_nil, fileLines_last p hp' hb]
      have := strip_pad p [] [] hp (by simp)
      simp only [List.append_nil] at this
      simp only [List.map_cons, List.map_nil, List.nil_append, this]
      rfl
  · unfold HasLines
    rw [fileLines_pad p t hp hb ht]
    exact h

/-! ## Sections and readers see lines up to spaces -/

theorem sectionsOfLines_strip (ls : List Text) : sectionsOfLines (ls.map strip) = sectionsOfLines ls := by
  induction ls with
  | nil => rfl
  | cons l ls ih => rw [List.map_cons, sectionsOfLines, sectionsOfLines, strip_strip, ih]

theorem sectionsOfLines_blank (ls : List Text) : sectionsOfLines (ls ++ [[]]) = sectionsOfLines ls := by
  induction ls with
  | nil => decide
  | cons l ls ih => rw [List.cons_append, sectionsOfLines, sectionsOfLines, ih]

theorem sections_hasLines (t : Text) (ls : List Text) (h : HasLines t ls) :
    sectionsOfLines (fileLines t) = sectionsOfLines ls := by
  rw [← sectionsOfLines_strip]
  rcases h with h | h
  · rw [h, sectionsOfLines_strip]
  · rw [h, sectionsOfLines_blank, sectionsOfLines_strip]

theorem lineAt_strip (ls : List Text) (i : Nat) : lineAt (ls.map strip) i = strip (lineAt ls i) := by
  unfold lineAt
  rw [List.getElem?_map]
  cases ls[i]? <;> rfl

theorem lineAt_blank (ls : List Text) (i : Nat) : lineAt (ls ++ [[]]) i = lineAt ls i := by
  unfold lineAt
  by_cases h : i < ls.length
  · rw [List.getElem?_append_left h]
  · rw [List.getElem?_append_right (by omega), List.getElem?_eq_none (l := ls) (by omega)]
    cases h' : i - ls.length with
    | zero => rfl
    | succ n => rfl

theorem valueFromLine_strip (l : Text) : valueFromLine (strip l) = valueFromLine l := by
  unfold valueFromLine; rw [strip_strip]

theorem numbersFromLine_strip (ft : FloatText K) (l : Text) : numbersFromLine ft (strip l) = numbersFromLine ft l := by
  unfold numbersFromLine; rw [valueFromLine_strip]

theorem readBranchLevels_strip (ft : FloatText K) (b : Text) (ls : List Text) (r : RoughnessInfo K) :
    readBranchLevels ft b (ls.map strip) r = readBranchLevels ft b ls r := by
  unfold readBranchLevels
  rw [lineAt_strip, lineAt_strip, valueFromLine_strip, numbersFromLine_strip]

theorem readValues_strip (ft : FloatText K) (b : Text) (c : K) (ls : List Text) (r : RoughnessInfo K) :
    readValues ft b c (ls.map strip) r = readValues ft b c ls r := by
  unfold readValues
  rw [lineAt_strip, lineAt_strip, lineAt_strip, valueFromLine_strip, valueFromLine_strip, numbersFromLine_strip]

theorem roughnessLines_strip (ft : FloatText K) (b : Text) (c : K) (k : Nat) (ls : List Text) (r : RoughnessInfo K) :
    roughnessLines ft b c k (ls.map strip) r = roughnessLines ft b c k ls r := by
  induction ls generalizing k r with
  | nil => cases k <;> rfl
  | cons l ls ih =>
    cases k with
    | zero =>
      rw [List.map_cons, roughnessLines, roughnessLines, strip_strip, readBranchLevels_strip, readValues_strip, ih]
      cases readBranchLevels ft b ls r <;> cases readValues ft b c ls r <;> simp only [ih]
    | succ k => rw [List.map_cons, roughnessLines, roughnessLines, ih]

theorem readBranchLevels_blank (ft : FloatText K) (b : Text) (ls : List Text) (r : RoughnessInfo K) :
    readBranchLevels ft b (ls ++ [[]]) r = readBranchLevels ft b ls r := by
  unfold readBranchLevels
  rw [lineAt_blank, lineAt_blank]

theorem readValues_blank (ft : FloatText K) (b : Text) (c : K) (ls : List Text) (r : RoughnessInfo K) :
    readValues ft b c (ls ++ [[]]) r = readValues ft b c ls r := by
  unfold readValues
  rw [lineAt_blank, lineAt_blank, lineAt_blank]

theorem roughnessLines_blank (ft : FloatText K) (b : Text) (c : K) (k : Nat) (ls : List Text) (r : RoughnessInfo K) :
    roughnessLines ft b c k (ls ++ [[]]) r = roughnessLines ft b c k ls r := by
  induction ls generalizing k r with
  | nil =>
    cases k with
    | zero =>
      have e : roughnessLines ft b c 0 [[]] r = roughnessLines ft b c 0 [] r := by
        conv_lhs => rw [roughnessLines]
        rw [if_neg (by decide), if_neg (by decide)]
      exact e
    | succ k => cases k <;> rfl
  | cons l ls ih =>
    cases k with
    | zero =>
      rw [List.cons_append, roughnessLines, roughnessLines, readBranchLevels_blank, readValues_blank, ih]
      cases readBranchLevels ft b ls r <;> cases readValues ft b c ls r <;> simp only [ih]
    | succ k => rw [List.cons_append, roughnessLines, roughnessLines, ih]

theorem roughnessLines_hasLines (ft : FloatText K) (b : Text) (c : K) (t : Text) (ls : List Text) (h : HasLines t ls)
    (r : RoughnessInfo K) : roughnessLines ft b c 0 (fileLines t) r = roughnessLines ft b c 0 ls r := by
  rw [← roughnessLines_strip]
  rcases h with h | h
  · rw [h, roughnessLines_strip]
  · rw [h, roughnessLines_blank, roughnessLines_strip]

/-! ## The lines of the file -/

/-- The branches that get a block, with their table. -/
def branchEntries (s : Text) : List Text → List (ExportCss K) → List (Text × FrictionTable K)
  | _, [] => []
  | done, c :: cs =>
    match tableOf c s with
    | none => branchEntries s done cs
    | some t =>
      if c.branch ∈ done then branchEntries s done cs else (c.branch, t) :: branchEntries s (done ++ [c.branch]) cs

/-- The cross-sections that get a block, with their table. -/
def frictionEntries (s : Text) (cs : List (ExportCss K)) : List (ExportCss K × FrictionTable K) :=
  cs.filterMap fun c => (tableOf c s).map fun t => (c, t)

/-- The lines of a branch block. -/
def branchLines (p : Text × FrictionTable K) : List Text :=
  ["[BranchProperties]".toList, "        branchId              = ".toList ++ p.1,
    "        roughnessType         = 1".toList, "        functionType          = 2".toList,
    "        numLevels             = ".toList ++ natText p.2.level.length,
    "        levels                = ".toList ++ fixed4 p.2.level]

/-- The lines of a cross-section block. -/
def frictionLines (ft : FloatText K) (sig : K → Text) (p : ExportCss K × FrictionTable K) : List Text :=
  ["[Definition]".toList, "        branchId              = ".toList ++ p.1.branch,
    "        chainage              = ".toList ++ ft.repr p.1.chainage,
    "        values                = ".toList ++ joinWith [' '] (p.2.friction.map sig), []]

/-- The lines of the general part. -/
def generalLines (s : Text) : List Text :=
  ["[General]".toList, "        majorVersion          = 1".toList, "        minorVersion          = 0".toList,
    "        fileType              = roughness".toList, [], "    [Content]".toList,
    "        sectionId             = ".toList ++ s, "        flowDirection         = False".toList,
    "        interpolate           = 1".toList, "        globalType            = 1".toList,
    "        globalValue           = 45".toList, []]

theorem branchSec_eq (s : Text) (done : List Text) (cs : List (ExportCss K)) :
    branchSec s done cs = unlines ((branchEntries s done cs).map branchLines).flatten := by
  induction cs generalizing done with
  | nil => rfl
  | cons c cs ih =>
    rw [branchSec, branchEntries]
    cases tableOf c s with
    | none => exact ih done
    | some t =>
      simp only
      by_cases h : c.branch ∈ done
      · rw [if_pos h, if_pos h, ih]
      · rw [if_neg h, if_neg h, List.map_cons, List.flatten_cons, unlines_append, ih]; rfl

theorem definitionSec_eq (ft : FloatText K) (sig : K → Text) (s : Text) (cs : List (ExportCss K)) :
    definitionSec ft sig s cs =
      ((frictionEntries s cs).map fun p => unlines (frictionLines ft sig p) ++ "    ".toList).flatten := by
  induction cs with
  | nil => rfl
  | cons c cs ih =>
    rw [definitionSec, frictionEntries, List.filterMap_cons]
    cases tableOf c s with
    | none => exact ih
    | some t => simp only [Option.map_some, List.map_cons, List.flatten_cons]; rw [ih]; rfl

theorem natText_noBreak (n : Nat) : '\n' ∉ natText n := fun h => by
  obtain ⟨k, hk, e⟩ := natText_chars n _ h
  have := (digitChar_props k hk).2.2
  rw [← e] at this
  simp only [show '\n'.toNat = 10 from rfl] at this
  omega

theorem frictionText_no (ft : FloatText K) (sig : SigText ft) (l : List K) (c : Char) (hc : c ∉ numberChars) (hs : c ≠ ' ') :
    c ∉ joinWith [' '] (l.map sig.text) := by
  intro h
  rcases joinWith_chars _ _ _ h with h | ⟨w, hw, h⟩
  · exact hs (by simpa using h)
  · obtain ⟨x, _, rfl⟩ := List.mem_map.1 hw
    exact hc (sig.chars x c h)

theorem mem_branchEntries (s : Text) (done : List Text) (cs : List (ExportCss K)) (p : Text × FrictionTable K)
    (h : p ∈ branchEntries s done cs) : ∃ c ∈ cs, c.branch = p.1 ∧ tableOf c s = some p.2 := by
  induction cs generalizing done with
  | nil => simp [branchEntries] at h
  | cons c cs ih =>
    rw [branchEntries] at h
    cases ht : tableOf c s with
    | none =>
      rw [ht] at h
      obtain ⟨d, hd, e⟩ := ih done h
      exact ⟨d, by simp [hd], e⟩
    | some t =>
      rw [ht] at h
      simp only at h
      by_cases hc : c.branch ∈ done
      · rw [if_pos hc] at h
        obtain ⟨d, hd, e⟩ := ih done h
        exact ⟨d, by simp [hd], e⟩
      · rw [if_neg hc] at h
        rcases List.mem_cons.1 h with rfl | h
        · exact ⟨c, by simp, rfl, ht⟩
        · obtain ⟨d, hd, e⟩ := ih _ h
          exact ⟨d, by simp [hd], e⟩

theorem mem_frictionEntries (s : Text) (cs : List (ExportCss K)) (p : ExportCss K × FrictionTable K) :
    p ∈ frictionEntries s cs ↔ p.1 ∈ cs ∧ tableOf p.1 s = some p.2 := by
  unfold frictionEntries
  rw [List.mem_filterMap]
  constructor
  · rintro ⟨c, hc, e⟩
    obtain ⟨t, ht, rfl⟩ := Option.map_eq_some_iff.1 e
    exact ⟨hc, ht⟩
  · rintro ⟨hc, ht⟩
    exact ⟨p.1, hc, by rw [ht]; rfl⟩

/-- All lines of the file. -/
def roughnessFileLines (ft : FloatText K) (sig : K → Text) (cs : List (ExportCss K)) (s : Text) : List Text :=
  (generalLines s).map (· ++ ['\n']) ++ (((branchEntries (lower s) [] cs).map branchLines).flatten.map (· ++ ['\n']) ++
    ((frictionEntries (lower s) cs).map fun p => (frictionLines ft sig p).map (· ++ ['\n'])).flatten)

theorem exportRoughness_lines (ft : FloatText K) (sig : SigText ft) (cs : List (ExportCss K)) (s : Text)
    (hb : ∀ c ∈ cs, '\n' ∉ c.branch) (hs : '\n' ∉ s) :
    HasLines (exportRoughness ft sig.text cs s) (roughnessFileLines ft sig.text cs s) := by
  have hpad : ∀ c ∈ "    ".toList, isSpace c = true := by decide
  have hpadn : '\n' ∉ "    ".toList := by decide
  have hdef : ∀ es : List (ExportCss K × FrictionTable K), (∀ p ∈ es, '\n' ∉ p.1.branch) →
      HasLines ((es.map fun p => unlines (frictionLines ft sig.text p) ++ "    ".toList).flatten)
        ((es.map fun p => (frictionLines ft sig.text p).map (· ++ ['\n'])).flatten) := by
    intro es hes
    induction es with
    | nil => exact hasLines_nil
    | cons p es ih =>
      rw [List.map_cons, List.map_cons, List.flatten_cons, List.flatten_cons, List.append_assoc]
      apply hasLines_unlines
      · intro l hl
        simp only [frictionLines, List.mem_cons, List.not_mem_nil, or_false] at hl
        rcases hl with rfl | rfl | rfl | rfl | rfl
        · decide
        · rw [List.mem_append, not_or]; exact ⟨by decide, hes p (by simp)⟩
        · rw [List.mem_append, not_or]; exact ⟨by decide, fun h => absurd (ft.repr_chars _ _ h) (by decide)⟩
        · rw [List.mem_append, not_or]; exact ⟨by decide, frictionText_no ft sig _ _ (by decide) (by decide)⟩
        · decide
      · apply hasLines_pad _ _ _ hpad hpadn
        exact ih fun p hp => hes p (by simp [hp])
  unfold exportRoughness roughnessGeneral roughnessFileLines
  rw [branchSec_eq, definitionSec_eq, List.append_assoc, List.append_assoc]
  apply hasLines_unlines
  · intro l hl
    simp only [List.mem_cons, List.not_mem_nil, or_false] at hl
    rcases hl with rfl | rfl | rfl | rfl | rfl | rfl | rfl | rfl | rfl | rfl | rfl | rfl
    all_goals first
      | decide
      | (rw [List.mem_append, not_or]; exact ⟨by decide, hs⟩)
  · apply hasLines_pad _ _ _ hpad hpadn
    apply hasLines_unlines
    · intro l hl
      obtain ⟨b, hb', hl⟩ := List.mem_flatten.1 hl
      obtain ⟨p, hp, rfl⟩ := List.mem_map.1 hb'
      obtain ⟨c, hc, e, _⟩ := mem_branchEntries _ _ _ _ hp
      simp only [branchLines, List.mem_cons, List.not_mem_nil, or_false] at hl
      rcases hl with rfl | rfl | rfl | rfl | rfl | rfl
      · decide
      · rw [List.mem_append, not_or]; exact ⟨by decide, by rw [← e]; exact hb c hc⟩
      · decide
      · decide
      · rw [List.mem_append, not_or]; exact ⟨by decide, natText_noBreak _⟩
      · rw [List.mem_append, not_or]; exact ⟨by decide, fixed4_no _ _ (by decide) (by decide)⟩
    · apply hdef
      intro p hp
      exact hb p.1 ((mem_frictionEntries _ _ _).1 hp).1

/-! ## Sections of the file -/

/-- The entries of a branch block. -/
def branchEntry (p : Text × FrictionTable K) : List (Text × Text) :=
  [("branchId".toList, strip p.1), ("roughnessType".toList, "1".toList), ("functionType".toList, "2".toList),
    ("numLevels".toList, natText p.2.level.length), ("levels".toList, fixed4 p.2.level)]

/-- The entries of a cross-section block. -/
def frictionEntry (ft : FloatText K) (sig : K → Text) (p : ExportCss K × FrictionTable K) : List (Text × Text) :=
  [("branchId".toList, strip p.1.branch), ("chainage".toList, ft.repr p.1.chainage),
    ("values".toList, joinWith [' '] (p.2.friction.map sig))]

theorem strip_sig (ft : FloatText K) (sig : SigText ft) (l : List K) :
    strip (joinWith [' '] (l.map sig.text)) = joinWith [' '] (l.map sig.text) := by
  apply strip_joined
  · intro w hw; obtain ⟨x, _, rfl⟩ := List.mem_map.1 hw; exact sig.ne_nil x
  · intro w hw; obtain ⟨x, _, rfl⟩ := List.mem_map.1 hw
    exact fun c hc => (numberChars_noSpace c (sig.chars x c hc)).1

theorem sections_branch (p : Text × FrictionTable K) (rest : List Text) :
    sectionsOfLines ((branchLines p).map (· ++ ['\n']) ++ rest) =
      ([], ⟨"[BranchProperties]".toList, branchEntry p ++ (sectionsOfLines rest).1⟩ :: (sectionsOfLines rest).2) := by
  unfold branchLines
  simp only [List.map_cons, List.map_nil, List.cons_append, List.nil_append]
  refine sections_header' _ _ (by decide) ?_
  refine sections_key' _ _ _ _ _ (by decide) (by decide) (by decide) rfl ?_
  refine sections_entry' _ "roughnessType         ".toList " 1".toList _ (by decide) (by decide) ?_
  refine sections_entry' _ "functionType          ".toList " 2".toList _ (by decide) (by decide) ?_
  refine sections_key' _ _ _ _ _ (by decide) (by decide) (by decide) (strip_natText _) ?_
  exact sections_key' _ _ _ _ _ (by decide) (by decide) (by decide) (strip_fixed4 _) rfl

theorem sections_friction (ft : FloatText K) (sig : SigText ft) (p : ExportCss K × FrictionTable K) (rest : List Text) :
    sectionsOfLines ((frictionLines ft sig.text p).map (· ++ ['\n']) ++ rest) =
      ([], ⟨"[Definition]".toList, frictionEntry ft sig.text p ++ (sectionsOfLines rest).1⟩ :: (sectionsOfLines rest).2) := by
  unfold frictionLines
  simp only [List.map_cons, List.map_nil, List.cons_append, List.nil_append]
  refine sections_header' _ _ (by decide) ?_
  refine sections_key' _ _ _ _ _ (by decide) (by decide) (by decide) rfl ?_
  refine sections_key' _ _ _ _ _ (by decide) (by decide) (by decide) (strip_number _ (ft.repr_chars _)) ?_
  refine sections_key' _ _ _ _ _ (by decide) (by decide) (by decide) (strip_sig ft sig _) ?_
  exact sections_blank' _ _ (by decide) (by decide) rfl

theorem sections_list {α : Type} (block : α → List Text) (header : Text) (entries : α → List (Text × Text))
    (hb : ∀ c rest, sectionsOfLines (block c ++ rest) =
      ([], ⟨header, entries c ++ (sectionsOfLines rest).1⟩ :: (sectionsOfLines rest).2)) (cs : List α) (rest : List Text)
    (hr : (sectionsOfLines rest).1 = []) :
    sectionsOfLines ((cs.map block).flatten ++ rest) =
      ([], (cs.map fun c => ⟨header, entries c⟩) ++ (sectionsOfLines rest).2) := by
  induction cs with
  | nil => rw [← hr]; rfl
  | cons c cs ih => rw [List.map_cons, List.flatten_cons, List.append_assoc, hb, ih]; simp

theorem sections_roughness (ft : FloatText K) (sig : SigText ft) (cs : List (ExportCss K)) (s : Text)
    (hb : ∀ c ∈ cs, '\n' ∉ c.branch) (hs : '\n' ∉ s) :
    sections "[BranchProperties]" (exportRoughness ft sig.text cs s) =
        ((branchEntries (lower s) [] cs).map fun p => ⟨"[BranchProperties]".toList, branchEntry p⟩) ∧
      sections "[Definition]" (exportRoughness ft sig.text cs s) =
        (frictionEntries (lower s) cs).map fun p => ⟨"[Definition]".toList, frictionEntry ft sig.text p⟩ := by
  have h1 := sections_list (fun p => (frictionLines ft sig.text p).map (· ++ ['\n'])) "[Definition]".toList
    (frictionEntry ft sig.text) (sections_friction ft sig) (frictionEntries (lower s) cs) [] rfl
  rw [List.append_nil] at h1
  have h2 := sections_list (fun p => (branchLines p).map (· ++ ['\n'])) "[BranchProperties]".toList
    branchEntry sections_branch (branchEntries (lower s) [] cs)
    ((frictionEntries (lower s) cs).map fun p => (frictionLines ft sig.text p).map (· ++ ['\n'])).flatten (by rw [h1])
  have h3 : sectionsOfLines (fileLines (exportRoughness ft sig.text cs s)) =
      ([], ⟨"[General]".toList, [("majorVersion".toList, "1".toList), ("minorVersion".toList, "0".toList),
        ("fileType".toList, "roughness".toList)]⟩ ::
        ⟨"[Content]".toList, [("sectionId".toList, strip s), ("flowDirection".toList, "False".toList),
          ("interpolate".toList, "1".toList), ("globalType".toList, "1".toList), ("globalValue".toList, "45".toList)]⟩ ::
        ((branchEntries (lower s) [] cs).map fun p => ⟨"[BranchProperties]".toList, branchEntry p⟩) ++
        (frictionEntries (lower s) cs).map fun p => ⟨"[Definition]".toList, frictionEntry ft sig.text p⟩) := by
    rw [sections_hasLines _ _ (exportRoughness_lines ft sig cs s hb hs)]
    unfold roughnessFileLines generalLines
    rw [List.map_flatten, List.map_map]
    simp only [List.map_cons, List.map_nil, List.cons_append, List.nil_append]
    refine sections_header' _ _ (by decide) ?_
    refine sections_entry' _ "majorVersion          ".toList " 1".toList _ (by decide) (by decide) ?_
    refine sections_entry' _ "minorVersion          ".toList " 0".toList _ (by decide) (by decide) ?_
    refine sections_entry' _ "fileType              ".toList " roughness".toList _ (by decide) (by decide) ?_
    refine sections_blank' _ _ (by decide) (by decide) ?_
    refine sections_header' _ _ (by decide) ?_
    refine sections_key' _ _ _ _ _ (by decide) (by decide) (by decide) rfl ?_
    refine sections_entry' _ "flowDirection         ".toList " False".toList _ (by decide) (by decide) ?_
    refine sections_entry' _ "interpolate           ".toList " 1".toList _ (by decide) (by decide) ?_
    refine sections_entry' _ "globalType            ".toList " 1".toList _ (by decide) (by decide) ?_
    refine sections_entry' _ "globalValue           ".toList " 45".toList _ (by decide) (by decide) ?_
    refine sections_blank' _ _ (by decide) (by decide) ?_
    rw [h1] at h2
    rw [show (sectionsOfLines ([] : List Text)).2 = [] from rfl, List.append_nil] at h2
    exact h2
  unfold sections
  rw [h3]
  rw [List.cons_append, List.cons_append]
  constructor
  · rw [List.filter_cons_of_neg (by decide), List.filter_cons_of_neg (by simp), List.filter_append, List.filter_eq_self.2, List.filter_eq_nil_iff.2, List.append_nil]
    · intro x hx; obtain ⟨p, _, rfl⟩ := List.mem_map.1 hx; simp
    · intro x hx; obtain ⟨p, _, rfl⟩ := List.mem_map.1 hx; simp
  · rw [List.filter_cons_of_neg (by decide), List.filter_cons_of_neg (by simp), List.filter_append, List.filter_eq_nil_iff.2, List.nil_append, List.filter_eq_self.2]
    · intro x hx; obtain ⟨p, _, rfl⟩ := List.mem_map.1 hx; simp
    · intro x hx; obtain ⟨p, _, rfl⟩ := List.mem_map.1 hx; simp

theorem branchEntries_nodup (s : Text) (done : List Text) (cs : List (ExportCss K)) :
    ((branchEntries s done cs).map (·.1)).Nodup ∧ ∀ p ∈ branchEntries s done cs, p.1 ∉ done := by
  induction cs generalizing done with
  | nil => simp [branchEntries]
  | cons c cs ih =>
    rw [branchEntries]
    cases tableOf c s with
    | none => exact ih done
    | some t =>
      simp only
      by_cases hc : c.branch ∈ done
      · rw [if_pos hc]; exact ih done
      · rw [if_neg hc]
        obtain ⟨h1, h2⟩ := ih (done ++ [c.branch])
        refine ⟨?_, ?_⟩
        · rw [List.map_cons, List.nodup_cons]
          refine ⟨fun h => ?_, h1⟩
          obtain ⟨p, hp, e⟩ := List.mem_map.1 h
          exact h2 p hp (by rw [e]; simp)
        · intro p hp
          rcases List.mem_cons.1 hp with rfl | hp
          · exact hc
          · exact fun h => h2 p hp (by simp [h])

theorem branchEntries_mem (s : Text) (done : List Text) (cs : List (ExportCss K)) (b : Text) (hb : b ∉ done) :
    b ∈ (branchEntries s done cs).map (·.1) ↔ ∃ c ∈ cs, c.branch = b ∧ ∃ t, tableOf c s = some t := by
  constructor
  · intro h
    obtain ⟨p, hp, rfl⟩ := List.mem_map.1 h
    obtain ⟨c, hc, e, ht⟩ := mem_branchEntries _ _ _ _ hp
    exact ⟨c, hc, e, _, ht⟩
  · rintro ⟨c, hc, rfl, t, ht⟩
    induction cs generalizing done with
    | nil => simp at hc
    | cons d cs ih =>
      rw [branchEntries]
      cases hd : tableOf d s with
      | none =>
        rcases List.mem_cons.1 hc with rfl | hc
        · rw [ht] at hd; cases hd
        · exact ih done hc hb
      | some t' =>
        simp only
        by_cases hdd : d.branch ∈ done
        · rw [if_pos hdd]
          rcases List.mem_cons.1 hc with rfl | hc
          · exact absurd hdd hb
          · exact ih done hc hb
        · rw [if_neg hdd, List.map_cons, List.mem_cons]
          by_cases e : c.branch = d.branch
          · exact .inl e
          · rcases List.mem_cons.1 hc with rfl | hc
            · exact .inl rfl
            · exact .inr (ih _ hc (by simp [hb, e]))

/-! ## Reading the file -/

theorem eq_not_header' (l : Text) (h : '=' ∈ l) (t : Text) (ht : '=' ∉ t) : lower (strip l) ≠ t := by
  intro e
  apply ht
  rw [← e]
  exact List.mem_map.2 ⟨'=', mem_strip_of_mem h (by decide), by decide⟩

theorem rough_other (ft : FloatText K) (b : Text) (c : K) (l : Text) (ls : List Text) (r : RoughnessInfo K)
    (h1 : lower (strip l) ≠ "[branchproperties]".toList) (h2 : lower (strip l) ≠ "[definition]".toList) :
    roughnessLines ft b c 0 (l :: ls) r = roughnessLines ft b c 0 ls r := by
  rw [roughnessLines, if_neg h1, if_neg h2]

theorem rough_eq (ft : FloatText K) (b : Text) (c : K) (l : Text) (ls : List Text) (r : RoughnessInfo K) (h : '=' ∈ l) :
    roughnessLines ft b c 0 (l :: ls) r = roughnessLines ft b c 0 ls r :=
  rough_other ft b c l ls r (eq_not_header' l h _ (by decide)) (eq_not_header' l h _ (by decide))

theorem rough_skip (ft : FloatText K) (b : Text) (c : K) (k : Nat) (l : Text) (ls : List Text) (r : RoughnessInfo K) :
    roughnessLines ft b c (k + 1) (l :: ls) r = roughnessLines ft b c k ls r := by rw [roughnessLines]

theorem rough_branch (ft : FloatText K) (b : Text) (c : K) (p : Text × FrictionTable K) (hp : PlainName p.1)
    (rest : List Text) (r : RoughnessInfo K) :
    roughnessLines ft b c 0 ((branchLines p).map (· ++ ['\n']) ++ rest) r =
      roughnessLines ft b c 0 rest
        (if lower p.1 = b then { r with levels := some (p.2.level.map (as4 ft)) } else r) := by
  unfold branchLines
  simp only [List.map_cons, List.map_nil, List.cons_append, List.nil_append]
  rw [roughnessLines, if_pos (by decide)]
  unfold readBranchLevels lineAt
  simp only [List.getElem?_cons_succ, List.getElem?_cons_zero, Option.getD_some]
  rw [value_entry _ _ (by decide) hp.1, hp.2.2]
  simp only
  by_cases h : lower p.1 = b
  · rw [if_pos h, if_pos h, numbers_entry ft _ (by decide)]
    simp only [rough_skip]
  · rw [if_neg h, if_neg h]
    simp only [rough_skip]
    rw [rough_eq _ _ _ _ _ _ (by simp), rough_eq _ _ _ _ _ _ (by simp), rough_eq _ _ _ _ _ _ (by simp),
      rough_eq _ _ _ _ _ _ (by simp)]

theorem rough_friction (ft : FloatText K) (sig : SigText ft) (b : Text) (c : K) (p : ExportCss K × FrictionTable K)
    (hp : PlainName p.1.branch) (hc : ft.representable p.1.chainage) (rest : List Text) (r : RoughnessInfo K) :
    roughnessLines ft b c 0 ((frictionLines ft sig.text p).map (· ++ ['\n']) ++ rest) r =
      roughnessLines ft b c 0 rest
        (if lower p.1.branch = b ∧ p.1.chainage = c then
          { r with values := some (p.2.friction.map fun x => some (sig.value x)) } else r) := by
  unfold frictionLines
  simp only [List.map_cons, List.map_nil, List.cons_append, List.nil_append]
  rw [roughnessLines, if_neg (by decide), if_pos (by decide)]
  unfold readValues lineAt
  simp only [List.getElem?_cons_succ, List.getElem?_cons_zero, Option.getD_some]
  rw [value_entry _ _ (by decide) hp.1, hp.2.2,
    value_entry _ (ft.repr _) (by decide) fun h => absurd (ft.repr_chars _ _ h) (by decide),
    strip_number _ (ft.repr_chars _)]
  simp only
  rw [lower_number _ (ft.repr_chars _), ft.parse_repr _ hc]
  simp only
  have hblank : ∀ r, roughnessLines ft b c 0 (['\n'] :: rest) r = roughnessLines ft b c 0 rest r := fun r =>
    rough_other _ _ _ _ _ _ (by decide) (by decide)
  by_cases h : lower p.1.branch = b
  · rw [if_pos h]
    by_cases h' : p.1.chainage = c
    · rw [if_pos h', if_pos ⟨h, h'⟩]
      unfold numbersFromLine
      rw [value_entry _ _ (by decide) (frictionText_no ft sig _ _ (by decide) (by decide))]
      simp only
      rw [strip_sig, splitWs_joined, collect_map _ _ fun x => some (sig.value x)]
      · simp only [rough_skip]
        exact hblank _
      · intro x _
        exact parseNan_number ft _ _ (sig.chars x) (sig.parse x)
      · intro w hw; obtain ⟨x, _, rfl⟩ := List.mem_map.1 hw; exact sig.ne_nil x
      · intro w hw; obtain ⟨x, _, rfl⟩ := List.mem_map.1 hw
        exact fun c hc => (numberChars_noSpace c (sig.chars x c hc)).1
    · rw [if_neg h', if_neg fun e => h' e.2]
      simp only [rough_skip]
      rw [rough_eq _ _ _ _ _ _ (by simp), hblank]
  · rw [if_neg h, if_neg fun e => h e.1]
    simp only [rough_skip]
    rw [rough_eq _ _ _ _ _ _ (by simp), rough_eq _ _ _ _ _ _ (by simp), hblank]

/-- What the branch blocks leave as levels. -/
def levelsAfter (ft : FloatText K) (b : Text) (es : List (Text × FrictionTable K)) (r : RoughnessInfo K) : RoughnessInfo K :=
  es.foldl (fun r p => if lower p.1 = b then { r with levels := some (p.2.level.map (as4 ft)) } else r) r

/-- What the cross-section blocks leave as values. -/
def valuesAfter {ft : FloatText K} (sig : SigText ft) (b : Text) (c : K) (es : List (ExportCss K × FrictionTable K))
    (r : RoughnessInfo K) : RoughnessInfo K :=
  es.foldl (fun r p => if lower p.1.branch = b ∧ p.1.chainage = c then
    { r with values := some (p.2.friction.map fun x => some (sig.value x)) } else r) r

theorem rough_file (ft : FloatText K) (sig : SigText ft) (cs : List (ExportCss K)) (s : Text) (b : Text) (c : K)
    (hb : ∀ c ∈ cs, PlainName c.branch) (hc : ∀ c ∈ cs, ft.representable c.chainage) (hs : '\n' ∉ s) :
    roughnessLines ft b c 0 (fileLines (exportRoughness ft sig.text cs s)) ⟨none, none⟩ =
      .ok (valuesAfter sig b c (frictionEntries (lower s) cs)
        (levelsAfter ft b (branchEntries (lower s) [] cs) ⟨none, none⟩)) := by
  rw [roughnessLines_hasLines ft b c _ _ (exportRoughness_lines ft sig cs s (fun c hc => (hb c hc).2.1) hs)]
  unfold roughnessFileLines generalLines
  rw [List.map_flatten, List.map_map]
  simp only [List.map_cons, List.map_nil, List.cons_append, List.nil_append]
  rw [rough_other _ _ _ _ _ _ (by decide) (by decide), rough_other _ _ _ _ _ _ (by decide) (by decide),
    rough_other _ _ _ _ _ _ (by decide) (by decide), rough_other _ _ _ _ _ _ (by decide) (by decide),
    rough_other _ _ _ _ _ _ (by decide) (by decide), rough_other _ _ _ _ _ _ (by decide) (by decide),
    rough_eq _ _ _ _ _ _ (by simp), rough_other _ _ _ _ _ _ (by decide) (by decide),
    rough_other _ _ _ _ _ _ (by decide) (by decide), rough_other _ _ _ _ _ _ (by decide) (by decide),
    rough_other _ _ _ _ _ _ (by decide) (by decide), rough_other _ _ _ _ _ _ (by decide) (by decide)]
  have h1 : ∀ (es : List (Text × FrictionTable K)) (rest : List Text) (r : RoughnessInfo K), (∀ p ∈ es, PlainName p.1) →
      roughnessLines ft b c 0 ((es.map ((List.map fun l => l ++ ['\n']) ∘ branchLines)).flatten ++ rest) r =
        roughnessLines ft b c 0 rest (levelsAfter ft b es r) := by
    intro es rest r hes
    induction es generalizing r with
    | nil => rfl
    | cons p es ih =>
      rw [List.map_cons, List.flatten_cons, List.append_assoc, Function.comp_apply, rough_branch ft b c p (hes p (by simp)),
        ih _ fun p hp => hes p (by simp [hp])]
      rfl
  have h2 : ∀ (es : List (ExportCss K × FrictionTable K)) (r : RoughnessInfo K),
      (∀ p ∈ es, PlainName p.1.branch ∧ ft.representable p.1.chainage) →
      roughnessLines ft b c 0 ((es.map fun p => (frictionLines ft sig.text p).map (· ++ ['\n'])).flatten) r =
        .ok (valuesAfter sig b c es r) := by
    intro es r hes
    induction es generalizing r with
    | nil => rfl
    | cons p es ih =>
      rw [List.map_cons, List.flatten_cons, rough_friction ft sig b c p (hes p (by simp)).1 (hes p (by simp)).2,
        ih _ fun p hp => hes p (by simp [hp])]
      rfl
  rw [h1, h2]
  · intro p hp
    have := ((mem_frictionEntries _ _ _).1 hp).1
    exact ⟨hb _ this, hc _ this⟩
  · intro p hp
    obtain ⟨c, hc, e, _⟩ := mem_branchEntries _ _ _ _ hp
    rw [← e]; exact hb c hc

theorem levelsAfter_eq (ft : FloatText K) (b : Text) (es : List (Text × FrictionTable K)) (r : RoughnessInfo K)
    (l : List K) (h : ∀ p ∈ es, lower p.1 = b → p.2.level = l) (hm : ∃ p ∈ es, lower p.1 = b) :
    levelsAfter ft b es r = { r with levels := some (l.map (as4 ft)) } := by
  have hkeep : ∀ es : List (Text × FrictionTable K), (∀ p ∈ es, lower p.1 = b → p.2.level = l) →
      ∀ v, levelsAfter ft b es ⟨some (l.map (as4 ft)), v⟩ = ⟨some (l.map (as4 ft)), v⟩ := by
    intro es h v
    induction es with
    | nil => rfl
    | cons p es ih =>
      unfold levelsAfter at ih ⊢
      rw [List.foldl_cons]
      by_cases hp : lower p.1 = b
      · rw [if_pos hp, h p (by simp) hp]; exact ih fun p hp => h p (by simp [hp])
      · rw [if_neg hp]; exact ih fun p hp => h p (by simp [hp])
  induction es with
  | nil => simp at hm
  | cons p es ih =>
    unfold levelsAfter at ih hkeep ⊢
    rw [List.foldl_cons]
    by_cases hp : lower p.1 = b
    · rw [if_pos hp, h p (by simp) hp, hkeep es fun p hp => h p (by simp [hp])]
    · rw [if_neg hp]
      refine ih (fun p hp => h p (by simp [hp])) ?_
      obtain ⟨q, hq, e⟩ := hm
      rcases List.mem_cons.1 hq with rfl | hq
      · exact absurd e hp
      · exact ⟨q, hq, e⟩

theorem valuesAfter_eq {ft : FloatText K} (sig : SigText ft) (b : Text) (c : K) (es : List (ExportCss K × FrictionTable K))
    (r : RoughnessInfo K) (l : List K)
    (h : ∀ p ∈ es, lower p.1.branch = b ∧ p.1.chainage = c → p.2.friction = l)
    (hm : ∃ p ∈ es, lower p.1.branch = b ∧ p.1.chainage = c) :
    valuesAfter sig b c es r = { r with values := some (l.map fun x => some (sig.value x)) } := by
  have hkeep : ∀ es : List (ExportCss K × FrictionTable K),
      (∀ p ∈ es, lower p.1.branch = b ∧ p.1.chainage = c → p.2.friction = l) →
      ∀ v, valuesAfter sig b c es ⟨v, some (l.map fun x => some (sig.value x))⟩ =
        ⟨v, some (l.map fun x => some (sig.value x))⟩ := by
    intro es h v
    induction es with
    | nil => rfl
    | cons p es ih =>
      unfold valuesAfter at ih ⊢
      rw [List.foldl_cons]
      by_cases hp : lower p.1.branch = b ∧ p.1.chainage = c
      · rw [if_pos hp, h p (by simp) hp]; exact ih fun p hp => h p (by simp [hp])
      · rw [if_neg hp]; exact ih fun p hp => h p (by simp [hp])
  induction es with
  | nil => simp at hm
  | cons p es ih =>
    unfold valuesAfter at ih hkeep ⊢
    rw [List.foldl_cons]
    by_cases hp : lower p.1.branch = b ∧ p.1.chainage = c
    · rw [if_pos hp, h p (by simp) hp, hkeep es fun p hp => h p (by simp [hp])]
    · rw [if_neg hp]
      refine ih (fun p hp => h p (by simp [hp])) ?_
      obtain ⟨q, hq, e⟩ := hm
      rcases List.mem_cons.1 hq with rfl | hq
      · exact absurd e hp
      · exact ⟨q, hq, e⟩

end Fm2prof
