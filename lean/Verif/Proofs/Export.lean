import Verif.Spec.Export
import Verif.Proofs.Locations

/-! Helper lemmas about the exported files. -/

set_option linter.unusedSectionVars false

namespace Fm2prof

open Spec

variable {K : Type} [Field K] [LinearOrder K] [IsStrictOrderedRing K] [FloorRing K]

theorem sectionTable_eq (c : ExportCss K) (s : Text) : sectionTable c s = tableOf c s := by
  unfold sectionTable tableOf
  induction c.tables with
  | nil => rfl
  | cons p l ih =>
    obtain ⟨a, b⟩ := p
    by_cases h : a = s
    · rw [List.lookup_cons, List.find?_cons_of_pos (by simpa using h), h, beq_self_eq_true]; rfl
    · rw [List.lookup_cons, List.find?_cons_of_neg (by simpa using h), beq_eq_false_iff_ne.2 (Ne.symm h)]; exact ih

theorem lstrip_middle (a b : Text) (c : Char) (hc : isSpace c = false) :
    lstrip (a ++ c :: b) = lstrip a ++ c :: b := by
  unfold lstrip
  induction a with
  | nil => simp [hc]
  | cons d a ih =>
    by_cases hd : isSpace d
    · simp only [List.cons_append, List.dropWhile_cons, hd, if_true]; exact ih
    · simp [hd]

theorem rstrip_eq (t : Text) : rstrip t = (lstrip t.reverse).reverse := rfl

theorem rstrip_middle (a b : Text) (c : Char) (hc : isSpace c = false) :
    rstrip (a ++ c :: b) = a ++ c :: rstrip b := by
  rw [rstrip_eq, rstrip_eq, List.reverse_append, List.reverse_cons, List.append_assoc, List.singleton_append,
    lstrip_middle _ _ _ hc]
  simp

theorem strip_middle (a b : Text) (c : Char) (hc : isSpace c = false) :
    strip (a ++ c :: b) = lstrip a ++ c :: rstrip b := by
  unfold strip
  rw [lstrip_middle _ _ _ hc, rstrip_middle _ _ _ hc]

theorem not_mem_rstrip (t : Text) (c : Char) (h : c ∉ t) : c ∉ rstrip t := fun h' =>
  h (by
    unfold rstrip at h'
    rw [List.mem_reverse] at h'
    exact List.mem_reverse.1 (mem_of_mem_dropWhile _ _ _ h'))

theorem not_mem_lstrip (t : Text) (c : Char) (h : c ∉ t) : c ∉ lstrip t := fun h' => h (mem_of_mem_dropWhile _ _ _ h')

theorem rstrip_all_space (t : Text) (h : ∀ c ∈ t, isSpace c = true) : rstrip t = [] := by
  rw [rstrip_eq, lstrip_all_space _ fun c hc => h c (List.mem_reverse.1 hc)]; rfl

theorem lstrip_rstrip (t : Text) : lstrip (rstrip t) = rstrip (lstrip t) := by
  by_cases h : ∃ c ∈ t, isSpace c = false
  · obtain ⟨c, hc, hs⟩ := h
    obtain ⟨a, b, rfl⟩ := List.append_of_mem hc
    rw [rstrip_middle _ _ _ hs, lstrip_middle _ _ _ hs, lstrip_middle _ _ _ hs, rstrip_middle _ _ _ hs]
  · push Not at h
    have hall : ∀ c ∈ t, isSpace c = true := fun c hc => by simpa using h c hc
    rw [lstrip_all_space t hall, rstrip_all_space t hall]; rfl

theorem lstrip_lstrip (t : Text) : lstrip (lstrip t) = lstrip t := by
  unfold lstrip
  induction t with
  | nil => rfl
  | cons c t ih =>
    by_cases hc : isSpace c
    · simp only [List.dropWhile_cons, hc, if_true]; exact ih
    · simp [hc]

theorem strip_rstrip (t : Text) : strip (rstrip t) = strip t := by
  unfold strip
  rw [lstrip_rstrip, rstrip_eq, rstrip_eq, List.reverse_reverse, lstrip_lstrip]

theorem strip_lstrip (t : Text) : strip (lstrip t) = strip t := by
  unfold strip
  rw [lstrip_lstrip]

theorem valueFromLine_eq (a b : Text) (ha : '=' ∉ a) (hb : '=' ∉ b) : valueFromLine (a ++ '=' :: b) = .ok (strip b) := by
  unfold valueFromLine
  rw [strip_middle a b '=' (by decide), splitSep_append '=' _ _ (not_mem_lstrip a _ ha),
    splitSep_single '=' _ (not_mem_rstrip b _ hb)]
  simp only [List.getElem?_cons_succ, List.getElem?_cons_zero]
  rw [strip_rstrip]

theorem unlines_append (a b : List Text) : unlines (a ++ b) = unlines a ++ unlines b := by simp [unlines]

theorem fileLines_unlines (ls : List Text) (h : ∀ l ∈ ls, '\n' ∉ l) (rest : Text) :
    fileLines (unlines ls ++ rest) = ls.map (· ++ ['\n']) ++ fileLines rest := by
  unfold unlines
  exact fileLines_flatten ls h rest

theorem fileLines_unlines' (ls : List Text) (h : ∀ l ∈ ls, '\n' ∉ l) :
    fileLines (unlines ls) = ls.map (· ++ ['\n']) := by
  have := fileLines_unlines ls h []
  simpa [fileLines] using this

theorem collect_map {α β γ : Type} (f : β → Except PyErr γ) (g : α → β) (h : α → γ) (l : List α)
    (hf : ∀ x ∈ l, f (g x) = .ok (h x)) : collect f (l.map g) = .ok (l.map h) := by
  induction l with
  | nil => rfl
  | cons a l ih =>
    rw [List.map_cons, collect, hf a (by simp), ih fun x hx => hf x (by simp [hx])]
    rfl

theorem collect_ok {β γ : Type} (f : β → Except PyErr γ) (h : β → γ) (l : List β)
    (hf : ∀ x ∈ l, f x = .ok (h x)) : collect f l = .ok (l.map h) := by
  simpa using collect_map f id h l hf

theorem collect_iff {β γ : Type} (f : β → Except PyErr γ) (l : List β) (r : List γ) :
    collect f l = .ok r ↔ List.Forall₂ (fun b c => f b = .ok c) l r := by
  induction l generalizing r with
  | nil => simp only [collect, List.forall₂_nil_left_iff]; exact ⟨fun h => (Except.ok.inj h).symm, fun h => by rw [h]⟩
  | cons b l ih =>
    rw [collect, List.forall₂_cons_left_iff]
    cases hb : f b with
    | error e => simp
    | ok c =>
      simp only
      cases hl : collect f l with
      | error e =>
        simp only [reduceCtorEq, Except.ok.injEq, false_iff, not_exists, not_and]
        rintro c' r' rfl h' rfl
        rw [(ih r').2 h'] at hl
        cases hl
      | ok cs =>
        simp only [Except.ok.injEq]
        constructor
        · rintro rfl; exact ⟨c, cs, rfl, (ih cs).1 hl, rfl⟩
        · rintro ⟨c', r', rfl, h', rfl⟩
          rw [(ih r').2 h'] at hl
          rw [Except.ok.inj hl]

theorem toLower_numberChars (c : Char) (h : c ∈ numberChars) : c.toLower = c := by
  revert h; revert c; decide

theorem n_not_numberChars : 'n' ∉ numberChars := by decide

theorem lower_number (t : Text) (h : ∀ c ∈ t, c ∈ numberChars) : lower t = t := by
  unfold lower
  conv_rhs => rw [← List.map_id t]
  exact List.map_congr_left fun c hc => toLower_numberChars c (h c hc)

theorem strip_number (t : Text) (h : ∀ c ∈ t, c ∈ numberChars) : strip t = t :=
  strip_noSpace t fun c hc => (numberChars_noSpace c (h c hc)).1

theorem parseNan_number (ft : FloatText K) (t : Text) (x : K) (h : ∀ c ∈ t, c ∈ numberChars) (hx : ft.parse t = some x) :
    parseNan ft t = .ok (some x) := by
  unfold parseNan
  rw [if_neg, hx]
  rw [strip_number t h, lower_number t h]
  intro e
  exact n_not_numberChars (h 'n' (by rw [e]; decide))

theorem parseNan_opt (ft : FloatText K) (o : Option K) (h : ∀ x, o = some x → ft.representable x) :
    parseNan ft (optText ft o) = .ok o := by
  cases o with
  | none => rfl
  | some x => exact parseNan_number ft _ x (ft.repr_chars x) (ft.parse_repr x (h x rfl))

theorem optText_chars (ft : FloatText K) (o : Option K) (c : Char) (h : c ∈ optText ft o) :
    c ∈ numberChars ∨ c = 'n' ∨ c = 'a' := by
  cases o with
  | none =>
    right
    revert h; unfold optText
    rw [show "nan".toList = ['n', 'a', 'n'] from rfl]
    simp only [List.mem_cons, List.not_mem_nil, or_false]
    tauto
  | some x => exact .inl (ft.repr_chars x c h)

theorem optText_no (ft : FloatText K) (o : Option K) (c : Char) (hc : c ∉ numberChars) (hn : c ≠ 'n') (ha : c ≠ 'a') :
    c ∉ optText ft o := fun h => by
  rcases optText_chars ft o c h with h | h | h
  · exact hc h
  · exact hn h
  · exact ha h

theorem optText_noSpace (ft : FloatText K) (o : Option K) : ∀ c ∈ optText ft o, isSpace c = false := by
  intro c h
  rcases optText_chars ft o c h with h | rfl | rfl
  · exact (numberChars_noSpace c h).1
  · decide
  · decide

theorem parseNan_fixed (ft : FloatText K) (x : K) : parseNan ft (fmtFixed 4 x) = .ok (as4 ft x) :=
  parseNan_number ft _ _ (fmtFixed_chars 4 x) (ft.parse_fixed 4 x)

theorem joinWith_chars (ws : List Text) (c : Char) (sep : Text) (h : c ∈ joinWith sep ws) : c ∈ sep ∨ ∃ w ∈ ws, c ∈ w := by
  induction ws with
  | nil => simp [joinWith] at h
  | cons w ws ih =>
    cases ws with
    | nil => right; exact ⟨w, by simp, by simpa [joinWith] using h⟩
    | cons v vs =>
      rw [joinWith] at h
      · rw [List.append_assoc, List.mem_append, List.mem_append] at h
        rcases h with h | h | h
        · exact .inr ⟨w, by simp, h⟩
        · exact .inl h
        · rcases ih h with h | ⟨u, hu, h⟩
          · exact .inl h
          · exact .inr ⟨u, by simp [hu], h⟩
      · simp

theorem fixed4_no (l : List K) (c : Char) (hc : c ∉ numberChars) (hs : c ≠ ' ') : c ∉ fixed4 l := by
  intro h
  rcases joinWith_chars _ _ _ h with h | ⟨w, hw, h⟩
  · exact hs (by simpa using h)
  · obtain ⟨x, _, rfl⟩ := List.mem_map.1 hw
    exact hc (fmtFixed_chars 4 x c h)

theorem splitWs_strip (t : Text) : splitWs (strip t) = splitWs t := by
  have h1 : ∀ t : Text, splitWs (lstrip t) = splitWs t := by
    intro t
    unfold lstrip
    induction t with
    | nil => rfl
    | cons c t ih =>
      by_cases hc : isSpace c = true
      · rw [List.dropWhile_cons, if_pos hc, ih, splitWs_space c t hc]
      · rw [List.dropWhile_cons, if_neg hc]
  have h2 : ∀ (t s : Text), (∀ c ∈ s, isSpace c = true) → splitWs (t ++ s) = splitWs t := by
    intro t s hs
    induction t with
    | nil =>
      rw [List.nil_append]
      induction s with
      | nil => rfl
      | cons c s ih => rw [splitWs_space c s (hs c (by simp)), ih fun c hc => hs c (by simp [hc])]
    | cons c t ih =>
      by_cases hc : isSpace c = true
      · rw [List.cons_append, splitWs_space _ _ hc, splitWs_space _ _ hc, ih]
      · rw [List.cons_append]
        cases t with
        | nil =>
          cases s with
          | nil => rfl
          | cons d s =>
            rw [List.nil_append] at ih ⊢
            have e : splitWs (c :: d :: s) = [c] :: splitWs (d :: s) := by
              conv_lhs => rw [splitWs]
              simp [hc, hs d (by simp)]
            rw [e, ih]
            simp [splitWs, hc]
        | cons d t =>
          rw [List.cons_append, splitWs, if_neg hc, splitWs.eq_def (c :: d :: t)]
          rw [List.cons_append] at ih
          simp only [ih]
          simp [hc]
  unfold strip
  rw [← h1 t]
  have h3 : rstrip (lstrip t) ++ ((lstrip t).reverse.takeWhile isSpace).reverse = lstrip t := by
    unfold rstrip
    rw [← List.reverse_append, List.takeWhile_append_dropWhile, List.reverse_reverse]
  conv_rhs => rw [← h3]
  rw [h2]
  intro c hc
  have := List.mem_reverse.1 hc
  revert this
  generalize (lstrip t).reverse = u
  induction u with
  | nil => simp
  | cons d u ih =>
    intro h
    rw [List.takeWhile_cons] at h
    by_cases hd : isSpace d = true
    · rw [if_pos hd] at h
      rcases List.mem_cons.1 h with rfl | h
      · exact hd
      · exact ih h
    · rw [if_neg hd] at h; simp at h

theorem splitWs_joined (ws : List Text) (hne : ∀ w ∈ ws, w ≠ []) (h : ∀ w ∈ ws, ∀ c ∈ w, isSpace c = false) :
    splitWs (joinWith [' '] ws) = ws := by
  simpa using splitWs_join ws hne h [] (by simp)

/-! ## Lines with a key and a value -/

theorem strip_value (v : Text) : strip (' ' :: (v ++ ['\n'])) = strip v := by
  have := strip_pad [' '] v ['\n'] (by decide) (by decide)
  simpa using this

theorem key_split (key v : Text) (hk : key = key.takeWhile (· != '=') ++ ['=', ' ']) :
    key ++ v ++ ['\n'] = key.takeWhile (· != '=') ++ '=' :: (' ' :: (v ++ ['\n'])) := by
  conv_lhs => rw [hk]
  simp

theorem not_mem_key (key : Text) : '=' ∉ key.takeWhile (· != '=') := by
  induction key with
  | nil => simp
  | cons d u ih =>
    intro h
    rw [List.takeWhile_cons] at h
    by_cases hd : (d != '=') = true
    · rw [if_pos hd] at h
      rcases List.mem_cons.1 h with e | h
      · exact absurd e.symm (by simpa using hd)
      · exact ih h
    · rw [if_neg hd] at h; simp at h

theorem value_entry (key v : Text) (hk : key = key.takeWhile (· != '=') ++ ['=', ' ']) (hv : '=' ∉ v) :
    valueFromLine (key ++ v ++ ['\n']) = .ok (strip v) := by
  rw [key_split key v hk, valueFromLine_eq _ _ (not_mem_key key), strip_value]
  simp [hv]

theorem numbers_entry (ft : FloatText K) (key : Text) (hk : key = key.takeWhile (· != '=') ++ ['=', ' ']) (l : List K) :
    numbersFromLine ft (key ++ fixed4 l ++ ['\n']) = .ok (l.map (as4 ft)) := by
  unfold numbersFromLine
  rw [value_entry key _ hk (fixed4_no l _ (by decide) (by decide))]
  simp only
  rw [splitWs_strip]
  unfold fixed4
  rw [splitWs_joined]
  · exact collect_map _ _ _ _ fun x _ => parseNan_fixed ft x
  · intro w hw; obtain ⟨x, _, rfl⟩ := List.mem_map.1 hw; exact fmtFixed_ne_nil 4 x
  · intro w hw; obtain ⟨x, _, rfl⟩ := List.mem_map.1 hw; exact fmtFixed_noSpace 4 x

theorem number_entry (ft : FloatText K) (key : Text) (hk : key = key.takeWhile (· != '=') ++ ['=', ' ']) (x : K) :
    numberFromLine ft (key ++ fmtFixed 4 x ++ ['\n']) = .ok (as4 ft x) := by
  unfold numberFromLine
  rw [value_entry key _ hk fun h => absurd (fmtFixed_chars 4 x _ h) (by decide)]
  simp only
  rw [strip_number _ (fmtFixed_chars 4 x), parseNan_fixed]

theorem opt_entry (ft : FloatText K) (key : Text) (hk : key = key.takeWhile (· != '=') ++ ['=', ' ']) (o : Option K)
    (ho : ∀ x, o = some x → ft.representable x) :
    numberFromLine ft (key ++ optText ft o ++ ['\n']) = .ok o := by
  unfold numberFromLine
  rw [value_entry key _ hk (optText_no ft o _ (by decide) (by decide) (by decide))]
  simp only
  rw [strip_noSpace _ (optText_noSpace ft o), parseNan_opt ft o ho]

/-! ## Sections -/

theorem sections_header (l : Text) (ls : List Text) (h : (strip l).head? = some '[') :
    sectionsOfLines (l :: ls) = ([], ⟨strip l, (sectionsOfLines ls).1⟩ :: (sectionsOfLines ls).2) := by
  rw [sectionsOfLines, if_pos h]

theorem sections_entry (l a b : Text) (ls : List Text) (h : (strip l).head? ≠ some '[')
    (hp : partition '=' (strip l) = some (a, b)) :
    sectionsOfLines (l :: ls) = ((strip a, strip b) :: (sectionsOfLines ls).1, (sectionsOfLines ls).2) := by
  rw [sectionsOfLines, if_neg h]
  simp only [hp]

theorem sections_blank (l : Text) (ls : List Text) (h : (strip l).head? ≠ some '[') (hp : partition '=' (strip l) = none) :
    sectionsOfLines (l :: ls) = sectionsOfLines ls := by
  rw [sectionsOfLines, if_neg h]
  simp only [hp]

theorem sections_key (key v : Text) (ls : List Text) (hk : key = key.takeWhile (· != '=') ++ ['=', ' '])
    (hb : (lstrip (key.takeWhile (· != '='))).head? ≠ some '[') :
    sectionsOfLines ((key ++ v ++ ['\n']) :: ls) =
      ((strip (key.takeWhile (· != '=')), strip v) :: (sectionsOfLines ls).1, (sectionsOfLines ls).2) := by
  have hs : strip (key ++ v ++ ['\n']) =
      lstrip (key.takeWhile (· != '=')) ++ '=' :: rstrip (' ' :: (v ++ ['\n'])) := by
    rw [key_split key v hk, strip_middle _ _ _ (by decide)]
  rw [sections_entry _ (lstrip (key.takeWhile (· != '='))) (rstrip (' ' :: (v ++ ['\n'])))]
  · rw [strip_rstrip, strip_value, strip_lstrip]
  · rw [hs]
    cases h : lstrip (key.takeWhile (· != '=')) with
    | nil => simp
    | cons c cs => rw [h] at hb; simpa using hb
  · rw [hs, partition_append _ _ _ (not_mem_lstrip _ _ (not_mem_key key))]

theorem sections_header' (l : Text) (ls : List Text) (h : (strip l).head? = some '[') {e : List (Text × Text)}
    {s : List Section} (hs : sectionsOfLines ls = (e, s)) : sectionsOfLines (l :: ls) = ([], ⟨strip l, e⟩ :: s) := by
  rw [sections_header l ls h, hs]

theorem sections_entry' (l a b : Text) (ls : List Text) (h : (strip l).head? ≠ some '[')
    (hp : partition '=' (strip l) = some (a, b)) {e : List (Text × Text)} {s : List Section}
    (hs : sectionsOfLines ls = (e, s)) : sectionsOfLines (l :: ls) = ((strip a, strip b) :: e, s) := by
  rw [sections_entry l a b ls h hp, hs]

theorem sections_blank' (l : Text) (ls : List Text) (h : (strip l).head? ≠ some '[')
    (hp : partition '=' (strip l) = none) {e : List (Text × Text)} {s : List Section}
    (hs : sectionsOfLines ls = (e, s)) : sectionsOfLines (l :: ls) = (e, s) := by
  rw [sections_blank l ls h hp, hs]

theorem sections_key' (key v k w : Text) (ls : List Text) (hk : key = key.takeWhile (· != '=') ++ ['=', ' '])
    (hb : (lstrip (key.takeWhile (· != '='))).head? ≠ some '[') (hkk : strip (key.takeWhile (· != '=')) = k)
    (hw : strip v = w) {e : List (Text × Text)} {s : List Section} (hs : sectionsOfLines ls = (e, s)) :
    sectionsOfLines ((key ++ v ++ ['\n']) :: ls) = ((k, w) :: e, s) := by
  rw [sections_key key v ls hk hb, hs, hkk, hw]

/-! ## The definition file -/

theorem definitionBlock_noBreak (ft : FloatText K) (c : ExportCss K) (h : '\n' ∉ c.name) :
    ∀ l ∈ definitionBlock ft c, '\n' ∉ l := by
  have h1 : ∀ l : List K, '\n' ∉ fixed4 l := fun l => fixed4_no l _ (by decide) (by decide)
  have h2 : ∀ x : K, '\n' ∉ fmtFixed 4 x := fun x h => absurd (fmtFixed_chars 4 x _ h) (by decide)
  have h3 : ∀ x : K, '\n' ∉ ft.repr x := fun x h => absurd (ft.repr_chars x _ h) (by decide)
  have h4 : ∀ x, '\n' ∉ optText ft x := fun x => optText_no ft x _ (by decide) (by decide) (by decide)
  have h5 : ∀ n, '\n' ∉ natText n := fun n h => by
    obtain ⟨k, hk, e⟩ := natText_chars n _ h
    have := (digitChar_props k hk).2.2
    rw [← e] at this
    simp only [show '\n'.toNat = 10 from rfl] at this
    omega
  intro l hl
  simp only [definitionBlock, List.mem_cons, List.not_mem_nil, or_false] at hl
  rcases hl with rfl | rfl | rfl | rfl | rfl | rfl | rfl | rfl | rfl | rfl | rfl | rfl | rfl | rfl | rfl | rfl | rfl | rfl
  all_goals first
    | decide
    | (rw [List.mem_append, not_or]
       exact ⟨by decide, by first | exact h | exact h1 _ | exact h2 _ | exact h3 _ | exact h4 _ | exact h5 _⟩)

theorem eq_not_header (l : Text) (h : '=' ∈ l) (t : Text) (ht : '=' ∉ t) : strip (lower l) ≠ t := by
  intro e
  apply ht
  rw [← e]
  exact mem_strip_of_mem (List.mem_map.2 ⟨'=', h, by decide⟩) (by decide)

theorem read_other (ft : FloatText K) (l : Text) (ls : List Text) (h : strip (lower l) ≠ "[definition]".toList) :
    readDefinitionLines ft 0 (l :: ls) = readDefinitionLines ft 0 ls := by
  rw [readDefinitionLines, if_neg h]

theorem read_block (ft : FloatText K) (c : ExportCss K) (hn : PlainName c.name) (hf : ft.representable c.extraFlowArea)
    (hb : ∀ x, c.floodplainBase = some x → ft.representable x) (rest : List Text) :
    readDefinitionLines ft 0 ((definitionBlock ft c).map (· ++ ['\n']) ++ rest) =
      match readDefinitionLines ft 0 rest with
      | .error e => .error e
      | .ok ds => .ok (definitionOf ft c :: ds) := by
  obtain ⟨he, _, hs⟩ := hn
  unfold definitionBlock
  simp only [List.map_cons, List.map_nil, List.cons_append, List.nil_append]
  rw [readDefinitionLines, if_pos (by decide)]
  have hflow : ft.repr c.extraFlowArea = optText ft (some c.extraFlowArea) := rfl
  have hd : readDefinition ft
      (("\tid\t\t\t\t\t= ".toList ++ c.name ++ ['\n']) :: ("\ttype\t\t\t\t= tabulated".toList ++ ['\n']) ::
        ("\tthalweg\t\t\t\t= 0.000".toList ++ ['\n']) :: ("\tnumLevels\t\t\t= ".toList ++ natText c.z.length ++ ['\n']) ::
        ("\tlevels\t\t\t\t= ".toList ++ fixed4 c.z ++ ['\n']) ::
        ("\tflowWidths\t\t\t= ".toList ++ fixed4 c.flowWidth ++ ['\n']) ::
        ("\ttotalWidths\t\t\t= ".toList ++ fixed4 c.totalWidth ++ ['\n']) ::
        ("\tsd_crest\t\t\t= ".toList ++ fmtFixed 4 c.crestLevel ++ ['\n']) ::
        ("\tsd_flowArea\t\t\t= ".toList ++ ft.repr c.extraFlowArea ++ ['\n']) ::
        ("\tsd_totalArea\t\t= ".toList ++ fmtFixed 4 c.extraTotalArea ++ ['\n']) ::
        ("\tsd_baseLevel\t\t= ".toList ++ optText ft c.floodplainBase ++ ['\n']) ::
        ("\tmain\t\t\t\t= ".toList ++ fmtFixed 4 c.widths.main ++ ['\n']) ::
        ("\tfloodPlain1\t\t\t= ".toList ++ fmtFixed 4 c.widths.floodplain1 ++ ['\n']) ::
        ("\tfloodPlain2\t\t\t= ".toList ++ fmtFixed 4 c.widths.floodplain2 ++ ['\n']) ::
        ("\tgroundlayerUsed\t\t= 0".toList ++ ['\n']) :: ("\tgroundLayer\t\t\t= 0.000".toList ++ ['\n']) :: ['\n'] :: rest) =
      .ok (definitionOf ft c) := by
    unfold readDefinition lineAt
    simp only [List.getElem?_cons_succ, List.getElem?_cons_zero, Option.getD_some]
    rw [value_entry _ _ (by decide) he, hs, numbers_entry ft _ (by decide), numbers_entry ft _ (by decide),
      numbers_entry ft _ (by decide), number_entry ft _ (by decide), number_entry ft _ (by decide),
      number_entry ft _ (by decide), number_entry ft _ (by decide), hflow, opt_entry ft _ (by decide),
      opt_entry ft _ (by decide) _ hb]
    · rfl
    · intro x hx; rw [← Option.some.inj hx]; exact hf
  rw [hd]
  simp only [readDefinitionLines.eq_2]
  rw [read_other ft _ _ (eq_not_header _ (by simp) _ (by decide)), read_other ft _ _ (by decide),
    read_other ft _ _ (by decide), read_other ft _ _ (by decide)]
  cases readDefinitionLines ft 0 rest <;> rfl

theorem read_blocks (ft : FloatText K) (cs : List (ExportCss K)) (hn : ∀ c ∈ cs, PlainName c.name)
    (hf : ∀ c ∈ cs, ft.representable c.extraFlowArea)
    (hb : ∀ c ∈ cs, ∀ x, c.floodplainBase = some x → ft.representable x) :
    readDefinitionLines ft 0 (((cs.map (definitionBlock ft)).flatten).map (· ++ ['\n'])) =
      .ok (cs.map (definitionOf ft)) := by
  induction cs with
  | nil => rfl
  | cons c cs ih =>
    rw [List.map_cons, List.flatten_cons, List.map_append,
      read_block ft c (hn c (by simp)) (hf c (by simp)) (hb c (by simp)),
      ih (fun c hc => hn c (by simp [hc])) (fun c hc => hf c (by simp [hc])) fun c hc => hb c (by simp [hc])]
    rfl

theorem readDefinitions_export (ft : FloatText K) (cs : List (ExportCss K)) (hn : ∀ c ∈ cs, PlainName c.name)
    (hf : ∀ c ∈ cs, ft.representable c.extraFlowArea)
    (hb : ∀ c ∈ cs, ∀ x, c.floodplainBase = some x → ft.representable x) :
    readDefinitions ft (exportDefinitions ft cs) = .ok (cs.map (definitionOf ft)) := by
  unfold readDefinitions exportDefinitions
  rw [fileLines_unlines']
  · rw [List.map_append]
    simp only [List.map_cons, List.map_nil, List.cons_append, List.nil_append]
    rw [read_other ft _ _ (by decide), read_other ft _ _ (by decide), read_other ft _ _ (by decide),
      read_other ft _ _ (by decide), read_other ft _ _ (by decide)]
    exact read_blocks ft cs hn hf hb
  · intro l hl
    rcases List.mem_append.1 hl with hl | hl
    · rename_i hl0; clear hl0; revert hl; revert l; decide
    · obtain ⟨b, hb', hl⟩ := List.mem_flatten.1 hl
      obtain ⟨c, hc, rfl⟩ := List.mem_map.1 hb'
      exact definitionBlock_noBreak ft c (hn c hc).2.1 l hl

/-- The entries of a definition block. -/
def definitionEntries (ft : FloatText K) (c : ExportCss K) : List (Text × Text) :=
  [("id".toList, strip c.name), ("type".toList, "tabulated".toList), ("thalweg".toList, "0.000".toList),
    ("numLevels".toList, natText c.z.length), ("levels".toList, fixed4 c.z), ("flowWidths".toList, fixed4 c.flowWidth),
    ("totalWidths".toList, fixed4 c.totalWidth), ("sd_crest".toList, fmtFixed 4 c.crestLevel),
    ("sd_flowArea".toList, ft.repr c.extraFlowArea), ("sd_totalArea".toList, fmtFixed 4 c.extraTotalArea),
    ("sd_baseLevel".toList, optText ft c.floodplainBase), ("main".toList, fmtFixed 4 c.widths.main),
    ("floodPlain1".toList, fmtFixed 4 c.widths.floodplain1), ("floodPlain2".toList, fmtFixed 4 c.widths.floodplain2),
    ("groundlayerUsed".toList, "0".toList), ("groundLayer".toList, "0.000".toList)]

theorem strip_joined (ws : List Text) (hne : ∀ w ∈ ws, w ≠ []) (h : ∀ w ∈ ws, ∀ c ∈ w, isSpace c = false) :
    strip (joinWith [' '] ws) = joinWith [' '] ws := by
  apply strip_of_trimmed
  constructor
  · intro c hc
    cases ws with
    | nil => simp [joinWith] at hc
    | cons w ws =>
      have : (joinWith [' '] (w :: ws)).head? = w.head? := by
        cases ws with
        | nil => rfl
        | cons v vs =>
          rw [joinWith]
          · cases hw : w with
            | nil => exact absurd hw (hne w (by simp))
            | cons a b => rfl
          · simp
      rw [this] at hc
      exact h w (by simp) c (List.mem_of_mem_head? hc)
  · intro c hc
    induction ws with
    | nil => simp [joinWith] at hc
    | cons w ws ih =>
      cases ws with
      | nil => exact h w (by simp) c (List.mem_of_mem_getLast? (by simpa [joinWith] using hc))
      | cons v vs =>
        rw [joinWith] at hc
        · have hne' : joinWith [' '] (v :: vs) ≠ [] := by
            cases hv : v with
            | nil => exact absurd hv (hne v (by simp))
            | cons a b => cases vs <;> simp [joinWith]
          rw [List.getLast?_append_of_ne_nil _ hne'] at hc
          exact ih (fun w hw => hne w (by simp [hw])) (fun w hw => h w (by simp [hw])) hc
        · simp

theorem strip_fixed4 (l : List K) : strip (fixed4 l) = fixed4 l := by
  unfold fixed4
  apply strip_joined
  · intro w hw; obtain ⟨x, _, rfl⟩ := List.mem_map.1 hw; exact fmtFixed_ne_nil 4 x
  · intro w hw; obtain ⟨x, _, rfl⟩ := List.mem_map.1 hw; exact fmtFixed_noSpace 4 x

theorem strip_natText (n : Nat) : strip (natText n) = natText n :=
  strip_noSpace _ fun c hc => by
    obtain ⟨k, hk, rfl⟩ := natText_chars n c hc
    exact (digitChar_props k hk).2.1

theorem sections_definition (ft : FloatText K) (c : ExportCss K) (rest : List Text) :
    sectionsOfLines ((definitionBlock ft c).map (· ++ ['\n']) ++ rest) =
      ([], ⟨"[Definition]".toList, definitionEntries ft c ++ (sectionsOfLines rest).1⟩ :: (sectionsOfLines rest).2) := by
  have hr : ∀ x, strip (ft.repr x) = ft.repr x := fun x => strip_number _ (ft.repr_chars x)
  have hx : ∀ x : K, strip (fmtFixed 4 x) = fmtFixed 4 x := fun x => strip_number _ (fmtFixed_chars 4 x)
  have ho : ∀ o, strip (optText ft o) = optText ft o := fun o => strip_noSpace _ (optText_noSpace ft o)
  unfold definitionBlock
  simp only [List.map_cons, List.map_nil, List.cons_append, List.nil_append]
  refine sections_header' _ _ (by decide) ?_
  refine sections_key' _ _ _ _ _ (by decide) (by decide) (by decide) rfl ?_
  refine sections_entry' _ "type\t\t\t\t".toList " tabulated".toList _ (by decide) (by decide) ?_
  refine sections_entry' _ "thalweg\t\t\t\t".toList " 0.000".toList _ (by decide) (by decide) ?_
  refine sections_key' _ _ _ _ _ (by decide) (by decide) (by decide) (strip_natText _) ?_
  refine sections_key' _ _ _ _ _ (by decide) (by decide) (by decide) (strip_fixed4 _) ?_
  refine sections_key' _ _ _ _ _ (by decide) (by decide) (by decide) (strip_fixed4 _) ?_
  refine sections_key' _ _ _ _ _ (by decide) (by decide) (by decide) (strip_fixed4 _) ?_
  refine sections_key' _ _ _ _ _ (by decide) (by decide) (by decide) (hx _) ?_
  refine sections_key' _ _ _ _ _ (by decide) (by decide) (by decide) (hr _) ?_
  refine sections_key' _ _ _ _ _ (by decide) (by decide) (by decide) (hx _) ?_
  refine sections_key' _ _ _ _ _ (by decide) (by decide) (by decide) (ho _) ?_
  refine sections_key' _ _ _ _ _ (by decide) (by decide) (by decide) (hx _) ?_
  refine sections_key' _ _ _ _ _ (by decide) (by decide) (by decide) (hx _) ?_
  refine sections_key' _ _ _ _ _ (by decide) (by decide) (by decide) (hx _) ?_
  refine sections_entry' _ "groundlayerUsed\t\t".toList " 0".toList _ (by decide) (by decide) ?_
  refine sections_entry' _ "groundLayer\t\t\t".toList " 0.000".toList _ (by decide) (by decide) ?_
  exact sections_blank' _ _ (by decide) (by decide) rfl

theorem sections_blocks (block : ExportCss K → List Text) (header : Text) (entries : ExportCss K → List (Text × Text))
    (hb : ∀ c rest, sectionsOfLines ((block c).map (· ++ ['\n']) ++ rest) =
      ([], ⟨header, entries c ++ (sectionsOfLines rest).1⟩ :: (sectionsOfLines rest).2)) (cs : List (ExportCss K)) :
    sectionsOfLines (((cs.map block).flatten).map (· ++ ['\n'])) = ([], cs.map fun c => ⟨header, entries c⟩) := by
  induction cs with
  | nil => rfl
  | cons c cs ih => rw [List.map_cons, List.flatten_cons, List.map_append, hb, ih]; simp

theorem sections_definitions (ft : FloatText K) (cs : List (ExportCss K)) (hn : ∀ c ∈ cs, '\n' ∉ c.name) :
    sections "[Definition]" (exportDefinitions ft cs) = cs.map fun c => ⟨"[Definition]".toList, definitionEntries ft c⟩ := by
  unfold sections exportDefinitions
  rw [fileLines_unlines']
  · rw [List.map_append]
    simp only [List.map_cons, List.map_nil, List.cons_append, List.nil_append]
    rw [sections_header _ _ (by decide), sections_entry _ "majorVersion\t\t\t".toList " 1".toList _ (by decide) (by decide),
      sections_entry _ "minorversion\t\t\t".toList " 0".toList _ (by decide) (by decide),
      sections_entry _ "fileType\t\t\t\t".toList " crossDef".toList _ (by decide) (by decide),
      sections_blank _ _ (by decide) (by decide),
      sections_blocks _ _ _ (sections_definition ft)]
    simp only
    rw [List.filter_cons, if_neg (by decide), List.filter_eq_self]
    intro s hs
    obtain ⟨c, _, rfl⟩ := List.mem_map.1 hs
    simp
  · intro l hl
    rcases List.mem_append.1 hl with hl | hl
    · rename_i hl0; clear hl0; revert hl; revert l; decide
    · obtain ⟨b, hb', hl⟩ := List.mem_flatten.1 hl
      obtain ⟨c, hc, rfl⟩ := List.mem_map.1 hb'
      exact definitionBlock_noBreak ft c (hn c hc) l hl

/-! ## The location file -/

/-- The entries of a location block. -/
def locationEntries (ft : FloatText K) (c : ExportCss K) : List (Text × Text) :=
  [("id".toList, strip c.name), ("branchid".toList, strip c.branch), ("chainage".toList, ft.repr c.chainage),
    ("shift".toList, "0.000".toList), ("definition".toList, strip c.name)]

theorem sections_location (ft : FloatText K) (c : ExportCss K) (rest : List Text) :
    sectionsOfLines ((locationBlock ft c).map (· ++ ['\n']) ++ rest) =
      ([], ⟨"[CrossSection]".toList, locationEntries ft c ++ (sectionsOfLines rest).1⟩ :: (sectionsOfLines rest).2) := by
  have hr : ∀ x, strip (ft.repr x) = ft.repr x := fun x => strip_number _ (ft.repr_chars x)
  unfold locationBlock
  simp only [List.map_cons, List.map_nil, List.cons_append, List.nil_append]
  refine sections_header' _ _ (by decide) ?_
  refine sections_key' _ _ _ _ _ (by decide) (by decide) (by decide) rfl ?_
  refine sections_key' _ _ _ _ _ (by decide) (by decide) (by decide) rfl ?_
  refine sections_key' _ _ _ _ _ (by decide) (by decide) (by decide) (hr _) ?_
  refine sections_entry' _ "shift\t\t\t\t".toList " 0.000".toList _ (by decide) (by decide) ?_
  refine sections_key' _ _ _ _ _ (by decide) (by decide) (by decide) rfl ?_
  exact sections_blank' _ _ (by decide) (by decide) rfl

theorem sections_locations (ft : FloatText K) (cs : List (ExportCss K)) (hn : ∀ c ∈ cs, '\n' ∉ c.name ∧ '\n' ∉ c.branch) :
    sections "[CrossSection]" (exportLocations ft cs) =
      cs.map fun c => ⟨"[CrossSection]".toList, locationEntries ft c⟩ := by
  unfold sections exportLocations
  rw [fileLines_unlines']
  · rw [List.map_append]
    simp only [List.map_cons, List.map_nil, List.cons_append, List.nil_append]
    rw [sections_header _ _ (by decide), sections_entry _ "majorVersion\t\t\t".toList " 1".toList _ (by decide) (by decide),
      sections_entry _ "minorversion\t\t\t".toList " 0".toList _ (by decide) (by decide),
      sections_entry _ "fileType\t\t\t\t".toList " crossLoc".toList _ (by decide) (by decide),
      sections_blank _ _ (by decide) (by decide),
      sections_blocks _ _ _ (sections_location ft)]
    simp only
    rw [List.filter_cons, if_neg (by decide), List.filter_eq_self]
    intro s hs
    obtain ⟨c, _, rfl⟩ := List.mem_map.1 hs
    simp
  · intro l hl
    rcases List.mem_append.1 hl with hl | hl
    · rename_i hl0; clear hl0; revert hl; revert l; decide
    · obtain ⟨b, hb', hl⟩ := List.mem_flatten.1 hl
      obtain ⟨c, hc, rfl⟩ := List.mem_map.1 hb'
      have h3 : ∀ x : K, '\n' ∉ ft.repr x := fun x h => absurd (ft.repr_chars x _ h) (by decide)
      simp only [locationBlock, List.mem_cons, List.not_mem_nil, or_false] at hl
      rcases hl with rfl | rfl | rfl | rfl | rfl | rfl | rfl
      all_goals first
        | decide
        | (rw [List.mem_append, not_or]
           exact ⟨by decide, by first | exact (hn c hc).1 | exact (hn c hc).2 | exact h3 _⟩)

end Fm2prof
