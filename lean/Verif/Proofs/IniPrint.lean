import Mathlib.Algebra.Order.Field.Rat
import Mathlib.Data.Rat.Floor
import Verif.Proofs.IniParse

/-! Helper lemmas about printing a configuration. -/

set_option linter.unusedSectionVars false

namespace Fm2prof

open Spec

variable {K : Type} [Field K] [LinearOrder K] [IsStrictOrderedRing K] [FloorRing K]

/-! ## Integers -/

theorem intDigits_digits (t : Text) (h : ∀ c ∈ t, 48 ≤ c.toNat ∧ c.toNat ≤ 57) (acc : Nat) (last : Bool)
    (hl : last = true ∨ t ≠ []) :
    intDigits acc last t = some (t.foldl (fun acc c => acc * 10 + (c.toNat - 48)) acc) := by
  induction t generalizing acc last with
  | nil =>
    rcases hl with rfl | hl
    · rfl
    · exact absurd rfl hl
  | cons c t ih =>
    have hc := h c List.mem_cons_self
    have hne : c ≠ '_' := by
      rintro rfl
      have := hc.2
      revert this; decide
    rw [intDigits, if_neg hne, if_pos hc, ih (fun d hd => h d (List.mem_cons_of_mem _ hd)) _ _ (Or.inl rfl),
      List.foldl_cons, Nat.mul_comm 10 acc]

theorem natText_digit (n : Nat) (c : Char) (h : c ∈ natText n) : 48 ≤ c.toNat ∧ c.toNat ≤ 57 := by
  obtain ⟨k, hk, rfl⟩ := natText_chars n c h
  rw [(digitChar_props k hk).2.2]; omega

theorem intDigits_natText (n : Nat) : intDigits 0 false (natText n) = some n := by
  rw [intDigits_digits _ (natText_digit n) 0 false (Or.inr (natText_ne_nil n))]
  exact congrArg some (digitsValue_natText n)

theorem digit_noSpace (c : Char) (h : 48 ≤ c.toNat ∧ c.toNat ≤ 57) : isSpace c = false := by
  obtain ⟨h1, h2⟩ := h
  have : c = Char.ofNat c.toNat := (Char.ofNat_toNat c).symm
  rw [this]
  generalize c.toNat = n at *
  interval_cases n <;> decide

/-- The characters of integers. -/
theorem intText_chars (n : Int) (c : Char) (h : c ∈ intText n) : c = '-' ∨ (48 ≤ c.toNat ∧ c.toNat ≤ 57) := by
  unfold intText at h
  rcases List.mem_append.1 h with h | h
  · split at h
    · exact Or.inl (by simpa using h)
    · cases h
  · exact Or.inr (natText_digit _ c h)

theorem intText_noSpace (n : Int) (c : Char) (h : c ∈ intText n) : isSpace c = false := by
  rcases intText_chars n c h with rfl | h
  · decide
  · exact digit_noSpace c h

theorem intText_ne (n : Int) (c : Char) (h : c ∈ intText n) (d : Char) (hd : d ≠ '-')
    (hd' : ¬ (48 ≤ d.toNat ∧ d.toNat ≤ 57)) : c ≠ d := by
  rintro rfl
  rcases intText_chars n c h with e | h
  · exact hd e
  · exact hd' h

theorem intText_ne_nil (n : Int) : intText n ≠ [] := by
  unfold intText
  intro h
  exact natText_ne_nil _ (List.append_eq_nil_iff.1 h).2

theorem parseInt_intText (n : Int) (a b : Text) (ha : ∀ c ∈ a, isSpace c = true) (hb : ∀ c ∈ b, isSpace c = true) :
    parseInt (a ++ intText n ++ b) = some n := by
  unfold parseInt
  rw [strip_pad a _ b ha hb, strip_noSpace _ (intText_noSpace n)]
  unfold intText
  by_cases hn : n < 0
  · rw [if_pos hn]
    simp only [List.cons_append, List.nil_append]
    rw [intDigits_natText]
    simp only [Option.map_some, Option.some.injEq]
    omega
  · rw [if_neg hn, List.nil_append]
    have hd : ∀ c ∈ natText n.natAbs, c ≠ '-' ∧ c ≠ '+' := by
      intro c hc
      have := natText_digit _ c hc
      constructor <;> rintro rfl <;> revert this <;> decide
    split
    · rename_i r e
      exact absurd rfl (hd '-' (by rw [e]; exact List.mem_cons_self)).1
    · rename_i r e
      exact absurd rfl (hd '+' (by rw [e]; exact List.mem_cons_self)).2
    · rw [intDigits_natText]
      simp only [Option.map_some, Option.some.injEq]
      omega

theorem parseInt_intText' (n : Int) : parseInt (intText n) = some n := by
  have := parseInt_intText n [] [] (by simp) (by simp)
  simpa using this

/-! ## Lists -/

theorem parseInts_map (l : List Int) (f : Int → Text) (h : ∀ n ∈ l, parseInt (f n) = some n) :
    parseInts (l.map f) = some l := by
  induction l with
  | nil => rfl
  | cons n l ih =>
    rw [List.map_cons, parseInts, h n List.mem_cons_self, ih fun m hm => h m (List.mem_cons_of_mem _ hm)]

theorem joinWith_comma (l : List Int) (n : Int) :
    joinWith ", ".toList ((n :: l).map intText) = joinWith [','] (intText n :: l.map fun m => ' ' :: intText m) := by
  induction l generalizing n with
  | nil => rfl
  | cons m l ih =>
    have e : ∀ (sep x y : Text) (ys : List Text), joinWith sep (x :: y :: ys) = x ++ sep ++ joinWith sep (y :: ys) :=
      fun _ _ _ _ => rfl
    rw [List.map_cons, List.map_cons, e, List.map_cons, e]
    have := ih m
    rw [List.map_cons] at this
    rw [this]
    have hsp : ∀ (x : Text) (ys : List Text), joinWith [','] ((' ' :: x) :: ys) = ' ' :: joinWith [','] (x :: ys) := by
      intro x ys
      cases ys <;> rfl
    rw [hsp]
    simp

theorem stripBrackets_inner (t : Text) (hne : t ≠ []) (hh : ∀ c, t.head? = some c → c ≠ '[' ∧ c ≠ ']')
    (hl : ∀ c, t.getLast? = some c → c ≠ '[' ∧ c ≠ ']') : stripBrackets ('[' :: t ++ [']']) = t := by
  have key : ∀ u : Text, u ≠ [] → (∀ c, u.head? = some c → c ≠ '[' ∧ c ≠ ']') → ∀ rest : Text,
      (u ++ rest).dropWhile (fun c => c = '[' || c = ']') = u ++ rest := by
    intro u hu h rest
    cases u with
    | nil => exact absurd rfl hu
    | cons c u =>
      rw [List.cons_append, List.dropWhile_cons_of_neg]
      have := h c rfl
      simp [this.1, this.2]
  unfold stripBrackets
  rw [List.cons_append, List.dropWhile_cons_of_pos (by decide), key t hne hh]
  rw [List.reverse_append, List.reverse_singleton, List.singleton_append, List.dropWhile_cons_of_pos (by decide)]
  have := key t.reverse (by simpa using hne) (by intro c hc; rw [List.head?_reverse] at hc; exact hl c hc) []
  rw [List.append_nil] at this
  rw [this, List.reverse_reverse]

theorem joinInts_chars (l : List Int) (c : Char) (h : c ∈ joinWith ", ".toList (l.map intText)) :
    c = ',' ∨ c = ' ' ∨ c = '-' ∨ (48 ≤ c.toNat ∧ c.toNat ≤ 57) := by
  rcases joinWith_chars _ _ _ h with h | ⟨w, hw, h⟩
  · have : c = ',' ∨ c = ' ' := by simpa using h
    rcases this with h | h
    · exact Or.inl h
    · exact Or.inr (Or.inl h)
  · obtain ⟨n, hn, rfl⟩ := List.mem_map.1 hw
    exact Or.inr (Or.inr (intText_chars n c h))

theorem cast_list (l : List Int) (hl : l ≠ []) :
    parseInts (splitSep ',' (stripBrackets ('[' :: joinWith ", ".toList (l.map intText) ++ [']']))) = some l := by
  have hb : ∀ c ∈ joinWith ", ".toList (l.map intText), c ≠ '[' ∧ c ≠ ']' := by
    intro c hc
    rcases joinInts_chars l c hc with rfl | rfl | rfl | h
    · decide
    · decide
    · decide
    · constructor <;> rintro rfl <;> revert h <;> decide
  obtain ⟨n, l', rfl⟩ : ∃ n l', l = n :: l' := by
    cases l with
    | nil => exact absurd rfl hl
    | cons n l' => exact ⟨n, l', rfl⟩
  have hne : joinWith ", ".toList ((n :: l').map intText) ≠ [] := by
    rw [joinWith_comma]
    have := intText_ne_nil n
    cases hi : intText n with
    | nil => exact absurd hi this
    | cons c w => cases l' <;> simp [joinWith]
  rw [stripBrackets_inner _ hne (fun c hc => hb c (List.mem_of_mem_head? hc)) (fun c hc => hb c (List.mem_of_getLast? hc)),
    joinWith_comma, splitSep_join]
  · rw [parseInts, parseInt_intText', parseInts_map]
    intro m _
    have := parseInt_intText m [' '] [] (by decide) (by simp)
    simpa using this
  · simp
  · intro w hw
    rcases List.mem_cons.1 hw with rfl | hw
    · intro h; exact intText_ne n ',' h ',' (by decide) (by decide) rfl
    · obtain ⟨m, _, rfl⟩ := List.mem_map.1 hw
      intro h
      rcases List.mem_cons.1 h with e | h
      · revert e; decide
      · exact intText_ne m ',' h ',' (by decide) (by decide) rfl

/-! ## The printed text is a plain file -/

/-- What a printed configuration says. -/
def printedContent (ft : FloatText K) (c : Config K) : FileContent :=
  c.map fun s => (s.1, s.2.map fun e =>
    (padRight 30 e.key, ' ' :: padRight 10 (valueText ft e.value) ++ "# ".toList ++ e.hint))

theorem print_eq (ft : FloatText K) (c : Config K) : printConfiguration ft c = fileText (printedContent ft c) := by
  unfold printConfiguration fileText printedContent
  rw [List.map_map]
  refine congrArg List.flatten (List.map_congr_left fun s _ => ?_)
  simp only [Function.comp_apply]
  rw [List.map_map]
  refine congrArg (fun x => '[' :: s.1 ++ "]\n".toList ++ List.flatten x ++ ['\n']) (List.map_congr_left fun e _ => ?_)
  unfold entryLine
  simp

/-- Names, types and hints of the template. -/
def templateKeys : List (Text × List (Text × ConfigType × Text)) := keysOf (template (K := ℚ))

theorem keysOf_template : keysOf (template (K := K)) = templateKeys := rfl

/-- What is needed of the keys and hints of the template. -/
def keyOk (k : Text × ConfigType × Text) : Bool :=
  (match k.1 with
    | [] => false
    | c :: _ => !isSpace c && c ≠ '#' && c ≠ ';' && c ≠ '[') &&
  !k.1.contains '=' && !k.1.contains ':' && !k.1.contains '\n' && !k.2.2.contains '\n' && !k.2.2.contains '%' &&
    decide (strip k.1 = k.1)

theorem templateKeys_ok : ∀ s ∈ templateKeys, ∀ k ∈ s.2, keyOk k = true := by decide +kernel

theorem templateKeys_names : ∀ s ∈ templateKeys, s.1 ≠ [] ∧ '\n' ∉ s.1 ∧ s.1 ≠ "DEFAULT".toList ∧ lower s.1 = s.1 := by
  decide +kernel

theorem templateKeys_nodup : (templateKeys.map fun s => lower s.1).Nodup := by decide +kernel

theorem keys_mem (c : Config K) (h : TemplateKeys c) (s : Text × List (Entry K)) (hs : s ∈ c) :
    (s.1, s.2.map fun e => (e.key, e.type, e.hint)) ∈ templateKeys := by
  rw [← keysOf_template (K := K), ← h]
  exact List.mem_map.2 ⟨s, hs, rfl⟩

theorem entry_ok (c : Config K) (h : TemplateKeys c) (s : Text × List (Entry K)) (hs : s ∈ c) (e : Entry K) (he : e ∈ s.2) :
    PlainKey (padRight 30 e.key) ∧ rstrip (padRight 30 e.key) = e.key ∧ '\n' ∉ e.hint ∧ '%' ∉ e.hint := by
  have hk := templateKeys_ok _ (keys_mem c h s hs) (e.key, e.type, e.hint) (List.mem_map.2 ⟨e, he, rfl⟩)
  unfold keyOk at hk
  simp only [Bool.and_eq_true, Bool.not_eq_true', decide_eq_true_eq] at hk
  obtain ⟨⟨⟨⟨⟨⟨h1, h2⟩, h3⟩, h4⟩, h5⟩, h6⟩, h7⟩ := hk
  have nm : ∀ (t : Text) (c : Char), t.contains c = false → c ∉ t := by
    intro t c h hm
    rw [List.contains_iff_mem.2 hm] at h
    cases h
  have np : ∀ (t : Text) (c : Char), c ∉ t → c ≠ ' ' → c ∉ padRight 30 t := by
    intro t c h hc hm
    unfold padRight at hm
    rcases List.mem_append.1 hm with hm | hm
    · exact h hm
    · exact hc (List.eq_of_mem_replicate hm)
  refine ⟨⟨?_, ?_, np _ _ (nm _ _ h2) (by decide), np _ _ (nm _ _ h3) (by decide), np _ _ (nm _ _ h4) (by decide)⟩, ?_,
    nm _ _ h5, nm _ _ h6⟩
  · cases hkey : e.key with
    | nil => rw [hkey] at h1; cases h1
    | cons d k => unfold padRight; simp
  · intro d hd
    cases hkey : e.key with
    | nil => rw [hkey] at h1; cases h1
    | cons d' k =>
      rw [hkey] at h1 hd
      unfold padRight at hd
      rw [List.cons_append, List.head?_cons] at hd
      obtain rfl := Option.some.inj hd
      simp only [Bool.and_eq_true, Bool.not_eq_true', decide_eq_true_eq] at h1
      exact ⟨h1.1.1.1, h1.1.1.2, h1.1.2, h1.2⟩
  · unfold padRight
    rw [rstrip_append_space _ _ (fun d hd => by rw [List.eq_of_mem_replicate hd]; decide), ← h7, rstrip_strip]

theorem printed_plain (ft : FloatText K) (c : Config K) (h : TemplateKeys c) (hp : PrintsPlain ft c) :
    PlainFile (printedContent ft c) := by
  refine ⟨?_, ?_, ?_⟩
  · intro s hs
    obtain ⟨t, ht, rfl⟩ := List.mem_map.1 hs
    have := templateKeys_names _ (keys_mem c h t ht)
    exact ⟨this.1, this.2.1, this.2.2.1⟩
  · have e : (printedContent ft c).map (fun s => lower s.1) = (keysOf c).map fun s => lower s.1 := by
      unfold printedContent keysOf
      rw [List.map_map, List.map_map]; rfl
    rw [e, h, keysOf_template]
    exact templateKeys_nodup
  · intro s hs
    obtain ⟨t, ht, rfl⟩ := List.mem_map.1 hs
    constructor
    · rw [List.map_map]
      have e : (t.2.map ((fun i : Text × Text => lower (rstrip i.1)) ∘ fun e : Entry K =>
          (padRight 30 e.key, ' ' :: padRight 10 (valueText ft e.value) ++ "# ".toList ++ e.hint))) =
          t.2.map fun e => lower e.key := by
        refine List.map_congr_left fun e he => ?_
        rw [Function.comp_apply]
        rw [(entry_ok c h t ht e he).2.1]
      rw [e]
      have hk := keysOf_keys c _ h
      have : t.2.map (fun e => e.key) ∈ (template (K := K)).map fun s => s.2.map fun e => e.key := by
        rw [← hk]; exact List.mem_map.2 ⟨t, ht, rfl⟩
      obtain ⟨s', hs', he⟩ := List.mem_map.1 this
      have hn := template_nodup s' hs'
      have e1 : t.2.map (fun e => lower e.key) = (t.2.map fun e => e.key).map lower := by rw [List.map_map]; rfl
      have e2 : s'.2.map (fun e => lower e.key) = (s'.2.map fun e => e.key).map lower := by rw [List.map_map]; rfl
      rw [e1, ← he, ← e2]
      exact hn
    · intro i hi
      obtain ⟨e, he, rfl⟩ := List.mem_map.1 hi
      obtain ⟨k1, k2, k3, k4⟩ := entry_ok c h t ht e he
      obtain ⟨v1, v2⟩ := hp t ht e he
      have np : ∀ c : Char, c ∉ valueText ft e.value → c ∉ e.hint → c ≠ ' ' → c ≠ '#' →
          c ∉ ' ' :: padRight 10 (valueText ft e.value) ++ "# ".toList ++ e.hint := by
        intro c a1 a2 a3 a4 hm
        unfold padRight at hm
        rcases List.mem_append.1 hm with hm | hm
        · rcases List.mem_append.1 hm with hm | hm
          · rcases List.mem_cons.1 hm with hm | hm
            · exact a3 hm
            · rcases List.mem_append.1 hm with hm | hm
              · exact a1 hm
              · exact a3 (List.eq_of_mem_replicate hm)
          · have : c = '#' ∨ c = ' ' := by simpa using hm
            rcases this with e | e
            · exact a4 e
            · exact a3 e
        · exact a2 hm
      exact ⟨k1, np _ v1 k3 (by decide) (by decide), np _ v2 k4 (by decide) (by decide)⟩

theorem find_map {α β : Type} (l : List α) (g : α → β) (p : β → Bool) :
    (l.map g).find? p = (l.find? fun x => p (g x)).map g := by
  induction l with
  | nil => rfl
  | cons a l ih =>
    rw [List.map_cons, List.find?_cons, List.find?_cons, ih]
    cases p (g a) <;> rfl

theorem find_congr {α : Type} (l : List α) (p q : α → Bool) (h : ∀ x ∈ l, p x = q x) : l.find? p = l.find? q := by
  induction l with
  | nil => rfl
  | cons a l ih =>
    rw [List.find?_cons, List.find?_cons, h a List.mem_cons_self, ih fun x hx => h x (List.mem_cons_of_mem _ hx)]

/-- The text that a printed configuration gives for a key. -/
theorem printed_value (ft : FloatText K) (c : Config K) (h : TemplateKeys c) (sec k : Text) :
    fileValue (printedContent ft c) sec k =
      (dictGet c sec).bind fun es => (findEntry k es).map fun e =>
        strip ((valueText ft e.value).takeWhile (· ≠ '#')) := by
  unfold fileValue printedContent
  rw [find_map]
  have e1 : (c.find? fun s => decide (lower s.1 = sec)) = c.find? fun s => decide (s.1 = sec) := by
    refine find_congr _ _ _ fun s hs => ?_
    rw [(templateKeys_names _ (keys_mem c h s hs)).2.2.2]
  simp only
  rw [e1]
  unfold dictGet
  cases hf : c.find? fun s => decide (s.1 = sec) with
  | none => rfl
  | some s =>
    have hs := List.mem_of_find?_eq_some hf
    simp only [Option.map_some, Option.bind_some]
    rw [find_map]
    have e2 : (s.2.find? fun e => decide (lower (rstrip (padRight 30 e.key)) = lower k)) = findEntry k s.2 := by
      unfold findEntry
      refine find_congr _ _ _ fun e he => ?_
      rw [(entry_ok c h s hs e he).2.1]
    simp only
    rw [e2]
    cases findEntry k s.2 with
    | none => rfl
    | some e =>
      simp only [Option.map_some]
      refine congrArg some ?_
      have hpad : ∀ t : Text, '#' ∉ t → strip (' ' :: padRight 10 t) = strip t := by
        intro t _
        have := strip_pad [' '] t (List.replicate (10 - t.length) ' ') (by decide)
          (fun d hd => by rw [List.eq_of_mem_replicate hd]; decide)
        exact this
      by_cases hv : '#' ∈ valueText ft e.value
      · obtain ⟨a, b, he, ha⟩ := split_at_first '#' _ hv
        rw [he]
        unfold padRight
        rw [takeWhile_append_sep a b '#' ha]
        have : (' ' :: (a ++ '#' :: b ++ List.replicate (10 - (a ++ '#' :: b).length) ' ') ++ "# ".toList ++ e.hint : Text) =
            (' ' :: a) ++ '#' :: (b ++ List.replicate (10 - (a ++ '#' :: b).length) ' ' ++ "# ".toList ++ e.hint) := by
          simp
        rw [this, takeWhile_append_sep]
        · exact strip_lstrip' a
        · rw [List.mem_cons]; rintro (e | e)
          · revert e; decide
          · exact ha e
      · rw [takeWhile_of_not_mem _ _ hv]
        have : (' ' :: padRight 10 (valueText ft e.value) ++ "# ".toList ++ e.hint : Text) =
            (' ' :: padRight 10 (valueText ft e.value)) ++ '#' :: (' ' :: e.hint) := by
          simp
        rw [this, takeWhile_append_sep, hpad _ hv]
        unfold padRight
        rw [List.mem_cons, List.mem_append]
        rintro (e | e | e)
        · revert e; decide
        · exact hv e
        · have := List.eq_of_mem_replicate e; revert this; decide
where
  strip_lstrip' (a : Text) : strip (' ' :: a) = strip a := by
    have := strip_pad [' '] a [] (by decide) (by simp)
    simpa using this

/-! ## Values read back -/

theorem strip_lower_bool (b : Bool) : (strip (lower (if b then "True".toList else "False".toList)) = "true".toList) = (b = true) := by
  cases b
  · simp only [Bool.false_eq_true, if_false]; rw [eq_iff_iff]; constructor
    · intro h; revert h; decide
    · intro h; cases h
  · simp only [if_true]; rw [eq_iff_iff]; constructor
    · intro _; trivial
    · intro _; decide

theorem valueText_trimmed (ft : FloatText K) (ty : ConfigType) (v : ConfigValue K) (h : Printable ft ty v) :
    strip (valueText ft v) = valueText ft v ∧ '#' ∉ valueText ft v := by
  cases v with
  | str t =>
    cases ty <;> first | exact h | exact absurd h id | skip
    · have : t = [] := h
      rw [this]; exact ⟨rfl, by simp [valueText]⟩
  | int n =>
    exact ⟨strip_noSpace _ (intText_noSpace n), fun h => intText_ne n '#' h '#' (by decide) (by decide) rfl⟩
  | float x =>
    refine ⟨strip_number _ (ft.repr_chars x), fun h => ?_⟩
    have := ft.repr_chars x _ h
    revert this; decide
  | bool b =>
    cases b
    · exact ⟨show strip "False".toList = "False".toList by decide, show '#' ∉ "False".toList by decide⟩
    · exact ⟨show strip "True".toList = "True".toList by decide, show '#' ∉ "True".toList by decide⟩
  | list l =>
    have hch : ∀ c ∈ valueText ft (ConfigValue.list l), c = '[' ∨ c = ']' ∨ c = ',' ∨ c = ' ' ∨ c = '-' ∨
        (48 ≤ c.toNat ∧ c.toNat ≤ 57) := by
      intro c hc
      unfold valueText at hc
      rcases List.mem_append.1 hc with hc | hc
      · rcases List.mem_cons.1 hc with hc | hc
        · exact Or.inl hc
        · exact Or.inr (Or.inr (joinInts_chars l c hc))
      · exact Or.inr (Or.inl (by simpa using hc))
    refine ⟨strip_of_trimmed _ ⟨fun c hc => ?_, fun c hc => ?_⟩, fun hc => ?_⟩
    · simp only [valueText] at hc
      rw [List.cons_append, List.head?_cons] at hc
      obtain rfl := Option.some.inj hc
      decide
    · simp only [valueText] at hc
      rw [List.getLast?_append] at hc
      have : c = ']' := by simpa using hc.symm
      rw [this]; decide
    · have := hch _ hc
      revert this; decide
  | path t => cases ty <;> exact absurd h id

/-- A printable value reads back. -/
theorem cast_valueText (ft : FloatText K) (ty : ConfigType) (v : ConfigValue K) (h : Printable ft ty v) :
    castValue ft ty (valueText ft v) = some v ∨ (ty = .list ∧ v = .str [] ∧ castValue ft ty (valueText ft v) = none) := by
  cases v with
  | str t =>
    cases ty <;> first | exact absurd h id | skip
    · exact Or.inl rfl
    · have : t = [] := h
      rw [this]
      exact Or.inr ⟨rfl, rfl, rfl⟩
  | int n =>
    cases ty <;> first | exact absurd h id | skip
    left
    simp only [castValue, valueText]
    rw [parseInt_intText']; rfl
  | float x =>
    cases ty <;> first | exact absurd h id | skip
    left
    simp only [castValue, valueText]
    rw [ft.parse_repr x h]; rfl
  | bool b =>
    cases ty <;> first | exact absurd h id | skip
    left
    unfold castValue valueText
    simp only
    rw [decide_eq_decide.2 (by rw [strip_lower_bool b])]
    cases b <;> rfl
  | list l =>
    cases ty <;> first | exact absurd h id | skip
    left
    unfold castValue valueText
    simp only
    rw [cast_list l h]; rfl
  | path t => cases ty <;> exact absurd h id

/-! ## What a fresh configuration has after loading -/

theorem look_template (sec : Text) (es : List (Entry K)) (hd : dictGet (template (K := K)) sec = some es) (k : Text) :
    look (template (K := K)) sec k = (findEntry k es).map (·.value) := by
  unfold look; rw [hd]; rfl

theorem dictGet_hit {α : Type} (k : Text) (v : α) (d : List (Text × α)) : dictGet ((k, v) :: d) k = some v := by
  rw [dictGet_cons, if_pos rfl]

theorem dictGet_skip {α : Type} (k' k : Text) (h : k ≠ k') (v : α) (d : List (Text × α)) :
    dictGet ((k', v) :: d) k = dictGet d k := by
  rw [dictGet_cons, if_neg fun e => h e.symm]

theorem template_parameters : dictGet (template (K := K)) "parameters".toList = some parameterTemplate := by
  unfold template
  rw [dictGet_skip _ _ sec_ne.1]
  exact dictGet_hit _ _ _

theorem template_debug : dictGet (template (K := K)) "debug".toList = some debugTemplate := by
  unfold template
  rw [dictGet_skip _ _ sec_ne.2.1, dictGet_skip _ _ sec_ne.2.2.1]
  exact dictGet_hit _ _ _

theorem template_input : dictGet (template (K := K)) "input".toList = some inputTemplate := by
  unfold template
  exact dictGet_hit _ _ _

theorem template_output : dictGet (template (K := K)) "output".toList = some outputTemplate := by
  unfold template
  rw [dictGet_skip _ _ sec_ne.2.2.2.1, dictGet_skip _ _ sec_ne.2.2.2.2.1, dictGet_skip _ _ sec_ne.2.2.2.2.2]
  exact dictGet_hit _ _ _

theorem supplied_good (text : Text) (supplied : List (Text × List (Text × Text))) (h : iniParams text = .ok supplied)
    (sec : Text) : GoodOptions ((dictGet supplied sec).getD []) := by
  cases hd : dictGet supplied sec with
  | none => exact ⟨by simp, by simp⟩
  | some items => exact iniParams_good text supplied h (sec, items) (dictGet_mem _ _ _ hd)

theorem newest_supplied (val : Text × Text → Option (ConfigValue K)) (text : Text)
    (supplied : List (Text × List (Text × Text))) (h : iniParams text = .ok supplied) (sec k : Text) :
    newest val ((dictGet supplied sec).getD []) k =
      ((dictGet supplied sec).bind fun items => dictGet items (lower k)).bind fun t => val (lower k, t) := by
  have hg := supplied_good text supplied h sec
  rw [newest_nodup val _ k hg.1 hg.2]
  cases dictGet supplied sec with
  | none => rfl
  | some items => rfl

theorem newest_parameter (ft : FloatText K) (entries : List (Entry K)) (text : Text)
    (supplied : List (Text × List (Text × Text))) (h : iniParams text = .ok supplied) (sec k : Text) (e : Entry K)
    (he : findEntry k entries = some e) :
    (newest (parameterValue ft entries) ((dictGet supplied sec).getD []) k).getD e.value =
      loadedValue ft e ((dictGet supplied sec).bind fun items => dictGet items (lower k)) := by
  rw [newest_supplied _ text supplied h]
  cases (dictGet supplied sec).bind fun items => dictGet items (lower k) with
  | none => rfl
  | some t =>
    simp only [Option.bind_some]
    unfold parameterValue loadedValue
    simp only
    rw [findEntry_congr entries (lower_lower k), he]
    rfl

theorem loaded_parameter (ft : FloatText K) (creatable : Text → Bool) (dir text : Text) (disk : Disk) (s' : IniState K)
    (h : readInifile ft creatable dir text ⟨template, disk⟩ = (s', none)) :
    TemplateKeys s'.config ∧ ∃ supplied, iniParams text = .ok supplied ∧
      (∀ k e, findEntry k (parameterTemplate (K := K)) = some e → look s'.config "parameters".toList k =
        some (loadedValue ft e ((dictGet supplied "parameters".toList).bind fun items => dictGet items (lower k)))) ∧
      (∀ k e, findEntry k (debugTemplate (K := K)) = some e → look s'.config "debug".toList k =
        some (loadedValue ft e ((dictGet supplied "debug".toList).bind fun items => dictGet items (lower k)))) ∧
      (∀ k, findEntry k (parameterTemplate (K := K)) = none → look s'.config "parameters".toList k = none) ∧
      (∀ k, findEntry k (debugTemplate (K := K)) = none → look s'.config "debug".toList k = none) := by
  obtain ⟨supplied, hp, hi, ho, hd, hf, hdirs, hk, hd', hl⟩ := readInifile_spec ft creatable dir text _ s' h
  obtain ⟨n1, n2, n3, n4, n5, n6⟩ := sec_ne
  refine ⟨hk, supplied, hp, fun k e he => ?_, fun k e he => ?_, fun k he => ?_, fun k he => ?_⟩
  · rw [hl, look_template _ _ template_parameters, he]
    unfold suppliedValue
    rw [if_neg n1, if_pos rfl]
    simp only [Option.map_some]
    rw [newest_parameter ft _ text supplied hp _ k e he]
  · rw [hl, look_template _ _ template_debug, he]
    unfold suppliedValue
    rw [if_neg n2, if_neg n3, if_pos rfl]
    simp only [Option.map_some]
    rw [newest_parameter ft _ text supplied hp _ k e he]
  · rw [hl, look_template _ _ template_parameters, he]; rfl
  · rw [hl, look_template _ _ template_debug, he]; rfl

end Fm2prof
