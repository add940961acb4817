import Verif.Proofs.Text

/-!
A parser of decimal numbers, to show that what is assumed of `float` and `str` can be met: numbers with six decimals
are representable and printed with six decimals.
-/

set_option linter.unusedSectionVars false

namespace Fm2prof

variable {K : Type} [Field K] [LinearOrder K] [IsStrictOrderedRing K] [FloorRing K]

/-- Whether a character is a decimal digit. -/
def isDigit (c : Char) : Bool := 48 ≤ c.toNat && c.toNat ≤ 57

/-- A decimal number without sign. -/
def parseUnsigned (t : Text) : Option K :=
  match partition '.' t with
  | none => if t ≠ [] ∧ t.all isDigit then some (digitsValue t : K) else none
  | some (a, b) =>
    if a ++ b ≠ [] ∧ (a ++ b).all isDigit then some ((digitsValue (a ++ b) : K) / 10 ^ b.length) else none

/-- A decimal number with or without sign. -/
def parseSigned : Text → Option K
  | '-' :: r => (parseUnsigned r).map fun x => -x
  | '+' :: r => parseUnsigned r
  | r => parseUnsigned r

/-- A decimal number between spaces. -/
def parseDecimal (t : Text) : Option K := parseSigned (strip t)

theorem isDigit_digitChar (k : Nat) (h : k < 10) : isDigit (digitChar k) = true := by
  unfold isDigit
  rw [(digitChar_props k h).2.2]
  simp; omega

theorem partition_none (sep : Char) (t : Text) (h : sep ∉ t) : partition sep t = none := by
  induction t with
  | nil => rfl
  | cons c cs ih =>
    have hc : c ≠ sep := fun e => h (by simp [e])
    rw [partition, if_neg hc, ih fun h' => h (List.mem_cons_of_mem _ h')]
    rfl

theorem partition_append (sep : Char) (w rest : Text) (h : sep ∉ w) :
    partition sep (w ++ sep :: rest) = some (w, rest) := by
  induction w with
  | nil => simp [partition]
  | cons c cs ih =>
    have hc : c ≠ sep := fun e => h (by simp [e])
    rw [List.cons_append, partition, if_neg hc, ih fun h' => h (List.mem_cons_of_mem _ h')]
    rfl

theorem digit_ne (k : Nat) (h : k < 10) : digitChar k ≠ '.' ∧ digitChar k ≠ '-' ∧ digitChar k ≠ '+' := by
  have := (digitChar_props k h).2.2
  refine ⟨fun e => ?_, fun e => ?_, fun e => ?_⟩ <;> rw [e] at this <;>
    simp only [show '.'.toNat = 46 from rfl, show '-'.toNat = 45 from rfl, show '+'.toNat = 43 from rfl] at this <;> omega

theorem lastDigits_length (d n : Nat) : (lastDigits d n).length = d := by
  unfold lastDigits; simp

theorem lastDigits_all (d n : Nat) : (lastDigits d n).all isDigit = true := by
  rw [List.all_eq_true]
  intro c hc
  obtain ⟨k, hk, rfl⟩ := mem_lastDigits d n c hc
  exact isDigit_digitChar k hk

theorem parseUnsigned_fixed (d n : Nat) :
    parseUnsigned (K := K) (natText (n / 10 ^ d) ++ (if d = 0 then [] else '.' :: lastDigits d n)) =
      some ((n : K) / 10 ^ d) := by
  have hdot : '.' ∉ natText (n / 10 ^ d) := fun h => by
    obtain ⟨k, hk, e⟩ := natText_chars _ _ h
    exact (digit_ne k hk).1 e.symm
  have hall : (natText (n / 10 ^ d)).all isDigit = true := lastDigits_all _ _
  unfold parseUnsigned
  by_cases h : d = 0
  · subst h
    rw [if_pos rfl, List.append_nil, partition_none _ _ hdot]
    simp only
    rw [if_pos ⟨natText_ne_nil _, hall⟩, digitsValue_natText]
    simp
  · rw [if_neg h, partition_append _ _ _ hdot]
    simp only
    rw [if_pos, lastDigits_length]
    · congr 3
      unfold digitsValue
      rw [List.foldl_append, foldl_lastDigits]
      have := digitsValue_natText (n / 10 ^ d)
      unfold digitsValue at this
      rw [this, mul_comm, Nat.div_add_mod]
    · refine ⟨fun e => natText_ne_nil _ (List.append_eq_nil_iff.1 e).1, ?_⟩
      rw [List.all_append, hall, lastDigits_all]; rfl

theorem parseDecimal_fixed (d : Nat) (x : K) : parseDecimal (fmtFixed d x) = some (roundTo d x) := by
  unfold parseDecimal
  rw [strip_noSpace _ (fmtFixed_noSpace d x), roundTo_eq]
  unfold fmtFixed
  split
  · rw [List.singleton_append, parseSigned, parseUnsigned_fixed]; simp
  · rw [List.nil_append]
    have hne := natText_ne_nil ((roundEven (|x| * 10 ^ d)).toNat / 10 ^ d)
    have hch := natText_chars ((roundEven (|x| * 10 ^ d)).toNat / 10 ^ d)
    have := parseUnsigned_fixed (K := K) d (roundEven (|x| * 10 ^ d)).toNat
    cases hn : natText ((roundEven (|x| * 10 ^ d)).toNat / 10 ^ d) with
    | nil => exact absurd hn hne
    | cons c cs =>
      rw [hn] at this hch
      obtain ⟨k, hk, rfl⟩ := hch c (by simp)
      rw [List.cons_append] at this ⊢
      rw [parseSigned, this]
      · simp
      · intro r e; exact (digit_ne k hk).2.1 (List.cons.inj e).1
      · intro r e; exact (digit_ne k hk).2.2 (List.cons.inj e).1

theorem mem_partition (sep : Char) (t a b : Text) (h : partition sep t = some (a, b)) : t = a ++ sep :: b := by
  induction t generalizing a with
  | nil => cases h
  | cons c cs ih =>
    rw [partition] at h
    split at h
    · rename_i e
      obtain ⟨rfl, rfl⟩ := Prod.mk.inj (Option.some.inj h)
      simp [e]
    · obtain ⟨⟨a', b'⟩, h1, h2⟩ := Option.map_eq_some_iff.1 h
      obtain ⟨rfl, rfl⟩ := Prod.mk.inj h2
      rw [ih a' h1]; rfl

theorem parseUnsigned_x (t : Text) (h : 'x' ∈ t) : parseUnsigned (K := K) t = none := by
  unfold parseUnsigned
  split
  · rw [if_neg]
    rintro ⟨_, h2⟩
    have := List.all_eq_true.1 h2 _ h
    revert this; decide
  · rename_i a b hp
    rw [if_neg]
    rintro ⟨_, h2⟩
    rw [mem_partition _ _ _ _ hp] at h
    have hm : 'x' ∈ a ++ b := by simpa using h
    have := List.all_eq_true.1 h2 _ hm
    revert this; decide

theorem mem_dropWhile_of_mem {t : Text} {c : Char} (h : c ∈ t) (hc : isSpace c = false) : c ∈ t.dropWhile isSpace := by
  induction t with
  | nil => cases h
  | cons d ds ih =>
    by_cases hd : isSpace d = true
    · rw [List.dropWhile_cons_of_pos hd]
      rcases List.mem_cons.1 h with rfl | h
      · rw [hc] at hd; cases hd
      · exact ih h
    · rw [List.dropWhile_cons_of_neg hd]; exact h

theorem mem_strip_of_mem {t : Text} {c : Char} (h : c ∈ t) (hc : isSpace c = false) : c ∈ strip t := by
  unfold strip rstrip lstrip
  rw [List.mem_reverse]
  exact mem_dropWhile_of_mem (List.mem_reverse.2 (mem_dropWhile_of_mem h hc)) hc

theorem parseDecimal_x (t : Text) (h : 'x' ∈ t) : parseDecimal (K := K) t = none := by
  unfold parseDecimal
  have := mem_strip_of_mem h (by decide)
  generalize strip t = s at this
  unfold parseSigned
  split
  · rw [parseUnsigned_x]; · rfl
    simpa using this
  · rw [parseUnsigned_x]; simpa using this
  · rw [parseUnsigned_x _ this]

/-- Printing and reading numbers with six decimals. -/
def decimalText (K : Type) [Field K] [LinearOrder K] [IsStrictOrderedRing K] [FloorRing K] : FloatText K where
  parse := parseDecimal
  repr := fmtFixed 6
  near := id
  representable := fun x => roundTo 6 x = x
  parse_strip := fun t => by unfold parseDecimal; rw [strip_strip]
  parse_fixed := fun d x => parseDecimal_fixed d x
  parse_repr := fun x h => by rw [parseDecimal_fixed, h]
  repr_chars := fun x c h => fmtFixed_chars 6 x c h
  repr_ne_nil := fun x => fmtFixed_ne_nil 6 x
  parse_x := fun t h => parseDecimal_x t h

end Fm2prof
