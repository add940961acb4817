import Mathlib.Tactic.Ring
import Mathlib.Tactic.Linarith
import Mathlib.Tactic.FieldSimp
import Mathlib.Algebra.Order.Archimedean.Basic
import Mathlib.Data.List.Basic
import Verif.Model.Text

/-! Helper lemmas about text and printed numbers. -/

set_option linter.unusedSectionVars false

namespace Fm2prof

/-! ## Splitting and joining -/

theorem splitSep_ne_nil (sep : Char) (t : Text) : splitSep sep t ≠ [] := by
  cases t with
  | nil => simp [splitSep]
  | cons c cs =>
    rw [splitSep]
    split
    · simp
    · split <;> simp

theorem splitSep_append (sep : Char) (w rest : Text) (h : sep ∉ w) :
    splitSep sep (w ++ sep :: rest) = w :: splitSep sep rest := by
  induction w with
  | nil => simp [splitSep]
  | cons c cs ih =>
    have hc : c ≠ sep := fun e => h (by simp [e])
    rw [List.cons_append, splitSep, if_neg hc, ih fun h' => h (List.mem_cons_of_mem _ h')]

theorem splitSep_single (sep : Char) (w : Text) (h : sep ∉ w) : splitSep sep w = [w] := by
  induction w with
  | nil => rfl
  | cons c cs ih =>
    have hc : c ≠ sep := fun e => h (by simp [e])
    rw [splitSep, if_neg hc, ih fun h' => h (List.mem_cons_of_mem _ h')]

theorem splitSep_join (sep : Char) (ws : List Text) (hne : ws ≠ []) (h : ∀ w ∈ ws, sep ∉ w) :
    splitSep sep (joinWith [sep] ws) = ws := by
  induction ws with
  | nil => exact absurd rfl hne
  | cons w ws ih =>
    cases ws with
    | nil => exact splitSep_single sep w (h w (by simp))
    | cons v vs =>
      rw [joinWith, List.append_assoc, List.singleton_append, splitSep_append sep w _ (h w (by simp)),
        ih (by simp) fun u hu => h u (List.mem_cons_of_mem _ hu)]
      simp

theorem join_splitSep (sep : Char) (t : Text) : joinWith [sep] (splitSep sep t) = t := by
  induction t with
  | nil => rfl
  | cons c cs ih =>
    rw [splitSep]
    split
    · rename_i h
      cases hs : splitSep sep cs with
      | nil => exact absurd hs (splitSep_ne_nil sep cs)
      | cons w ws => rw [joinWith, ← hs, ih]; simp [h]; simp
    · cases hs : splitSep sep cs with
      | nil => exact absurd hs (splitSep_ne_nil sep cs)
      | cons w ws =>
        rw [hs] at ih
        simp only
        cases ws with
        | nil => simp only [joinWith] at ih ⊢; rw [ih]
        | cons v vs => simp only [joinWith, List.cons_append] at ih ⊢; rw [ih]

theorem splitSep_noSep (sep : Char) (t : Text) : ∀ w ∈ splitSep sep t, sep ∉ w := by
  induction t with
  | nil => intro w hw; simp [splitSep] at hw; simp [hw]
  | cons c cs ih =>
    rw [splitSep]
    split
    · intro w hw
      rcases List.mem_cons.1 hw with rfl | hw
      · simp
      · exact ih w hw
    · rename_i hc
      split
      · intro w hw
        obtain rfl := List.mem_singleton.1 hw
        simpa using fun e => hc e.symm
      · rename_i v vs hs
        rw [hs] at ih
        intro w hw
        rcases List.mem_cons.1 hw with rfl | hw
        · intro hm
          rcases List.mem_cons.1 hm with e | hm
          · exact hc e.symm
          · exact ih v (by simp) hm
        · exact ih w (List.mem_cons_of_mem _ hw)

/-! ## Lines -/

theorem fileLines_append (l rest : Text) (h : '\n' ∉ l) :
    fileLines (l ++ '\n' :: rest) = (l ++ ['\n']) :: fileLines rest := by
  induction l with
  | nil => simp [fileLines]
  | cons c cs ih =>
    have hc : c ≠ '\n' := fun e => h (by simp [e])
    rw [List.cons_append, fileLines, if_neg hc, ih fun h' => h (List.mem_cons_of_mem _ h')]
    rfl

theorem fileLines_last (l : Text) (hne : l ≠ []) (h : '\n' ∉ l) : fileLines l = [l] := by
  induction l with
  | nil => exact absurd rfl hne
  | cons c cs ih =>
    have hc : c ≠ '\n' := fun e => h (by simp [e])
    rw [fileLines, if_neg hc]
    cases cs with
    | nil => rfl
    | cons d ds => rw [ih (by simp) fun h' => h (List.mem_cons_of_mem _ h')]

/-- The lines of a file made of lines. -/
theorem fileLines_flatten (ls : List Text) (h : ∀ l ∈ ls, '\n' ∉ l) (rest : Text) :
    fileLines ((ls.map fun l => l ++ ['\n']).flatten ++ rest) = (ls.map fun l => l ++ ['\n']) ++ fileLines rest := by
  induction ls with
  | nil => rfl
  | cons l ls ih =>
    rw [List.map_cons, List.flatten_cons, List.append_assoc, List.append_assoc, List.singleton_append,
      fileLines_append l _ (h l (by simp)), ih fun m hm => h m (List.mem_cons_of_mem _ hm)]
    rfl

theorem flatten_fileLines (t : Text) : (fileLines t).flatten = t := by
  induction t with
  | nil => rfl
  | cons c cs ih =>
    rw [fileLines]
    split
    · rename_i h; rw [List.flatten_cons, ih, h]; rfl
    · split
      · rename_i hs; rw [hs] at ih; simp at ih; simp [← ih]
      · rename_i l ls hs; rw [hs] at ih; rw [← ih]; simp

/-! ## Stripping -/

theorem lstrip_append_space (a t : Text) (h : ∀ c ∈ a, isSpace c = true) : lstrip (a ++ t) = lstrip t := by
  induction a with
  | nil => rfl
  | cons c cs ih =>
    unfold lstrip at ih ⊢
    rw [List.cons_append, List.dropWhile_cons_of_pos (h c (by simp)), ih fun d hd => h d (List.mem_cons_of_mem _ hd)]

theorem rstrip_append_space (t b : Text) (h : ∀ c ∈ b, isSpace c = true) : rstrip (t ++ b) = rstrip t := by
  unfold rstrip
  rw [List.reverse_append]
  have := lstrip_append_space b.reverse t.reverse (by simpa using h)
  unfold lstrip at this
  rw [this]

theorem lstrip_append_of_ne (t b : Text) (h : ∃ c ∈ t, isSpace c = false) : lstrip (t ++ b) = lstrip t ++ b := by
  induction t with
  | nil => obtain ⟨c, hc, _⟩ := h; cases hc
  | cons c cs ih =>
    unfold lstrip at ih ⊢
    by_cases hc : isSpace c = true
    · rw [List.cons_append, List.dropWhile_cons_of_pos hc, List.dropWhile_cons_of_pos hc]
      apply ih
      obtain ⟨d, hd, hs⟩ := h
      rcases List.mem_cons.1 hd with rfl | hd
      · rw [hc] at hs; cases hs
      · exact ⟨d, hd, hs⟩
    · rw [List.cons_append, List.dropWhile_cons_of_neg hc, List.dropWhile_cons_of_neg hc]
      rfl

theorem lstrip_all_space (t : Text) (h : ∀ c ∈ t, isSpace c = true) : lstrip t = [] := by
  have := lstrip_append_space t [] h
  rw [List.append_nil] at this
  rw [this]; rfl

theorem strip_pad (a t b : Text) (ha : ∀ c ∈ a, isSpace c = true) (hb : ∀ c ∈ b, isSpace c = true) :
    strip (a ++ t ++ b) = strip t := by
  unfold strip
  rw [List.append_assoc, lstrip_append_space a _ ha]
  by_cases h : ∃ c ∈ t, isSpace c = false
  · rw [lstrip_append_of_ne t b h, rstrip_append_space _ b hb]
  · have h' : ∀ c ∈ t, isSpace c = true := fun c hc => by
      by_contra hn; exact h ⟨c, hc, by simpa using hn⟩
    rw [lstrip_all_space t h', lstrip_all_space]
    intro c hc
    rcases List.mem_append.1 hc with hc | hc
    · exact h' c hc
    · exact hb c hc

/-- A text without space at its ends. -/
def Trimmed (t : Text) : Prop :=
  (∀ c, t.head? = some c → isSpace c = false) ∧ (∀ c, t.getLast? = some c → isSpace c = false)

theorem lstrip_of_head (t : Text) (h : ∀ c, t.head? = some c → isSpace c = false) : lstrip t = t := by
  cases t with
  | nil => rfl
  | cons c cs =>
    unfold lstrip
    rw [List.dropWhile_cons_of_neg]
    rw [h c rfl]; simp

theorem strip_of_trimmed (t : Text) (h : Trimmed t) : strip t = t := by
  unfold strip
  rw [lstrip_of_head t h.1]
  unfold rstrip
  have := lstrip_of_head t.reverse (by rw [List.head?_reverse]; exact h.2)
  unfold lstrip at this
  rw [this, List.reverse_reverse]

theorem strip_noSpace (t : Text) (h : ∀ c ∈ t, isSpace c = false) : strip t = t :=
  strip_of_trimmed t ⟨fun c hc => h c (List.mem_of_mem_head? hc), fun c hc => h c (List.mem_of_getLast? hc)⟩

theorem strip_pad_trimmed (a t b : Text) (ha : ∀ c ∈ a, isSpace c = true) (hb : ∀ c ∈ b, isSpace c = true)
    (h : Trimmed t) : strip (a ++ t ++ b) = t := by
  rw [strip_pad a t b ha hb, strip_of_trimmed t h]

theorem mem_of_mem_dropWhile {α : Type} (p : α → Bool) (l : List α) (x : α) (h : x ∈ l.dropWhile p) : x ∈ l :=
  (List.dropWhile_suffix p).subset h

theorem mem_of_mem_strip (t : Text) (c : Char) (h : c ∈ strip t) : c ∈ t := by
  unfold strip rstrip lstrip at h
  rw [List.mem_reverse] at h
  have := mem_of_mem_dropWhile _ _ _ h
  rw [List.mem_reverse] at this
  exact mem_of_mem_dropWhile _ _ _ this

theorem head_dropWhile (t : Text) (c : Char) (h : (t.dropWhile isSpace).head? = some c) : isSpace c = false := by
  induction t with
  | nil => cases h
  | cons d ds ih =>
    by_cases hd : isSpace d = true
    · rw [List.dropWhile_cons_of_pos hd] at h; exact ih h
    · rw [List.dropWhile_cons_of_neg hd] at h
      obtain rfl := Option.some.inj h
      simpa using hd

theorem getLast_dropWhile (t : Text) (c : Char) (h : (t.dropWhile isSpace).getLast? = some c) :
    t.getLast? = some c := by
  obtain ⟨p, hp⟩ := List.dropWhile_suffix isSpace (l := t)
  rw [← hp, List.getLast?_append, h]; rfl

theorem strip_trimmed (t : Text) : Trimmed (strip t) := by
  constructor
  · intro c hc
    unfold strip rstrip at hc
    rw [List.head?_reverse] at hc
    have := getLast_dropWhile _ c hc
    rw [List.getLast?_reverse] at this
    exact head_dropWhile t c this
  · intro c hc
    unfold strip rstrip at hc
    rw [List.getLast?_reverse] at hc
    exact head_dropWhile _ c hc

theorem strip_strip (t : Text) : strip (strip t) = strip t := strip_of_trimmed _ (strip_trimmed t)

/-! ## Words -/

theorem splitWs_space (c : Char) (cs : Text) (h : isSpace c = true) : splitWs (c :: cs) = splitWs cs := by
  cases cs <;> simp [splitWs, h]

theorem splitWs_word (w rest : Text) (hne : w ≠ []) (h : ∀ c ∈ w, isSpace c = false)
    (hr : ∀ c, rest.head? = some c → isSpace c = true) : splitWs (w ++ rest) = w :: splitWs rest := by
  induction w with
  | nil => exact absurd rfl hne
  | cons c cs ih =>
    have hc : isSpace c = false := h c (by simp)
    cases cs with
    | nil =>
      cases rest with
      | nil => simp [splitWs, hc]
      | cons d ds =>
        rw [List.singleton_append, splitWs]
        simp [hc, hr d rfl]
    | cons d ds =>
      have hd : isSpace d = false := h d (by simp)
      have ih' := ih (by simp) fun e he => h e (List.mem_cons_of_mem _ he)
      rw [List.cons_append, List.cons_append, splitWs]
      rw [List.cons_append] at ih'
      simp [hc, hd, ih']

theorem splitWs_join (ws : List Text) (hne : ∀ w ∈ ws, w ≠ []) (h : ∀ w ∈ ws, ∀ c ∈ w, isSpace c = false)
    (rest : Text) (hr : ∀ c ∈ rest, isSpace c = true) : splitWs (joinWith [' '] ws ++ rest) = ws := by
  have hrest : splitWs rest = [] := by
    clear hne h
    induction rest with
    | nil => rfl
    | cons c cs ih =>
      rw [splitWs_space c cs (hr c (by simp)), ih fun d hd => hr d (List.mem_cons_of_mem _ hd)]
  induction ws with
  | nil => exact hrest
  | cons w ws ih =>
    cases ws with
    | nil =>
      rw [joinWith, splitWs_word w rest (hne w (by simp)) (h w (by simp)) (fun c hc => hr c (List.mem_of_mem_head? hc)),
        hrest]
    | cons v vs =>
      rw [joinWith, List.append_assoc, List.append_assoc,
        splitWs_word w _ (hne w (by simp)) (h w (by simp))]
      · rw [List.singleton_append, splitWs_space ' ' _ (by decide), ih (fun u hu => hne u (List.mem_cons_of_mem _ hu))
          fun u hu => h u (List.mem_cons_of_mem _ hu)]
      · intro c hc
        obtain rfl := Option.some.inj hc
        decide
      · simp

theorem splitWs_lstrip (a t : Text) (h : ∀ c ∈ a, isSpace c = true) : splitWs (a ++ t) = splitWs t := by
  induction a with
  | nil => rfl
  | cons c cs ih =>
    rw [List.cons_append, splitWs_space c _ (h c (by simp)), ih fun d hd => h d (List.mem_cons_of_mem _ hd)]

/-! ## Digits -/

theorem digitChar_props (d : Nat) (h : d < 10) :
    digitChar d ∈ numberChars ∧ isSpace (digitChar d) = false ∧ (digitChar d).toNat = 48 + d := by
  have : d = 0 ∨ d = 1 ∨ d = 2 ∨ d = 3 ∨ d = 4 ∨ d = 5 ∨ d = 6 ∨ d = 7 ∨ d = 8 ∨ d = 9 := by omega
  rcases this with rfl | rfl | rfl | rfl | rfl | rfl | rfl | rfl | rfl | rfl <;> decide +kernel

theorem mem_lastDigits (d n : Nat) (c : Char) (h : c ∈ lastDigits d n) : ∃ k < 10, c = digitChar k := by
  unfold lastDigits at h
  obtain ⟨i, _, rfl⟩ := List.mem_map.1 h
  exact ⟨_, Nat.mod_lt _ (by norm_num), rfl⟩

/-- The number written by a list of digits. -/
def digitsValue (t : Text) : Nat := t.foldl (fun acc c => acc * 10 + (c.toNat - 48)) 0

theorem lastDigits_succ (d n : Nat) : lastDigits (d + 1) n = digitChar (n / 10 ^ d % 10) :: lastDigits d n := by
  unfold lastDigits
  rw [List.range_succ, List.reverse_append]
  rfl

theorem foldl_lastDigits (d n a : Nat) :
    (lastDigits d n).foldl (fun acc c => acc * 10 + (c.toNat - 48)) a = a * 10 ^ d + n % 10 ^ d := by
  induction d generalizing a with
  | zero => simp [lastDigits, Nat.mod_one]
  | succ d ih =>
    rw [lastDigits_succ, List.foldl_cons, ih, (digitChar_props _ (Nat.mod_lt _ (by norm_num))).2.2,
      Nat.add_sub_cancel_left]
    have : n % 10 ^ (d + 1) = n % 10 ^ d + 10 ^ d * (n / 10 ^ d % 10) := by
      rw [pow_succ, Nat.mod_mul]
    rw [this]; ring

theorem digitsValue_lastDigits (d n : Nat) : digitsValue (lastDigits d n) = n % 10 ^ d := by
  unfold digitsValue; rw [foldl_lastDigits]; simp

theorem digitsValue_natText (n : Nat) : digitsValue (natText n) = n := by
  unfold natText
  rw [digitsValue_lastDigits]
  exact Nat.mod_eq_of_lt (Nat.lt_pow_succ_log_self (by norm_num) n)

theorem natText_ne_nil (n : Nat) : natText n ≠ [] := by
  unfold natText digitCount
  rw [lastDigits_succ]; simp

theorem natText_chars (n : Nat) (c : Char) (h : c ∈ natText n) : ∃ k < 10, c = digitChar k :=
  mem_lastDigits _ _ c h

section Round

variable {K : Type} [Field K] [LinearOrder K] [IsStrictOrderedRing K] [FloorRing K]

theorem fmtFixed_chars (d : Nat) (x : K) (c : Char) (h : c ∈ fmtFixed d x) : c ∈ numberChars := by
  unfold fmtFixed at h
  rcases List.mem_append.1 h with h | h
  · split at h
    · obtain rfl := List.mem_singleton.1 h; decide +kernel
    · cases h
  · rcases List.mem_append.1 h with h | h
    · obtain ⟨k, hk, rfl⟩ := natText_chars _ c h
      exact (digitChar_props k hk).1
    · split at h
      · cases h
      · rcases List.mem_cons.1 h with rfl | h
        · decide +kernel
        · obtain ⟨k, hk, rfl⟩ := mem_lastDigits _ _ c h
          exact (digitChar_props k hk).1

theorem fmtFixed_ne_nil (d : Nat) (x : K) : fmtFixed d x ≠ [] := by
  unfold fmtFixed
  intro h
  have := (List.append_eq_nil_iff.1 (List.append_eq_nil_iff.1 h).2).1
  exact natText_ne_nil _ this

theorem numberChars_noSpace (c : Char) (h : c ∈ numberChars) :
    isSpace c = false ∧ c ≠ ',' ∧ c ≠ '\n' ∧ c ≠ '=' ∧ c ≠ ';' ∧ c ≠ '_' ∧ c ≠ '#' ∧ c ≠ '[' ∧ c ≠ ']' := by
  have : numberChars.all fun c => isSpace c = false ∧ c ≠ ',' ∧ c ≠ '\n' ∧ c ≠ '=' ∧ c ≠ ';' ∧ c ≠ '_' ∧ c ≠ '#' ∧ c ≠ '[' ∧ c ≠ ']' := by
    decide +kernel
  simpa using List.all_eq_true.1 this c h

theorem fmtFixed_noSpace (d : Nat) (x : K) : ∀ c ∈ fmtFixed d x, isSpace c = false :=
  fun c hc => (numberChars_noSpace c (fmtFixed_chars d x c hc)).1

theorem roundEven_spec (x : K) : |(roundEven x : K) - x| ≤ 1 / 2 := by
  have h1 := Int.floor_le x
  have h2 := Int.lt_floor_add_one x
  unfold roundEven
  rw [abs_le]
  split
  · constructor <;> linarith
  · split
    · push_cast; constructor <;> linarith
    · split
      · constructor <;> linarith
      · push_cast; constructor <;> linarith

theorem roundEven_intCast (n : Int) : roundEven (n : K) = n := by
  unfold roundEven
  rw [Int.floor_intCast]; simp

theorem roundEven_mono {x y : K} (h : x ≤ y) : roundEven x ≤ roundEven y := by
  have hfl := Int.floor_le_floor h
  rcases eq_or_lt_of_le hfl with he | hlt
  · unfold roundEven
    rw [← he]
    split_ifs <;> first | omega | (exfalso; linarith)
  · have a1 : roundEven x ≤ ⌊x⌋ + 1 := by unfold roundEven; split_ifs <;> omega
    have a2 : ⌊y⌋ ≤ roundEven y := by unfold roundEven; split_ifs <;> omega
    omega

theorem roundEven_nonneg {x : K} (h : 0 ≤ x) : 0 ≤ roundEven x := by
  have := roundEven_mono h
  have h0 : roundEven (0 : K) = 0 := by simpa using roundEven_intCast (K := K) 0
  omega

theorem pow10_pos (d : Nat) : (0 : K) < 10 ^ d := by positivity

theorem roundTo_spec (d : Nat) (x : K) : |roundTo d x - x| ≤ 1 / 2 / 10 ^ d := by
  have hp := pow10_pos (K := K) d
  unfold roundTo
  split
  · have := roundEven_spec (-x * 10 ^ d)
    have e : -((roundEven (-x * 10 ^ d) : K) / 10 ^ d) - x = -(((roundEven (-x * 10 ^ d) : K) - -x * 10 ^ d) / 10 ^ d) := by
      field_simp; ring
    rw [e, abs_neg, abs_div, abs_of_pos hp]
    gcongr
  · have := roundEven_spec (x * 10 ^ d)
    have e : (roundEven (x * 10 ^ d) : K) / 10 ^ d - x = ((roundEven (x * 10 ^ d) : K) - x * 10 ^ d) / 10 ^ d := by
      field_simp
    rw [e, abs_div, abs_of_pos hp]
    gcongr

theorem roundTo_mono (d : Nat) {x y : K} (h : x ≤ y) : roundTo d x ≤ roundTo d y := by
  have hp := pow10_pos (K := K) d
  unfold roundTo
  split
  · rename_i hx
    split
    · apply neg_le_neg
      have : roundEven (-y * 10 ^ d) ≤ roundEven (-x * 10 ^ d) :=
        roundEven_mono (mul_le_mul_of_nonneg_right (by linarith) hp.le)
      gcongr
    · rename_i hy
      have h1 : (0 : K) ≤ (roundEven (-x * 10 ^ d) : K) := by
        exact_mod_cast roundEven_nonneg (mul_nonneg (by linarith) hp.le)
      have h2 : (0 : K) ≤ (roundEven (y * 10 ^ d) : K) := by
        exact_mod_cast roundEven_nonneg (mul_nonneg (by linarith) hp.le)
      have := div_nonneg h1 hp.le
      have := div_nonneg h2 hp.le
      linarith
  · rename_i hx
    rw [if_neg (by linarith)]
    have : roundEven (x * 10 ^ d) ≤ roundEven (y * 10 ^ d) :=
      roundEven_mono (mul_le_mul_of_nonneg_right h hp.le)
    gcongr

/-- The printed digits of a number. -/
theorem roundTo_eq (d : Nat) (x : K) :
    roundTo d x = (if x < 0 then -1 else 1) * (((roundEven (|x| * 10 ^ d)).toNat : K) / 10 ^ d) := by
  have hp := pow10_pos (K := K) d
  have h0 : 0 ≤ roundEven (|x| * 10 ^ d) := roundEven_nonneg (mul_nonneg (abs_nonneg x) hp.le)
  have e : ((roundEven (|x| * 10 ^ d)).toNat : K) = (roundEven (|x| * 10 ^ d) : K) := by
    have := Int.toNat_of_nonneg h0
    exact_mod_cast congrArg (Int.cast (R := K)) this
  rw [e]
  unfold roundTo
  split
  · rename_i hx; rw [abs_of_neg hx]; ring
  · rename_i hx; rw [abs_of_nonneg (not_lt.1 hx)]; ring

end Round

end Fm2prof
