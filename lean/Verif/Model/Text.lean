import Mathlib.Algebra.Order.Floor.Ring
import Mathlib.Algebra.Order.Field.Basic
import Mathlib.Data.Nat.Log
import Verif.Model.Basic

/-!
# Text

Python strings as lists of characters, the string methods used by the readers and writers, printing of numbers with a
fixed number of decimals, and what is assumed of `float` and `repr`.
-/

namespace Fm2prof

/-- A Python string. -/
abbrev Text := List Char

/-- `str.isspace` for one character: the characters removed by `str.strip()`. -/
def isSpace (c : Char) : Bool :=
  c.toNat ∈ [9, 10, 11, 12, 13, 28, 29, 30, 31, 32, 133, 160, 5760, 8192, 8193, 8194, 8195, 8196, 8197, 8198, 8199, 8200,
    8201, 8202, 8232, 8233, 8239, 8287, 12288]

/-- `str.lstrip()`. -/
def lstrip (t : Text) : Text := t.dropWhile isSpace

/-- `str.rstrip()`. -/
def rstrip (t : Text) : Text := (t.reverse.dropWhile isSpace).reverse

/-- `str.strip()`. -/
def strip (t : Text) : Text := rstrip (lstrip t)

/-- `str.lower()`. Lean's `Char.toLower` changes ASCII letters only. -/
def lower (t : Text) : Text := t.map Char.toLower

/-- `str.split(sep)` for a separator of one character. -/
def splitSep (sep : Char) : Text → List Text
  | [] => [[]]
  | c :: cs =>
    if c = sep then [] :: splitSep sep cs
    else
      match splitSep sep cs with
      | [] => [[c]]
      | w :: ws => (c :: w) :: ws

/-- `sep.join(words)`. -/
def joinWith (sep : Text) : List Text → Text
  | [] => []
  | [w] => w
  | w :: ws => w ++ sep ++ joinWith sep ws

/-- `str.split()`: the maximal runs of characters that are not whitespace. -/
def splitWs : Text → List Text
  | [] => []
  | c :: cs =>
    if isSpace c then splitWs cs
    else
      match cs with
      | [] => [[c]]
      | d :: _ =>
        if isSpace d then [c] :: splitWs cs
        else
          match splitWs cs with
          | [] => [[c]]
          | w :: ws => (c :: w) :: ws

/-- `str.partition(sep)` for a separator of one character: the parts before and after its first occurrence. -/
def partition (sep : Char) : Text → Option (Text × Text)
  | [] => none
  | c :: cs => if c = sep then some ([], cs) else (partition sep cs).map fun p => (c :: p.1, p.2)

/-- Iterating over a text file: its lines, each with its line break. -/
def fileLines : Text → List Text
  | [] => []
  | c :: cs =>
    if c = '\n' then ['\n'] :: fileLines cs
    else
      match fileLines cs with
      | [] => [[c]]
      | l :: ls => (c :: l) :: ls

/-! ## Numbers -/

/-- The character of a decimal digit. -/
def digitChar (d : Nat) : Char := Char.ofNat (48 + d)

/-- `d` decimal digits of `n`, the last ones. -/
def lastDigits (d n : Nat) : Text := (List.range d).reverse.map fun (i : Nat) => digitChar (n / 10 ^ i % 10)

/-- Number of decimal digits needed for `n`, at least one. -/
def digitCount (n : Nat) : Nat := Nat.log 10 n + 1

/-- `str(n)` for a natural number. -/
def natText (n : Nat) : Text := lastDigits (digitCount n) n

/-- `str(n)` for an integer. -/
def intText (n : Int) : Text := (if n < 0 then ['-'] else []) ++ natText n.natAbs

section Round

variable {K : Type} [Field K] [LinearOrder K] [IsStrictOrderedRing K] [FloorRing K]

/-- Rounding to the nearest integer, ties to even, as Python's number formatting and `round` do. -/
def roundEven (x : K) : Int :=
  if x - ⌊x⌋ < 1 / 2 then ⌊x⌋
  else if 1 / 2 < x - ⌊x⌋ then ⌊x⌋ + 1
  else if ⌊x⌋ % 2 = 0 then ⌊x⌋
  else ⌊x⌋ + 1

/-- A number rounded to `d` decimals. -/
def roundTo (d : Nat) (x : K) : K :=
  if x < 0 then -((roundEven (-x * 10 ^ d) : K) / 10 ^ d) else (roundEven (x * 10 ^ d) : K) / 10 ^ d

/-- `f"{x:.df}"`. -/
def fmtFixed (d : Nat) (x : K) : Text :=
  (if x < 0 then ['-'] else []) ++
    (natText ((roundEven (|x| * 10 ^ d)).toNat / 10 ^ d) ++
      (if d = 0 then [] else '.' :: lastDigits d (roundEven (|x| * 10 ^ d)).toNat))

/-- Characters that occur in printed numbers. -/
def numberChars : List Char := "0123456789+-.e".toList

/-- What is assumed of Python's `float(text)` and `str(x)`. `near` is rounding to a float. `representable` are the
numbers that are floats. -/
structure FloatText (K : Type) [Field K] [LinearOrder K] [IsStrictOrderedRing K] [FloorRing K] where
  parse : Text → Option K
  repr : K → Text
  near : K → K
  representable : K → Prop
  parse_strip : ∀ t, parse (strip t) = parse t
  parse_fixed : ∀ d x, parse (fmtFixed d x) = some (near (roundTo d x))
  parse_repr : ∀ x, representable x → parse (repr x) = some x
  repr_chars : ∀ x, ∀ c ∈ repr x, c ∈ numberChars
  repr_ne_nil : ∀ x, repr x ≠ []
  parse_x : ∀ t, 'x' ∈ t → parse t = none

end Round

end Fm2prof
