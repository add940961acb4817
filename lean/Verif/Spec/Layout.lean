import Verif.Model.Cli
import Verif.Spec.IniFile

/-! Specification of the layout of configuration files: comments, blank lines, and the order of sections and lines. -/

namespace Fm2prof.Spec

/-- A line that holds a comment only. -/
def IsComment (l : Text) : Prop := (strip l).head? = some '#' ∨ (strip l).head? = some ';'

/-- A line with nothing but spaces. -/
def IsBlank (l : Text) : Prop := ∀ c ∈ l, isSpace c = true

/-- A line that is a comment, is blank, or starts at the margin: it does not continue the line above. -/
def AtMargin (l : Text) : Prop := IsComment l ∨ IsBlank l ∨ ∀ c, l.head? = some c → isSpace c = false

/-- Two plain files with the same lines in sections of the same names, in any order. -/
def SameLines (f g : FileContent) : Prop :=
  (∀ name, (∃ s ∈ f, lower s.1 = name) ↔ ∃ s ∈ g, lower s.1 = name) ∧
    ∀ name i, (∃ s ∈ f, lower s.1 = name ∧ i ∈ s.2) ↔ ∃ s ∈ g, lower s.1 = name ∧ i ∈ s.2

/-- Texts that can be made from each other by adding and removing comments and blank lines, and by changing the order of sections and
lines. A comment can be put anywhere; a blank line only where no line continues the one above. -/
inductive Relayout : Text → Text → Prop
  | refl (t : Text) : Relayout t t
  | symm {t u : Text} : Relayout t u → Relayout u t
  | trans {t u v : Text} : Relayout t u → Relayout u v → Relayout t v
  | comment (before : List Text) (c after : Text) : (∀ l ∈ before, '\n' ∉ l) → '\n' ∉ c → IsComment c →
      Relayout (unlines before ++ after) (unlines (before ++ [c]) ++ after)
  | blank (before : List Text) (b : Text) (after : List Text) : (∀ l ∈ before ++ after, '\n' ∉ l ∧ AtMargin l) → '\n' ∉ b → IsBlank b →
      Relayout (unlines (before ++ after)) (unlines (before ++ b :: after))
  | order (f g : FileContent) : PlainFile f → PlainFile g → SameLines f g → Relayout (fileText f) (fileText g)

/-- Two states of the files that differ only in the layout of configuration files. -/
def SameButLayout (v w : World) : Prop :=
  v.disk = w.disk ∧ v.results = w.results ∧ ∀ path, Option.Rel Relayout (v.texts path) (w.texts path)

end Fm2prof.Spec
