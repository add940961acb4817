import Verif.Model.ReaderObject
import Verif.Spec.Reader

/-!
# What using a reader of results is expected to give
-/

namespace Fm2prof.Spec

variable {K : Type} [Field K] [LinearOrder K] [IsStrictOrderedRing K] [FloorRing K]

/-- `op` is in a script and is the last of its kind, or there is none of its kind and the reader has `op`'s value already. -/
def LastOfKind (kind : ReaderOp → Prop) (op : ReaderOp) (good : ReaderWorld K → Prop) (already : Prop)
    (ops : List (ReaderWorld K × ReaderOp)) : Prop :=
  (∃ w before after, good w ∧ ops = before ++ (w, op) :: after ∧ ∀ o ∈ after, ¬ kind o.2) ∨ (already ∧ ∀ o ∈ ops, ¬ kind o.2)

/-- After a script everything that can be set has a value: the last one assigned, by paths that are files or a directory when
they are assigned, or, if none is assigned, that of the reader `r` before. Values assigned before do not matter. -/
structure Sets (r : ReaderState K) (ops : List (ReaderWorld K × ReaderOp)) (p1 p2 d : Text) (offset a b : Int) : Prop where
  path1 : LastOfKind (fun op => ∃ p, op = .setPath1 p) (.setPath1 p1) (fun w => w.isFile p1 = true) (r.path1 = some p1) ops
  path2 : LastOfKind (fun op => ∃ p, op = .setPath2 p) (.setPath2 p2) (fun w => w.isFile p2 = true) (r.path2 = some p2) ops
  out : LastOfKind (fun op => ∃ p, op = .setOutput p) (.setOutput d) (fun w => w.isDir d = true) (r.out = d) ops
  offset : LastOfKind (fun op => ∃ n, op = .setOffset n) (.setOffset offset) (fun _ => True) (r.offset = offset) ops
  start : LastOfKind (fun op => ∃ t, op = .setStart (some t)) (.setStart (some a)) (fun _ => True) (r.window.start = some a) ops
  stop : LastOfKind (fun op => ∃ t, op = .setStop (some t)) (.setStop (some b)) (fun _ => True) (r.window.stop = some b) ops

/-- The rows of a table from one time to another, with both. -/
def between (a b : Int) (times : List Int) (rows : List (List (Option K))) : List (Int × List (Option K)) :=
  (times.zip rows).filter fun r => a ≤ r.1 ∧ r.1 ≤ b

/-- Some of the times are after `a`, some before `b`. -/
def Overlaps (a b : Int) (times : List Int) : Prop :=
  ∃ first last, times.head? = some first ∧ times.getLast? = some last ∧ a < last ∧ first < b

/-- The files of a reader. -/
def readerFiles : List Text :=
  ["1D_Q.csv".toList, "1D_H.csv".toList, "2D_Q.csv".toList, "2D_H.csv".toList, "map_1d_2d.csv".toList]

/-- Assigning a time. -/
def SetsTime : ReaderOp → Prop
  | .setStart (some _) => True
  | .setStop (some _) => True
  | _ => False

end Fm2prof.Spec
