import Verif.Model.Locations
import Verif.Model.Runner

/-!
# The location generator and its files

Models the constructor of `GenerateCrossSectionLocationFile` (`utils.py`), which reads the network definition file and the branch rule
file and writes the location file. Files are a store; a path is a text. The location file is opened for writing before its lines are made,
so what is written stays when a line fails.
-/

namespace Fm2prof

variable {K : Type} [Field K] [LinearOrder K] [IsStrictOrderedRing K] [FloorRing K]

/-- The lines of the location file until a column has no entry for a row (utils.py:414-415), and whether all were written. -/
def locationRows (p : Points K) : List Nat → Text × Option PyErr
  | [] => ([], none)
  | i :: is =>
    match p.cid[i]?, p.x[i]?, p.y[i]?, p.cdis[i]?, p.bid[i]?, p.coff[i]? with
    | some c, some x, some y, some d, some b, some o =>
      (locationLine ⟨c, x, y, d, b, o⟩ ++ '\n' :: (locationRows p is).1, (locationRows p is).2)
    | _, _, _, _, _, _ => ([], some .indexError)

/-- `_write_cross_section_location_file` (utils.py:394-415) with the file it leaves. -/
def writeLocationFile (s : Store) (path : Text) (p : Points K) : Store × Option PyErr :=
  (s.set path ("name,x,y,length,branch,offset\n".toList ++ (locationRows p (List.range p.x.length)).1),
    (locationRows p (List.range p.x.length)).2)

/-- `GenerateCrossSectionLocationFile.__init__` (utils.py:144-169) and `_network_definition_file_to_input` (utils.py:264-277): the empty
path is the working directory, which is no file. -/
def generateFile (ft : FloatText K) (s : Store) (network locations rules : Text) : Store × Option PyErr :=
  match s network with
  | none => (s, some .osError)
  | some net =>
    match optionalRules (if rules = [] then none else s rules) with
    | .error e => (s, some e)
    | .ok rs =>
      match parseNetwork ft rs net with
      | .error e => (s, some e)
      | .ok p => writeLocationFile s locations p

end Fm2prof
