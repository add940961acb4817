import Verif.Model.Runner
import Verif.Model.Reader

/-!
# The order in which a run writes its files

A run that is stopped from outside leaves the files it has written up to then. `Model/Runner.lean` gives the files of a
complete run; here are its writes in the order in which they are made, each with the text that arrives. That they lead to the
same files is a theorem (`C166_writes`).
-/

namespace Fm2prof

/-- The write of one file (fm2prof_runner.py:755, export.py, mask_output_file.py): none when it cannot be opened. -/
def fileWrites (w : WriteFaults) (file text : Text) : List (Text × Text) :=
  if w.refuses file then [] else [(file, (w.breaks file).getD text)]

/-- The write of a step of an export. -/
def ExportStep.writes (w : WriteFaults) : ExportStep → List (Text × Text)
  | .write file text _ => fileWrites w file text
  | .fail _ => []

/-- Whether a step of an export raises. -/
def ExportStep.raises (w : WriteFaults) : ExportStep → Bool
  | .write file _ r => w.refuses file || (w.breaks file).isSome || r.isSome
  | .fail _ => true

/-- The writes of a `try` block. -/
def blockWrites (w : WriteFaults) : List ExportStep → List (Text × Text)
  | [] => []
  | x :: xs => x.writes w ++ if x.raises w then [] else blockWrites w xs

variable {S C : Type}

/-- The writes of `_finalise_fm2prof` (fm2prof_runner.py:323-378) with `_write_output` (fm2prof_runner.py:765-883). -/
def finaliseWrites (j : Job S C) (cs : List C) : List (Text × Text) :=
  let cs' := j.harmonise cs
  (if cs'.isEmpty || !j.dirExists then []
    else blockWrites j.faults (dimrBlock j.exporter cs') ++ blockWrites j.faults (sobekBlock' j.exporter cs') ++
      blockWrites j.faults (otherBlock j.exporter cs')) ++
  (if j.exportMapFiles then
    blockWrites j.faults [preparedStep "face_output.geojson".toList (j.exporter.mapFile cs' "face".toList)] ++
      blockWrites j.faults [preparedStep "edge_output.geojson".toList (j.exporter.mapFile cs' "edge".toList)]
    else []) ++
  blockWrites j.faults [preparedStep "cross_section_volumes.geojson".toList (j.exporter.envelope cs')]

/-- The writes of the data of one location (fm2prof_runner.py:753-756) and of its flow mask (cross_section.py:333-339). -/
def pickleWrites (j : Job S C) (x : S) : List (Text × Text) :=
  if j.valid x && j.exportCssData then
    blockWrites j.faults (.write (j.name x ++ ".pickle".toList) (j.pickle x) none ::
      if j.faces x < 10 then []
      else
        match j.mask x with
        | some text => [.write (j.name x ++ "_flowmask.pickle".toList) text none]
        | none => [])
  else []

/-- The writes of `_generate_cross_section_list` (fm2prof_runner.py:584-598). -/
def generateWrites (j : Job S C) : List S → List (Text × Text)
  | [] => []
  | x :: xs =>
    pickleWrites j x ++
      match (attempt j x fun _ => none).2 with
      | .error _ => []
      | .ok _ => generateWrites j xs

/-- The writes of `_run_inifile` (fm2prof_runner.py:187-215). -/
def inifileWrites (j : Job S C) : List (Text × Text) :=
  match initialise j with
  | .error _ => []
  | .ok m =>
    match requested j.cssSelection m.stations with
    | .error _ => []
    | .ok xs =>
      generateWrites j xs ++
        match (attemptAll j xs fun _ => none).2 with
        | .error _ => []
        | .ok cs => finaliseWrites j cs

/-- The writes of `run` (fm2prof_runner.py:121-153). -/
def runWrites (j : Job S C) (overwrite : Bool) (s : Store) : List (Text × Text) :=
  if !j.configured || (outputExists s && !overwrite) then [] else inifileWrites j

end Fm2prof
