import Verif.Props.Geometry
import Verif.Props.Simplify
import Verif.Props.Build
import Verif.Props.Correction
import Verif.Props.Sections
import Verif.Props.Roughness
import Verif.Props.Classify
import Verif.Props.Polygons
import Verif.Props.Locations
import Verif.Props.Network
import Verif.Props.Export
import Verif.Props.IniFile
import Verif.Props.Runner
import Verif.Props.Compare
import Verif.Props.Log
import Verif.Props.Mask
import Verif.Props.Pipeline
import Verif.Props.Invariance
import Verif.Props.InvarianceRun
import Verif.Props.ScaleRun
import Verif.Props.Coverage
import Verif.Props.Territory
import Verif.Spec.CutMaps
import Verif.Proofs.CutMaps
import Verif.Props.CutMaps
import Verif.Props.OneSetting
import Verif.Props.StationOrder
import Verif.Props.Range
import Verif.Props.Figures
import Verif.Props.Reader
import Verif.Props.Stats
import Verif.Props.Cli
import Verif.Model.Project
import Verif.Spec.Project
import Verif.Proofs.Settings
import Verif.Proofs.Project
import Verif.Props.Settings
import Verif.Props.Project
import Verif.Model.Fit
import Verif.Spec.Fit
import Verif.Proofs.Fit
import Verif.Props.Fit
import Verif.Props.MapPath
import Verif.Model.MapFile
import Verif.Spec.MapFile
import Verif.Proofs.MapFile
import Verif.Props.MapFile
import Verif.Model.Formats
import Verif.Props.Formats
import Verif.Model.Longitudinal
import Verif.Spec.Longitudinal
import Verif.Proofs.Longitudinal
import Verif.Props.Longitudinal
import Verif.Model.Generator
import Verif.Props.Generator
import Verif.Spec.Robust
import Verif.Proofs.Robust
import Verif.Props.Robust
import Verif.Model.Crash
import Verif.Spec.Crash
import Verif.Proofs.Crash
import Verif.Props.Crash
import Verif.Model.ProjectCrash
import Verif.Spec.ProjectCrash
import Verif.Proofs.ProjectCrash
import Verif.Props.ProjectCrash
import Verif.Model.Program
import Verif.Spec.Program
import Verif.Proofs.Program
import Verif.Props.Program
import Verif.Spec.History
import Verif.Proofs.History
import Verif.Props.History
import Verif.Spec.Interruption
import Verif.Proofs.Interruption
import Verif.Props.Interruption
import Verif.Spec.Horizontal
import Verif.Proofs.Horizontal
import Verif.Props.Horizontal
import Verif.Proofs.HorizontalRun
import Verif.Props.HorizontalRun
import Verif.Spec.CompareCommand
import Verif.Proofs.CompareFiles
import Verif.Proofs.CompareEval
import Verif.Props.CompareSamples
import Verif.Props.CompareCommand
import Verif.Model.Api
import Verif.Spec.Api
import Verif.Proofs.Api
import Verif.Proofs.ApiPrint
import Verif.Props.Api
import Verif.Spec.Layout
import Verif.Proofs.Layout
import Verif.Props.Layout
import Verif.Model.Parallel
import Verif.Spec.Parallel
import Verif.Proofs.Parallel
import Verif.Props.Parallel
import Verif.Spec.Moved
import Verif.Proofs.Moved
import Verif.Props.Moved
import Verif.Spec.Renamed
import Verif.Proofs.Renamed
import Verif.Props.Renamed
import Verif.Model.ReaderObject
import Verif.Spec.ReaderObject
import Verif.Proofs.ReaderObject
import Verif.Props.ReaderObject
import Verif.Spec.RoughnessOnly
import Verif.Proofs.RoughnessOnly
import Verif.Props.RoughnessOnly
import Verif.Props.Stored
import Verif.Spec.Conveyance
import Verif.Proofs.Conveyance
import Verif.Props.Conveyance
import Verif.Spec.Stricter
import Verif.Proofs.Stricter
import Verif.Props.Stricter
import Verif.Props.Refined
import Verif.Spec.Roomier
import Verif.Proofs.Roomier
import Verif.Props.Roomier
import Verif.Props.Namesakes
import Verif.Spec.FewerMaps
import Verif.Proofs.FewerMaps
import Verif.Props.FewerMaps
import Verif.Props.Overlap
import Verif.Spec.Direction
import Verif.Props.Direction
import Verif.Spec.Wider
import Verif.Proofs.Wider
import Verif.Props.Wider
import Verif.Proofs.Beside
import Verif.Props.Beside
import Verif.Props.Threshold
import Verif.Props.Extrapolate
import Verif.Props.Lakes
import Verif.Props.Smoother
import Verif.Props.FloodplainBase
