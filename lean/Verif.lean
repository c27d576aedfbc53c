import Verif.Basic
import Verif.Lemmas.Search
import Verif.Model.Parameter
import Verif.Lemmas.Parameter
import Verif.Lemmas.Interp
import Verif.Props.Parameter
import Verif.Props.Control
import Verif.Props.Registry
import Verif.Props.Transcription
import Verif.Props.Cost
import Verif.Props.Sensitivity
import Verif.Props.Kerb
import Verif.Props.Arcs
import Verif.Props.Road
import Verif.Props.Powertrain
import Verif.Props.Tyre
import Verif.Props.Chassis
import Verif.Props.Routing
import Verif.Model.F1
import Verif.Spec.F1
import Verif.Lemmas.F1
import Verif.Props.F1Layout
import Verif.Props.F1Dynamics
import Verif.Model.Preprocessor
import Verif.Spec.Preprocessor
import Verif.Lemmas.Preprocessor
import Verif.Lemmas.PreprocessorHeading
import Verif.Lemmas.PreprocessorFit
import Verif.Props.Preprocessor
import Verif.Props.PreprocessorGeometry
import Verif.Props.PreprocessorFit
import Verif.Model.Track
import Verif.Spec.Track
import Verif.Lemmas.Track
import Verif.Props.Track
import Verif.Model.TrackPlanar
import Verif.Spec.TrackPlanar
import Verif.Props.TrackPlanar
import Verif.Model.Mesh
import Verif.Spec.Mesh
import Verif.Lemmas.Mesh
import Verif.Props.Mesh
import Verif.Props.MeshPoints
import Verif.Model.Path
import Verif.Spec.Path
import Verif.Lemmas.Path
import Verif.Props.Path
import Verif.Props.PathGeometry
import Verif.Props.PathSolve
import Verif.Props.PathBanked
import Verif.Model.SteadyState
import Verif.Spec.SteadyState
import Verif.Lemmas.SteadyState
import Verif.Props.SteadyState
import Verif.Props.SteadyRange
import Verif.Props.SteadyBest
import Verif.Model.LapFile
import Verif.Spec.LapFile
import Verif.Lemmas.LapFile
import Verif.Props.LapFile
import Verif.Model.CircuitFile
import Verif.Spec.CircuitFile
import Verif.Lemmas.CircuitFile
import Verif.Props.CircuitFile
import Verif.Model.Kart
import Verif.Spec.Kart
import Verif.Lemmas.Kart
import Verif.Props.Kart
import Verif.Props.KartLayout
import Verif.Props.KartPower
import Verif.Lemmas.KartMirror
import Verif.Props.KartMirror
import Verif.Model.LapOptions
import Verif.Spec.LapOptions
import Verif.Lemmas.LapOptions
import Verif.Props.LapOptions
import Verif.Lemmas.LapCommand
import Verif.Props.LapCommand
import Verif.Model.CircuitOptions
import Verif.Spec.CircuitOptions
import Verif.Lemmas.CircuitOptions
import Verif.Props.CircuitOptions
import Verif.Model.LapSolve
import Verif.Spec.LapSolve
import Verif.Lemmas.LapSolve
import Verif.Lemmas.LapFinish
import Verif.Lemmas.LapRestart
import Verif.Props.LapSolve
import Verif.Model.LapVehicles
import Verif.Spec.LapVehicles
import Verif.Lemmas.LapVehicles
import Verif.Props.LapVehicles
import Verif.Props.LapElevated
import Verif.Props.LapEnergies
import Verif.Model.SteadyCommand
import Verif.Spec.SteadyVehicles
import Verif.Lemmas.SteadyVehicles
import Verif.Props.SteadyVehicles
import Verif.Model.Centreline
import Verif.Model.CircuitFit
import Verif.Spec.Centreline
import Verif.Spec.CircuitFit
import Verif.Lemmas.Centreline
import Verif.Lemmas.CircuitFit
import Verif.Props.Centreline
import Verif.Props.CircuitFit
import Verif.Props.CircuitError
import Verif.Props.Propagation
import Verif.Props.VehicleTracks
import Verif.Model.VehicleNames
import Verif.Model.Python
import Verif.Spec.Python
import Verif.Lemmas.VehicleNames
import Verif.Lemmas.Python
import Verif.Props.Python
import Verif.Model.Outputs
import Verif.Spec.Outputs
import Verif.Lemmas.Outputs
import Verif.Props.Outputs
import Verif.Spec.Calls
import Verif.Props.Calls
import Verif.Props.OutputMotion
import Verif.Lemmas.OutputMirror
import Verif.Props.OutputMirror
import Verif.Model.Frames
import Verif.Spec.Frames
import Verif.Lemmas.Frames
import Verif.Props.Frames
import Verif.Model.PoweredAxle
import Verif.Lemmas.PoweredAxle
import Verif.Props.PoweredAxle
import Verif.Props.OutputKart
import Verif.Model.LapOutputs
import Verif.Props.LapOutputs
import Verif.Spec.LapMirror
import Verif.Lemmas.LapMirror
import Verif.Props.LapMirror
import Verif.Props.LapMirrorKart
import Verif.Props.PathArcs
import Verif.Spec.LapStart
import Verif.Lemmas.LapStart
import Verif.Props.LapStart
import Verif.Spec.LapFreedom
import Verif.Props.LapFreedom
import Verif.Spec.LapTurned
import Verif.Props.LapTurned
import Verif.Spec.CircuitEast
import Verif.Props.CircuitEast
import Verif.Spec.LapRanges
import Verif.Props.LapRanges
import Verif.Props.RoutingOrder
import Verif.Props.OptionsOrder
import Verif.Props.PathMoves
import Verif.Props.CircuitMoves
import Verif.Props.CircuitMirror
import Verif.Props.CircuitEstimate
import Verif.Props.CircuitSides
import Verif.Props.Trim
import Verif.Props.PythonOutput
import Verif.Props.PythonPrint
