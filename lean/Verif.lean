import Verif.Props.Base91
import Verif.Props.Base64
import Verif.Props.Stl
import Verif.Props.History
import Verif.Props.HistoryWindow
import Verif.Props.State
import Verif.Lemmas.BlockedDof
import Verif.Props.BlockedDof
import Verif.Props.Body
import Verif.Model.Sim
import Verif.Props.Solver
import Verif.Props.Sim
import Verif.Props.Server
import Verif.Props.Cosim
import Verif.Props.EulerRates
import Verif.Props.Observer
import Verif.Props.Dict
import Verif.Props.Everything
import Verif.Props.Mesh
import Verif.Props.MeshBuild
import Verif.Props.MeshVolume
import Verif.Props.Waves
import Verif.Props.Airy
import Verif.Props.WaveNumber
import Verif.Props.WaveGrid
import Verif.Props.Hdb
import Verif.Props.Radiation
import Verif.Props.Forces
import Verif.Props.Maneuvering
import Verif.Model.ManeuveringForce
import Verif.Spec.ManeuveringForce
import Verif.Props.ManeuveringForce
import Verif.Props.Config
import Verif.Props.ConfigBuild
import Verif.Props.GZ
import Verif.Props.StlAscii
import Verif.Props.Watertight
import Verif.Props.ClosingVolume
import Verif.Props.ClosingTurn
import Verif.Props.Hydrostatic
import Verif.Props.PressureCentre
import Verif.Props.BodyStates
import Verif.Props.GM
import Verif.Props.Inertia
import Verif.Props.MeshFrame
import Verif.Props.MeshSurface
import Verif.Props.HydroEnergy
import Verif.Props.Spectra
import Verif.Props.ForcesMore
import Verif.Props.StlComments
import Verif.Props.MultiBody
import Verif.Model.Outputs
import Verif.Props.Outputs
import Verif.Model.Build
import Verif.Spec.Build
import Verif.Props.Build
import Verif.Model.Orientation
import Verif.Props.Orientation
import Verif.Model.Diffraction
import Verif.Props.Diffraction
import Verif.Model.Buoyancy
import Verif.Props.Buoyancy
import Verif.Model.Tsv
import Verif.Props.Tsv
import Verif.Props.Grpc
import Verif.Props.JsonApi
import Verif.Props.SeaState
import Verif.Model.Setup
import Verif.Props.Setup
import Verif.Model.Cli
import Verif.Props.Cli
import Verif.Props.FroudeKrylov
import Verif.Spec.Yaml
import Verif.Spec.InputFormat
import Verif.Model.Input
import Verif.Props.Input
import Verif.Props.InputMore
import Verif.Model.SeaBuild
import Verif.Props.SeaBuild
import Verif.Model.HdbText
import Verif.Spec.HdbText
import Verif.Props.HdbText
import Verif.Model.HdbFile
import Verif.Props.HdbFile
import Verif.Model.Wageningen
import Verif.Lemmas.Wageningen
import Verif.Spec.BSeries
import Verif.Props.Wageningen
import Verif.Model.AddedSpectra
import Verif.Props.AddedSpectra
import Verif.Props.GrpcAnswer
import Verif.Props.Resultant
import Verif.Props.FleetConverge
import Verif.Props.Scale
import Verif.Props.JsonWaves
import Verif.Props.WaveFeed
import Verif.Props.RadiationDebug
import Verif.Props.HistoryText
import Verif.Props.KtKq
import Verif.Props.AttachedFrames
import Verif.Props.Flight
import Verif.Props.Invariants
import Verif.Props.Quat2Eul
import Verif.Props.SolverChoice
import Verif.Props.Longer
import Verif.Model.Integrators
import Verif.Props.Integrators
import Verif.Props.Motion
import Verif.Model.Floating
import Verif.Props.Floating
import Verif.Props.Captive
import Verif.Model.Fleet
import Verif.Props.Fleet
import Verif.Props.Surge
import Verif.Model.Control
import Verif.Spec.Control
import Verif.Props.Translation
import Verif.Props.StationKeeping
import Verif.Spec.Chain
import Verif.Props.Chain
import Verif.Spec.Spin
import Verif.Props.Spin
import Verif.Model.LinearHydrostatics
import Verif.Props.Heave
import Verif.Props.Energy
import Verif.Props.Momentum
import Verif.Props.PlaneSea
import Verif.Model.GzTool
import Verif.Props.GzTool
import Verif.Model.Hdf5
import Verif.Model.Hdf5Inputs
import Verif.Spec.Hdf5
import Verif.Props.Hdf5
import Verif.Props.Hdf5Inputs
import Verif.Spec.Frame
import Verif.Props.Frame
import Verif.Spec.Converge
import Verif.Props.Converge
import Verif.Props.ConvergeRequests
import Verif.Props.ConvergeControl
import Verif.Lemmas.RK4
import Verif.Props.Order4
import Verif.Model.WaveForces
import Verif.Spec.InWaves
import Verif.Props.InWaves
