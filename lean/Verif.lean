import Verif.Data.PadGrid
import Verif.Data.PadScale
import Verif.Data.PadText
import Verif.Data.PadXY
import Verif.Detector.BeamPads
import Verif.Detector.LoadText
import Verif.Detector.PadData
import Verif.Detector.PadFiles
import Verif.Detector.PadText
import Verif.Detector.Pairing
import Verif.Detector.Parameters
import Verif.Detector.Response
import Verif.Detector.ResponseRaw
import Verif.Detector.Simulator
import Verif.Detector.Solver
import Verif.Detector.Text
import Verif.Detector.Transporter
import Verif.Detector.Writer
import Verif.Kinematics.Angle
import Verif.Kinematics.Convert
import Verif.Kinematics.Excitation
import Verif.Kinematics.KinFile
import Verif.Kinematics.Pipeline
import Verif.Kinematics.Reaction
import Verif.Kinematics.Vec4
import Verif.Machine.Drift
import Verif.Machine.Electrons
import Verif.Machine.Event
import Verif.Machine.Float
import Verif.Machine.Grid
import Verif.Machine.Int64
import Verif.Machine.Kinematics
import Verif.Machine.Motion
import Verif.Machine.Pairing
import Verif.Machine.Response
import Verif.Machine.Run
import Verif.Machine.Sample
import Verif.Machine.Sampling
import Verif.Machine.Simulation
import Verif.Machine.Template
import Verif.Machine.Transport
import Verif.Nuclear
import Verif.Proofs.BeamPads
import Verif.Proofs.Binomial
import Verif.Proofs.Boost
import Verif.Proofs.BoostNear64
import Verif.Proofs.Cells
import Verif.Proofs.Chain
import Verif.Proofs.Config
import Verif.Proofs.Counts
import Verif.Proofs.Cutoff
import Verif.Proofs.DecayStable
import Verif.Proofs.Diffusion64
import Verif.Proofs.Electrons
import Verif.Proofs.Electrons64
import Verif.Proofs.Emission
import Verif.Proofs.EventTrace
import Verif.Proofs.Expected
import Verif.Proofs.Field
import Verif.Proofs.Float
import Verif.Proofs.FloatError
import Verif.Proofs.Format
import Verif.Proofs.Independence
import Verif.Proofs.KinFile
import Verif.Proofs.LoadText
import Verif.Proofs.MassShell64
import Verif.Proofs.Mesh
import Verif.Proofs.Motion64
import Verif.Proofs.Names
import Verif.Proofs.Nearest
import Verif.Proofs.Overflow64
import Verif.Proofs.PadData
import Verif.Proofs.PadPlane
import Verif.Proofs.PadTable
import Verif.Proofs.PadText
import Verif.Proofs.Points
import Verif.Proofs.RelError
import Verif.Proofs.Released
import Verif.Proofs.Resolution
import Verif.Proofs.Same64
import Verif.Proofs.Sampling
import Verif.Proofs.Sampling64
import Verif.Proofs.Sequence
import Verif.Proofs.Simulate
import Verif.Proofs.Sphere
import Verif.Proofs.Spiral
import Verif.Proofs.Store
import Verif.Proofs.Text
import Verif.Proofs.Threshold64
import Verif.Proofs.Tracks
import Verif.Proofs.Transport
import Verif.Proofs.Turning
import Verif.Proofs.Unbiased
import Verif.Proofs.VertexLaw
import Verif.Proofs.Writer
import Verif.Proofs.WriterOrder
import Verif.Proofs.WriterRel
import Verif.Proofs.WriterRuns
import Verif.Props.BeamEnergy
import Verif.Props.BreitWigner
import Verif.Props.Calorimeter
import Verif.Props.Charge
import Verif.Props.CloudLaw
import Verif.Props.Complete
import Verif.Props.Completion
import Verif.Props.Convert
import Verif.Props.Counts
import Verif.Props.DeadZone
import Verif.Props.DecaySpectrum
import Verif.Props.DefaultRun
import Verif.Props.Deposit
import Verif.Props.Depth
import Verif.Props.Determined
import Verif.Props.Diffusion
import Verif.Props.Directions
import Verif.Props.Distributions
import Verif.Props.Drift
import Verif.Props.Efficiency
import Verif.Props.Elastic
import Verif.Props.Electrons
import Verif.Props.EmptyEvents
import Verif.Props.EndToEndError
import Verif.Props.EndToEndLaw
import Verif.Props.Energy
import Verif.Props.EnergyUnit
import Verif.Props.Exact
import Verif.Props.ExpectedCharge
import Verif.Props.FieldStopping
import Verif.Props.FieldWork
import Verif.Props.Format
import Verif.Props.Gain
import Verif.Props.Grid
import Verif.Props.Histogram
import Verif.Props.Ionisation
import Verif.Props.Isotropy
import Verif.Props.KinFile
import Verif.Props.Kinematics
import Verif.Props.LabAngles
import Verif.Props.LabKinematics
import Verif.Props.LabelName
import Verif.Props.Labels
import Verif.Props.Layout
import Verif.Props.LevelWeights
import Verif.Props.Loading
import Verif.Props.Machine
import Verif.Props.MachineChain
import Verif.Props.MachineCloud
import Verif.Props.MachineDiffusion
import Verif.Props.MachineDrift
import Verif.Props.MachineElastic
import Verif.Props.MachineElectrons
import Verif.Props.MachineEnergy
import Verif.Props.MachineEvent
import Verif.Props.MachineForward
import Verif.Props.MachineKept
import Verif.Props.MachineKinematics
import Verif.Props.MachineLikely
import Verif.Props.MachineMass
import Verif.Props.MachineMotion
import Verif.Props.MachineRun
import Verif.Props.MachineRunRows
import Verif.Props.MachineSample
import Verif.Props.MachineSimulation
import Verif.Props.MachineStored
import Verif.Props.MachineTables
import Verif.Props.MachineTemplate
import Verif.Props.MachineThreshold
import Verif.Props.MachineTrack
import Verif.Props.MachineUniform
import Verif.Props.MachineWriter
import Verif.Props.Mirror
import Verif.Props.Motion
import Verif.Props.NoFano
import Verif.Props.NoOverflow
import Verif.Props.PadPlane
import Verif.Props.PadTables
import Verif.Props.Pairing
import Verif.Props.Pipeline
import Verif.Props.PipelineRuns
import Verif.Props.Program
import Verif.Props.ProgramRuns
import Verif.Props.QValue
import Verif.Props.Range
import Verif.Props.Readout
import Verif.Props.Reconstruction
import Verif.Props.Rejection
import Verif.Props.Resolution
import Verif.Props.Response
import Verif.Props.ResponseRaw
import Verif.Props.Rotation
import Verif.Props.Run
import Verif.Props.RunFiles
import Verif.Props.Sampling
import Verif.Props.Scales
import Verif.Props.Signal
import Verif.Props.Simulate
import Verif.Props.Size
import Verif.Props.SolverError
import Verif.Props.Species
import Verif.Props.Spiral
import Verif.Props.StartEnergy
import Verif.Props.Stopping
import Verif.Props.Superposition
import Verif.Props.Symmetry
import Verif.Props.Text
import Verif.Props.Threshold
import Verif.Props.TimeTies
import Verif.Props.Trajectory
import Verif.Props.Translation
import Verif.Props.TranslationRun
import Verif.Props.Transport
import Verif.Props.Trigger
import Verif.Props.TriggerRun
import Verif.Props.TwoRuns
import Verif.Props.Unbiased
import Verif.Props.Validation
import Verif.Props.WellPosed
import Verif.Props.Widths
import Verif.Props.Writer
import Verif.Py
import Verif.Spec.ApproxIvp
import Verif.Spec.Beam
import Verif.Spec.Chain
import Verif.Spec.Charge
import Verif.Spec.Deposits
import Verif.Spec.ExactIvp
import Verif.Spec.Force
import Verif.Spec.Independence
import Verif.Spec.Ivp
import Verif.Spec.KinEvents
import Verif.Spec.Motion
import Verif.Spec.Overflow
import Verif.Spec.QValue
import Verif.Spec.Released
import Verif.Spec.Rotation
import Verif.Spec.Runs
import Verif.Spec.Sampling
import Verif.Spec.Simulation
import Verif.Spec.Species
import Verif.Spec.Text
import Verif.Spec.Tracks
import Verif.Spec.TwoBody
import Verif.Spec.Writing
import Verif.Tactics
