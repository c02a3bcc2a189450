import Verif.Model.IO
import Verif.Model.Snapshot
import Verif.Spec.IO
import Verif.Lemmas.IO
import Verif.Lemmas.Pack
import Verif.Props.IO
import Verif.Model.Time
import Verif.Model.Motion
import Verif.Lemmas.Time
import Verif.Lemmas.Path
import Verif.Props.Time
import Verif.Props.Schemes
import Verif.Props.Motion
import Verif.Model.Layout
import Verif.Spec.Layout
import Verif.Props.Layout
import Verif.Model.Pointers
import Verif.Props.Pointers
import Verif.Model.Attach
import Verif.Props.Attach
import Verif.Model.Registry
import Verif.Props.Registry
import Verif.Model.Interp
import Verif.Spec.Interp
import Verif.Lemmas.Interp
import Verif.Props.Interp
import Verif.Model.Seafloor
import Verif.Props.Seafloor
import Verif.Model.CFL
import Verif.Props.CFL
import Verif.Model.Waves
import Verif.Spec.Waves
import Verif.Lemmas.Waves
import Verif.Props.Waves
import Verif.Model.WaveNumber
import Verif.Props.WaveInput
import Verif.Lemmas.Dispersion
import Verif.Props.Dispersion
import Verif.Model.Spectrum
import Verif.Props.Spectrum
import Verif.Model.Matrix
import Verif.Props.Matrix
import Verif.Model.Rotation
import Verif.Props.Rotation
import Verif.Model.Line
import Verif.Lemmas.Line
import Verif.Props.LineForces
import Verif.Props.LineTension
import Verif.Props.LineLoads
import Verif.Model.Rod
import Verif.Lemmas.Rod
import Verif.Props.Rod
import Verif.Props.RodMass
import Verif.Props.RodWet
import Verif.Props.RodStart
import Verif.Model.Body
import Verif.Props.Point
import Verif.Props.Body
import Verif.Props.BodyNewton
import Verif.Model.Catenary
import Verif.Lemmas.Catenary
import Verif.Props.Catenary
import Verif.Props.CatenaryShape
import Verif.Props.CatenaryEnds
import Verif.Model.Api
import Verif.Props.Api
import Verif.Model.Output
import Verif.Props.Output
import Verif.Model.Text
import Verif.Props.Text
import Verif.Model.Reader
import Verif.Props.Reader
import Verif.Model.Words
import Verif.Model.Failures
import Verif.Props.Words
import Verif.Props.Failures
import Verif.Model.Log
import Verif.Props.Log
import Verif.Model.Scheme
import Verif.Props.Scheme
import Verif.Model.IC
import Verif.Props.IC
import Verif.Model.Channel
import Verif.Spec.Channel
import Verif.Props.Channel
import Verif.Model.FFT
import Verif.Model.WaveFFT
import Verif.Props.FFT
import Verif.Props.WaveFFT
import Verif.Props.WaveMomentum
import Verif.Props.CurrentFile
import Verif.Props.MovingWater
import Verif.Props.Options
import Verif.Props.Stationary
import Verif.Props.LineType
import Verif.Props.RodType
import Verif.Props.ZeroRod
import Verif.Spec.Cylinder
import Verif.Props.RodFloat
import Verif.Props.RodSeabed
import Verif.Model.WaterModes
import Verif.Props.WaterModes
import Verif.Model.Relax
import Verif.Props.Relax
import Verif.Props.Seen
import Verif.Props.Modes
import Verif.Props.Stability
import Verif.Props.LinePressure
import Verif.Model.Coupled
import Verif.Props.Pins
import Verif.Model.Python
import Verif.Props.Python
import Verif.Model.Foreign
import Verif.Props.Foreign
import Verif.Props.Numbers
import Verif.Model.SeaFiles
import Verif.Props.SeaFiles
import Verif.Model.State
import Verif.Props.State
import Verif.Model.Moored
import Verif.Props.Frame
import Verif.Props.FrameRigid
import Verif.Props.FrameMotion
import Verif.Lemmas.Simulate
import Verif.Props.Reverse
import Verif.Props.Relabel
import Verif.Lemmas.Relate
import Verif.Lemmas.RelateMoored
import Verif.Props.Symmetry
import Verif.Props.Separate
import Verif.Props.Energy
import Verif.Props.EnergyBody
import Verif.Props.EnergyPoints
import Verif.Props.Elastic
import Verif.Props.Balance
import Verif.Lemmas.Drift
import Verif.Props.Towing
import Verif.Props.TowingRigid
import Verif.Lemmas.Absorb
import Verif.Props.Restart
import Verif.Model.Whole
import Verif.Spec.Connected
import Verif.Lemmas.Connected
import Verif.Props.Connected
import Verif.Props.Units
import Verif.Props.UnitsRigid
import Verif.Lemmas.WholeLoad
import Verif.Props.WholeRestart
import Verif.Spec.Now
import Verif.Lemmas.WholeForces
import Verif.Props.WholeForces
import Verif.Model.WholeScheme
import Verif.Spec.Settled
import Verif.Lemmas.Settled
import Verif.Lemmas.Valued
import Verif.Spec.Within
import Verif.Lemmas.Within
import Verif.Props.WholeSeparate
import Verif.Props.WholeOrder
import Verif.Spec.Placed
import Verif.Lemmas.Placed
import Verif.Props.WholePlaces
import Verif.Props.Fixed
import Verif.Spec.Similar
import Verif.Lemmas.Similar
import Verif.Lemmas.Watch
import Verif.Props.WholeView
import Verif.Model.Gear
import Verif.Spec.GearView
import Verif.Lemmas.GearView
import Verif.Props.WholeGear
import Verif.Spec.Budget
import Verif.Lemmas.Budget
import Verif.Props.WholeBudget
import Verif.Props.WholeJoint
import Verif.Model.Rounded
import Verif.Spec.Rounded
import Verif.Lemmas.Rounded
import Verif.Props.Rounded
import Verif.Spec.GearPart
import Verif.Lemmas.GearPart
import Verif.Props.GearPart
import Verif.Model.Vtk
import Verif.Model.Matlab
import Verif.Spec.Vtk
import Verif.Spec.Matlab
import Verif.Props.Vtk
import Verif.Props.Matlab
import Verif.Spec.OwnAxes
import Verif.Spec.Mirror
import Verif.Lemmas.OwnAxes
import Verif.Lemmas.Mirror
import Verif.Lemmas.MirrorView
import Verif.Props.WholeSymmetry
import Verif.Props.WholeMirror
import Verif.Model.PointRow
import Verif.Props.PointRow
import Verif.Model.LineRow
import Verif.Props.LineRow
import Verif.Model.RodRow
import Verif.Props.RodRow
import Verif.Model.BodyRow
import Verif.Props.BodyRow
