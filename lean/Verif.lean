import Verif.Exec
import Verif.Model.Alias
import Verif.Model.Base
import Verif.Model.Config
import Verif.Model.Copies
import Verif.Model.ImpulseResponse
import Verif.Model.Installer
import Verif.Model.Interrupt
import Verif.Model.Num
import Verif.Model.Pint
import Verif.Model.Release
import Verif.Model.Root
import Verif.Model.Scenarios
import Verif.Model.Setup
import Verif.Model.Shared
import Verif.Model.Time
import Verif.Model.TwoLayer
import Verif.Model.Utils
import Verif.Model.Version
import Verif.Model.Versioneer
import Verif.Proofs.Accuracy
import Verif.Proofs.AccuracyState
import Verif.Proofs.Agree
import Verif.Proofs.Alias
import Verif.Proofs.Calendar
import Verif.Proofs.Coherent
import Verif.Proofs.Config
import Verif.Proofs.ConfigMain
import Verif.Proofs.Congr
import Verif.Proofs.Convert
import Verif.Proofs.ConvertPhys
import Verif.Proofs.Copies
import Verif.Proofs.CopiesCalls
import Verif.Proofs.Deep
import Verif.Proofs.Engine
import Verif.Proofs.Ensemble
import Verif.Proofs.Exact
import Verif.Proofs.ExactIR
import Verif.Proofs.Feedback
import Verif.Proofs.Finite64
import Verif.Proofs.Frame
import Verif.Proofs.Geoffroy
import Verif.Proofs.IRLinear
import Verif.Proofs.IRMath
import Verif.Proofs.Ieee
import Verif.Proofs.IeeeRun
import Verif.Proofs.IeeeState
import Verif.Proofs.Init
import Verif.Proofs.Interrupt
import Verif.Proofs.InterruptAgain
import Verif.Proofs.InterruptRun
import Verif.Proofs.InterruptSet
import Verif.Proofs.InterruptTorn
import Verif.Proofs.Locked
import Verif.Proofs.Meta
import Verif.Proofs.Missing
import Verif.Proofs.Release
import Verif.Proofs.Returned
import Verif.Proofs.RoundTrip
import Verif.Proofs.Rounding
import Verif.Proofs.RoundingConv
import Verif.Proofs.RoundingGeo
import Verif.Proofs.RoundingIR
import Verif.Proofs.RoundingState
import Verif.Proofs.RoundingSym
import Verif.Proofs.RoundingTL
import Verif.Proofs.RoundingUptake
import Verif.Proofs.Scalars
import Verif.Proofs.Scaling
import Verif.Proofs.Scen
import Verif.Proofs.ScenGen
import Verif.Proofs.Sensitivity
import Verif.Proofs.Shared
import Verif.Proofs.Simulate
import Verif.Proofs.Success
import Verif.Proofs.TLFinite
import Verif.Proofs.TLMath
import Verif.Proofs.Threads
import Verif.Proofs.Times
import Verif.Proofs.Tipping
import Verif.Proofs.Units
import Verif.Proofs.Value
import Verif.Proofs.Variant
import Verif.Proofs.Version
import Verif.Proofs.Versioneer
import Verif.Props.Accuracy
import Verif.Props.Alias
import Verif.Props.BoxOrder
import Verif.Props.Config
import Verif.Props.Construct
import Verif.Props.Convert
import Verif.Props.Convolution
import Verif.Props.Copies
import Verif.Props.Deep
import Verif.Props.EndToEnd
import Verif.Props.Ensemble
import Verif.Props.Equivalence
import Verif.Props.Finite64
import Verif.Props.Frame
import Verif.Props.Idle
import Verif.Props.Ieee
import Verif.Props.Ieee64
import Verif.Props.IeeeState
import Verif.Props.ImpulseResponse
import Verif.Props.Installer
import Verif.Props.Interrupt
import Verif.Props.Ledger
import Verif.Props.Locked
import Verif.Props.Missing
import Verif.Props.Physical
import Verif.Props.Release
import Verif.Props.Root
import Verif.Props.RoundTrip
import Verif.Props.Rounding
import Verif.Props.RoundingConv
import Verif.Props.RoundingGeo
import Verif.Props.RoundingState
import Verif.Props.RoundingSym
import Verif.Props.RoundingUptake
import Verif.Props.Run
import Verif.Props.Scalars
import Verif.Props.Scaling
import Verif.Props.ScenarioExamples
import Verif.Props.ScenarioRounding
import Verif.Props.Scenarios
import Verif.Props.Sensitivity
import Verif.Props.Setup
import Verif.Props.Shared
import Verif.Props.State
import Verif.Props.Threads
import Verif.Props.Time
import Verif.Props.Tipping
import Verif.Props.TwoLayer
import Verif.Props.Units
import Verif.Props.Utils
import Verif.Props.Version
import Verif.Props.Version2
import Verif.Props.Version3
import Verif.Props.Versioneer
import Verif.Spec.Accuracy
import Verif.Spec.Api
import Verif.Spec.Calendar
import Verif.Spec.Config
import Verif.Spec.Convert
import Verif.Spec.Copies
import Verif.Spec.Coupled
import Verif.Spec.Ensemble
import Verif.Spec.Equations
import Verif.Spec.Geoffroy
import Verif.Spec.Ieee
import Verif.Spec.Interrupt
import Verif.Spec.Ledger
import Verif.Spec.Locked
import Verif.Spec.Observe
import Verif.Spec.Ode
import Verif.Spec.Physical
import Verif.Spec.RefRegistry
import Verif.Spec.Release
import Verif.Spec.RoundTrip
import Verif.Spec.Rounding
import Verif.Spec.RoundingState
import Verif.Spec.RoundingSym
import Verif.Spec.Scalars
import Verif.Spec.ScenarioRounding
import Verif.Spec.Scenarios
import Verif.Spec.Threads
import Verif.Spec.Version
