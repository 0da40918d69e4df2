import Verif.Model.Float64
import Verif.Model.Fluid
import Verif.Model.Ws
import Verif.Model.Hx
import Verif.Model.Solver
import Verif.Model.Integrator
import Verif.Model.State
import Verif.Model.Engine
import Verif.Model.Performance
import Verif.Model.Config
import Verif.Model.Serde
import Verif.Model.Api
import Verif.Props.Autonomous
import Verif.Props.Averages
import Verif.Props.Beale
import Verif.Props.BealeExample
import Verif.Props.Breathing
import Verif.Props.BreathingExample
import Verif.Props.Config
import Verif.Props.ConfigExample
import Verif.Props.Convergence
import Verif.Props.Cycle
import Verif.Props.Decompositions
import Verif.Props.Directions
import Verif.Props.Document
import Verif.Props.Drives
import Verif.Props.Engine
import Verif.Props.Eternal
import Verif.Props.EternalGas
import Verif.Props.Exact
import Verif.Props.Exists
import Verif.Props.Figures
import Verif.Props.FiguresExample
import Verif.Props.FixedApproach
import Verif.Props.FloatAverages
import Verif.Props.FloatAveragesExample
import Verif.Props.FloatBalances
import Verif.Props.FloatBalancesExample
import Verif.Props.FlowLoss
import Verif.Props.FlowLossEqual
import Verif.Props.FlowLossPays
import Verif.Props.FlowLossRuns
import Verif.Props.Fluid
import Verif.Props.FluidIntegral
import Verif.Props.Forever
import Verif.Props.ForeverExample
import Verif.Props.ForeverGas
import Verif.Props.GasData
import Verif.Props.GivesUp
import Verif.Props.GivesUpExample
import Verif.Props.Grid
import Verif.Props.GridExample
import Verif.Props.GridIeee
import Verif.Props.GridIeeeExample
import Verif.Props.GridLost
import Verif.Props.HeatExchangers
import Verif.Props.Ieee
import Verif.Props.IeeeExample
import Verif.Props.Instances
import Verif.Props.Isentropic
import Verif.Props.IsentropicGas
import Verif.Props.IsentropicGasExample
import Verif.Props.Kin
import Verif.Props.KinRuns
import Verif.Props.Lib
import Verif.Props.LibExample
import Verif.Props.Linear
import Verif.Props.LinearExample
import Verif.Props.Lipschitz
import Verif.Props.Losses
import Verif.Props.LossesExample
import Verif.Props.Lu
import Verif.Props.Mirror
import Verif.Props.MirrorExample
import Verif.Props.Near
import Verif.Props.NearDrives
import Verif.Props.NearExample
import Verif.Props.Nearby
import Verif.Props.NearbyExample
import Verif.Props.NearbyRhombic
import Verif.Props.NoPanic
import Verif.Props.NoPanicExample
import Verif.Props.NoStroke
import Verif.Props.NoStrokeExample
import Verif.Props.NotANumber
import Verif.Props.Performance
import Verif.Props.PerformanceExample
import Verif.Props.Perpetual
import Verif.Props.PerpetualCycle
import Verif.Props.Pressure
import Verif.Props.Repeats
import Verif.Props.RepeatsExample
import Verif.Props.Reported
import Verif.Props.Resolution
import Verif.Props.Results
import Verif.Props.ResultsExample
import Verif.Props.Reversed
import Verif.Props.ReversedExample
import Verif.Props.Rounding
import Verif.Props.RoundingExample
import Verif.Props.SameCycle
import Verif.Props.Samples
import Verif.Props.Scaling
import Verif.Props.ScalingExample
import Verif.Props.SearchSucceeds
import Verif.Props.SearchTight
import Verif.Props.SecondLaw
import Verif.Props.SecondLawExample
import Verif.Props.SecondLawGas
import Verif.Props.SecondLawGasExample
import Verif.Props.SecondLawInstances
import Verif.Props.Settle
import Verif.Props.SettleConfig
import Verif.Props.SettleDrives
import Verif.Props.SettleExample
import Verif.Props.Shadow
import Verif.Props.SmallStroke
import Verif.Props.Solver
import Verif.Props.Standing
import Verif.Props.Start
import Verif.Props.Steps
import Verif.Props.Succeeds
import Verif.Props.SucceedsExample
import Verif.Props.Trajectory
import Verif.Props.TrajectoryExample
import Verif.Props.Unique
import Verif.Props.UniqueExample
import Verif.Props.Unmeasured
import Verif.Props.Walls
import Verif.Props.Warmer
import Verif.Props.WarmerExample
import Verif.Props.WellPosed
import Verif.Props.WholeRun
import Verif.Props.WholeRunExample
import Verif.Props.Work
import Verif.Props.WorkExample
import Verif.Conformance
import Verif.Audit
