import Verif.Gen.Model
import Verif.Parse.Species
import Verif.Parse.Tables
import Verif.Parse.Scan
import Verif.Parse.Gain
import Verif.Parse.Text
import Verif.Parse.Number
import Verif.Parse.Render
import Verif.Parse.Eqn
import Verif.Props.Parsing
import Verif.Gen.Eval
import Verif.Gen.Lines
import Verif.Gen.Tend
import Verif.Props.Reactants
import Verif.Props.Tendency
import Verif.Gen.Jac
import Verif.Props.Jacobian
import Verif.Props.OpenMP
import Verif.Rate.Text
import Verif.Rate.Brackets
import Verif.Props.Rates
import Verif.Rate.Lang
import Verif.Rate.Sym
import Verif.Rate.Signs
import Verif.Rate.Facts
import Verif.Props.RateFiles
import Verif.Rate.File
import Verif.Props.RateLines
import Verif.Rate.Eval
import Verif.Rate.FactsInputs
import Verif.Rate.Whole
import Verif.Gen.Peroxy
import Verif.Props.Peroxy
import Verif.Sim.Model
import Verif.Props.Sim
import Verif.Props.Split
import Verif.Props.Trajectory
import Verif.Props.Initial
import Verif.Aerosol.Partition
import Verif.Aerosol.Slices
import Verif.Props.Partition
import Verif.Props.PartitionRace
import Verif.Aerosol.Properties
import Verif.Props.Properties
import Verif.Aerosol.Sizes
import Verif.Props.Sizes
import Verif.Parse.Structures
import Verif.Props.Structures
import Verif.Sim.Rhs
import Verif.Props.Rhs
import Verif.Aerosol.Rhs
import Verif.Props.AerosolRhs
import Verif.Sim.Positive
import Verif.Sim.NearLip
import Verif.Props.Invariants
import Verif.Sim.Exists
import Verif.Sim.Pieces
import Verif.Sim.Tame
import Verif.Props.Kinetic
import Verif.Props.WellPosed
import Verif.Props.AerosolSmooth
import Verif.Props.AerosolTraj
import Verif.Props.RateTime
import Verif.Props.GeneratedRates
import Verif.Props.Bounds
import Verif.Gen.Sources
import Verif.Gen.Text
import Verif.Gen.Read
import Verif.Gen.Frames
import Verif.Gen.Shapes
import Verif.Props.GasText
import Verif.Aerosol.Source
import Verif.Aerosol.Fortran
import Verif.Aerosol.PartText
import Verif.Aerosol.PartAst
import Verif.Aerosol.PartRead
import Verif.Aerosol.PartRoutine
import Verif.Aerosol.Vec
import Verif.Aerosol.PartSteps
import Verif.Aerosol.PartTrace
import Verif.Aerosol.PartLoop
import Verif.Aerosol.PartCall
import Verif.Props.PartitionText
import Verif.Props.GasFiles
import Verif.Props.AerosolFiles
import Verif.Gen.Width
import Verif.Props.LineWidth
import Verif.Sim.Files
import Verif.Props.Restart
import Verif.Sim.AerosolDriver
import Verif.Props.AerosolDriver
import Verif.Props.Integers
import Verif.Sim.YieldDriver
import Verif.Props.YieldDriver
import Verif.Sim.Presence
import Verif.Props.Presence
import Verif.Props.AerosolPresence
import Verif.Sim.Chart
import Verif.Props.Chart
import Verif.Sim.Near
import Verif.Props.Near
import Verif.Rate.Kinds
import Verif.Rate.Doubles
import Verif.Rate.KindsFile
import Verif.Rate.KindCheck
import Verif.Rate.FactsKinds
import Verif.Props.Kinds
import Verif.Rate.Errors
import Verif.Rate.Sums
import Verif.Rate.ErrorOps
import Verif.Rate.ErrorRun
import Verif.Rate.FactsErrors
import Verif.Props.Rounding
import Verif.Props.Balance
import Verif.Props.Listings
import Verif.Props.PlainRates
import Verif.Rate.FactsSun
import Verif.Rate.FactsDouble
import Verif.Props.RoundingSun
import Verif.Rate.Mixed
import Verif.Props.RoundingTexts
import Verif.Props.RoundingPython
import Verif.Sim.Sensitive
import Verif.Props.Sensitive
import Verif.Props.SensitiveAerosol
import Verif.Gen.Names
import Verif.Aerosol.SourceAll
import Verif.Props.Names
import Verif.Props.NamesGas
import Verif.Props.NamesRate
import Verif.Gen.Rounded
import Verif.Gen.RoundedSum
import Verif.Gen.RoundedFile
import Verif.Gen.RoundedGas
import Verif.Props.GasRounded
import Verif.Props.PythonRounded
import Verif.Aerosol.Split
import Verif.Props.SplitRhs
import Verif.Sim.Split
import Verif.Props.SplitRuns
import Verif.Props.SplitClock
import Verif.Aerosol.Rounded
import Verif.Aerosol.Approx
import Verif.Aerosol.RoundedSteps
import Verif.Aerosol.RoundedPass
import Verif.Aerosol.RoundedCall
import Verif.Aerosol.RoundedConserve
import Verif.Aerosol.RoundedExact
import Verif.Props.PartRounded
import Verif.Sim.Explicit
import Verif.Props.Explicit
import Verif.Props.AerosolRounded
import Verif.Props.TwoVersions
import Verif.Rate.Published
import Verif.Props.Published
import Verif.Props.Humidity
import Verif.Props.Recorded
import Verif.Props.RepeatedProducts
import Verif.Props.Reordered
import Verif.Props.ReorderedAerosol
import Verif.Props.ReorderedRounded
import Verif.Props.Tracers
import Verif.Props.Channels
import Verif.Props.TracersAerosol
import Verif.Props.DividedBins
import Verif.Props.Clock
import Verif.Props.ClockNight
import Verif.Props.Linear
import Verif.Props.Order
import Verif.Props.Renamed
