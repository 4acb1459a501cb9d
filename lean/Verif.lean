import Verif.Model.Cycle
import Verif.Model.Coral
import Verif.Sanity
import Verif.Props.Balance
import Verif.Props.Rng
import Verif.Props.Source
import Verif.Props.Schedule
import Verif.Props.Flux
import Verif.Props.Sort
import Verif.Props.Results
import Verif.Props.Exec
import Verif.Props.Draws
import Verif.Props.Directions
import Verif.Props.Energy
import Verif.Props.CrossSections
import Verif.Props.Segments
import Verif.Props.SourceStrength
import Verif.Props.Grid
import Verif.Props.Locate
import Verif.Props.Nearest
import Verif.Props.Mesh
import Verif.Props.Cells
import Verif.Props.Exit
import Verif.Props.Possible
import Verif.Props.Config
import Verif.Props.Init
import Verif.Props.Timing
import Verif.Props.Stats
import Verif.Props.Studies
import Verif.Props.NuclearData
import Verif.Props.Census
import Verif.Props.Positions
import Verif.Props.CycleReport
import Verif.Props.Population
import Verif.Props.NoPanic
import Verif.Props.Atomic
import Verif.Props.InCell
import Verif.Props.Problem
import Verif.Spec.Ieee
import Verif.Lemmas.Ieee
import Verif.Lemmas.ReachCache
import Verif.Lemmas.Total
import Verif.Spec.FloatProblem
import Verif.Lemmas.FloatTrack
import Verif.Lemmas.FloatInv
import Verif.Lemmas.FloatCollide
import Verif.Lemmas.FloatCycle
import Verif.Model.Binary
import Verif.Lemmas.Binary
import Verif.Spec.Started
import Verif.Props.Start
import Verif.Lemmas.StartShape
import Verif.Lemmas.StartFloat
import Verif.Lemmas.StartRounded
import Verif.Props.Rounded
import Verif.Spec.SameProblem
import Verif.Lemmas.Renumber
import Verif.Lemmas.RenumberStart
import Verif.Props.Reproducible
import Verif.Props.Benchmark
import Verif.Props.Report
import Verif.Props.Distribution
import Verif.Props.XsFile
import Verif.Model.Binding
import Verif.Spec.Binding
import Verif.Props.Binding
import Verif.Spec.InputText
import Verif.Lemmas.InputText
import Verif.Props.InputText
import Verif.Lemmas.BuiltinMesh
import Verif.Lemmas.BuiltinFloat
import Verif.Lemmas.RoundBack
import Verif.Model.Collection
import Verif.Lemmas.Collection
import Verif.Props.Collection
import Verif.Spec.Flight
import Verif.Lemmas.Flight
import Verif.Props.Flight
import Verif.Spec.Rounding
import Verif.Lemmas.Rounding
import Verif.Props.Rounding
import Verif.Props.Ending
import Verif.Spec.Ending
import Verif.Lemmas.Ending
import Verif.Lemmas.EndingStep
import Verif.Lemmas.EndingCross
import Verif.Lemmas.EndingEvent
import Verif.Lemmas.EndingLoop
import Verif.Lemmas.EndingRun
import Verif.Lemmas.EndingCase
import Verif.Props.EndingCase
import Verif.Spec.Units
import Verif.Lemmas.Units
import Verif.Lemmas.UnitsBuild
import Verif.Lemmas.UnitsCover
import Verif.Props.Units
import Verif.Props.NoSource
import Verif.Spec.Countable
import Verif.Lemmas.IeeeReal
import Verif.Lemmas.FloatFlight
import Verif.Lemmas.DirectReach
import Verif.Lemmas.FloatWeights
import Verif.Lemmas.TrackedBy
import Verif.Props.RoundedFlight
import Verif.Props.RoundedCase
import Verif.Spec.Together
import Verif.Lemmas.Converse
import Verif.Lemmas.Fuel
import Verif.Lemmas.CycleAt
import Verif.Props.Together
import Verif.Lemmas.RelError
import Verif.Lemmas.LocateFloat
import Verif.Props.CellIds
import Verif.Lemmas.RealWeights
import Verif.Props.EndToEnd
import Verif.Spec.Multiplicity
import Verif.Lemmas.SomeCollision
import Verif.Props.Multiplicity
import Verif.Props.InfiniteFlight
import Verif.Props.Forced
import Verif.Props.GroupRounded
import Verif.Props.PopulationSize
import Verif.Props.Rescue
import Verif.Props.Seed
import Verif.Props.Stops
import Verif.Props.Causality
import Verif.Props.Longer
import Verif.Lemmas.Borders
import Verif.Props.Borders
import Verif.Props.StatsMain
import Verif.Props.TimingNested
import Verif.Props.Volumes
import Verif.Props.NormalDot
import Verif.Props.Rating
import Verif.Props.Vectors
import Verif.Props.VectorsFloat
import Verif.Props.RatingFloat
