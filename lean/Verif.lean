import Verif.Basic
import Verif.Examples
import Verif.Lemmas.Best
import Verif.Lemmas.BinaryIeee
import Verif.Lemmas.Chance
import Verif.Lemmas.Change
import Verif.Lemmas.Classes
import Verif.Lemmas.Cover
import Verif.Lemmas.Decay
import Verif.Lemmas.First
import Verif.Lemmas.FixedParam
import Verif.Lemmas.Float
import Verif.Lemmas.FloatFunctions
import Verif.Lemmas.Gbest
import Verif.Lemmas.Handlers
import Verif.Lemmas.Heap
import Verif.Lemmas.Ieee
import Verif.Lemmas.IeeeLink
import Verif.Lemmas.Interrupt
import Verif.Lemmas.Loop
import Verif.Lemmas.Memory
import Verif.Lemmas.Moments
import Verif.Lemmas.NdArray
import Verif.Lemmas.NdRefine
import Verif.Lemmas.Particles
import Verif.Lemmas.Reach
import Verif.Lemmas.Recurrence
import Verif.Lemmas.Reentrant
import Verif.Lemmas.Rest
import Verif.Lemmas.Rounded
import Verif.Lemmas.Runs
import Verif.Lemmas.SharedTop
import Verif.Lemmas.Sim
import Verif.Lemmas.Stability
import Verif.Lemmas.Star
import Verif.Lemmas.Threads
import Verif.Lemmas.Topology
import Verif.Lemmas.Trig
import Verif.Lemmas.Tuning
import Verif.Lemmas.Uniform
import Verif.Lemmas.Verbose
import Verif.Lemmas.Writing
import Verif.Lemmas.XR
import Verif.Model.Animate
import Verif.Model.Bench
import Verif.Model.BinaryIeee
import Verif.Model.BoundForm
import Verif.Model.ClampForm
import Verif.Model.Classes
import Verif.Model.Copies
import Verif.Model.CostType
import Verif.Model.CustomLoop
import Verif.Model.DelannoyCalls
import Verif.Model.Dtype
import Verif.Model.Float
import Verif.Model.FloatFunctions
import Verif.Model.Functions
import Verif.Model.Generators
import Verif.Model.Handlers
import Verif.Model.Heap
import Verif.Model.Ieee
import Verif.Model.Interrupt
import Verif.Model.Keyword
import Verif.Model.MeanTree
import Verif.Model.Memory
import Verif.Model.NdArray
import Verif.Model.Objective
import Verif.Model.Operators
import Verif.Model.Optimizer
import Verif.Model.Options
import Verif.Model.OptionsDict
import Verif.Model.Plot
import Verif.Model.RandomRng
import Verif.Model.RealOps
import Verif.Model.Reentrant
import Verif.Model.Reporter
import Verif.Model.Rng
import Verif.Model.Rounded
import Verif.Model.RoundedOptions
import Verif.Model.Search
import Verif.Model.SearchArgs
import Verif.Model.SearchFloat
import Verif.Model.SearchRng
import Verif.Model.SharedOpts
import Verif.Model.SharedTop
import Verif.Model.Threads
import Verif.Model.Topology
import Verif.Model.Tuning
import Verif.Model.UserTop
import Verif.Model.Verbose
import Verif.Props.Animate
import Verif.Props.Bench
import Verif.Props.Best
import Verif.Props.Binary
import Verif.Props.BinaryIeee
import Verif.Props.BinarySearch
import Verif.Props.BlackBox
import Verif.Props.Blind
import Verif.Props.Bounds
import Verif.Props.Budget
import Verif.Props.Cache
import Verif.Props.Chance
import Verif.Props.Chunks
import Verif.Props.ClampForms
import Verif.Props.Classes
import Verif.Props.ClassesSpec
import Verif.Props.Clusters
import Verif.Props.Collapse
import Verif.Props.Complement
import Verif.Props.ComplementChance
import Verif.Props.Complete
import Verif.Props.Copies
import Verif.Props.CostType
import Verif.Props.Crash
import Verif.Props.CrossInTray
import Verif.Props.CustomLoop
import Verif.Props.Drift
import Verif.Props.Dtypes
import Verif.Props.EggHolder
import Verif.Props.Enlarge
import Verif.Props.Explosion
import Verif.Props.FixedParam
import Verif.Props.FloatFunctions
import Verif.Props.FloatFunctionsSpec
import Verif.Props.FloatStop
import Verif.Props.Forms
import Verif.Props.Functions
import Verif.Props.Handlers
import Verif.Props.Heap
import Verif.Props.HolderTable
import Verif.Props.Hull
import Verif.Props.IeeeLink
import Verif.Props.Interrupt
import Verif.Props.Irrelevant
import Verif.Props.Keywords
import Verif.Props.Local
import Verif.Props.MeanFloat
import Verif.Props.MeanPath
import Verif.Props.Means
import Verif.Props.Memory
import Verif.Props.Mirror
import Verif.Props.Motion
import Verif.Props.MotionMem
import Verif.Props.Moves
import Verif.Props.NanInit
import Verif.Props.Noise
import Verif.Props.NormBits
import Verif.Props.Objective
import Verif.Props.OnlyStrategy
import Verif.Props.OptDict
import Verif.Props.Options
import Verif.Props.Outcome
import Verif.Props.Overflow
import Verif.Props.Particles
import Verif.Props.Penalty
import Verif.Props.Plot
import Verif.Props.Prefix
import Verif.Props.RandomSeed
import Verif.Props.Reentrant
import Verif.Props.ReflectiveFar
import Verif.Props.Replay
import Verif.Props.ReplayFloat
import Verif.Props.Reporter
import Verif.Props.Reset
import Verif.Props.Restart
import Verif.Props.RestartBinary
import Verif.Props.Returns
import Verif.Props.ReversedBounds
import Verif.Props.ReversedMemory
import Verif.Props.Rounding
import Verif.Props.SchedConst
import Verif.Props.SchedFloat
import Verif.Props.SchedKeys
import Verif.Props.Schedule
import Verif.Props.Search
import Verif.Props.SearchArgs
import Verif.Props.SearchFloat
import Verif.Props.SearchSeed
import Verif.Props.Seed
import Verif.Props.SeedHistory
import Verif.Props.Shapes
import Verif.Props.SharedOpts
import Verif.Props.SharedTop
import Verif.Props.ShrinkFloat
import Verif.Props.Small
import Verif.Props.Solo
import Verif.Props.Spread
import Verif.Props.StartRuns
import Verif.Props.StaticRuns
import Verif.Props.StopOverflow
import Verif.Props.StopUnits
import Verif.Props.Stopping
import Verif.Props.Stricter
import Verif.Props.StricterFloat
import Verif.Props.Symmetry
import Verif.Props.Threads
import Verif.Props.Topology
import Verif.Props.Tuning
import Verif.Props.Unreached
import Verif.Props.Untouched
import Verif.Props.Upward
import Verif.Props.UserTop
import Verif.Props.Velocity
import Verif.Props.Verbose
import Verif.Props.VonNeumann
import Verif.Props.WarmStart
import Verif.Props.Writing
import Verif.Spec
import Verif.SpecChance
import Verif.SpecHeap
