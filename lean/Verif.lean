import Verif.Model.Ism
import Verif.Spec.Ism
import Verif.Lemmas.Lists
import Verif.Lemmas.Accumulate
import Verif.Lemmas.Images
import Verif.Lemmas.Ism
import Verif.Lemmas.Inverse
import Verif.Lemmas.Rows
import Verif.Spec.Calls
import Verif.Lemmas.Plan
import Verif.Props.Images
import Verif.Props.Static
import Verif.Lemmas.Directivity
import Verif.Props.Pairs
import Verif.Lemmas.Symmetry
import Verif.Props.Symmetry
import Verif.Lemmas.Sinc
import Verif.Props.Kernel
import Verif.Props.Args
import Verif.Model.Cache
import Verif.Props.Cache
import Verif.Model.Signal
import Verif.Spec.Signal
import Verif.Lemmas.Fft
import Verif.Lemmas.Signal
import Verif.Props.Signal
import Verif.Props.Convolver
import Verif.Props.Corpus
import Verif.Spec.Acoustics
import Verif.Props.Acoustics
import Verif.Spec.Orientation
import Verif.Props.Orientation
import Verif.Props.Directivity
import Verif.Model.Room
import Verif.Model.Scene
import Verif.Model.Device
import Verif.Spec.Room
import Verif.Props.Room
import Verif.Lemmas.Scene
import Verif.Spec.Scene
import Verif.Props.Scene
import Verif.Model.ConfigUpdate
import Verif.Spec.Config
import Verif.Props.Config
import Verif.Props.Device
import Verif.Model.Arrays
import Verif.Model.Sampling
import Verif.Spec.Geometry
import Verif.Lemmas.Geometry
import Verif.Props.Arrays
import Verif.Props.Sampling
import Verif.Model.Fs
import Verif.Model.Archive
import Verif.Model.Download
import Verif.Lemmas.Fs
import Verif.Lemmas.Download
import Verif.Lemmas.Repair
import Verif.Props.Archive
import Verif.Props.Download
import Verif.Props.Repair
import Verif.Model.Transcript
import Verif.Props.Transcript
import Verif.Model.Sources
import Verif.Props.Sources
import Verif.Props.Termination
import Verif.Model.Dataset
import Verif.Props.Dataset
import Verif.Model.Builder
import Verif.Spec.Builder
import Verif.Lemmas.Builder
import Verif.Props.Builder
import Verif.Props.BuilderScene
import Verif.Model.Audio
import Verif.Model.Outputs
import Verif.Model.Logging
import Verif.Model.Animation
import Verif.Model.Metadata
import Verif.Props.Audio
import Verif.Props.Outputs
import Verif.Props.Logging
import Verif.Props.Animation
import Verif.Props.Metadata
import Verif.Spec.Invariance
import Verif.Lemmas.Invariance
import Verif.Props.Invariance
import Verif.Model.Mux
import Verif.Model.Plot
import Verif.Props.Mux
import Verif.Props.Plot
import Verif.Model.Frames
import Verif.Props.Frames
import Verif.Spec.Hpf
import Verif.Model.Scipy
import Verif.Props.Hpf
import Verif.Props.Scipy
import Verif.Props.Reuse
import Verif.Model.CliScene
import Verif.Spec.CliScene
import Verif.Props.CliScene
import Verif.Model.Cli
import Verif.Spec.Cli
import Verif.Props.Cli
import Verif.Model.DynDataset
import Verif.Spec.DynDataset
import Verif.Props.DynDataset
import Verif.Model.Scripts
import Verif.Spec.Scripts
import Verif.Props.Scripts
import Verif.Spec.Neighbours
import Verif.Props.Neighbours
import Verif.Spec.Post
import Verif.Props.Auralisation
import Verif.Spec.Refine
import Verif.Props.Refine
import Verif.Spec.Movement
import Verif.Lemmas.Movement
import Verif.Props.Movement
import Verif.Spec.Exact
import Verif.Props.Exact
import Verif.Props.ExactSignal
import Verif.Props.ExactGeometry
import Verif.Props.ExactLoading
import Verif.Props.ExactReciprocity
import Verif.Model.BuilderCli
import Verif.Spec.BuilderCli
import Verif.Props.BuilderCli
import Verif.Props.BuilderRecords
import Verif.Model.GettingStarted
import Verif.Spec.GettingStarted
import Verif.Props.GettingStarted
import Verif.Spec.OrientationCounts
import Verif.Props.OrientationCounts
import Verif.Props.ExactCalls
import Verif.Props.Coincident
import Verif.Props.ExactSources
import Verif.Props.LoadSuccess
import Verif.Model.ScriptRun
import Verif.Spec.ScriptRun
import Verif.Props.ScriptRun
import Verif.Model.Rounded
import Verif.Spec.Rounded
import Verif.Lemmas.Rounded
import Verif.Props.Rounded
import Verif.Model.Floating
import Verif.Spec.Floating
import Verif.Lemmas.Floating
import Verif.Lemmas.FloatGain
import Verif.Props.Floating
import Verif.Props.FloatingDirectional
import Verif.Props.OneSource
import Verif.Model.DatasetRun
import Verif.Spec.DatasetRun
import Verif.Props.DatasetRun
import Verif.Model.Benchmark
import Verif.Props.Benchmark
import Verif.Model.Dtypes
import Verif.Spec.Tail
import Verif.Props.Tail
import Verif.Props.Dtypes
import Verif.Spec.Timestamps
import Verif.Props.Timestamps
import Verif.Model.SoundFile
import Verif.Props.SoundFile
import Verif.Model.Threads
import Verif.Model.Race
import Verif.Model.Document
import Verif.Props.Threads
import Verif.Props.Race
import Verif.Props.Document
import Verif.Props.Chance
import Verif.Model.Opening
import Verif.Spec.Opening
import Verif.Props.Opening
import Verif.Model.ScriptCli
import Verif.Spec.ScriptCli
import Verif.Props.ScriptCli
import Verif.Props.SharedScenes
import Verif.Model.Videos
import Verif.Props.Videos
import Verif.Props.Mirror
import Verif.Props.Truncation
import Verif.Props.FloatingSignal
import Verif.Props.FloatingGeometry
import Verif.Props.JsonText
import Verif.Props.ConfigText
import Verif.Props.Argv
import Verif.Props.DatasetArgs
import Verif.Props.BenchCli
import Verif.Props.ScriptPlots
import Verif.Props.CliRun
import Verif.Props.BuilderRun
import Verif.Props.MirrorDirectional
import Verif.Props.StartRun
import Verif.Props.Axes
import Verif.Props.FirstOrder
import Verif.Props.MovingSymmetry
import Verif.Props.OverTime
import Verif.Props.SabineLaws
import Verif.Props.Warnings
import Verif.Props.SymmetricRoom
import Verif.Props.LevelFloat
import Verif.Props.SabineFloat
import Verif.Props.FirstOrderMoving
import Verif.Props.SymmetricDirectional
import Verif.Props.FreeField
import Verif.Props.Loudness
import Verif.Props.LogTree
