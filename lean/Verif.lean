import Verif.Props.Matrix
import Verif.Props.Reshape
import Verif.Props.Space
import Verif.Props.Scaling
import Verif.Props.SpaceApply
import Verif.Props.Similarity
import Verif.Props.Svd
import Verif.Props.Nmf
import Verif.Props.NmfInit
import Verif.Props.Peripheral
import Verif.Props.PeriphBatch
import Verif.Props.Operations
import Verif.Props.World
import Verif.Props.Regression
import Verif.Props.Partitions
import Verif.Props.Compose
import Verif.Props.TrainCompose
import Verif.Props.Lexical
import Verif.Props.IoFiles
import Verif.Props.IoSpace
import Verif.Props.Build
import Verif.Props.RoundTrip
import Verif.Props.CrossVal
import Verif.Props.Scoring
import Verif.Props.Cli
import Verif.Props.Config
import Verif.Props.Correlation
import Verif.Props.Association
import Verif.Props.CoreSpace
import Verif.Props.Training
import Verif.Props.Reading
import Verif.Props.Sims
import Verif.Props.Neighbours
import Verif.Props.SimsTotal
import Verif.Props.ApplyComp
import Verif.Props.TrainMore
import Verif.Props.PeriphScript
import Verif.Props.Crash
import Verif.Props.MainExit
import Verif.Props.ModelExport
import Verif.Props.Rerun
import Verif.Props.Heap
import Verif.Props.SvdBest
import Verif.Props.Invariance
import Verif.Props.Realizable
import Verif.Props.ColumnOrder
import Verif.Props.Stack
import Verif.Props.BatchDir
import Verif.Props.Ctor
import Verif.Props.RoundTrip2
import Verif.Props.PeriphSvd
import Verif.Props.TrainOrder
import Verif.Props.Repeat
import Verif.Props.ComposeMore
import Verif.Props.StackSim
import Verif.Props.Chain
import Verif.Props.RidgePath
import Verif.Props.SimMore
import Verif.Props.Twice
import Verif.Props.ComposeReduce
import Verif.Props.Conc
import Verif.Props.ConcSave
import Verif.Props.ConcScript
import Verif.Props.ConcShared
import Verif.Props.LoadType
import Verif.Props.IdealTrain
import Verif.Props.BadLines
import Verif.Props.EndToEnd
import Verif.Props.CoreTotal
import Verif.Props.FailedCall
import Verif.Props.Index
import Verif.Props.BuildAll
import Verif.Examples.Objects
import Verif.Examples.Matrix
import Verif.Examples.Space
import Verif.Examples.Reduce
import Verif.Examples.Small
import Verif.Examples.Files
import Verif.Examples.Compose
import Verif.Examples.Learn
import Verif.Examples.Demo
import Verif.Examples.Scripts
import Verif.Examples.Train
import Verif.Lemmas.CrashEnds
import Verif.Examples.Runs
import Verif.Examples.Pure
import Verif.Examples.Shared
import Verif.Examples.Conc
import Verif.Examples.Exit
import Verif.Examples.Rerun
import Verif.Examples.Crash
import Verif.Examples.Total
import Verif.Examples.Correlation
import Verif.Examples.Association
import Verif.Props.SvdNested
import Verif.Props.UnitRows
import Verif.Props.SelectSim
import Verif.Props.ComposeSpecial
import Verif.Props.RidgeZero
import Verif.Props.ScriptsAgree
import Verif.Props.TwoStage
import Verif.Examples.TwoStage
import Verif.Props.NoPinv
import Verif.Props.TargetScale
import Verif.Examples.TargetScale
import Verif.Props.Basis
import Verif.Examples.Basis
import Verif.Props.RowLaws
import Verif.Examples.RowLaws
import Verif.Props.Geometry
import Verif.Examples.StackMore
import Verif.Props.StackMore
import Verif.Props.Locality
import Verif.Examples.Locality
import Verif.Props.Classes
import Verif.Examples.Classes
import Verif.Props.AucTurn
import Verif.Props.PeriphClasses
import Verif.Examples.PeriphClasses
import Verif.Props.Misspelt
import Verif.Examples.Misspelt
import Verif.Props.OutNames
import Verif.Examples.OutNames
import Verif.Props.Nested
import Verif.Examples.Nested
import Verif.Props.PeriphSelect
import Verif.Props.AucShort
import Verif.Props.RowLawsAdd
import Verif.Examples.RowLawsAdd
import Verif.Props.OwnCounts
import Verif.Examples.OwnCounts
import Verif.Props.FindsItself
import Verif.Examples.FindsItself
import Verif.Props.UnusedFeatures
import Verif.Examples.UnusedFeatures
