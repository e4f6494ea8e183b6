import Verif.Model.Solver
import Verif.Spec
import Verif.Props.C01
import Verif.Props.C02
import Verif.Props.Rows
import Verif.Props.Search
import Verif.SpecQ
import Verif.Props.Elim
import Verif.Props.Steps
import Verif.Props.Leaf
import Verif.SpecM
import Verif.Props.Unique
import Verif.Props.Utils
import Verif.Props.Broadcast
import Verif.Props.Sorter
import Verif.Props.SortSmall
import Verif.Props.Database
import Verif.Props.Data
import Verif.Props.Eig
import Verif.Props.Heap
import Verif.Props.Idem
import Verif.Props.Check
import Verif.SpecG
import Verif.Props.Exact
import Verif.Props.Classify
import Verif.Props.Tests
import Verif.Model.TestsEig
import Verif.Proof.Limit
import Verif.Props.Limit
import Verif.Props.TestsEig
import Verif.Model.Draw
import Verif.Props.Draw
import Verif.Proof.Cost
import Verif.Props.Cost
import Verif.Props.Deficit
import Verif.Model.HeapQ
import Verif.Proof.HeapQ
import Verif.Props.HeapQ
import Verif.Proof.Blocks
import Verif.Props.Blocks
import Verif.Model.Width
import Verif.Proof.Width
import Verif.Props.Width
import Verif.Model.Print
import Verif.Props.Print
import Verif.Proof.RightStep
import Verif.Proof.Single
import Verif.Proof.Cliques
import Verif.Props.Cliques
import Verif.Props.Layout
import Verif.Props.Lines
import Verif.Props.PrintEx
import Verif.Model.Checked
import Verif.Proof.Checked
import Verif.Proof.CheckedM
import Verif.Props.Checked
import Verif.Props.SeedU
import Verif.Proof.Number
import Verif.Props.Number
import Verif.SpecN
import Verif.Model.Trace
import Verif.Props.Trace
import Verif.Model.DbMain
import Verif.Props.DbMain
import Verif.Props.Split
import Verif.Model.Repr
import Verif.Props.Repr
import Verif.Props.Counts
import Verif.Props.Examples
import Verif.Props.Compl
import Verif.Model.EigF
import Verif.Props.Float
import Verif.Props.Power
import Verif.Model.Debug
import Verif.Props.Debug
import Verif.Props.Order
import Verif.Run.Low
import Verif.Run.R26d
import Verif.Run.R26a
import Verif.Run.R26b
import Verif.Run.R26c
import Verif.Props.Low
import Verif.SpecP
import Verif.Proof.Family
import Verif.Proof.Paley
import Verif.Props.Expand
import Verif.Props.Family
import Verif.Props.Void
import Verif.Props.Near
import Verif.Props.Mixed
import Verif.Model.Quota
import Verif.Proof.Quota
import Verif.Proof.QuotaM
import Verif.Props.Quota
import Verif.Model.Opt
import Verif.Proof.Opt
import Verif.Props.Opt
import Verif.Props.Shape
import Verif.Model.Pending
import Verif.Proof.Pending
import Verif.Props.Pending
import Verif.Model.Imports
import Verif.Proof.Imports
import Verif.Props.Imports
import Verif.Props.Start
import Verif.Props.Parse
import Verif.Proof.Lone
import Verif.Props.Lone
import Verif.Proof.Param
import Verif.Proof.Absolute
import Verif.Proof.Exist
import Verif.Props.Param
