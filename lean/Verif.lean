import Verif.Types
import Verif.Model.Py
import Verif.Model.Construct
import Verif.Model.LocalSearch
import Verif.Model.State
import Verif.Model.Value
import Verif.Model.Structures
import Verif.Model.Settings
import Verif.Model.ItemsManip
import Verif.Model.HyperSearch
import Verif.Model.Instance
import Verif.Model.MultiProcess
import Verif.Model.Report
import Verif.Model.Utils
import Verif.Model.Machine
import Verif.Proofs.Grid
import Verif.Proofs.Points
import Verif.Proofs.Dict
import Verif.Proofs.Loop
import Verif.Spec
import Verif.Proofs.Geometry
import Verif.Proofs.Greedy
import Verif.Proofs.Value
import Verif.Proofs.Solve
import Verif.Props.Packing
import Verif.SpecSearch
import Verif.Proofs.Search
import Verif.Proofs.LocalSearch
import Verif.Proofs.LSPath
import Verif.Props.Search
import Verif.Proofs.Structures
import Verif.Proofs.HyperSearch
import Verif.Proofs.Perms
import Verif.Proofs.Genuine
import Verif.Props.HyperSearch
import Verif.SpecWorkers
import Verif.Proofs.Workers
import Verif.Proofs.Settings
import Verif.Proofs.Determinism
import Verif.Proofs.MultiProcess
import Verif.Props.MultiProcess
import Verif.Proofs.Agree
import Verif.Props.Workers
import Verif.Proofs.Machine
import Verif.SpecStructures
import Verif.Props.Structures
import Verif.SpecSettings
import Verif.Props.Settings
import Verif.SpecItems
import Verif.Props.Items
import Verif.Props.Constructor
import Verif.SpecReport
import Verif.Props.Report
import Verif.Proofs.Names
import Verif.Proofs.Column
import Verif.Props.ManyItems
import Verif.Props.Files
import Verif.Props.Utils
import Verif.Proofs.Order
import Verif.Proofs.Rename
import Verif.Props.Metamorphic
import Verif.Proofs.Top
import Verif.Props.Room
import Verif.Proofs.Height
import Verif.Proofs.Pile
import Verif.Props.Height
import Verif.Model.PointGen
import Verif.SpecPointGen
import Verif.Proofs.PointGen
import Verif.Props.PointGen
import Verif.Props.Api
import Verif.Props.Visited
import Verif.Model.Objects
import Verif.Proofs.Objects
import Verif.Proofs.ObjectsReach
import Verif.Props.Handles
import Verif.SpecPoints
import Verif.Proofs.Marks
import Verif.Proofs.Heuristic
import Verif.Props.Heuristic
import Verif.Proofs.Scale
import Verif.Props.Units
import Verif.Props.Names
import Verif.Props.UnitsSearch
import Verif.Props.Float
import Verif.Props.Rounding
import Verif.Model.Text
import Verif.SpecText
import Verif.Props.Text
import Verif.Props.Axes
import Verif.Proofs.Edges
import Verif.Props.Edges
import Verif.Proofs.Equal
import Verif.Props.Equal
import Verif.Proofs.Symmetry
import Verif.Proofs.Unturned
import Verif.Props.Symmetry
import Verif.Model.AbstractSearch
import Verif.SpecClimb
import Verif.Proofs.AbstractSearch
import Verif.Props.AbstractSearch
import Verif.Props.CompareDemo
import Verif.Props.Compare
import Verif.Props.SettingsStored
import Verif.Props.Errors
import Verif.Props.ErrorsSettings
import Verif.Props.Frame
import Verif.Props.Again
import Verif.Props.Subclass
import Verif.Props.Logging
import Verif.Props.Interrupt
import Verif.Props.InterruptDemo
import Verif.Props.Export
import Verif.Props.Work
import Verif.Props.FirstFit
import Verif.Proofs.Prefix
import Verif.Props.Removal
import Verif.Props.Anomaly
import Verif.Model.Standalone
import Verif.Props.Standalone
import Verif.SpecHill
import Verif.Proofs.Hill
import Verif.Props.Hill
import Verif.SpecHyper
import Verif.Props.Rounds
import Verif.Props.Team
import Verif.Props.Unvalidated
import Verif.Props.TimeLimit
import Verif.Props.Programs
import Verif.Proofs.Past
import Verif.Props.History
import Verif.SpecFirstFit
import Verif.Proofs.OneDim
import Verif.Props.WideItems
import Verif.Props.TallItems
import Verif.Model.Objective
import Verif.Proofs.Objective
import Verif.Props.Objective
import Verif.Props.Columns
import Verif.Proofs.Columns
import Verif.Proofs.Rows
import Verif.Props.Rows
import Verif.Model.ObjectiveSearch
import Verif.Proofs.ObjectiveSearch
import Verif.Props.ObjectiveSearch
import Verif.Props.TwiceOptimal
import Verif.Props.Reproducible
import Verif.Props.Effort
import Verif.Props.Interchange
import Verif.Props.Grid
import Verif.Props.StripGrid
import Verif.Props.Comeback
import Verif.Props.DebugLog
import Verif.Props.SearchLog
import Verif.Props.Decreasing
import Verif.Props.DecreasingWide
import Verif.Props.Divisible
import Verif.Props.Fewer
import Verif.Props.Filled
import Verif.Conformance
import Verif.ConformanceErrors
import Verif.ConformanceRuns
