import Verif.Lemmas.App
import Verif.Lemmas.Around
import Verif.Lemmas.Asked
import Verif.Lemmas.AskedMesh
import Verif.Lemmas.Box
import Verif.Lemmas.Build
import Verif.Lemmas.Caretaker
import Verif.Lemmas.Conflict
import Verif.Lemmas.Demo
import Verif.Lemmas.Detect
import Verif.Lemmas.Diagonal
import Verif.Lemmas.Dialog
import Verif.Lemmas.DialogRead
import Verif.Lemmas.EdgePolicies
import Verif.Lemmas.Edition
import Verif.Lemmas.EvenOdd
import Verif.Lemmas.Final
import Verif.Lemmas.Fuel
import Verif.Lemmas.FuelRun
import Verif.Lemmas.Geometry
import Verif.Lemmas.Hang
import Verif.Lemmas.HangInterval
import Verif.Lemmas.History
import Verif.Lemmas.InPolygon
import Verif.Lemmas.Interval
import Verif.Lemmas.IntervalSolve
import Verif.Lemmas.Lane
import Verif.Lemmas.Layers
import Verif.Lemmas.Layout
import Verif.Lemmas.Manager
import Verif.Lemmas.ManagerMesh
import Verif.Lemmas.Mirror
import Verif.Lemmas.MirrorRun
import Verif.Lemmas.MovedAxis
import Verif.Lemmas.MovedBuild
import Verif.Lemmas.MovedConflicts
import Verif.Lemmas.MovedGeom
import Verif.Lemmas.MovedRun
import Verif.Lemmas.MovedZones
import Verif.Lemmas.OrderSort
import Verif.Lemmas.Orient
import Verif.Lemmas.Originator
import Verif.Lemmas.Plan
import Verif.Lemmas.Plantuml
import Verif.Lemmas.Pretty
import Verif.Lemmas.Rectilinear
import Verif.Lemmas.Ring
import Verif.Lemmas.Run
import Verif.Lemmas.RunDiagonal
import Verif.Lemmas.Scaled
import Verif.Lemmas.ScaledMesh
import Verif.Lemmas.Segment
import Verif.Lemmas.Shown
import Verif.Lemmas.Strip
import Verif.Lemmas.Sync
import Verif.Lemmas.Text
import Verif.Lemmas.Timeline
import Verif.Lemmas.Track
import Verif.Lemmas.Trail
import Verif.Lemmas.Tree
import Verif.Lemmas.TreeSpec
import Verif.Lemmas.Warnings
import Verif.Lemmas.Whole
import Verif.Lemmas.Window
import Verif.Lemmas.Wires
import Verif.Lemmas.WiresRun
import Verif.Lemmas.Woven
import Verif.Model.Api
import Verif.Model.App
import Verif.Model.Build
import Verif.Model.Caretaker
import Verif.Model.Conflict
import Verif.Model.Csx
import Verif.Model.Decode
import Verif.Model.Delegate
import Verif.Model.Diagonal
import Verif.Model.Dialog
import Verif.Model.Document
import Verif.Model.EdgeInPolygon
import Verif.Model.Editing
import Verif.Model.Files
import Verif.Model.Fixed
import Verif.Model.Geometry
import Verif.Model.Graph
import Verif.Model.Interval
import Verif.Model.Layers
import Verif.Model.Layout
import Verif.Model.Manager
import Verif.Model.NodeText
import Verif.Model.Orient
import Verif.Model.Paint
import Verif.Model.PaintGraph
import Verif.Model.Plantuml
import Verif.Model.Pretty
import Verif.Model.Program
import Verif.Model.Progress
import Verif.Model.Run
import Verif.Model.Session
import Verif.Model.Show
import Verif.Model.Sight
import Verif.Model.Sinks
import Verif.Model.Structure
import Verif.Model.Sync
import Verif.Model.Text
import Verif.Model.Title
import Verif.Model.Toolbar
import Verif.Model.Tree
import Verif.Model.Utils
import Verif.Model.Warnings
import Verif.Model.Window
import Verif.Model.Wires
import Verif.Props.Accepted
import Verif.Props.Adjust
import Verif.Props.Again
import Verif.Props.AngleEdition
import Verif.Props.Api
import Verif.Props.App
import Verif.Props.Around
import Verif.Props.Asked
import Verif.Props.Available
import Verif.Props.Box
import Verif.Props.Chain
import Verif.Props.Columns
import Verif.Props.Conflict
import Verif.Props.Covered
import Verif.Props.Csx
import Verif.Props.Delegate
import Verif.Props.Described
import Verif.Props.Detection
import Verif.Props.Diagonal
import Verif.Props.Dialog
import Verif.Props.Document
import Verif.Props.Drift
import Verif.Props.EdgeEdition
import Verif.Props.EdgePolicies
import Verif.Props.Editing
import Verif.Props.Edition
import Verif.Props.EvenOdd
import Verif.Props.Files
import Verif.Props.Final
import Verif.Props.Fixed
import Verif.Props.Geometry
import Verif.Props.GlobalEdition
import Verif.Props.Graph
import Verif.Props.History
import Verif.Props.InPolygon
import Verif.Props.InPolygonAdd
import Verif.Props.Interval
import Verif.Props.IntervalEdition
import Verif.Props.Kinds
import Verif.Props.Layers
import Verif.Props.Layout
import Verif.Props.Lines
import Verif.Props.Manager
import Verif.Props.Mirror
import Verif.Props.Moved
import Verif.Props.NodeText
import Verif.Props.Orient
import Verif.Props.Output
import Verif.Props.Paint
import Verif.Props.PaintGraph
import Verif.Props.Plan
import Verif.Props.Plantuml
import Verif.Props.PolicyEdition
import Verif.Props.Pretty
import Verif.Props.Program
import Verif.Props.Progress
import Verif.Props.Rectilinear
import Verif.Props.Run
import Verif.Props.RunKinds
import Verif.Props.SameSide
import Verif.Props.Scaled
import Verif.Props.Segment
import Verif.Props.Session
import Verif.Props.Show
import Verif.Props.Sight
import Verif.Props.SightActs
import Verif.Props.SightModes
import Verif.Props.SightSeen
import Verif.Props.Sinks
import Verif.Props.Square
import Verif.Props.Stack
import Verif.Props.Stays
import Verif.Props.StaysPlan
import Verif.Props.Steps
import Verif.Props.Structure
import Verif.Props.Sync
import Verif.Props.Text
import Verif.Props.Thirds
import Verif.Props.Title
import Verif.Props.TooCloseEdition
import Verif.Props.Toolbar
import Verif.Props.Tree
import Verif.Props.Twice
import Verif.Props.Utils
import Verif.Props.Warnings
import Verif.Props.Whole
import Verif.Props.Window
import Verif.Props.Wires
import Verif.Props.ZoneEdition
import Verif.Spec.App
import Verif.Spec.Asked
import Verif.Spec.Conflict
import Verif.Spec.Csx
import Verif.Spec.Delegate
import Verif.Spec.Described
import Verif.Spec.Diagonal
import Verif.Spec.Dialog
import Verif.Spec.Document
import Verif.Spec.Editing
import Verif.Spec.EvenOdd
import Verif.Spec.Geometry
import Verif.Spec.Graph
import Verif.Spec.History
import Verif.Spec.Inside
import Verif.Spec.Interval
import Verif.Spec.Layers
import Verif.Spec.Layout
import Verif.Spec.Lines
import Verif.Spec.Manager
import Verif.Spec.Mirror
import Verif.Spec.Moved
import Verif.Spec.Orient
import Verif.Spec.Plan
import Verif.Spec.Plantuml
import Verif.Spec.Pretty
import Verif.Spec.Progress
import Verif.Spec.Run
import Verif.Spec.Scaled
import Verif.Spec.Session
import Verif.Spec.Show
import Verif.Spec.Sight
import Verif.Spec.Sinks
import Verif.Spec.Structure
import Verif.Spec.Sync
import Verif.Spec.Title
import Verif.Spec.Toolbar
import Verif.Spec.Tree
import Verif.Spec.Utils
import Verif.Spec.Warnings
import Verif.Spec.Whole
import Verif.Spec.Window
import Verif.Spec.Wires
