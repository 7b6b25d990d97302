import Verif.Props.Rotations
import Verif.Props.Vortex
import Verif.Props.Mesh
import Verif.Props.Sail
import Verif.Props.Wind
import Verif.Props.Solver
import Verif.Props.Lattice
import Verif.Props.Similarity
import Verif.Props.Coefs
import Verif.Props.Mirror
import Verif.Props.Aircraft
import Verif.Props.Results
import Verif.Props.Components
import Verif.Props.Interpolator
import Verif.Props.Runner
import Verif.Props.Plotter
import Verif.Props.Main
import Verif.Props.Workbook
import Verif.Props.Reference
import Verif.Props.Potential
import Verif.Props.Spline
import Verif.Props.Excel
import Verif.Props.Tack
import Verif.Props.Figures
import Verif.Spec.Scaling
import Verif.Lemmas.Scaling
import Verif.Demo.SmallPanel
import Verif.Props.Scaling
import Verif.Props.Exact
import Verif.Props.Edges
import Verif.Props.Wing
import Verif.Props.Cli
import Verif.Props.Sheet
import Verif.Props.Refine
import Verif.Props.Bound
import Verif.Props.SameWind
import Verif.Props.Order
import Verif.Props.Continuity
import Verif.Props.MirrorExact
import Verif.Props.Drawing
import Verif.Props.Args
import Verif.Props.HullLines
import Verif.Props.PictureRun
import Verif.Model.Settings
import Verif.Props.Waterline
import Verif.Props.Settings
import Verif.Props.FlatWing
import Verif.Props.FlatSail
import Verif.Props.FlatSailForce
import Verif.Props.HalfWing
import Verif.Props.InducedDrag
import Verif.Props.SpanLoad
import Verif.Props.AnySolver
import Verif.Props.Gusts
import Verif.Props.TaperSail
import Verif.Props.SlopedSail
import Verif.Props.PlaneSailBounds
import Verif.Props.TallSail
import Verif.Props.Rounded
import Verif.Props.NearSail
import Verif.Props.NearWing
import Verif.Props.Arith
import Verif.Props.Twice
import Verif.Props.Report
import Verif.Props.ArithWing
import Verif.Props.ArithSail
import Verif.Lemmas.CurveConv
import Verif.Spec.NearRun
import Verif.Lemmas.NearRun
import Verif.Lemmas.NearBook
import Verif.Props.NearRun
import Verif.Model.ArithRun
import Verif.Spec.ArithRun
import Verif.Lemmas.ArithRunExact
import Verif.Lemmas.ArithRunCurve
import Verif.Lemmas.ArithRunSail
import Verif.Lemmas.ArithRunBook
import Verif.Lemmas.RoundingRun
import Verif.Props.ArithRun
import Verif.Props.Cases
import Verif.Props.CasesSmall
import Verif.Lemmas.PlanarSide
import Verif.Props.PictureDrawn
import Verif.Props.SideForce
import Verif.Props.Arrow
import Verif.Props.CasesMore
import Verif.Spec.Units
import Verif.Lemmas.UnitsGeometry
import Verif.Lemmas.UnitsRun
import Verif.Lemmas.UnitsWorkbook
import Verif.Demo.Units
import Verif.Props.Units
import Verif.Lemmas.UnitsFigures
import Verif.Props.UnitsFigures
import Verif.Spec.Heading
import Verif.Lemmas.Heading
import Verif.Lemmas.HeadingRun
import Verif.Lemmas.HeadingWorkbook
import Verif.Lemmas.HeadingFigures
import Verif.Lemmas.HeadingPicture
import Verif.Props.Heading
import Verif.Spec.Superpose
import Verif.Lemmas.Superpose
import Verif.Props.Superpose
import Verif.Lemmas.TackPicture
import Verif.Props.TackPicture
import Verif.Spec.NearFigures
import Verif.Lemmas.PyConv
import Verif.Lemmas.NearFigures
import Verif.Props.NearFigures
import Verif.Spec.NearScene
import Verif.Lemmas.NearScene
import Verif.Props.NearScene
import Verif.Spec.JibMoved
import Verif.Lemmas.JibMoved
import Verif.Lemmas.JibMovedRun
import Verif.Props.JibMoved
import Verif.Spec.RigData
import Verif.Props.RigData
import Verif.Spec.Stations
import Verif.Props.Stations
import Verif.Spec.Turns
import Verif.Props.Turns
import Verif.Props.TwistTurns
import Verif.Spec.Keel
import Verif.Props.Keel
import Verif.Spec.Straight
import Verif.Props.Straight
import Verif.Spec.Apparent
import Verif.Props.Apparent
import Verif.Spec.MomentPoint
import Verif.Props.MomentPoint
import Verif.Spec.CamberPlace
import Verif.Props.CamberPlace
import Verif.Props.TwistMode
import Verif.Spec.WindData
import Verif.Props.WindData
import Verif.Props.ReferenceHeight
