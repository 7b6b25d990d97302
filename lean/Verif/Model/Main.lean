import Verif.Model.Runner
import Verif.Model.Plotter

/-!
# `runner/cli.py`: the command line program

The whole program, from the contents of `variables.py` to the files it writes, as a value: the list of
the files written (and the picture shown), in order, and how the program ends.  The search for
`variables.py` and the files on the disk are in `Model/Cli.lean`.  Not modelled: printed text.
-/

namespace PySailing

/-- The dictionaries of `variables.py` as they are turned into objects, `runner/cli.py:49-56`,
`runner/container.py`.  `Output` only holds file names. -/
structure Config where
  heelDeg : ℝ
  leewayDeg : ℝ
  rho : ℝ
  wind : WindConditions
  solver : SolverConf
  rig : RigConf
  main : SailConf
  jib : SailConf
  vRef : V3
  clrUpright : V3

/-- The objects that exist before anything is written, `runner/cli.py:63-70`. -/
structure Prepared where
  csys : Csys
  set : SailSet
  hull : Hull
  vlm : Vlm
  flow : FlowObject

/-- `Vlm(sail_set.panels, ..., sail_set.trailing_edge_info, sail_set.leading_edge_info)`,
`runner/cli.py:67`; `gamma_orientation` keeps its default (`solver/vlm.py:23-30`). -/
def Config.vlmInput (c : Config) (set : SailSet) (w : WindObj) : VlmInput where
  panels := set.panels
  nc := c.solver.nc
  ns := c.solver.ns
  rho := c.rho
  wind := w
  te := set.te
  le := set.le
  g := -1

/-- The geometry, `runner/cli.py:49-66`: sail objects with default twist, coordinate systems, checks of
wind and sails, sail set, hull. -/
noncomputable def prepareGeometry (spline : SplineFn) (c : Config) : Py (Csys × WindObj × SailSet × Hull) := do
  let main ← mainSailInit c.main
  let jib ← jibSailInit c.jib
  let csys ← csysInit c.heelDeg c.leewayDeg c.vRef
  windPostInit c.wind
  sailPostInit c.rig (some main) (some jib)
  let set ← sailSetOf spline c.solver c.rig (some main) (some jib) csys
  let base ← need c.rig.base
  let hull ← hullGeometry c.rig.sheer base csys c.clrUpright
  .ok (csys, windGetProfile c.wind, set, hull)

/-- Everything before the first output, `runner/cli.py:49-70`. -/
noncomputable def prepare (spline : SplineFn) (c : Config) : Py Prepared := do
  let g ← prepareGeometry spline c
  let r ← vlm (c.vlmInput g.2.2.1 g.2.1)
  let res ← inviscidFlow g.2.2.1.sails g.1 r.flowArrays
  .ok ⟨g.1, g.2.2.1, g.2.2.2, r, (FlowObject.new res).estimateKeel g.2.2.2.clr⟩

/-- What the program produces, `runner/cli.py:80-93`; `none` stands for a table or picture with numbers
that are not finite (`nan`), which do not stop the program. -/
inductive Effect where
  | workbook (t : Option SavedResults)
  | caseCopy
  | picture (s : Option Scene)
  | cpMap (m : List (List (ℝ × ℝ) × ℝ))
  | sectionPlot (name : String) (f : Option Figure)

/-- After the solution a `nan` is a value like any other: it is written or drawn, `runner/cli.py:80-93`. -/
def nanAsNone {α : Type} (x : Py α) : Py (Option α) :=
  match x with
  | .ok a => .ok (some a)
  | .error .nonFinite => .ok none
  | .error e => .error e

/-- One call of `plot_section_coeff` with data that may be `nan`, `runner/cli.py:91-93`. -/
noncomputable def sectionPlotStep (d : Py CoeffPlotData) (x : CoeffPlotData → List (List ℝ)) (name : String)
    (colors : List String) : Py Effect := do
  let d' ← nanAsNone d
  match d' with
  | none => .ok (.sectionPlot name none)
  | some d => (plotSectionCoeff (x d) d.meanCpZ name colors).map fun f => .sectionPlot name (some f)

/-- The outputs in order, `runner/cli.py:80-93`. -/
noncomputable def outputSteps (c : Config) (p : Prepared) : List (Py Effect) :=
  [(nanAsNone (saveResults p.vlm p.csys p.flow p.set.sails p.csys)).map .workbook,
    .ok .caseCopy,
    (nanAsNone (displayScene p.vlm p.flow.res p.hull false false)).map .picture,
    (plotCp p.set.zeroMesh p.vlm.out.pCoeffs).map .cpMap,
    sectionPlotStep (coeffPlotData p.vlm c.solver.nc c.solver.ns) (·.drag) "lift" ["blue", "green"],
    sectionPlotStep (coeffPlotData p.vlm c.solver.nc c.solver.ns) (·.lift) "drag" ["teal", "purple"]]

/-- Consecutive statements: the first one that raises ends the program; what was written before stays,
`runner/cli.py:80-93`. -/
def emit : List (Py Effect) → List Effect × Py Unit
  | [] => ([], .ok ())
  | .ok e :: rest => (e :: (emit rest).1, (emit rest).2)
  | .error e :: _ => ([], .error e)

/-- `main()`, `runner/cli.py:46-93`. -/
noncomputable def run (spline : SplineFn) (c : Config) : List Effect × Py Unit :=
  match prepare spline c with
  | .error e => ([], .error e)
  | .ok p => emit (outputSteps c p)

end PySailing
