import Verif.Model.Mesh
import Verif.Model.Plotter

/-!
# The two drawing helpers that no run uses

`solver/additional_functions.py:128-158` (`plot_mesh`) and `solver/panels_plotter.py:115-172`
(`display_panels_or_rings`).
-/

namespace PySailing

/-! ## `plot_mesh` -/

/-- The dictionary `labels`, `solver/additional_functions.py:131`, looked up at lines 139-144; another key is a
`KeyError`. -/
def axisLabel (d : ℤ) : Py String :=
  if d = 0 then .ok "X" else if d = 1 then .ok "Y" else if d = 2 then .ok "Z" else .error .keyError

/-- `mesh[i, :, d]` at one point, for an index into an axis of length 3,
`solver/additional_functions.py:149-151`. -/
def component (d : ℤ) (p : V3) : Py ℝ := pyGet [p.x, p.y, p.z] d

/-- The labels of the axes, in the order of the axes, `solver/additional_functions.py:138-144`: set for two or
three dimensions only. -/
def meshLabels (dims : List ℤ) : Py (List String) :=
  if dims.length = 2 ∨ dims.length = 3 then dims.mapM axisLabel else .ok []

/-- One line of the plot: the points with one number for each axis, and the colour. -/
structure MeshLine where
  points : List (List ℝ)
  color : String

/-- The numbers `ax.plot` and `ax.plot3D` get for one point, `solver/additional_functions.py:149`, `151`, `153`,
`155`: the two requested coordinates, or all three in their own order. -/
def meshPoint (dims : List ℤ) (p : V3) : Py (List ℝ) :=
  match dims with
  | [d0, d1] => do
    let a ← component d0 p
    let b ← component d1 p
    .ok [a, b]
  | _ => .ok [p.x, p.y, p.z]

/-- One line, `solver/additional_functions.py:149-155`: a row index beyond the array is an `IndexError`; matplotlib
does not accept `None` as a format string, `ValueError`.  Simplification: any other string is taken as a format
string. -/
def meshLine (dims : List ℤ) (mesh : NdMesh) (color : Option String) (i : ℕ) : Py MeshLine :=
  if mesh.n0 ≤ i then .error .indexError
  else do
    let pts ← (List.range mesh.n1).mapM fun j => meshPoint dims (mesh.at' i j)
    match color with
    | some c => .ok ⟨pts, c⟩
    | none => .error .valueError

/-- What `plot_mesh` draws: labels of the axes and lines. -/
structure MeshPlot where
  labels : List String
  lines : List MeshLine

/-- `plot_mesh(mesh1, mesh2, dimentions=dims, color1=color1, color2=color2)`,
`solver/additional_functions.py:128-158`.  `show` and `title` have no effect on the lines. -/
def plotMesh (mesh1 : NdMesh) (mesh2 : Option NdMesh) (dims : List ℤ) (color1 color2 : Option String) :
    Py MeshPlot := do
  let labels ← meshLabels dims
  let rows ← (List.range mesh1.n0).mapM fun i => do
    let a ← meshLine dims mesh1 color1 i
    match mesh2 with
    | some m => do
      let b ← meshLine dims m color2 i
      .ok [a, b]
    | none => .ok [a]
  .ok ⟨labels, rows.flatten⟩

/-! ## `display_panels_or_rings` -/

/-- What `display_panels_or_rings` draws and returns: polygons, size of the water surface, limits of the axes. -/
structure RingPlot where
  polygons : List Panel
  water : ℤ
  xlim : ℝ × ℝ
  ylim : ℝ × ℝ
  zlim : ℝ × ℝ

/-- `display_panels_or_rings(things, pressure, leading_mid_points, trailing_mid_points)`,
`solver/panels_plotter.py:115-172`: `zip(things, pressure)` draws as many things as there are pressures (lines
157-161); the inner `set_ax_eq` (lines 129-150) is the one of `display_panels_xyz`. -/
noncomputable def displayPanelsOrRings (things : List Panel) (pressure : List ℝ) (leMid teMid : List V3) :
    Py RingPlot := do
  let w ← waterSize leMid teMid
  let l ← axisLimits w
  .ok ⟨(things.zip pressure).map Prod.fst, w, l.1, l.2.1, l.2.2⟩

end PySailing
