import Verif.Model.Plotter
import Mathlib.LinearAlgebra.Matrix.Notation

/-!
# Arrows on the screen and the plot of an airfoil

`Arrow3D` of `solver/panels_plotter.py:30-46` and `VlmAirfoil.plot` of `thin_airfoil/vlm_airfoil.py:108-122`.
-/

namespace PySailing

/-! ## `Arrow3D` -/

/-- The matrix `self.axes.M` of the axes: where the user looks from.  It is matplotlib's and may be any matrix. -/
abbrev Camera := Matrix (Fin 4) (Fin 4) ℝ

/-- `proj3d.proj_transform(x, y, z, M)` of matplotlib for one point, called in `solver/panels_plotter.py:37`, `44`:
`vecw = M @ (x, y, z, 1)`, then `vecw[0]/w, vecw[1]/w, vecw[2]/w` with `w = vecw[3]`.  A point with `w = 0` gets `inf`
or `nan`. -/
noncomputable def projTransform (M : Camera) (p : V3) : Py V3 :=
  let v := M.mulVec ![p.x, p.y, p.z, 1]
  if v 3 = 0 then .error .nonFinite else .ok ⟨v 0 / v 3, v 1 / v 3, v 2 / v 3⟩

/-- The object `Arrow3D`: `_verts3d`, and the positions of the `FancyArrowPatch`. -/
structure ArrowPatch where
  verts : Arrow
  posA : ℝ × ℝ
  posB : ℝ × ℝ

/-- `Arrow3D.__init__`, `solver/panels_plotter.py:31-33`: the patch starts with both ends at `(0, 0)`. -/
def arrow3D (a : Arrow) : ArrowPatch := ⟨a, (0, 0), (0, 0)⟩

/-- `do_3d_projection`, `solver/panels_plotter.py:35-40`: projects both ends, sets the positions, returns `np.min(zs)`. -/
noncomputable def do3dProjection (s : ArrowPatch) (M : Camera) : Py (ArrowPatch × ℝ) := do
  let a ← projTransform M s.verts.tail
  let b ← projTransform M s.verts.tip
  .ok ({ s with posA := (a.x, a.y), posB := (b.x, b.y) }, min a.z b.z)

/-- `draw`, `solver/panels_plotter.py:42-46`: projects both ends, sets the positions, and lets the `FancyArrowPatch`
draw the straight arrow between its positions (returned here). -/
noncomputable def drawArrow (s : ArrowPatch) (M : Camera) : Py (ArrowPatch × ((ℝ × ℝ) × (ℝ × ℝ))) := do
  let a ← projTransform M s.verts.tail
  let b ← projTransform M s.verts.tip
  let s' : ArrowPatch := { s with posA := (a.x, a.y), posB := (b.x, b.y) }
  .ok (s', (s'.posA, s'.posB))

/-- A call of matplotlib: ordering by depth, or drawing. -/
inductive ArrowCall where
  | project (M : Camera)
  | draw (M : Camera)

/-- The object after one call, `solver/panels_plotter.py:35-46`.  Simplification: positions that would be `nan` are
left as they were. -/
noncomputable def arrowCall (s : ArrowPatch) : ArrowCall → ArrowPatch
  | .project M => match do3dProjection s M with
    | .ok r => r.1
    | .error _ => s
  | .draw M => match drawArrow s M with
    | .ok r => r.1
    | .error _ => s

/-! ## The plot of an airfoil -/

/-- What `VlmAirfoil.plot` puts into the figure. -/
structure AirfoilPlot where
  xlim : ℝ × ℝ
  xlabel : String
  ylabel : String
  equal : Bool
  grid : Bool
  line : List (ℝ × ℝ)
  color : String

/-- `foil.plot(show)`, `thin_airfoil/vlm_airfoil.py:108-122`: the figure, and whether it is shown.  Not modelled: the
margins of line 120. -/
def airfoilPlot (foil : Airfoil) (show_ : Bool) : AirfoilPlot × Bool :=
  (⟨(0, 1), "x", "y", true, true, List.zip foil.xc foil.yc, "blue"⟩, show_)

end PySailing
