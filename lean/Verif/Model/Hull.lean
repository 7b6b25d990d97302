import Verif.Model.Mesh
import Verif.Model.Csys

/-!
# `yacht_geometry/hull_geometry.py`
-/

namespace PySailing

/-- The public state of a `HullGeometry` object, `yacht_geometry/hull_geometry.py:32-39`. -/
structure Hull where
  deckCenterline : List V3
  deckPort : List V3
  deckStarboard : List V3
  deckPortUnder : List V3
  deckStarboardUnder : List V3
  clr : V3

/-- `np.array([xs, ys, np.full(n, z)]).transpose()`, `yacht_geometry/hull_geometry.py:26-30`. -/
def deckLine (xs ys : List ℝ) (z : ℝ) : List V3 := List.zipWith (fun x y => ⟨x, y, z⟩) xs ys

/-- `HullGeometry.__init__`, `yacht_geometry/hull_geometry.py:12-39`. -/
noncomputable def hullGeometry (sheer base : ℝ) (c : Csys) (clrUpright : V3) : Py Hull := do
  let foil ← vlmAirfoil 0.01 0.0 0.28 51
  let scale := base * 3
  let xs := fun l : List ℝ => l.map fun x => -1.1 * base + scale * x
  let ys := fun l : List ℝ => l.reverse.map fun y => scale * y
  return {
    deckCenterline :=
      (deckLine (xs foil.xc) (List.replicate 51 0) sheer).map c.rotatePointWithMirror
    deckPort := (deckLine (xs foil.xu) (ys foil.yu) sheer).map c.rotatePointWithMirror
    deckStarboard := (deckLine (xs foil.xl) (ys foil.yl) sheer).map c.rotatePointWithMirror
    deckPortUnder := (deckLine (xs foil.xu) (ys foil.yu) (-1 * sheer)).map c.rotatePointWithMirror
    deckStarboardUnder :=
      (deckLine (xs foil.xl) (ys foil.yl) (-1 * sheer)).map c.rotatePointWithMirror
    clr := c.rotatePointWithoutMirror clrUpright }

end PySailing
