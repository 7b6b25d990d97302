import Verif.Model.Arrow

/-!
# What a camera shows, and the camber line of an airfoil
-/

namespace PySailing.Spec

open PySailing

/-- The camera `M` shows the point `p` of space at the place `q` of the screen, at depth `d`: in homogeneous coordinates,
`M` maps `p` to a multiple of `(q, d, 1)`. -/
def Shows (M : Camera) (p : V3) (q : ℝ × ℝ) (d : ℝ) : Prop :=
  ∃ w : ℝ, w ≠ 0 ∧ M.mulVec ![p.x, p.y, p.z, 1] = w • ![q.1, q.2, d, 1]

/-- The point is in front of the camera. -/
def InFront (M : Camera) (p : V3) : Prop := 0 < M.mulVec ![p.x, p.y, p.z, 1] 3

/-- The point at the fraction `t` of the way from `a` to `b`. -/
def onWay (a b : V3) (t : ℝ) : V3 := a + t • (b - a)

/-- The same on the screen. -/
def onScreenWay (a b : ℝ × ℝ) (s : ℝ) : ℝ × ℝ := (a.1 + s * (b.1 - a.1), a.2 + s * (b.2 - a.2))

end PySailing.Spec
