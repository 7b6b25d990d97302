import Verif.Model.Py
import Verif.Model.Vec
import Mathlib.Data.Matrix.Mul
import Mathlib.LinearAlgebra.Matrix.Notation

/-!
# `rotations/geometry_calc.py`
-/

namespace PySailing

/-- `np.deg2rad(x)`; used at `rotations/csys_transformations.py:13-16` and elsewhere. -/
noncomputable def deg2rad (x : ℝ) : ℝ := x * (Real.pi / 180)

/-- The 3x3 array built at `rotations/geometry_calc.py:29-33` from the four quaternion
components `a, b, c, d`. -/
def quatMatrix (a b c d : ℝ) : M3 where
  r0 := ⟨a*a + b*b - c*c - d*d, 2 * (b*c + a*d), 2 * (b*d - a*c)⟩
  r1 := ⟨2 * (b*c - a*d), a*a + c*c - b*b - d*d, 2 * (c*d + a*b)⟩
  r2 := ⟨2 * (b*d + a*c), 2 * (c*d - a*b), a*a + d*d - b*b - c*c⟩

/-- `rotation_matrix(axis, theta)` for a non-zero axis, `rotations/geometry_calc.py:25-33`.
The normalised axis is `axis / sqrt(axis . axis)` (line 26), `a = cos(theta/2)` (line 27),
`b, c, d = -axis * sin(theta/2)` (line 28). -/
noncomputable def rotationMatrixCore (axis : V3) (theta : ℝ) : M3 :=
  let k : V3 := (1 / Real.sqrt (axis.dot axis)) • axis
  let a := Real.cos (theta / 2)
  let v : V3 := Real.sin (theta / 2) • (-k)
  quatMatrix a v.x v.y v.z

open Classical in
/-- `rotation_matrix(axis, theta)`, `rotations/geometry_calc.py:7-33`.  For the zero axis numpy
divides by zero on line 26 and the returned array is all `nan`: `nonFinite`. -/
noncomputable def rotationMatrix (axis : V3) (theta : ℝ) : Py M3 :=
  if axis = 0 then .error .nonFinite else .ok (rotationMatrixCore axis theta)

/-- Homogeneous column `[x, y, z, 1]` built at `rotations/geometry_calc.py:47`. -/
def homog (p : V3) : Fin 4 → ℝ := ![p.x, p.y, p.z, 1]

/-- `ps_new[:3]` of one column, `rotations/geometry_calc.py:70`. -/
def dehomog (h : Fin 4 → ℝ) : V3 := ⟨h 0, h 1, h 2⟩

/-- `D`, `rotations/geometry_calc.py:56`. -/
def matD (p : V3) : Matrix (Fin 4) (Fin 4) ℝ :=
  !![1, 0, 0, -p.x; 0, 1, 0, -p.y; 0, 0, 1, -p.z; 0, 0, 0, 1]
/-- `D_inv`, `rotations/geometry_calc.py:57`. -/
def matDinv (p : V3) : Matrix (Fin 4) (Fin 4) ℝ :=
  !![1, 0, 0, p.x; 0, 1, 0, p.y; 0, 0, 1, p.z; 0, 0, 0, 1]
/-- `R_x`, `rotations/geometry_calc.py:59`. -/
noncomputable def matRx (b c v : ℝ) : Matrix (Fin 4) (Fin 4) ℝ :=
  !![1, 0, 0, 0; 0, c/v, -b/v, 0; 0, b/v, c/v, 0; 0, 0, 0, 1]
/-- `R_x_inv`, `rotations/geometry_calc.py:60`. -/
noncomputable def matRxInv (b c v : ℝ) : Matrix (Fin 4) (Fin 4) ℝ :=
  !![1, 0, 0, 0; 0, c/v, b/v, 0; 0, -b/v, c/v, 0; 0, 0, 0, 1]
/-- `R_y`, `rotations/geometry_calc.py:62`. -/
noncomputable def matRy (a v l : ℝ) : Matrix (Fin 4) (Fin 4) ℝ :=
  !![v/l, 0, -a/l, 0; 0, 1, 0, 0; a/l, 0, v/l, 0; 0, 0, 0, 1]
/-- `R_y_inv`, `rotations/geometry_calc.py:63`. -/
noncomputable def matRyInv (a v l : ℝ) : Matrix (Fin 4) (Fin 4) ℝ :=
  !![v/l, 0, a/l, 0; 0, 1, 0, 0; -a/l, 0, v/l, 0; 0, 0, 0, 1]
/-- `R_z`, `rotations/geometry_calc.py:65-67`. -/
noncomputable def matRz (theta : ℝ) : Matrix (Fin 4) (Fin 4) ℝ :=
  !![Real.cos theta, -Real.sin theta, 0, 0; Real.sin theta, Real.cos theta, 0, 0;
     0, 0, 1, 0; 0, 0, 0, 1]

/-- The matrix product of `rotations/geometry_calc.py:69` (without the points). -/
noncomputable def arbitraryAxisMatrix (p1 p2 : V3) (theta : ℝ) : Matrix (Fin 4) (Fin 4) ℝ :=
  let axis := p2 - p1
  let l := axis.norm
  let v := Real.sqrt (axis.y ^ 2 + axis.z ^ 2)
  matDinv p1 * matRxInv axis.y axis.z v * matRyInv axis.x v l * matRz theta *
    matRy axis.x v l * matRx axis.y axis.z v * matD p1

/-- One column of `ps_new`, `rotations/geometry_calc.py:69-70`. -/
noncomputable def rotateAboutLineCore (p1 p2 : V3) (theta : ℝ) (p : V3) : V3 :=
  dehomog ((arbitraryAxisMatrix p1 p2 theta).mulVec (homog p))

open Classical in
/-- `rotate_points_around_arbitrary_axis(ps, p1, p2, theta)`,
`rotations/geometry_calc.py:35-70`.  When the axis is parallel to the x axis (or zero) `v = 0`
and lines 59-60 (and 62-63) compute `0/0`; every output column is then `nan`: `nonFinite`
(an empty point array has no column, and gives an empty result). -/
noncomputable def rotatePointsAroundArbitraryAxis (ps : List V3) (p1 p2 : V3) (theta : ℝ) :
    Py (List V3) :=
  if ps ≠ [] ∧ Real.sqrt ((p2 - p1).y ^ 2 + (p2 - p1).z ^ 2) = 0 then .error .nonFinite
  else .ok (ps.map (rotateAboutLineCore p1 p2 theta))

end PySailing
