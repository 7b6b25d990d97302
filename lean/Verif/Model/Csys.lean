import Verif.Model.Rotations
import Verif.Spec.Rotation

/-!
# `rotations/csys_transformations.py`
-/

namespace PySailing

/-- The state of a `CSYS_transformations` object, `rotations/csys_transformations.py:9-41`:
the two angles and the reference point; the four matrices are derived from them. -/
structure Csys where
  heelDeg : ℝ
  leewayDeg : ℝ
  vRef : V3

namespace Csys

/-- axis `[1, 0, 0]`, `rotations/csys_transformations.py:13`. -/
def ex : V3 := ⟨1, 0, 0⟩
/-- axis `[0, 0, 1]`, `rotations/csys_transformations.py:15`. -/
def ez : V3 := ⟨0, 0, 1⟩

/-- `heeling_rotation_matrix`, `rotations/csys_transformations.py:13`. -/
noncomputable def heeling (c : Csys) : M3 := rotationMatrixCore ex (deg2rad (-c.heelDeg))
/-- `reverse_heeling_rotation_matrix`, `rotations/csys_transformations.py:14`. -/
noncomputable def reverseHeeling (c : Csys) : M3 := rotationMatrixCore ex (deg2rad c.heelDeg)
/-- `leeway_rotation_matrix`, `rotations/csys_transformations.py:15`. -/
noncomputable def leeway (c : Csys) : M3 := rotationMatrixCore ez (deg2rad c.leewayDeg)
/-- `reverse_leeway_rotation_matrix`, `rotations/csys_transformations.py:16`. -/
noncomputable def reverseLeeway (c : Csys) : M3 := rotationMatrixCore ez (deg2rad (-c.leewayDeg))

/-- `rotate_point_with_mirror`, `rotations/csys_transformations.py:43-53`. -/
noncomputable def rotatePointWithMirror (c : Csys) (p : V3) : V3 :=
  let q := if p.z > 0 then c.heeling.mulVec p else c.reverseHeeling.mulVec p
  c.leeway.mulVec q

/-- `reverse_rotations_with_mirror`, `rotations/csys_transformations.py:55-65`. -/
noncomputable def reverseRotationsWithMirror (c : Csys) (p : V3) : V3 :=
  let q := c.reverseLeeway.mulVec p
  if q.z > 0 then c.reverseHeeling.mulVec q else c.heeling.mulVec q

/-- `rotate_point_without_mirror`, `rotations/csys_transformations.py:67-73`. -/
noncomputable def rotatePointWithoutMirror (c : Csys) (p : V3) : V3 :=
  c.leeway.mulVec (c.heeling.mulVec p)

/-- `from_xyz_to_centerline_csys`, `rotations/csys_transformations.py:75-82`. -/
noncomputable def fromXyzToCenterline (c : Csys) (vs : List V3) : List V3 :=
  vs.map c.leeway.mulVec

/-- `calc_centerline_moments`, `rotations/csys_transformations.py:84-90`, with
`extract_above_water_quantities` (`solver/additional_functions.py:24-36`) inlined:
`half = int(n / 2)`, the first half of the array and its sum. -/
noncomputable def calcCenterlineMoments (c : Csys) (ms : List V3) : List V3 × V3 :=
  let mc := c.fromXyzToCenterline ms
  (mc, (mc.take (ms.length / 2)).sum)

end Csys

open Classical in
/-- scipy's `Rotation.from_rotvec(r)`: rotation by `|r|` about `r / |r|` (identity for `r = 0`).
Library behaviour, modelled by its documentation; used at
`rotations/csys_transformations.py:20-36` and `rotations/geometry_calc.py:84`. -/
noncomputable def scipyRotvec (r : V3) (v : V3) : V3 :=
  if r = 0 then v else Spec.rodrigues (Spec.unit r) r.norm v

/-- `r.as_matrix()`: the columns are the images of the basis vectors;
`rotations/csys_transformations.py:21`. -/
noncomputable def scipyMatrix (r : V3) : M3 :=
  let a := scipyRotvec r ⟨1, 0, 0⟩
  let b := scipyRotvec r ⟨0, 1, 0⟩
  let c := scipyRotvec r ⟨0, 0, 1⟩
  ⟨⟨a.x, b.x, c.x⟩, ⟨a.y, b.y, c.y⟩, ⟨a.z, b.z, c.z⟩⟩

/-- `rotate_points_around_origin_axis`, `rotations/geometry_calc.py:73-85`: normalises the axis
(line 83, `nan` for the zero axis) and lets scipy rotate. -/
noncomputable def rotatePointsAroundOriginAxis (ps : List V3) (axis : V3) (theta : ℝ) :
    Py (List V3) :=
  open Classical in
  if axis = 0 then .error .nonFinite
  else .ok (ps.map (scipyRotvec (theta • ((1 / axis.norm) • axis))))

/-- One comparison of `np.testing.assert_almost_equal` (7 decimals): numpy tests
`abs(desired - actual) < 1.5 * 10**(-7)`; used at `rotations/csys_transformations.py:21`. -/
def almostEq (a b : ℝ) : Prop := |b - a| < 1.5e-7

/-- `np.testing.assert_almost_equal` on two vectors; see `almostEq`. -/
def V3.almostEq (a b : V3) : Prop :=
  PySailing.almostEq a.x b.x ∧ PySailing.almostEq a.y b.y ∧ PySailing.almostEq a.z b.z

/-- `np.testing.assert_almost_equal` on two 3x3 arrays; see `almostEq`. -/
def M3.almostEq (a b : M3) : Prop :=
  a.r0.almostEq b.r0 ∧ a.r1.almostEq b.r1 ∧ a.r2.almostEq b.r2

open Classical in
/-- `CSYS_transformations.__init__`, `rotations/csys_transformations.py:9-41`: the four
matrices are compared with scipy's; a mismatch raises `AssertionError`. -/
noncomputable def csysInit (heelDeg leewayDeg : ℝ) (vRef : V3) : Py Csys :=
  let c : Csys := ⟨heelDeg, leewayDeg, vRef⟩
  if c.heeling.almostEq (scipyMatrix (deg2rad (-heelDeg) • Csys.ex)) ∧
     c.reverseHeeling.almostEq (scipyMatrix (deg2rad heelDeg • Csys.ex)) ∧
     c.leeway.almostEq (scipyMatrix (deg2rad leewayDeg • Csys.ez)) ∧
     c.reverseLeeway.almostEq (scipyMatrix (deg2rad (-leewayDeg) • Csys.ez))
  then .ok c else .error .assertionError

end PySailing
