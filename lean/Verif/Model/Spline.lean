import Verif.Model.Interpolator
import Verif.Spec.Spline

/-!
# scipy's interpolating spline, `solver/interpolator.py:11`
-/

namespace PySailing

open Spec

open Classical in
/-- The spline that `interpolate.splrep(x, y, s=0)` returns, `solver/interpolator.py:11`.  Simplification:
FITPACK computes B-spline coefficients with knots at the interior abscissae but the second and the last
but one; the model takes the function these conditions determine (`Spec.IsSpline`, which exists and is
unique for at least four increasing abscissae, `exists_spline` and `Spec.IsSpline.unique`). -/
noncomputable def splineThrough (m : ℕ) (xs ys : ℕ → ℝ) : ℝ → ℝ :=
  if h : ∃ S, IsSpline m xs ys S then h.choose else fun _ => 0

open Classical in
/-- `interpolate.splev(x_new, interpolate.splrep(x, y, s=0), der=0)`, `solver/interpolator.py:11`:
`TypeError` for `x` and `y` of different length and for less than four points (`m > k must hold`),
`ValueError` for decreasing abscissae, else the values of the spline, which `splev` continues beyond the
data.  Simplification: for equal neighbouring abscissae, where FITPACK has no defined result, the model
has the error `nonFinite`. -/
noncomputable def fitpackSpline : SplineFn := fun xNew xs ys =>
  if xs.length ≠ ys.length then .error .typeError
  else if xs.length ≤ 3 then .error .typeError
  else if ∃ i, i + 1 < xs.length ∧ xs.getD (i + 1) 0 < xs.getD i 0 then .error .valueError
  else if ∃ i, i + 1 < xs.length ∧ xs.getD (i + 1) 0 = xs.getD i 0 then .error .nonFinite
  else .ok (xNew.map (splineThrough (xs.length - 1) (fun i => xs.getD i 0) (fun i => ys.getD i 0)))

end PySailing
