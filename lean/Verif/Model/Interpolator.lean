import Verif.Model.Mesh
import Verif.Model.Py

/-!
# `solver/interpolator.py`
-/

namespace PySailing

open Classical in
/-- One value of `np.interp(x_new, x, y)`, `solver/interpolator.py:10`, on the pairs `zip(x, y)`:
the first ordinate left of the data, the last ordinate right of it, between two neighbours the
formula `slope * (x_new - x[j]) + y[j]` of numpy.  Simplification: numpy finds the interval by
bisection, the model by walking through the list; for increasing `x` it is the same interval. -/
noncomputable def interp1 (x : ℝ) : List (ℝ × ℝ) → ℝ
  | [] => 0
  | [(_, fa)] => fa
  | (a, fa) :: (b, fb) :: rest =>
    if x < b then
      if x ≤ a then fa else (fb - fa) / (b - a) * (x - a) + fa
    else interp1 x ((b, fb) :: rest)

/-- `np.interp(x_new, x, y)`, `solver/interpolator.py:10`: `ValueError` for empty data and for `x`
and `y` of different length. -/
noncomputable def npInterp (xNew xs ys : List ℝ) : Py (List ℝ) :=
  if xs = [] then .error .valueError
  else if xs.length ≠ ys.length then .error .valueError
  else .ok (xNew.map fun x => interp1 x (xs.zip ys))

/-- The type of `interpolate.splev(x_new, interpolate.splrep(x, y, s=0), der=0)` as a function of
`x_new`, `x` and `y`, `solver/interpolator.py:11`.  The function is a parameter of
the definitions below, so that what does not depend on scipy is proved for every such function; scipy's
is `fitpackSpline` in `Verif/Model/Spline.lean`. -/
abbrev SplineFn := List ℝ → List ℝ → List ℝ → Py (List ℝ)

/-- `Interpolator(kind).interpolate_girths(x, y, n_points)`, `solver/interpolator.py:5-17`; the
dictionary lookup of an unknown type is a `KeyError`. -/
noncomputable def interpolateGirths (spline : SplineFn) (kind : String) (x y : List ℝ) (n : ℕ) :
    Py (List ℝ) :=
  let xNew := linspace01 n
  if kind = "linear" then npInterp xNew x y
  else if kind = "spline" then spline xNew x y
  else .error .keyError

/-- `interpolate_and_mirror_girths(girths, y_data_for_interpolation, n_points)`,
`solver/interpolator.py:19-22`. -/
noncomputable def interpolateAndMirrorGirths (spline : SplineFn) (kind : String)
    (girths y : List ℝ) (n : ℕ) : Py (List ℝ) := do
  let s ← interpolateGirths spline kind girths y n
  .ok (s.reverse ++ s)

/-- `interpolate_data_for_sections(data_main_sail, data_jib, ms_girths, jib_girths, n_span)`,
`solver/interpolator.py:24-30`. -/
noncomputable def interpolateDataForSections (spline : SplineFn) (kind : String)
    (dataMain dataJib : List (List ℝ)) (mainGirths jibGirths : List ℝ) (n : ℕ) :
    Py (List (List ℝ)) := do
  let ms ← dataMain.mapM fun d => interpolateAndMirrorGirths spline kind mainGirths d n
  let js ← dataJib.mapM fun d => interpolateAndMirrorGirths spline kind jibGirths d n
  .ok (List.zipWith (fun j m => j ++ m) js ms)

end PySailing
