import Verif.Model.Csys
import Verif.Model.Py
import Mathlib.Analysis.SpecialFunctions.Log.Basic
import Mathlib.Analysis.SpecialFunctions.Pow.Real
import Mathlib.Analysis.SpecialFunctions.Complex.Arg
import Mathlib.Analysis.SpecialFunctions.Trigonometric.Inverse

/-!
# Wind profiles and inlet conditions

`inlet/winds.py`, `inlet/inlet_conditions.py` and the `Wind` dataclass of `runner/sail.py`.
-/

namespace PySailing

/-- `np.arctan2(y, x)` (`inlet/winds.py:128`, `inlet/inlet_conditions.py:19`): the angle in
`(-π, π]` of the point `(x, y)`, `0` at the origin.  Simplification: no signed zeros. -/
noncomputable def arctan2 (y x : ℝ) : ℝ := Complex.arg ⟨x, y⟩

/-- `np.rad2deg`, e.g. `inlet/inlet_conditions.py:19`. -/
noncomputable def rad2deg (r : ℝ) : ℝ := r * 180 / Real.pi

/-- The three subclasses of `WindBase` with their own attributes: `FlatWindProfile`
(`inlet/winds.py:60-62`), `LogWindProfile` (`:84-87`), `ExpWindProfile` (`:105-112`).  The
attributes are copied unchecked from the caller, so each may be `None`. -/
inductive WindProfile where
  | flat
  | log (roughness refHeight : Option ℝ)
  | exp (coeff refHeight waterLevel : Option ℝ)

/-- A wind object: the attributes set by `WindBase.__init__` (`inlet/winds.py:8-18`) and the
subclass. -/
structure WindObj where
  alphaDeg : ℝ
  twsRef : ℝ
  vYacht : ℝ
  profile : WindProfile

namespace WindObj

/-- `self.alpha_true_wind`, `inlet/winds.py:16`. -/
noncomputable def alpha (w : WindObj) : ℝ := deg2rad w.alphaDeg

/-- `length_to_xyz_vector`, `inlet/winds.py:30-35`. -/
noncomputable def lengthToXyz (w : WindObj) (speed : ℝ) : V3 :=
  ⟨speed * Real.cos w.alpha, speed * Real.sin w.alpha, 0⟩

/-- The expression `np.log(height / roughness) / np.log(reference / roughness)` of
`LogWindProfile.get_true_wind_speed_at_h`, `inlet/winds.py:91`.  `roughness = 0`:
`reference / roughness` is a division of Python floats, `ZeroDivisionError`.  `np.log` of a
negative number is `nan`, `np.log(0) = -inf`, and a finite number over `-inf` is `-0.0`. -/
noncomputable def logFactor (r ref h : ℝ) : Py ℝ :=
  open Classical in
  if r = 0 then .error .zeroDivision
  else if h / r ≤ 0 then .error .nonFinite
  else if ref / r < 0 then .error .nonFinite
  else if ref / r = 0 then .ok 0
  else if ref / r = 1 then .error .nonFinite
  else .ok (Real.log (h / r) / Real.log (ref / r))

/-- The expression `pow((height - water_level) / reference, coeff)` of
`ExpWindProfile.get_true_wind_speed_at_h`, `inlet/winds.py:117`, with the rules of `pow` on
numpy floats (`height` is a numpy float when called from `InletConditions`): division by zero
gives `±inf` or `nan`; `x ** 0 = 1` always; `±inf ** c = 0` for `c < 0`; a negative base needs
an integer exponent, otherwise `nan`; `0 ** c = inf` for `c < 0`. -/
noncomputable def expFactor (c ref wl h : ℝ) : Py ℝ :=
  open Classical in
  if ref = 0 then
    if c = 0 then .ok 1
    else if c < 0 ∧ h - wl ≠ 0 then .ok 0
    else .error .nonFinite
  else
    let b := (h - wl) / ref
    if c = 0 then .ok 1
    else if b < 0 ∧ ¬ ∃ n : ℤ, c = n then .error .nonFinite
    else if b = 0 ∧ c < 0 then .error .nonFinite
    else .ok (b ^ c)

/-- `get_true_wind_speed_at_h` of the three subclasses: `inlet/winds.py:64-66` (flat), `:89-93`
(logarithmic), `:116-119` (exponential).  A `None` attribute makes the arithmetic raise
`TypeError`. -/
noncomputable def trueWindAt (w : WindObj) (h : ℝ) : Py V3 :=
  match w.profile with
  | .flat => .ok (w.lengthToXyz w.twsRef)
  | .log (some r) (some ref) => do
      let f ← logFactor r ref h
      .ok (w.lengthToXyz (w.twsRef * f))
  | .log _ _ => .error .typeError
  | .exp (some c) (some ref) (some wl) => do
      let f ← expFactor c ref wl h
      .ok (w.lengthToXyz (w.twsRef * f))
  | .exp _ _ _ => .error .typeError

/-- `get_app_infs_at_h`, `inlet/winds.py:55-57`. -/
def appInfs (w : WindObj) (tws : V3) : V3 := ⟨tws.x + w.vYacht, tws.y, tws.z⟩

/-- `get_app_alfa_infs_at_h`, `inlet/winds.py:37-53`.  The denominator vanishes when there is
no apparent wind (`nan`); `np.arccos` of a number outside `[-1, 1]` (or the square root of a
negative number) would be `nan` too. -/
noncomputable def appAlfaInfs (w : WindObj) (tws : V3) : Py ℝ :=
  open Classical in
  let t := tws.norm
  let q := w.vYacht * w.vYacht + 2 * w.vYacht * t * Real.cos w.alpha + t * t
  if q ≤ 0 then .error .nonFinite
  else
    let c := (w.vYacht * Real.cos w.alpha + t) / Real.sqrt q
    if c < -1 ∨ 1 < c then .error .nonFinite
    else .ok (w.alpha - Real.arccos c)

end WindObj

/-! ## `InletConditions` -/

/-- The attributes of an `InletConditions` object, `inlet/inlet_conditions.py:7-19`. -/
structure Inlet where
  rho : ℝ
  winds : WindObj
  cpPoints : List V3
  twsAtCp : List V3
  twsLength : List ℝ
  vAppInfs : List V3
  vAppInfsLength : List ℝ
  awaInfsDeg : List ℝ

/-- `InletConditions.__init__`, `inlet/inlet_conditions.py:7-19`.  For an empty point list
`np.linalg.norm(..., axis=1)` (line 13) raises numpy's `AxisError` (a `ValueError`). -/
noncomputable def inletConditions (w : WindObj) (rho : ℝ) (cps : List V3) : Py Inlet := do
  let tws ← cps.mapM fun p => w.trueWindAt |p.z|
  if tws = [] then .error .valueError
  else
    let app := tws.map w.appInfs
    .ok { rho := rho, winds := w, cpPoints := cps, twsAtCp := tws,
          twsLength := tws.map V3.norm, vAppInfs := app,
          vAppInfsLength := app.map V3.norm,
          awaInfsDeg := app.map fun v => rad2deg (arctan2 v.y v.x) }

/-! ## `Wind` (`runner/sail.py`) -/

/-- The wind part of `Conditions`, `runner/container.py:29-43`; the numeric parameters that the
checks test for `None` are options. -/
structure WindConditions where
  alphaDeg : ℝ
  twsRef : ℝ
  sog : ℝ
  profile : String
  expCoeff : Option ℝ
  refHeight : Option ℝ
  waterLevel : Option ℝ
  roughness : Option ℝ

/-- `Wind.__post_init__`, `runner/sail.py:45-55`.  The `ValueError`s are caught and turned into
`sys.exit()` without a code, i.e. exit status 0.  The misspelling `expotentional` is the
code's. -/
def windPostInit (c : WindConditions) : Py Unit :=
  if c.profile = "logarithmic" ∧ (c.roughness = none ∨ c.refHeight = none) then
    .error (.sysExit 0)
  else if c.profile = "expotentional" ∧ (c.expCoeff = none ∨ c.refHeight = none) then
    .error (.sysExit 0)
  else if c.profile = "flat" ∧ (c.expCoeff = none ∨ c.refHeight = none) then
    .error (.sysExit 0)
  else .ok ()

/-- `Wind.__get_profile`, `runner/sail.py:57-71`. -/
def windGetProfile (c : WindConditions) : WindObj :=
  ⟨c.alphaDeg, c.twsRef, c.sog,
    if c.profile = "exponential" then .exp c.expCoeff c.refHeight c.waterLevel
    else if c.profile = "flat" then .flat
    else .log c.roughness c.refHeight⟩

/-- `Wind(conditions).profile`: construction (`runner/sail.py:45-55`) followed by the property
(`:73-75`). -/
def windProfile (c : WindConditions) : Py WindObj := do
  windPostInit c
  .ok (windGetProfile c)

/-! ## `to_df_integral` -/

/-- The expression of `inlet/winds.py:117` with a Python float for `height`, as
`to_df_integral` calls it (`inlet/winds.py:122`): `ZeroDivisionError` for a vanishing reference and for
`0.0 ** c` with `c < 0`; a negative base with a broken exponent gives a complex number, for which
`np.arctan2` (line 128) raises `TypeError`. -/
noncomputable def expFactorFloat (c ref wl h : ℝ) : Py ℝ :=
  open Classical in
  if ref = 0 then .error .zeroDivision
  else
    let b := (h - wl) / ref
    if c = 0 then .ok 1
    else if b < 0 ∧ ¬ ∃ n : ℤ, c = n then .error .typeError
    else if b = 0 ∧ c < 0 then .error .zeroDivision
    else .ok (b ^ c)

/-- `to_df_integral`: the rows of the sheet `IC_at_reference_height`, in order;
`FlatWindProfile` (`inlet/winds.py:68-75`) and `LogWindProfile` (`:95-102`) write one dummy
row, `ExpWindProfile` (`:121-147`) the wind at the reference height. -/
noncomputable def windIntegral (w : WindObj) (csys : Csys) : Py (List (String × ℝ)) :=
  match w.profile with
  | .flat => .ok [("Not implemented - dummy variable", 123456789)]
  | .log _ _ => .ok [("Not implemented - dummy variable", 123456789)]
  | .exp c ref wl =>
    match c, ref, wl with
    | some c, some ref, some wl => do
      let f ← expFactorFloat c ref wl ref
      let tws := w.lengthToXyz (w.twsRef * f)
      let app := w.appInfs tws
      let awa := rad2deg (arctan2 app.y app.x)
      .ok [("Reference_measurement_height", ref),
           ("Reference_water_level_for_wind_profile", wl),
           ("TWS_at_reference_height_COG.x", tws.x),
           ("TWS_at_reference_height_COG.y", tws.y),
           ("TWS_at_reference_height_COG.z", tws.z),
           ("TWS_length_at_reference_height", tws.norm),
           ("V_app_infs_at_reference_height_COG.x", app.x),
           ("V_app_infs_at_reference_height_COG.y", app.y),
           ("V_app_infs_at_reference_height_COG.z", app.z),
           ("V_app_infs_length_at_reference_height_COG", app.norm),
           ("AWA_infs_at_reference_height_COG_deg", awa),
           ("AWA_infs_at_reference_height_COW_deg", awa - csys.leewayDeg)]
    | _, _, _ => .error .typeError

end PySailing
