import Verif.Model.Main

/-!
# The dictionaries of `variables.py` and the objects made from them

`runner/container.py` declares one dataclass per dictionary; `main()` calls them with the dictionaries as
keyword arguments, `runner/cli.py:49-56`.  The class `Output` is in `Verif.Model.Cli`.
-/

namespace PySailing

/-- A value in `variables.py`: `None`, a number, a whole number, a string, an array of numbers, or an array with
three coordinates. -/
inductive Val where
  | none
  | num (x : ℝ)
  | count (n : ℕ)
  | text (s : String)
  | arr (l : List ℝ)
  | vec (v : V3)

/-- A dictionary with string keys, `variables.py:16-20`; the first entry with a key is the one that counts (a
Python dictionary has only one). -/
abbrev Kwargs := List (String × Val)

/-- The generated `__init__` of a dataclass with the given fields and defaults, called with keyword arguments,
`runner/container.py:17-24`: an unknown keyword is a `TypeError`; a field that is not given has its default. -/
def dataclassInit (fields kw : Kwargs) : Py Kwargs :=
  if kw.all fun a => fields.any fun f => f.1 = a.1 then
    .ok (fields.map fun f => (f.1, (kw.lookup f.1).getD f.2))
  else .error .typeError

/-- `Conditions`, `runner/container.py:28-43`. -/
noncomputable def conditionsFields : Kwargs :=
  [("leeway_deg", .num 5), ("heel_deg", .num 10), ("SOG_yacht", .num 4.63), ("tws_ref", .num 4.63),
    ("alpha_true_wind_deg", .num 50), ("reference_water_level_for_wind_profile", .num 0),
    ("wind_exp_coeff", .num 0.1428), ("wind_reference_measurment_height", .num 10), ("rho", .num 1.225),
    ("wind_profile", .text "exponential"), ("roughness", .num 0.05)]

/-- `Solver`, `runner/container.py:17-24`; `LLT_twist` is a `ClassVar` and no field. -/
def solverFields : Kwargs :=
  [("n_spanwise", .count 4), ("n_chordwise", .count 4), ("interpolation_type", .text "spline")]

/-- `MainSail`, `runner/container.py:67-73`. -/
noncomputable def mainSailFields : Kwargs :=
  [("centerline_twist_deg", .none), ("girths", .arr [0, 1 / 8, 1 / 4, 1 / 2, 3 / 4, 7 / 8, 1]),
    ("chords", .arr [4, 3.82, 3.64, 3.2, 2.64, 2.32, 2]), ("camber", .arr (List.replicate 7 (5 * 0.01))),
    ("camber_distance_from_luff", .arr (List.replicate 7 0.5))]

/-- `JibSail`, `runner/container.py:79-86`. -/
noncomputable def jibSailFields : Kwargs :=
  [("centerline_twist_deg", .none), ("girths", .arr [0, 1 / 4, 1 / 2, 3 / 4, 1]),
    ("chords", .arr [3.8, 2.98, 2.15, 1.33, 0.5]), ("camber", .arr (List.replicate 5 (0 * 0.01))),
    ("camber_distance_from_luff", .arr (List.replicate 5 0.5))]

/-- `Csys`, `runner/container.py:104-106`. -/
noncomputable def csysFields : Kwargs := [("reference_level_for_moments", .vec ⟨0, 0, 0⟩)]

/-- `Keel`, `runner/container.py:112-114`. -/
noncomputable def keelFields : Kwargs := [("center_of_lateral_resistance_upright", .vec ⟨0, 0, -1⟩)]

/-- `Rig`, `runner/container.py:48-58`. -/
noncomputable def rigFields : Kwargs :=
  [("main_sail_luff", .num 12.4), ("jib_luff", .num 10), ("foretriangle_height", .num 11.5),
    ("foretriangle_base", .num 3.9), ("sheer_above_waterline", .num 1.2), ("boom_above_sheer", .num 1.3),
    ("rake_deg", .num 92), ("mast_LOA", .num 0.15), ("sails_def", .text "jib_and_main")]

/-- The dictionaries of a `variables.py`, `runner/cli.py:49-56`. -/
structure Settings where
  conditions : Kwargs
  solver : Kwargs
  mainSail : Kwargs
  jibSail : Kwargs
  csys : Kwargs
  keel : Kwargs
  rig : Kwargs

/-- The attributes of the seven objects, `runner/cli.py:50-56`. -/
structure Objects where
  conditions : Kwargs
  solver : Kwargs
  mainSail : Kwargs
  jibSail : Kwargs
  csys : Kwargs
  keel : Kwargs
  rig : Kwargs

/-- `Conditions(**vr.conditions_args)`, ..., `Rig(**vr.rig_args)`, `runner/cli.py:50-56`, without
`MainSail.__post_init__` and `JibSail.__post_init__` (`mainSailInit`, `jibSailInit`); both can only fail with the
`TypeError` of a missing array, so the order of the failures does not matter. -/
noncomputable def makeObjects (s : Settings) : Py Objects := do
  let conditions ← dataclassInit conditionsFields s.conditions
  let solver ← dataclassInit solverFields s.solver
  let mainSail ← dataclassInit mainSailFields s.mainSail
  let jibSail ← dataclassInit jibSailFields s.jibSail
  let csys ← dataclassInit csysFields s.csys
  let keel ← dataclassInit keelFields s.keel
  let rig ← dataclassInit rigFields s.rig
  .ok ⟨conditions, solver, mainSail, jibSail, csys, keel, rig⟩

/-- Attribute of an object as a number, `runner/cli.py:58-60`. -/
def Val.real? : Option Val → Option ℝ
  | some (.num x) => some x
  | _ => Option.none

/-- Attribute that may be `None`, `runner/sail.py:46-52`. -/
def Val.optReal? : Option Val → Option (Option ℝ)
  | some (.num x) => some (some x)
  | some .none => some Option.none
  | _ => Option.none

/-- Attribute that is an array or `None`, `runner/container.py:68-72`. -/
def Val.optArr? : Option Val → Option (Option (List ℝ))
  | some (.arr x) => some (some x)
  | some .none => some Option.none
  | _ => Option.none

/-- Whole number, `runner/container.py:19-20`. -/
def Val.count? : Option Val → Option ℕ
  | some (.count n) => some n
  | _ => Option.none

/-- String, `runner/container.py:21`. -/
def Val.text? : Option Val → Option String
  | some (.text s) => some s
  | _ => Option.none

/-- Three coordinates, `runner/container.py:106`. -/
def Val.vec? : Option Val → Option V3
  | some (.vec v) => some v
  | _ => Option.none

/-- A sail object as used by the rest of the program, `runner/container.py:67-90`. -/
def sailConf? (o : Kwargs) : Option SailConf := do
  let twist ← Val.optArr? (o.lookup "centerline_twist_deg")
  let girths ← Val.optArr? (o.lookup "girths")
  let chords ← Val.optArr? (o.lookup "chords")
  let camber ← Val.optArr? (o.lookup "camber")
  let distance ← Val.optArr? (o.lookup "camber_distance_from_luff")
  some ⟨twist, girths, chords, camber, distance⟩

/-- The wind data, `runner/sail.py:43-75`. -/
def windConditions? (o : Kwargs) : Option WindConditions := do
  let alpha ← Val.real? (o.lookup "alpha_true_wind_deg")
  let tws ← Val.real? (o.lookup "tws_ref")
  let sog ← Val.real? (o.lookup "SOG_yacht")
  let profile ← Val.text? (o.lookup "wind_profile")
  let coeff ← Val.optReal? (o.lookup "wind_exp_coeff")
  let ref ← Val.optReal? (o.lookup "wind_reference_measurment_height")
  let wl ← Val.optReal? (o.lookup "reference_water_level_for_wind_profile")
  let rough ← Val.optReal? (o.lookup "roughness")
  some ⟨alpha, tws, sog, profile, coeff, ref, wl, rough⟩

/-- The rig, `runner/sail.py:78-150`. -/
def rigConf? (o : Kwargs) : Option RigConf := do
  let mainLuff ← Val.optReal? (o.lookup "main_sail_luff")
  let jibLuff ← Val.optReal? (o.lookup "jib_luff")
  let height ← Val.optReal? (o.lookup "foretriangle_height")
  let base ← Val.optReal? (o.lookup "foretriangle_base")
  let sheer ← Val.real? (o.lookup "sheer_above_waterline")
  let boom ← Val.real? (o.lookup "boom_above_sheer")
  let rake ← Val.real? (o.lookup "rake_deg")
  let mast ← Val.real? (o.lookup "mast_LOA")
  let sails ← Val.text? (o.lookup "sails_def")
  some ⟨mainLuff, jibLuff, height, base, sheer, boom, rake, mast, sails⟩

/-- The solver settings; `LLT_twist` is the class attribute, `runner/container.py:18-22`. -/
def solverConf? (o : Kwargs) : Option SolverConf := do
  let ns ← Val.count? (o.lookup "n_spanwise")
  let nc ← Val.count? (o.lookup "n_chordwise")
  let kind ← Val.text? (o.lookup "interpolation_type")
  some ⟨ns, nc, kind, "real_twist"⟩

/-- The configuration of a run, `runner/cli.py:58-67`.  Dataclasses do not check types; what the program does with
values of another type than the annotated one is not modelled (`none`). -/
def Objects.config? (o : Objects) : Option Config := do
  let heel ← Val.real? (o.conditions.lookup "heel_deg")
  let leeway ← Val.real? (o.conditions.lookup "leeway_deg")
  let rho ← Val.real? (o.conditions.lookup "rho")
  let wind ← windConditions? o.conditions
  let solver ← solverConf? o.solver
  let rig ← rigConf? o.rig
  let main ← sailConf? o.mainSail
  let jib ← sailConf? o.jibSail
  let vRef ← Val.vec? (o.csys.lookup "reference_level_for_moments")
  let clr ← Val.vec? (o.keel.lookup "center_of_lateral_resistance_upright")
  some ⟨heel, leeway, rho, wind, solver, rig, main, jib, vRef, clr⟩

/-- `main()` after `variables.py` is loaded, `runner/cli.py:49-93`; `none` where a value has another type than the
annotated one. -/
noncomputable def runSettings (spline : SplineFn) (s : Settings) : Option (List Effect × Py Unit) :=
  match makeObjects s with
  | .error e => some ([], .error e)
  | .ok o => o.config?.map (run spline)

/-! ## The shipped files -/

/-- Girths of the main sail, `variables.py:6`. -/
noncomputable def shippedMainGirths : List ℝ := [0, 1 / 8, 1 / 4, 1 / 2, 3 / 4, 7 / 8, 1]

/-- Girths of the jib, `variables.py:7`. -/
noncomputable def shippedJibGirths : List ℝ := [0, 1 / 4, 1 / 2, 3 / 4, 1]

/-- `variables.py:16-90`, with the given numbers of panels; `examples/variables.py` differs from
`variables.py` in these two numbers only. -/
noncomputable def shippedVariables (ns nc : ℕ) : Settings where
  solver := [("n_spanwise", .count ns), ("n_chordwise", .count nc), ("interpolation_type", .text "spline")]
  conditions := [("leeway_deg", .num 5), ("heel_deg", .num 10), ("SOG_yacht", .num 4.63), ("tws_ref", .num 4.63),
    ("alpha_true_wind_deg", .num 50), ("reference_water_level_for_wind_profile", .num 0),
    ("wind_exp_coeff", .num 0.1428), ("wind_reference_measurment_height", .num 10), ("rho", .num 1.225),
    ("wind_profile", .text "exponential"), ("roughness", .num 0.05)]
  rig := [("main_sail_luff", .num 12.4), ("jib_luff", .num 10), ("foretriangle_height", .num 11.5),
    ("foretriangle_base", .num 3.9), ("sheer_above_waterline", .num 1.2), ("boom_above_sheer", .num 1.3),
    ("rake_deg", .num 92), ("mast_LOA", .num 0.15), ("sails_def", .text "jib_and_main")]
  mainSail := [("girths", .arr shippedMainGirths), ("chords", .arr [4, 3.82, 3.64, 3.2, 2.64, 2.32, 2]),
    ("centerline_twist_deg", .arr (shippedMainGirths.map fun x => 12 * x + 5)),
    ("camber", .arr (List.replicate 7 (5 * 0.01))), ("camber_distance_from_luff", .arr (List.replicate 7 0.5))]
  jibSail := [("centerline_twist_deg", .arr (shippedJibGirths.map fun x => 15 * x + 7)),
    ("girths", .arr shippedJibGirths), ("chords", .arr [3.8, 2.98, 2.15, 1.33, 0.5]),
    ("camber", .arr (List.replicate 5 (5 * 0.01))), ("camber_distance_from_luff", .arr (List.replicate 5 0.5))]
  csys := [("reference_level_for_moments", .vec ⟨0, 0, 0⟩)]
  keel := [("center_of_lateral_resistance_upright", .vec ⟨0, 0, -1⟩)]

/-- `examples/rectangle_variables.py:5-105`. -/
noncomputable def shippedRectangle : Settings where
  solver := [("n_spanwise", .count 16), ("n_chordwise", .count 8), ("interpolation_type", .text "spline")]
  conditions := [("leeway_deg", .num 0), ("heel_deg", .num 0), ("SOG_yacht", .num 0), ("tws_ref", .num 1),
    ("alpha_true_wind_deg", .num 1), ("reference_water_level_for_wind_profile", .num 0),
    ("wind_exp_coeff", .num 0), ("wind_reference_measurment_height", .num 10), ("rho", .num 1.225),
    ("wind_profile", .text "flat"), ("roughness", .num 0.05)]
  rig := [("main_sail_luff", .num 5), ("jib_luff", .num 10), ("foretriangle_height", .num 11.5),
    ("foretriangle_base", .num 3.9), ("sheer_above_waterline", .num 0), ("boom_above_sheer", .num 0),
    ("rake_deg", .num 90), ("mast_LOA", .num 0), ("sails_def", .text "main")]
  mainSail := [("girths", .arr shippedMainGirths), ("chords", .arr (List.replicate 7 1)),
    ("centerline_twist_deg", .arr (shippedMainGirths.map fun x => -10 + 0 * x)),
    ("camber", .arr (List.replicate 7 (0 * 0.01))), ("camber_distance_from_luff", .arr (List.replicate 7 0.5))]
  jibSail := [("centerline_twist_deg", .arr (shippedJibGirths.map fun x => 0 * (10 + 5) + 0 * 15 * x)),
    ("girths", .arr shippedJibGirths), ("chords", .arr [3.8, 2.98, 2.15, 1.33, 0.5]),
    ("camber", .arr (List.replicate 5 (0 * 0.01))), ("camber_distance_from_luff", .arr (List.replicate 5 0.5))]
  csys := [("reference_level_for_moments", .vec ⟨0, 0, 0⟩)]
  keel := [("center_of_lateral_resistance_upright", .vec ⟨0, 0, -1⟩)]

/-- `examples/sweep_variables.py:5-104`. -/
noncomputable def shippedSweep : Settings where
  solver := [("n_spanwise", .count 4), ("n_chordwise", .count 1), ("interpolation_type", .text "linear")]
  conditions := [("leeway_deg", .num 0), ("heel_deg", .num 0), ("SOG_yacht", .num 0), ("tws_ref", .num 1),
    ("alpha_true_wind_deg", .num 4), ("reference_water_level_for_wind_profile", .num 0),
    ("wind_exp_coeff", .num 0), ("wind_reference_measurment_height", .num 10), ("rho", .num 1),
    ("wind_profile", .text "flat"), ("roughness", .num 0.05)]
  rig := [("main_sail_luff", .num (0.5 / Real.cos (deg2rad 45))), ("jib_luff", .num 10),
    ("foretriangle_height", .num 11.5), ("foretriangle_base", .num 3.9), ("sheer_above_waterline", .num 0),
    ("boom_above_sheer", .num 0), ("rake_deg", .num (90 + 45)), ("mast_LOA", .num 0), ("sails_def", .text "main")]
  mainSail := [("girths", .arr shippedMainGirths), ("chords", .arr (List.replicate 7 0.2)),
    ("centerline_twist_deg", .arr (shippedMainGirths.map fun x => 0 * x)),
    ("camber", .arr (List.replicate 7 (0 * 0.01))), ("camber_distance_from_luff", .arr (List.replicate 7 0.5))]
  jibSail := [("centerline_twist_deg", .arr (shippedJibGirths.map fun x => 0 * (10 + 5) + 0 * 15 * x)),
    ("girths", .arr shippedJibGirths), ("chords", .arr (List.map (0 * ·) [3.8, 2.98, 2.15, 1.33, 0.5])),
    ("camber", .arr (List.replicate 5 (0 * 0.01))), ("camber_distance_from_luff", .arr (List.replicate 5 0.5))]
  csys := [("reference_level_for_moments", .vec ⟨0, 0, 0⟩)]
  keel := [("center_of_lateral_resistance_upright", .vec ⟨0, 0, -1⟩)]

end PySailing
