import Verif.Model.Settings

/-!
# Specification: the settings of a run
-/

namespace PySailing.Spec

open PySailing

/-- The value given for a name, or the default. -/
def given (kw : Kwargs) (name : String) (default : Val) : Val := (kw.lookup name).getD default

/-- A number that may be `None`. -/
def optNum : Option ℝ → Val
  | none => .none
  | some x => .num x

/-- An array that may be `None`. -/
def optArr : Option (List ℝ) → Val
  | none => .none
  | some x => .arr x

/-- The names of the settings, group by group. -/
def settingNames (s : Settings) : List (Kwargs × List String) :=
  [(s.conditions, ["leeway_deg", "heel_deg", "SOG_yacht", "tws_ref", "alpha_true_wind_deg",
      "reference_water_level_for_wind_profile", "wind_exp_coeff", "wind_reference_measurment_height", "rho",
      "wind_profile", "roughness"]),
    (s.solver, ["n_spanwise", "n_chordwise", "interpolation_type"]),
    (s.mainSail, ["centerline_twist_deg", "girths", "chords", "camber", "camber_distance_from_luff"]),
    (s.jibSail, ["centerline_twist_deg", "girths", "chords", "camber", "camber_distance_from_luff"]),
    (s.csys, ["reference_level_for_moments"]),
    (s.keel, ["center_of_lateral_resistance_upright"]),
    (s.rig, ["main_sail_luff", "jib_luff", "foretriangle_height", "foretriangle_base", "sheer_above_waterline",
      "boom_above_sheer", "rake_deg", "mast_LOA", "sails_def"])]

/-- No unknown name in any group. -/
def NamesKnown (s : Settings) : Prop := ∀ g ∈ settingNames s, ∀ a ∈ g.1, a.1 ∈ g.2

/-- The configuration is the one of the settings, with the documented defaults. -/
structure Configured (s : Settings) (c : Config) : Prop where
  leeway : given s.conditions "leeway_deg" (.num 5) = .num c.leewayDeg
  heel : given s.conditions "heel_deg" (.num 10) = .num c.heelDeg
  speed : given s.conditions "SOG_yacht" (.num 4.63) = .num c.wind.sog
  tws : given s.conditions "tws_ref" (.num 4.63) = .num c.wind.twsRef
  alpha : given s.conditions "alpha_true_wind_deg" (.num 50) = .num c.wind.alphaDeg
  water : given s.conditions "reference_water_level_for_wind_profile" (.num 0) = optNum c.wind.waterLevel
  exponent : given s.conditions "wind_exp_coeff" (.num 0.1428) = optNum c.wind.expCoeff
  refHeight : given s.conditions "wind_reference_measurment_height" (.num 10) = optNum c.wind.refHeight
  rho : given s.conditions "rho" (.num 1.225) = .num c.rho
  profile : given s.conditions "wind_profile" (.text "exponential") = .text c.wind.profile
  roughness : given s.conditions "roughness" (.num 0.05) = optNum c.wind.roughness
  ns : given s.solver "n_spanwise" (.count 4) = .count c.solver.ns
  nc : given s.solver "n_chordwise" (.count 4) = .count c.solver.nc
  kind : given s.solver "interpolation_type" (.text "spline") = .text c.solver.interpolation
  mode : c.solver.lltTwist = "real_twist"
  mainLuff : given s.rig "main_sail_luff" (.num 12.4) = optNum c.rig.mainLuff
  jibLuff : given s.rig "jib_luff" (.num 10) = optNum c.rig.jibLuff
  height : given s.rig "foretriangle_height" (.num 11.5) = optNum c.rig.height
  base : given s.rig "foretriangle_base" (.num 3.9) = optNum c.rig.base
  sheer : given s.rig "sheer_above_waterline" (.num 1.2) = .num c.rig.sheer
  boom : given s.rig "boom_above_sheer" (.num 1.3) = .num c.rig.boom
  rake : given s.rig "rake_deg" (.num 92) = .num c.rig.rakeDeg
  mast : given s.rig "mast_LOA" (.num 0.15) = .num c.rig.mastLOA
  sails : given s.rig "sails_def" (.text "jib_and_main") = .text c.rig.sailsDef
  mainTwist : given s.mainSail "centerline_twist_deg" .none = optArr c.main.twist
  mainGirths : given s.mainSail "girths" (.arr [0, 1 / 8, 1 / 4, 1 / 2, 3 / 4, 7 / 8, 1]) = optArr c.main.girths
  mainChords : given s.mainSail "chords" (.arr [4, 3.82, 3.64, 3.2, 2.64, 2.32, 2]) = optArr c.main.chords
  mainCamber : given s.mainSail "camber" (.arr (List.replicate 7 (5 * 0.01))) = optArr c.main.camber
  mainPosition : given s.mainSail "camber_distance_from_luff" (.arr (List.replicate 7 0.5)) = optArr c.main.distance
  jibTwist : given s.jibSail "centerline_twist_deg" .none = optArr c.jib.twist
  jibGirths : given s.jibSail "girths" (.arr [0, 1 / 4, 1 / 2, 3 / 4, 1]) = optArr c.jib.girths
  jibChords : given s.jibSail "chords" (.arr [3.8, 2.98, 2.15, 1.33, 0.5]) = optArr c.jib.chords
  jibCamber : given s.jibSail "camber" (.arr (List.replicate 5 (0 * 0.01))) = optArr c.jib.camber
  jibPosition : given s.jibSail "camber_distance_from_luff" (.arr (List.replicate 5 0.5)) = optArr c.jib.distance
  reference : given s.csys "reference_level_for_moments" (.vec ⟨0, 0, 0⟩) = .vec c.vRef
  clr : given s.keel "center_of_lateral_resistance_upright" (.vec ⟨0, 0, -1⟩) = .vec c.clrUpright

end PySailing.Spec
