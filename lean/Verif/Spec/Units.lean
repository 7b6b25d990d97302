import Verif.Spec.Main
import Verif.Spec.Scaling

/-!
# Specification: the same settings in other units
-/

namespace PySailing.Spec

open PySailing

/-- By which factors the numbers for lengths, speeds and densities change from one system of units to another. -/
structure Units where
  length : ℝ
  speed : ℝ
  density : ℝ

/-- The factors are positive. -/
structure Units.Positive (u : Units) : Prop where
  length : 0 < u.length
  speed : 0 < u.speed
  density : 0 < u.density

/-- The sail in other units: only the chords are lengths; girths, camber and camber positions are relative, twist
is an angle. -/
noncomputable def sailInUnits (u : Units) (c : SailConf) : SailConf :=
  { c with chords := c.chords.map (List.map (u.length * ·)) }

/-- The wind in other units: speeds, heights and the roughness change; the exponent and the angle do not. -/
noncomputable def windInUnits (u : Units) (w : WindConditions) : WindConditions :=
  { w with
    twsRef := u.speed * w.twsRef
    sog := u.speed * w.sog
    refHeight := w.refHeight.map (u.length * ·)
    waterLevel := w.waterLevel.map (u.length * ·)
    roughness := w.roughness.map (u.length * ·) }

/-- The rig in other units: everything but the rake angle and the choice of the sails is a length. -/
noncomputable def rigInUnits (u : Units) (r : RigConf) : RigConf :=
  { r with
    mainLuff := r.mainLuff.map (u.length * ·)
    jibLuff := r.jibLuff.map (u.length * ·)
    height := r.height.map (u.length * ·)
    base := r.base.map (u.length * ·)
    sheer := u.length * r.sheer
    boom := u.length * r.boom
    mastLOA := u.length * r.mastLOA }

/-- The same settings in other units. -/
noncomputable def inUnits (u : Units) (c : Config) : Config :=
  { c with
    rho := u.density * c.rho
    wind := windInUnits u c.wind
    rig := rigInUnits u c.rig
    main := sailInUnits u c.main
    jib := sailInUnits u c.jib
    vRef := u.length • c.vRef
    clrUpright := u.length • c.clrUpright }

/-- Rows and columns of the workbook with lengths. -/
def lengthNames : List String :=
  ["cp_points_COG.x", "cp_points_COG.y", "cp_points_COG.z", "cp_points_upright.z",
    "Reference_measurement_height", "Reference_water_level_for_wind_profile"]

/-- Rows and columns with speeds. -/
def speedNames : List String :=
  ["V_induced_COG.x", "V_induced_COG.y", "V_induced_COG.z", "V_induced_length",
    "V_app_fs_COG.x", "V_app_fs_COG.y", "V_app_fs_COG.z", "V_app_fs_length",
    "TWS_COG.x", "TWS_COG.y", "TWS_COG.z", "TWS_length",
    "V_app_infs_COG.x", "V_app_infs_COG.y", "V_app_infs_COG.z", "V_app_infs_length",
    "TWS_at_reference_height_COG.x", "TWS_at_reference_height_COG.y", "TWS_at_reference_height_COG.z",
    "TWS_length_at_reference_height",
    "V_app_infs_at_reference_height_COG.x", "V_app_infs_at_reference_height_COG.y",
    "V_app_infs_at_reference_height_COG.z", "V_app_infs_length_at_reference_height_COG"]

/-- Rows and columns with forces. -/
def forceNames : List String :=
  ["F_sails_COG.x", "F_sails_COG.y", "F_sails_COG.z", "F_sails_COW.x", "F_sails_COW.y", "F_sails_COW.z",
    "F_sails_total_COG.x", "F_sails_total_COG.y", "F_sails_total_COG.z",
    "F_sails_total_COW.x", "F_sails_total_COW.y", "F_sails_total_COW.z",
    "F_jib_total_COG.x", "F_jib_total_COG.y", "F_jib_total_COG.z",
    "F_main_sail_total_COG.x", "F_main_sail_total_COG.y", "F_main_sail_total_COG.z"]

/-- Rows and columns with moments. -/
def momentNames : List String :=
  ["M_sails_COG.x", "M_sails_COG.y", "M_sails_COG.z",
    "M_sails_total_COG.x", "M_sails_total_COG.y", "M_sails_total_COG.z",
    "M_keel_total_COG.x", "M_keel_total_COG.y", "M_keel_total_COG.z",
    "M_total_COG.x", "M_total_COG.y", "M_total_COG.z",
    "M_jib_total_COG.x", "M_jib_total_COG.y", "M_jib_total_COG.z",
    "M_main_sail_total_COG.x", "M_main_sail_total_COG.y", "M_main_sail_total_COG.z",
    "M_sails_total_COW.x (heel)", "M_sails_total_COW.y (pitch)", "M_sails_total_COW.z (yaw)",
    "M_sails_total_COW.z (yaw - JG sign)",
    "M_keel_total_COW.x (heel)", "M_keel_total_COW.y (pitch)", "M_keel_total_COW.z (yaw)",
    "M_keel_total_COW.z (yaw - JG sign)",
    "M_total_COW.x (heel)", "M_total_COW.y (pitch)", "M_total_COW.z (yaw)", "M_total_COW.z (yaw - JG sign)"]

/-- By which factor the number in a row or column of the workbook changes: a force is a density times the square of
a speed times an area, and so on.  Angles, girths and the dummy row are pure numbers. -/
noncomputable def unitOf (u : Units) (name : String) : ℝ :=
  if name ∈ lengthNames then u.length
  else if name ∈ speedNames then u.speed
  else if name = "Circulation_magnitude" then u.length * u.speed
  else if name = "Pressure" then u.density * u.speed ^ 2
  else if name ∈ forceNames then u.density * u.speed ^ 2 * u.length ^ 2
  else if name ∈ momentNames then u.density * u.speed ^ 2 * u.length ^ 3
  else 1

/-- A cell of a table in other units. -/
noncomputable def cellInUnits (u : Units) (name : String) : Cell → Cell
  | .num x => .num (unitOf u name * x)
  | c => c

/-- The map of pressure coefficients in other units: the outlines of the panels are lengths. -/
noncomputable def mapInUnits (u : Units) (m : List (List (ℝ × ℝ) × ℝ)) : List (List (ℝ × ℝ) × ℝ) :=
  m.map fun q => (q.1.map fun p => (u.length * p.1, u.length * p.2), q.2)

/-- A plot of section coefficients in other units: the heights on the vertical axis are lengths. -/
noncomputable def figureInUnits (u : Units) (f : Figure) : Figure :=
  { f with series := f.series.map fun q => (q.1, q.2.1, q.2.2.1, q.2.2.2.1, q.2.2.2.2.map (u.length * ·)) }

end PySailing.Spec
