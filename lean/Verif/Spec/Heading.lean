import Verif.Spec.Main
import Verif.Spec.Results

/-!
# Specification: the yacht and the wind turned together
-/

namespace PySailing.Spec

open PySailing

/-- A point or vector turned about the vertical axis by an angle in degrees. -/
noncomputable def turned (angle : ℝ) (p : V3) : V3 :=
  ⟨Real.cos (deg2rad angle) * p.x - Real.sin (deg2rad angle) * p.y,
    Real.sin (deg2rad angle) * p.x + Real.cos (deg2rad angle) * p.y, p.z⟩

/-- The same yacht in the same wind, both turned by the angle.  The reference point for the moments is fixed in space
and turns with them, the centre of lateral resistance is given in the frame of the upright yacht. -/
noncomputable def turnedScene (angle : ℝ) (c : Config) : Config :=
  { c with
    leewayDeg := c.leewayDeg + angle
    wind := { c.wind with alphaDeg := c.wind.alphaDeg + angle }
    vRef := turned angle c.vRef }

/-- The vector in one line of three columns of the table of the panels. -/
def cellVector (t : Frame) (name : String) (line : ℕ) : Option V3 :=
  match t.cell (name ++ ".x") line, t.cell (name ++ ".y") line, t.cell (name ++ ".z") line with
  | some (.num x), some (.num y), some (.num z) => some ⟨x, y, z⟩
  | _, _, _ => none

/-- Columns with vectors in the frame of the course. -/
def courseColumns : List String :=
  ["V_induced_COG", "V_app_fs_COG", "F_sails_COG", "M_sails_COG", "cp_points_COG", "TWS_COG", "V_app_infs_COG"]

/-- Columns without direction. -/
def plainColumns : List String :=
  ["Circulation_magnitude", "V_induced_length", "V_app_fs_length", "Pressure", "TWS_length", "V_app_infs_length",
    "cp_points_upright.z", "girths", "sail_name"]

/-- Total forces and moments in the frame of the course. -/
def courseTotals : List String :=
  ["F_sails_total_COG", "M_sails_total_COG", "M_keel_total_COG", "M_total_COG", "F_jib_total_COG", "M_jib_total_COG",
    "F_main_sail_total_COG", "M_main_sail_total_COG"]

/-- Total moments in the frame of the yacht. -/
def yachtMoments : List String := ["M_sails_total_COW", "M_keel_total_COW", "M_total_COW"]

end PySailing.Spec
