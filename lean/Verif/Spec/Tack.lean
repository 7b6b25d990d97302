import Verif.Spec.Main

/-!
# Specification: the same yacht on the other tack
-/

namespace PySailing.Spec

open PySailing

/-- Port and starboard exchanged: mirror image in the plane `y = 0`. -/
def acrossCentre (p : V3) : V3 := ⟨p.x, -p.y, p.z⟩

/-- A sail set to the other side: twist and camber with opposite sign. -/
def otherSide (c : SailConf) : SailConf :=
  { c with twist := c.twist.map (List.map Neg.neg), camber := c.camber.map (List.map Neg.neg) }

/-- The configuration for the other tack: heel, leeway, wind angle, twist and camber with opposite sign,
reference point and centre of lateral resistance mirrored. -/
noncomputable def otherTack (c : Config) : Config :=
  { c with
    heelDeg := -c.heelDeg
    leewayDeg := -c.leewayDeg
    wind := { c.wind with alphaDeg := -c.wind.alphaDeg }
    main := otherSide (mainData c)
    jib := otherSide (jibData c)
    vRef := acrossCentre c.vRef
    clrUpright := acrossCentre c.clrUpright }

/-- The camber of the sail is zero at every girth. -/
def Flat (c : SailConf) : Prop := ∀ camber, c.camber = some camber → ∀ x ∈ camber, x = 0

/-- The sections of the sail which the program computes from the given data have no camber. -/
def NoCamber (spline : SplineFn) (s : SolverConf) (c : SailConf) : Prop :=
  ∀ girths camber sections, c.girths = some girths → c.camber = some camber →
    interpolateGirths spline s.interpolation girths camber (s.ns + 1) = .ok sections → ∀ x ∈ sections, x = 0

/-- Numbers of the three sheets that belong to port or starboard: lateral components of points, velocities
and forces, moments about the longitudinal and the vertical axis, angles, and the quantities whose sign
tells the side of the sail. -/
def lateralNames : List String :=
  ["Circulation_magnitude", "Pressure", "V_induced_COG.y", "V_app_fs_COG.y", "AWA_fs_COG_deg", "AWA_fs_COW_deg",
    "F_sails_COG.y", "M_sails_COG.x", "M_sails_COG.z", "F_sails_COW.y",
    "cp_points_COG.y", "TWS_COG.y", "V_app_infs_COG.y", "AWA_infs_COG_deg", "AWA_infs_COW_deg",
    "F_sails_total_COG.y", "F_sails_total_COW.y", "F_jib_total_COG.y", "F_main_sail_total_COG.y",
    "M_sails_total_COG.x", "M_sails_total_COG.z", "M_keel_total_COG.x", "M_keel_total_COG.z",
    "M_total_COG.x", "M_total_COG.z", "M_jib_total_COG.x", "M_jib_total_COG.z",
    "M_main_sail_total_COG.x", "M_main_sail_total_COG.z",
    "M_sails_total_COW.x (heel)", "M_sails_total_COW.z (yaw)", "M_sails_total_COW.z (yaw - JG sign)",
    "M_keel_total_COW.x (heel)", "M_keel_total_COW.z (yaw)", "M_keel_total_COW.z (yaw - JG sign)",
    "M_total_COW.x (heel)", "M_total_COW.z (yaw)", "M_total_COW.z (yaw - JG sign)",
    "TWS_at_reference_height_COG.y", "V_app_infs_at_reference_height_COG.y",
    "AWA_infs_at_reference_height_COG_deg", "AWA_infs_at_reference_height_COW_deg"]

open Classical in
/-- The number `x` of the row or column `name` on the other tack: with opposite sign if it belongs to port
or starboard, else the same.  An apparent wind from dead astern has the angle 180 degrees on both tacks. -/
noncomputable def onOtherTack (leewayDeg : ℝ) (name : String) (x : ℝ) : ℝ :=
  if (name = "AWA_infs_COG_deg" ∨ name = "AWA_infs_at_reference_height_COG_deg") ∧ x = 180 then 180
  else if (name = "AWA_infs_COW_deg" ∨ name = "AWA_infs_at_reference_height_COW_deg") ∧ x = 180 - leewayDeg
    then 180 + leewayDeg
  else if name ∈ lateralNames then -x
  else x

/-- The same for a cell of a table. -/
noncomputable def cellOnOtherTack (leewayDeg : ℝ) (name : String) : Cell → Cell
  | .num x => .num (onOtherTack leewayDeg name x)
  | c => c

end PySailing.Spec
