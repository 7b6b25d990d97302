import Verif.Model.Main

/-!
# Specification: the part of the output that depends on the reference point for moments
-/

namespace PySailing.Spec

open PySailing

/-- The rows of the sheet `Integrals` with the moments of the sails and the total moment (not those of the keel). -/
def sailMomentRows : List String :=
  ["M_sails_total_COG.x", "M_sails_total_COG.y", "M_sails_total_COG.z", "M_sails_total_COW.x (heel)",
    "M_sails_total_COW.y (pitch)", "M_sails_total_COW.z (yaw)", "M_sails_total_COW.z (yaw - JG sign)", "M_total_COG.x",
    "M_total_COG.y", "M_total_COG.z", "M_total_COW.x (heel)", "M_total_COW.y (pitch)", "M_total_COW.z (yaw)",
    "M_total_COW.z (yaw - JG sign)", "M_jib_total_COG.x", "M_jib_total_COG.y", "M_jib_total_COG.z",
    "M_main_sail_total_COG.x", "M_main_sail_total_COG.y", "M_main_sail_total_COG.z"]

/-- The columns of the sheet `Components` with the moments of the panels. -/
def momentColumns : List String := ["M_sails_COG.x", "M_sails_COG.y", "M_sails_COG.z"]

/-- What the program produces, without the moments of the sails, and without the centre of effort and the first of the two
force arrows (the one that starts there) in the picture. -/
def withoutMoments : Effect → Effect
  | .workbook (some t) => .workbook (some { t with
      integrals := fun key => if key ∈ sailMomentRows then none else t.integrals key
      components := t.components.filter fun c => c.1 ∉ momentColumns })
  | .picture (some s) => .picture (some { s with force := { s.force with ce := 0, arrows := s.force.arrows.drop 1 } })
  | e => e

end PySailing.Spec
