import Verif.Model.Main

/-!
# Specification: the part of the output that depends on the centre of lateral resistance
-/

namespace PySailing.Spec

open PySailing

/-- The rows of the sheet `Integrals` with the moment of the keel or the total moment. -/
def keelRows : List String :=
  ["M_keel_total_COG.x", "M_keel_total_COG.y", "M_keel_total_COG.z", "M_keel_total_COW.x (heel)", "M_keel_total_COW.y (pitch)",
    "M_keel_total_COW.z (yaw)", "M_keel_total_COW.z (yaw - JG sign)", "M_total_COG.x", "M_total_COG.y", "M_total_COG.z",
    "M_total_COW.x (heel)", "M_total_COW.y (pitch)", "M_total_COW.z (yaw)", "M_total_COW.z (yaw - JG sign)"]

/-- What the program produces, without the rows of the moments of the keel and in total, and without the centre of lateral
resistance and the second of the two force arrows (the one that starts there) in the picture. -/
def withoutKeel : Effect → Effect
  | .workbook (some t) => .workbook (some { t with integrals := fun key => if key ∈ keelRows then none else t.integrals key })
  | .picture (some s) => .picture (some { s with force := { s.force with clr := 0, arrows := s.force.arrows.take 1 } })
  | e => e

end PySailing.Spec
