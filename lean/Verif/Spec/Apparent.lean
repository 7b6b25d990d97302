import Verif.Model.Main

/-!
# Specification: winds with the same apparent wind, and the part of the output that shows the true wind
-/

namespace PySailing.Spec

open PySailing

/-- The apparent wind on board at height `h`: the true wind plus the head wind made by the speed of the yacht. -/
noncomputable def apparentAt (w : WindConditions) (h : ℝ) : Py V3 :=
  ((windGetProfile w).trueWindAt h).map fun v => v + ⟨w.sog, 0, 0⟩

/-- The columns of the sheet `Components` with the true wind. -/
def trueWindColumns : List String := ["TWS_COG.x", "TWS_COG.y", "TWS_COG.z", "TWS_length"]

/-- What the program produces, without the columns of the true wind and the sheet of the wind at the reference height, and
without the (green) arrows of the true wind in the picture. -/
def withoutTrueWind : Effect → Effect
  | .workbook (some t) =>
    .workbook (some { t with components := t.components.filter fun c => c.1 ∉ trueWindColumns, inlet := [] })
  | .picture (some s) => .picture (some { s with winds := s.winds.filter fun a => a.color ≠ "green" })
  | e => e

end PySailing.Spec
