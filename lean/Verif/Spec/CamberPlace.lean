import Verif.Model.Main

/-!
# Specification: places of the greatest camber
-/

namespace PySailing.Spec

/-- A place of the greatest camber which the program accepts, as a fraction of the chord. -/
def Place (p : ℝ) : Prop := 0 ≤ p ∧ p ≤ 0.9

end PySailing.Spec
