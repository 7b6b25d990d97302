import Verif.Spec.Heading

/-!
# Specification: the jib at another place along the yacht
-/

namespace PySailing.Spec

open PySailing

/-- The same configuration with another distance of the mast from the stern. -/
def withMastAt (a : ℝ) (c : Config) : Config := { c with rig := { c.rig with mastLOA := a } }

/-- How far the jib moves along the upright yacht. -/
noncomputable def jibTravel (a : ℝ) (c : Config) : ℝ := (c.rig.mastLOA - a) / Real.sin (deg2rad c.rig.rakeDeg)

/-- How far the jib moves over the water: along the yacht, in the direction given by the leeway angle. -/
noncomputable def jibTravelOverWater (a : ℝ) (c : Config) : V3 := turned c.leewayDeg ⟨jibTravel a c, 0, 0⟩

/-- Columns of the table of the panels that change when the jib moves. -/
def placeColumns : List String :=
  ["cp_points_COG.x", "cp_points_COG.y", "M_sails_COG.x", "M_sails_COG.y", "M_sails_COG.z"]

/-- An outline with its value, moved to the right. -/
def outlineRight (d : ℝ) (o : List (ℝ × ℝ) × ℝ) : List (ℝ × ℝ) × ℝ := (o.1.map fun q => (q.1 + d, q.2), o.2)

end PySailing.Spec
