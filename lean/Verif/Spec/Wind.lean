import Verif.Spec.Rotation
import Verif.Model.Wind

/-!
# Specification: horizontal directions
-/

namespace PySailing.Spec

open PySailing

/-- The horizontal unit vector at the angle `θ` (radians) from the x axis. -/
noncomputable def heading (θ : ℝ) : V3 := ⟨Real.cos θ, Real.sin θ, 0⟩

/-- `θ` is a direction angle of the horizontal vector `v`: `v` points along `heading θ`. -/
def PointsAlong (v : V3) (θ : ℝ) : Prop := v = v.norm • heading θ

/-- Degrees to radians. -/
noncomputable def deg (d : ℝ) : ℝ := d * (Real.pi / 180)

/-- The wind asked for by the settings: the profile that is named, with its own parameters; none if the name is not
one of the three documented names or a parameter of the named profile is missing. -/
def requestedWind (c : WindConditions) : Option WindObj :=
  match c.profile, c.expCoeff, c.refHeight, c.waterLevel, c.roughness with
  | "flat", _, _, _, _ => some ⟨c.alphaDeg, c.twsRef, c.sog, .flat⟩
  | "exponential", some e, some r, some l, _ => some ⟨c.alphaDeg, c.twsRef, c.sog, .exp (some e) (some r) (some l)⟩
  | "logarithmic", _, some r, _, some z => some ⟨c.alphaDeg, c.twsRef, c.sog, .log (some z) (some r)⟩
  | _, _, _, _, _ => none

end PySailing.Spec
