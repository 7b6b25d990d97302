import Verif.Model.Main

/-!
# Specification: the data which a wind profile uses
-/

namespace PySailing.Spec

open PySailing

/-- The two descriptions of the wind agree in direction, speed, speed of the yacht and profile, and in the data which this
profile uses: exponent, reference height and water level for the exponential profile, none for the flat one, roughness and
reference height otherwise. The data which are tested for `None` are given in both or in none. -/
structure SameUsedData (w w' : WindConditions) : Prop where
  alphaDeg : w.alphaDeg = w'.alphaDeg
  twsRef : w.twsRef = w'.twsRef
  sog : w.sog = w'.sog
  profile : w.profile = w'.profile
  exponential : w.profile = "exponential" →
    w.expCoeff = w'.expCoeff ∧ w.refHeight = w'.refHeight ∧ w.waterLevel = w'.waterLevel
  logarithmic : w.profile ≠ "exponential" → w.profile ≠ "flat" → w.roughness = w'.roughness ∧ w.refHeight = w'.refHeight
  given : (w.expCoeff = none ↔ w'.expCoeff = none) ∧ (w.refHeight = none ↔ w'.refHeight = none) ∧
    (w.profile = "logarithmic" → (w.roughness = none ↔ w'.roughness = none))

end PySailing.Spec
