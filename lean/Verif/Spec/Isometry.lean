import Verif.Spec.Rotation

/-!
# Specification: linear isometries of space with their orientation sign
-/

namespace PySailing.Spec

open PySailing

/-- `R` is a linear isometry of ℝ³ with orientation sign `ε` (`1`: rotation, `-1`: reflection):
it is linear, preserves dot products, and preserves cross products up to the sign `ε`. -/
structure IsIsometry (R : V3 → V3) (ε : ℝ) : Prop where
  map_add : ∀ a b, R (a + b) = R a + R b
  map_smul : ∀ (s : ℝ) a, R (s • a) = s • R a
  dot : ∀ a b, (R a).dot (R b) = a.dot b
  cross : ∀ a b, V3.cross (R a) (R b) = ε • R (V3.cross a b)
  sign : ε = 1 ∨ ε = -1

/-- A rigid motion: linear isometry followed by a translation. -/
def move (R : V3 → V3) (t : V3) (p : V3) : V3 := R p + t

end PySailing.Spec
