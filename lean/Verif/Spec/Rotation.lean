import Verif.Model.Vec

/-!
# Specification: rotations and mirror images, independent of the code
-/

namespace PySailing.Spec

open PySailing

/-- The vector of length one pointing along `k`. -/
noncomputable def unit (k : V3) : V3 := (1 / k.norm) • k

/-- Rodrigues' formula: rotation of `v` by `θ` (right hand rule) about the *unit* vector `u`. -/
noncomputable def rodrigues (u : V3) (θ : ℝ) (v : V3) : V3 :=
  Real.cos θ • v + Real.sin θ • V3.cross u v + ((1 - Real.cos θ) * u.dot v) • u

/-- Rotation of the point `p` about the directed line from `p1` towards `p2`. -/
noncomputable def rotateAboutLine (p1 p2 : V3) (θ : ℝ) (p : V3) : V3 :=
  p1 + rodrigues (unit (p2 - p1)) θ (p - p1)

/-- Distance between two points. -/
noncomputable def distance (a b : V3) : ℝ := (a - b).norm

/-- Mirror image in the water plane `z = 0`. -/
def mirror (p : V3) : V3 := ⟨p.x, p.y, -p.z⟩

end PySailing.Spec
