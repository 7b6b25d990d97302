import Verif.Model.Aircraft
import Verif.Spec.Lattice

/-!
# Specification: a rectangular wing
-/

namespace PySailing.Spec

open PySailing

/-- Point number `r` of `ns` along the span and `k` of `nc` along the chord of a rectangular wing that
spans the z axis symmetrically, its leading edge on the z axis, turned by the angle of attack from the
x axis towards negative y. -/
noncomputable def wingPoint (chord half aoaDeg : ℝ) (nc ns r k : ℕ) : V3 :=
  let x := chord * ((k : ℝ) / nc)
  ⟨x * Real.cos (aoaDeg * (Real.pi / 180)), -(x * Real.sin (aoaDeg * (Real.pi / 180))),
    half * (2 * ((r : ℝ) / ns) - 1)⟩

/-- The direction normal to the span (z axis) and to the wind, on the side the wind is turned to by a
positive rotation about the z axis, of length `|V|` for a wind in the x-y plane. -/
def liftDirection (V : V3) : V3 := ⟨-V.y, V.x, 0⟩

/-- Direction from the leading to the trailing edge of the wing. -/
noncomputable def chordDirection (aoaDeg : ℝ) : V3 :=
  ⟨Real.cos (aoaDeg * (Real.pi / 180)), -Real.sin (aoaDeg * (Real.pi / 180)), 0⟩

/-- Unit normal of the wing, towards positive `y` at zero angle of attack. -/
noncomputable def wingNormal (aoaDeg : ℝ) : V3 :=
  ⟨Real.sin (aoaDeg * (Real.pi / 180)), Real.cos (aoaDeg * (Real.pi / 180)), 0⟩

end PySailing.Spec
