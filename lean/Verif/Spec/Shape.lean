import Verif.Model.Vec

/-!
# Specification: camber curve, polygon area
-/

namespace PySailing.Spec

open PySailing

/-- NACA-type camber line in vertex form: two parabolas with common vertex `(p, m)`, the front
one through `(0, 0)`, the rear one through `(1, 0)`. -/
noncomputable def camberCurve (m p x : ℝ) : ℝ :=
  open Classical in
  if x < p then m * (1 - ((x - p) / p) ^ 2) else m * (1 - ((x - p) / (1 - p)) ^ 2)

/-- Area of a plane (simple) quadrilateral `a b c d`: half the cross product of its diagonals. -/
noncomputable def quadArea (a b c d : V3) : ℝ := (V3.cross (c - a) (d - b)).norm / 2

/-- The point at fraction `t` of the way from `a` to `b`. -/
def lerp (a b : V3) (t : ℝ) : V3 := a + t • (b - a)

/-- Well-formed per-row data of a sail with `ns` spanwise panels: one chord per row, and for each
row a camber in `[0, 0.3]` and a camber position in `[0, 0.9]`. -/
structure ValidSail (ns : ℕ) (chords distance camber : List ℝ) : Prop where
  chords_len : chords.length = ns + 1
  distance_len : ns + 1 ≤ distance.length
  camber_len : ns + 1 ≤ camber.length
  camber_range : ∀ m ∈ camber.take (ns + 1), 0 ≤ m ∧ m ≤ 0.3
  distance_range : ∀ p ∈ distance.take (ns + 1), 0 ≤ p ∧ p ≤ 0.9

end PySailing.Spec
