import Verif.Spec.FlatSail
import Verif.Model.Aircraft

/-!
# Sails made of equal strips (C124)
-/

namespace PySailing.Spec

/-- An upright flat rectangular sail standing on the water, made of strips of height `h` with `nc` panels each, the leech in
the direction `dirDeg` from the luff. -/
structure StripSail (s : SailInput) (θ : ℕ → ℝ) (chord twistDeg : ℝ) (nc : ℕ) (h dirDeg : ℝ) : Prop where
  flat : FlatSail s θ chord twistDeg
  foot : s.tack.z = 0
  rows : s.nc = nc
  height : s.head.z = s.ns * h
  direction : s.csys.leewayDeg + twistDeg = dirDeg

/-- A wing of the chord `chord` in the stream `V` at `aoaDeg`, made of strips of width `h` with `nc` panels each. -/
structure StripWing (a : AircraftInput) (chord h aoaDeg : ℝ) (nc : ℕ) (V : V3) : Prop where
  chord_eq : a.chord = chord
  span : 2 * a.half = a.ns * h
  rows : a.nc = nc
  aoa : a.aoaDeg = aoaDeg
  stream : a.V = V

/-- Lift per area of a flat plate of infinite span: `½ ρ M² · 2π sin α`. -/
noncomputable def plateLift (rho M sinAlpha : ℝ) : ℝ := 1 / 2 * rho * M ^ 2 * (2 * Real.pi * sinAlpha)

end PySailing.Spec
