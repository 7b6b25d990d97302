import Verif.Model.Main

/-!
# Specification: sails whose data are straight lines over the girth
-/

namespace PySailing.Spec

open PySailing

/-- A straight line over the girth: slope and value at the foot. -/
structure Line where
  slope : ℝ
  foot : ℝ

/-- The value of a line at a girth. -/
noncomputable def Line.at (l : Line) (x : ℝ) : ℝ := l.slope * x + l.foot

/-- A sail whose chord, twist, camber and camber position are straight lines over the girth. -/
structure StraightSail where
  chord : Line
  twist : Line
  camber : Line
  distance : Line

/-- The arrays of `variables.py` for this sail, given at some girths. -/
noncomputable def StraightSail.sections (s : StraightSail) (girths : List ℝ) : SailConf where
  girths := some girths
  chords := some (girths.map s.chord.at)
  twist := some (girths.map s.twist.at)
  camber := some (girths.map s.camber.at)
  distance := some (girths.map s.distance.at)

/-- Girths that increase from the foot (0) or below to the head (1) or above, for linear interpolation, or at least four of
them, for splines. -/
structure Suitable (kind : String) (girths : List ℝ) : Prop where
  enough : kind = "linear" ∨ kind = "spline" ∧ 4 ≤ girths.length
  increasing : girths.Pairwise (· < ·)
  foot : ∃ x, girths.head? = some x ∧ x ≤ 0
  head : ∃ x, girths.getLast? = some x ∧ 1 ≤ x

end PySailing.Spec
