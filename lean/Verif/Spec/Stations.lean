import Verif.Model.Main

/-!
# Specification: a sail described by more sections than necessary
-/

namespace PySailing.Spec

open PySailing

/-- What a user writes about one section of a sail. -/
structure Station where
  girth : ℝ
  chord : ℝ
  twist : ℝ
  camber : ℝ
  distance : ℝ

/-- The section a fraction `t` of the way from one section to another, on straight lines between the two. -/
noncomputable def Station.between (t : ℝ) (a b : Station) : Station :=
  ⟨a.girth + t * (b.girth - a.girth), a.chord + t * (b.chord - a.chord), a.twist + t * (b.twist - a.twist),
    a.camber + t * (b.camber - a.camber), a.distance + t * (b.distance - a.distance)⟩

/-- The arrays of `variables.py` that describe a sail by its sections; the twist may be left out. -/
def sailFrom (twistGiven : Bool) (l : List Station) : SailConf where
  twist := if twistGiven then some (l.map Station.twist) else none
  girths := some (l.map Station.girth)
  chords := some (l.map Station.chord)
  camber := some (l.map Station.camber)
  distance := some (l.map Station.distance)

end PySailing.Spec
