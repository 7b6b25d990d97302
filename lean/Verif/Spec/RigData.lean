import Verif.Model.Main

/-!
# Specification: data of the rig that describe the same sails
-/

namespace PySailing.Spec

open PySailing

/-- What the program produces, without the lines of the hull in the picture. -/
def withoutHull : Effect → Effect
  | .picture (some s) => .picture (some { s with hullLines := [] })
  | e => e

/-- Two runs produce the same in the same order, apart from the lines of the hull in the picture, and end alike. -/
def SameButHull (a b : List Effect × Py Unit) : Prop := a.1.map withoutHull = b.1.map withoutHull ∧ a.2 = b.2

/-- Another height of the deck and of the boom above the deck, another base of the foretriangle. -/
def withDeckAt (sheer boom base : ℝ) (c : Config) : Config :=
  { c with rig := { c.rig with sheer := sheer, boom := boom, base := some base } }

/-- A foretriangle of the same shape, `k` times as large, with the same foremost point. -/
noncomputable def withForetriangle (k base height : ℝ) (c : Config) : Config :=
  { c with rig := { c.rig with
      base := some (k * base)
      height := some (k * height)
      mastLOA := c.rig.mastLOA - (k - 1) * base * Real.sin (deg2rad c.rig.rakeDeg) } }

end PySailing.Spec
