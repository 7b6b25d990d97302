import Verif.Model.Plotter
import Verif.Spec.Lattice
import Verif.Spec.Sail
import Verif.Spec.Coefs

/-!
# Specification: what is to be seen in the pictures
-/

namespace PySailing.Spec

open PySailing

/-- A horizontal wind arrow at the height of the point `p`: it starts above the point `(x, y)` of the
water surface, shows the horizontal part of `v`, and is faint when `p` is not above the water. -/
noncomputable def windArrow (x y : ℝ) (v p : V3) (color : String) : Arrow :=
  open Classical in
  { tail := ⟨x, y, p.z⟩, tip := ⟨x + v.x, y + v.y, p.z⟩, color := color
    alpha := if 0 < p.z then 0.75 else 0.05 }

/-- One arrow for every panel of the first chordwise row (along the luff) of each of `l` blocks of
`nc * ns` panels, block by block from the foot upwards; `f b k` is the arrow for panel number `k`, in
block `b`. -/
def firstRowArrows (nc ns l : ℕ) (f : ℕ → ℕ → Arrow) : List Arrow :=
  gridArray l ns fun b j => f b (panelNo nc ns b 0 j)

/-- The point of the water surface from which the true and apparent wind arrows start: on the windward
side (for the mean apparent wind angle), at 0.925 of the size of the water surface. -/
noncomputable def windOrigin (water : ℤ) (awaDeg : List ℝ) : ℝ × ℝ :=
  let a := awaDeg.sum / awaDeg.length * (Real.pi / 180)
  (-0.925 * water * Real.cos a, -0.925 * water * Real.sin a)

/-- The outline of a panel seen from the side: its corners without their athwartships coordinate, in
order, ending where it began. -/
def closedOutline (q : Panel) : List (ℝ × ℝ) :=
  ([q.p1, q.p2, q.p3, q.p4] ++ [q.p1]).map fun p => (p.x, p.z)

/-- Points of the sail with arguments `s` on the upright yacht, without twist. -/
noncomputable def uprightPoints (s : SailInput) : ℕ → ℕ → V3 :=
  sailPoint s.tack s.head s.nc s.ns s.chords s.distance s.camber

/-- Points of its image under the water, on the upright yacht, without twist. -/
noncomputable def uprightImagePoints (s : SailInput) : ℕ → ℕ → V3 :=
  sailPoint (mirror s.head) (mirror s.tack) s.nc s.ns s.chords.reverse s.distance s.camber.reverse

end PySailing.Spec
