import Verif.Model.Sail
import Verif.Spec.Shape
import Verif.Spec.Rotation

/-!
# Specification: rows and panels of a sail
-/

namespace PySailing.Spec

open PySailing

/-- Panels spanned by a family of points `pts r k` (`r` spanwise from the foot, `k` chordwise from
the luff): `nc` chordwise rows of `ns` panels; panel `(i, j)` lies between chordwise stations `i`,
`i + 1` and spanwise stations `j`, `j + 1`; corners in the order SE, SW, NW, NE. -/
def panelGrid (nc ns : ℕ) (pts : ℕ → ℕ → V3) : List Panel :=
  (List.range nc).flatMap fun i => (List.range ns).map fun j =>
    ⟨pts j (i + 1), pts j i, pts (j + 1) i, pts (j + 1) (i + 1)⟩

/-- Point of the untwisted upright sail at spanwise station `r` of `ns`, chordwise station `k` of
`nc`: the luff point at fraction `r/ns` from `a` to `b`, moved aft by `k/nc` of the local chord and
sideways by the local camber line. -/
noncomputable def sailPoint (a b : V3) (nc ns : ℕ) (chords distance camber : List ℝ) (r k : ℕ) :
    V3 :=
  ⟨(lerp a b ((r : ℝ) / ns)).x + chords.getD r 0 * ((k : ℝ) / nc),
    chords.getD r 0 * camberCurve (camber.getD r 0) (distance.getD r 0) ((k : ℝ) / nc),
    (lerp a b ((r : ℝ) / ns)).z⟩

/-- The corners of a panel mirrored in the water plane, relabelled so that S/N are exchanged. -/
def mirrorPanel (q : Panel) : Panel := ⟨mirror q.p4, mirror q.p3, mirror q.p2, mirror q.p1⟩

/-- The twist angle (degrees) of spanwise row `r`: the given distribution if twist and mode are
given, no twist otherwise. -/
def TwistOk (s : SailInput) (θ : ℕ → ℝ) : Prop :=
  (∃ tw mode, s.twist = some tw ∧ s.mode = some mode ∧ tw.length = s.ns + 1 ∧
    (mode = "sheeting_angle_const" ∨ mode = "average_const" ∨ mode = "real_twist") ∧
    ∀ r, r ≤ s.ns → tw[r]? = some (θ r)) ∨
  ((s.twist = none ∨ s.mode = none) ∧ ∀ r, θ r = 0)

/-- Arguments of `SailGeometry` without defects, `θ r` being the twist of spanwise row `r`: at least
one panel in each direction; one chord and one camber per row and a camber position for every row; all
in range, camber positions positive; tack and head in the plane `y = 0`, not under the water, at different
heights; heel not 90 degrees. -/
structure SailArgs (s : SailInput) (θ : ℕ → ℝ) : Prop where
  ns_pos : 1 ≤ s.ns
  nc_pos : 1 ≤ s.nc
  valid : ValidSail s.ns s.chords s.distance s.camber
  camber_len : s.camber.length = s.ns + 1
  pos : ∀ r, r ≤ s.ns → 0 < s.distance.getD r 0
  twist : TwistOk s θ
  tack_y : s.tack.y = 0
  head_y : s.head.y = 0
  tack_z : 0 ≤ s.tack.z
  head_z : 0 < s.head.z
  sloped : s.head.z ≠ s.tack.z
  heel : Real.cos (deg2rad s.csys.heelDeg) ≠ 0

/-- Well-formed arguments of `SailGeometry`: as before, and the tack above the water, or on it with the yacht
upright. -/
structure SailOk (s : SailInput) (θ : ℕ → ℝ) : Prop extends SailArgs s θ where
  foot : 0 < s.tack.z ∨ Real.sin (deg2rad s.csys.heelDeg) = 0

/-- Unit vector along the raked mast, from the deck upwards. -/
noncomputable def mastDirection (rakeDeg : ℝ) : V3 :=
  ⟨-Real.cos (deg2rad rakeDeg), 0, Real.sin (deg2rad rakeDeg)⟩

/-- The forestay of a foretriangle with the given base and height: from the point `base` ahead of
the mast foot to the point at `height` along the mast. -/
noncomputable def forestay (rakeDeg base height : ℝ) : V3 :=
  height • mastDirection rakeDeg - ⟨-base, 0, 0⟩

/-- The three documented values of `LLT_twist`. -/
def twistModes : List String := ["sheeting_angle_const", "average_const", "real_twist"]

end PySailing.Spec
