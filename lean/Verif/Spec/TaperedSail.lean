import Verif.Spec.FlatSail
import Verif.Spec.Runner
import Mathlib.Analysis.Convex.Function

/-!
# Specification: flat sails of other shapes than rectangles
-/

namespace PySailing.Spec

open PySailing Set

/-- Position along the yacht (positive aft) of the luff at the height `z`. -/
noncomputable def luffAt (s : SailInput) (z : ℝ) : ℝ := s.tack.x + (z - s.tack.z) / (s.head.z - s.tack.z) * (s.head.x - s.tack.x)

/-- Position of the aft edge of the vortices in a flat sail of the chord `chord z`: a quarter of a panel behind the leech. -/
noncomputable def aftEdge (s : SailInput) (chord : ℝ → ℝ) (z : ℝ) : ℝ := luffAt s z + (1 + 1 / (4 * s.nc)) * chord z

/-- An upright sail without camber and with the same twist in all rows, whose chord at the height `z` is `chord z`.
Its luff is vertical, or the sail is sheeted amidships.  No panel is smaller than 4 cm by 4 cm. -/
structure PlaneSail (s : SailInput) (θ : ℕ → ℝ) (chord : ℝ → ℝ) (twistDeg : ℝ) : Prop where
  ok : SailOk s θ
  upright : s.csys.heelDeg = 0
  luff : s.head.x = s.tack.x ∨ twistDeg = 0
  up : s.tack.z < s.head.z
  chords : ∀ r, r ≤ s.ns → s.chords.getD r 0 = chord (s.tack.z + (r : ℝ) / s.ns * (s.head.z - s.tack.z))
  camber : ∀ r, r ≤ s.ns → s.camber.getD r 0 = 0
  twist : ∀ r, r ≤ s.ns → θ r = twistDeg
  high : 0.04 ≤ (s.head.z - s.tack.z) / s.ns
  wide : ∀ z ∈ Icc s.tack.z s.head.z, 0.04 ≤ chord z / s.nc

/-- Such a sail with a leech that is curved outwards or straight and (a quarter of a panel behind it) does not run aft with
the height. -/
structure TaperedSail (s : SailInput) (θ : ℕ → ℝ) (chord : ℝ → ℝ) (twistDeg : ℝ) : Prop extends PlaneSail s θ chord twistDeg where
  concave : ConcaveOn ℝ (Icc s.tack.z s.head.z) chord
  leech : AntitoneOn (aftEdge s chord) (Icc s.tack.z s.head.z)

/-- Such a sail with a leech (a quarter of a panel behind it) of any shape that runs nowhere aft or forward by more than `Q`
metres per metre of height. -/
structure SlopedSail (s : SailInput) (θ : ℕ → ℝ) (chord : ℝ → ℝ) (twistDeg Q : ℝ) : Prop extends PlaneSail s θ chord twistDeg where
  slope_nonneg : 0 ≤ Q
  slope : ∀ z ∈ Icc s.tack.z s.head.z, ∀ z' ∈ Icc s.tack.z s.head.z, |aftEdge s chord z - aftEdge s chord z'| ≤ Q * |z - z'|

/-- The wind is close enough to the plane of the sail for the slope `Q` of the leech; `c` is the cosine of the angle between
wind and sail (from ahead).  With `Q = tan Λ` and `c = cos α` this says `2 tan Λ sin² α ≤ cos α (1 - cos α sin Λ)`. -/
def CloseToSail (c Q : ℝ) : Prop := 0 ≤ c ∧ 2 * Q * (1 - c ^ 2) ≤ c * (1 - c * (Q / Real.sqrt (1 + Q ^ 2)))

/-- A flat sail together with a wind under the angle with the cosine `c` to the sail: any wind from ahead for a leech curved
outwards, a wind close enough to the sail for a leech of any shape. -/
def SailInWind (s : SailInput) (θ : ℕ → ℝ) (chord : ℝ → ℝ) (twistDeg c : ℝ) : Prop :=
  (TaperedSail s θ chord twistDeg ∧ 0 ≤ c) ∨ ∃ Q, SlopedSail s θ chord twistDeg Q ∧ CloseToSail c Q

/-- Nowhere does the leech (a quarter of a panel behind it) run more than `X` metres aft of its upper end. -/
def Overhang (s : SailInput) (chord : ℝ → ℝ) (X : ℝ) : Prop :=
  0 ≤ X ∧ ∀ z ∈ Icc s.tack.z s.head.z, aftEdge s chord z ≤ aftEdge s chord s.head.z + X

/-- A length of the order of the height of the sail over the water: `4 H + X² / H`. -/
noncomputable def reach (s : SailInput) (X : ℝ) : ℝ := (X ^ 2 + (2 * s.head.z) ^ 2) / s.head.z

/-- Sail data (chords at girths, `nc` by `ns` panels) of a flat sail between `tack` and `head`, sheeted to `twistDeg`, that
has an outward leech: no chord is longer than the straight line through two neighbouring sections gives, the leech (a quarter
of a panel behind it) does not run aft from one section to the next, and no panel is smaller than 4 cm by 4 cm. -/
structure TaperedShape (nc ns : ℕ) (girths chords : List ℝ) (tack head : V3) (twistDeg : ℝ) : Prop where
  bottom : girths.getD 0 0 ≤ 0
  top : 1 ≤ girths.getD (girths.length - 1) 0
  luff : head.x = tack.x ∨ twistDeg = 0
  up : tack.z < head.z
  outward : ∀ i k, i + 1 < girths.length → k < girths.length → chords.getD k 0 ≤ chords.getD i 0 +
    (girths.getD k 0 - girths.getD i 0) / (girths.getD (i + 1) 0 - girths.getD i 0) * (chords.getD (i + 1) 0 - chords.getD i 0)
  leech : ∀ i, i + 1 < girths.length → (head.x - tack.x) * (girths.getD (i + 1) 0 - girths.getD i 0) +
    (1 + 1 / (4 * nc)) * (chords.getD (i + 1) 0 - chords.getD i 0) ≤ 0
  high : 0.04 ≤ (head.z - tack.z) / ns
  wide : ∀ i, i < girths.length → 0.04 ≤ chords.getD i 0 / nc

/-- Sail data, with either type of interpolation, of a flat sail whose leech has a slope of at most `Q`: from each row of
panel corners to the next the leech (a quarter of a panel behind it) runs aft or forward by at most `Q` times the height. -/
structure SlopedShape (kind : String) (nc ns : ℕ) (girths chords : List ℝ) (tack head : V3) (twistDeg Q : ℝ) : Prop where
  luff : head.x = tack.x ∨ twistDeg = 0
  up : tack.z < head.z
  slope_nonneg : 0 ≤ Q
  slope : ∀ r, r < ns → ∀ v v', CurveValue kind (girths.length - 1) (fun i => girths.getD i 0) (fun i => chords.getD i 0) ((r : ℝ) / ns) v →
    CurveValue kind (girths.length - 1) (fun i => girths.getD i 0) (fun i => chords.getD i 0) (((r + 1 : ℕ) : ℝ) / ns) v' →
    |(head.x - tack.x) / ns + (1 + 1 / (4 * nc)) * (v' - v)| ≤ Q * ((head.z - tack.z) / ns)
  high : 0.04 ≤ (head.z - tack.z) / ns
  wide : ∀ r, r ≤ ns → ∀ v, CurveValue kind (girths.length - 1) (fun i => girths.getD i 0) (fun i => chords.getD i 0) ((r : ℝ) / ns) v →
    0.04 ≤ v / nc

end PySailing.Spec
