import Verif.Spec.Sail
import Verif.Model.Wind

/-!
# Specification: flat sails
-/

namespace PySailing.Spec

open PySailing

/-- An upright sail without camber, with vertical luff and with the same chord and twist in all rows: a rectangle. -/
structure FlatSail (s : SailInput) (θ : ℕ → ℝ) (chord twistDeg : ℝ) : Prop where
  ok : SailOk s θ
  upright : s.csys.heelDeg = 0
  vertical : s.head.x = s.tack.x
  up : s.tack.z < s.head.z
  chord_pos : 0 < chord
  chords : ∀ r, r ≤ s.ns → s.chords.getD r 0 = chord
  camber : ∀ r, r ≤ s.ns → s.camber.getD r 0 = 0
  twist : ∀ r, r ≤ s.ns → θ r = twistDeg

/-- Direction from the luff to the leech of a sail sheeted to `twistDeg` on a yacht with leeway `leewayDeg`. -/
noncomputable def leechDirection (leewayDeg twistDeg : ℝ) : V3 :=
  ⟨Real.cos ((leewayDeg + twistDeg) * (Real.pi / 180)), Real.sin ((leewayDeg + twistDeg) * (Real.pi / 180)), 0⟩

/-- Unit normal of that sail. -/
noncomputable def sailNormal (leewayDeg twistDeg : ℝ) : V3 :=
  ⟨-Real.sin ((leewayDeg + twistDeg) * (Real.pi / 180)), Real.cos ((leewayDeg + twistDeg) * (Real.pi / 180)), 0⟩

/-- Between the heights `lo` and `hi` there is a wind (true wind plus speed of the boat) along the horizontal unit
vector `u`, of a speed of at most `M`. -/
def WindAlong (w : WindObj) (u : V3) (M lo hi : ℝ) : Prop :=
  u.norm = 1 ∧ u.z = 0 ∧ ∀ h, lo < h → h < hi → ∃ v l, w.trueWindAt h = .ok v ∧ 0 < l ∧ l ≤ M ∧
    v + ⟨w.vYacht, 0, 0⟩ = l • u

/-- Between the heights `lo` and `hi` the wind (true wind plus speed of the boat) is the same everywhere: along the
horizontal unit vector `u`, of the speed `M`. -/
def UniformWind (w : WindObj) (u : V3) (M lo hi : ℝ) : Prop :=
  u.norm = 1 ∧ u.z = 0 ∧ 0 < M ∧ ∀ h, lo < h → h < hi → ∃ v, w.trueWindAt h = .ok v ∧ v + ⟨w.vYacht, 0, 0⟩ = M • u

/-- The flat sail `s` is the part of the flat sail `s'` without the lowest `a` strips and without its uppermost
`s'.ns - a - s.ns` strips (strips of the same height). -/
structure PartOf (s s' : SailInput) (a : ℕ) : Prop where
  rows : s.nc = s'.nc
  strips : a + s.ns ≤ s'.ns
  height : (s.head.z - s.tack.z) / s.ns = (s'.head.z - s'.tack.z) / s'.ns
  tack : s.tack.z = s'.tack.z + a * ((s'.head.z - s'.tack.z) / s'.ns)

/-- Horizontal direction across a wind along `u`. -/
def acrossWind (u : V3) : V3 := ⟨-u.y, u.x, 0⟩

/-- Sum of the values of the panels of one strip, from the leading to the trailing edge, in an array of blocks of
`nc` rows of `ns` panels. -/
noncomputable def stripSum (nc ns : ℕ) (values : List V3) (block strip : ℕ) : V3 :=
  ∑ i ∈ Finset.range nc, values.getD (block * (nc * ns) + i * ns + strip) 0

end PySailing.Spec
