import Verif.Model.Runner
import Verif.Model.Rotations
import Verif.Spec.Interpolation
import Verif.Spec.Spline
import Verif.Spec.Sail

/-!
# Specification: complete and well-formed configurations
-/

namespace PySailing.Spec

open PySailing

/-- Girths, twist, camber and camber position are given and have the same number of entries. -/
def ArraysComplete (c : SailConf) : Prop :=
  ∃ girths twist camber distance, c.girths = some girths ∧ c.twist = some twist ∧
    c.camber = some camber ∧ c.distance = some distance ∧ twist.length = girths.length ∧
    camber.length = girths.length ∧ distance.length = girths.length

/-- The data of a jib are complete. -/
def JibComplete (rig : RigConf) (c : SailConf) : Prop :=
  (∃ base height luff, rig.base = some base ∧ rig.height = some height ∧ rig.jibLuff = some luff) ∧
    ArraysComplete c

/-- The data of a main sail are complete. -/
def MainComplete (rig : RigConf) (c : SailConf) : Prop :=
  (∃ luff, rig.mainLuff = some luff) ∧ ArraysComplete c

/-- `v` is the value at `x` of the curve through the points `(xs i, ys i)`, `i ≤ m`, for the interpolation type
`kind`: the polygon, or the interpolating cubic spline. -/
def CurveValue (kind : String) (m : ℕ) (xs ys : ℕ → ℝ) (x v : ℝ) : Prop :=
  (kind = "linear" ∧ PolygonValue m xs ys x v) ∨ (kind = "spline" ∧ ∃ S, IsSpline m xs ys S ∧ v = S x)

/-- Between the heights 0 and 1 the curve through the points `(girths[i], data[i])` has values between `lo` and
`hi`. -/
def CurveWithin (kind : String) (girths data : List ℝ) (lo hi : ℝ) : Prop :=
  ∀ x v, 0 ≤ x → x ≤ 1 → CurveValue kind (girths.length - 1) (fun i => girths.getD i 0)
    (fun i => data.getD i 0) x v → lo ≤ v ∧ v ≤ hi

/-- Well-formed sail data: a known interpolation type with enough points (a cubic spline needs four),
increasing girths, one chord, twist, camber and camber position for each, interpolated camber between 0 and 30
percent, its position behind the luff and at most at 90 percent of the chord. -/
structure GoodSail (kind : String) (c : SailConf) (girths chords twist camber distance : List ℝ) : Prop where
  girths_eq : c.girths = some girths
  chords_eq : c.chords = some chords
  twist_eq : c.twist = some twist
  camber_eq : c.camber = some camber
  distance_eq : c.distance = some distance
  nonempty : girths ≠ []
  kind_ok : kind = "linear" ∨ (kind = "spline" ∧ 4 ≤ girths.length)
  increasing : ∀ i, i + 1 < girths.length → girths.getD i 0 < girths.getD (i + 1) 0
  chords_len : chords.length = girths.length
  twist_len : twist.length = girths.length
  camber_len : camber.length = girths.length
  distance_len : distance.length = girths.length
  camber_range : CurveWithin kind girths camber 0 0.3
  distance_range : ∃ lo : ℝ, 0 < lo ∧ CurveWithin kind girths distance lo 0.9

/-- A well-formed rig for a main sail: positive luff and boom height (zero height is possible when the yacht is
upright), mast not lying down. -/
structure GoodMainRig (heelDeg : ℝ) (rig : RigConf) : Prop where
  luff : ∃ l, rig.mainLuff = some l ∧ 0 < l
  boom : 0 < rig.sheer + rig.boom ∨ rig.sheer + rig.boom = 0 ∧ Real.sin (deg2rad heelDeg) = 0
  rake : 0 < Real.sin (deg2rad rig.rakeDeg)

/-- A well-formed rig for a jib: positive luff, foretriangle and freeboard (zero freeboard is possible when the
yacht is upright), mast not lying down. -/
structure GoodJibRig (heelDeg : ℝ) (rig : RigConf) : Prop where
  luff : ∃ l, rig.jibLuff = some l ∧ 0 < l
  base : ∃ b, rig.base = some b ∧ 0 < b
  height : ∃ h, rig.height = some h ∧ 0 < h
  sheer : 0 < rig.sheer ∨ rig.sheer = 0 ∧ Real.sin (deg2rad heelDeg) = 0
  rake : 0 < Real.sin (deg2rad rig.rakeDeg)

/-- `v` lists the values, at the `ns + 1` equidistant heights `0, 1/ns, …, 1`, of the curve through the
points `(girths[i], data[i])`. -/
def Sampled (kind : String) (ns : ℕ) (girths data v : List ℝ) : Prop :=
  v.length = ns + 1 ∧ ∀ k, k ≤ ns → CurveValue kind (girths.length - 1) (fun i => girths.getD i 0)
    (fun i => data.getD i 0) ((k : ℝ) / ns) (v.getD k 0)

/-- Arguments `s` of the sail constructor and twist `θ` (degrees) of its rows, for a sail with straight
luff from `tack` to `head` and chord, twist, camber and camber position read off the curves of the
configuration. -/
structure DesignedSail (kind : String) (ns nc : ℕ) (csys : Csys) (girths chords twist camber distance : List ℝ)
    (tack head : V3) (s : SailInput × (ℕ → ℝ)) : Prop where
  ns_eq : s.1.ns = ns
  nc_eq : s.1.nc = nc
  csys_eq : s.1.csys = csys
  tack_eq : s.1.tack = tack
  head_eq : s.1.head = head
  chords : Sampled kind ns girths chords s.1.chords
  camber : Sampled kind ns girths camber s.1.camber
  distance : Sampled kind ns girths distance s.1.distance
  twist : ∀ k, k ≤ ns → CurveValue kind (girths.length - 1) (fun i => girths.getD i 0)
    (fun i => twist.getD i 0) ((k : ℝ) / ns) (s.2 k)

/-- The tack of the jib: at the end of the foretriangle base ahead of the mast foot at deck level (the
mast being moved by its distance from the stern). -/
noncomputable def jibTack (rig : RigConf) (base : ℝ) : V3 :=
  rig.sheer • mastDirection rig.rakeDeg - ⟨base + rig.mastLOA / Real.sin (deg2rad rig.rakeDeg), 0, 0⟩

/-- The head of the jib: one luff length from the tack along the forestay. -/
noncomputable def jibHead (rig : RigConf) (luff base height : ℝ) : V3 :=
  jibTack rig base + (luff / (forestay rig.rakeDeg base height).norm) •
    (⟨|(forestay rig.rakeDeg base height).x|, 0, (forestay rig.rakeDeg base height).z⟩ : V3)

/-- `si` describes the jib of the configuration. -/
def DesignedJib (s : SolverConf) (rig : RigConf) (csys : Csys) (jib : SailConf)
    (si : SailInput × (ℕ → ℝ)) : Prop :=
  ∃ luff base height gi ch tw ca di, rig.jibLuff = some luff ∧ rig.base = some base ∧
    rig.height = some height ∧ GoodSail s.interpolation jib gi ch tw ca di ∧
    DesignedSail s.interpolation s.ns s.nc csys gi ch tw ca di (jibTack rig base) (jibHead rig luff base height) si

/-- `si` describes the main sail of the configuration. -/
def DesignedMain (s : SolverConf) (rig : RigConf) (csys : Csys) (main : SailConf)
    (si : SailInput × (ℕ → ℝ)) : Prop :=
  ∃ luff gi ch tw ca di, rig.mainLuff = some luff ∧ GoodSail s.interpolation main gi ch tw ca di ∧
    DesignedSail s.interpolation s.ns s.nc csys gi ch tw ca di ((rig.sheer + rig.boom) • mastDirection rig.rakeDeg)
      ((rig.sheer + rig.boom + luff) • mastDirection rig.rakeDeg) si

/-- Position in the sea frame of a point fixed to the yacht: the yacht is first heeled (about the
longitudinal axis) and then turned by the leeway angle (about the vertical). -/
noncomputable def afloat (heelDeg leewayDeg : ℝ) (p : V3) : V3 :=
  rodrigues ⟨0, 0, 1⟩ (deg2rad leewayDeg) (rodrigues ⟨1, 0, 0⟩ (-deg2rad heelDeg) p)

/-- Point of the sail `s` at spanwise station `r`, chordwise station `k`: the upright untwisted point,
taken to the sea frame and turned about the luff by the local twist. -/
noncomputable def afloatPoint (heelDeg leewayDeg : ℝ) (s : SailInput × (ℕ → ℝ)) (r k : ℕ) : V3 :=
  rotateAboutLine (afloat heelDeg leewayDeg s.1.tack) (afloat heelDeg leewayDeg s.1.head) (deg2rad (s.2 r))
    (afloat heelDeg leewayDeg (sailPoint s.1.tack s.1.head s.1.nc s.1.ns s.1.chords s.1.distance s.1.camber r k))

end PySailing.Spec
