import Verif.Spec.Rotation
import Mathlib.MeasureTheory.Integral.IntervalIntegral.Basic

/-!
# Specification: the Biot-Savart law, independent of the code
-/

namespace PySailing.Spec

open PySailing

/-- Point of the straight segment from `p1` to `p2` at parameter `t`. -/
def segPoint (p1 p2 : V3) (t : ℝ) : V3 := p1 + t • (p2 - p1)

/-- Biot-Savart integrand `dl × (p - x) / |p - x|³` along the segment `p1 p2`, with
`dl = (p2 - p1) dt`. -/
noncomputable def biotSavartIntegrand (p p1 p2 : V3) (t : ℝ) : V3 :=
  (1 / (p - segPoint p1 p2 t).norm ^ 3) • V3.cross (p2 - p1) (p - segPoint p1 p2 t)

/-- Componentwise integral of a vector valued function over `[0, 1]`. -/
noncomputable def vecIntegral (f : ℝ → V3) : V3 :=
  ⟨∫ t in (0 : ℝ)..1, (f t).x, ∫ t in (0 : ℝ)..1, (f t).y, ∫ t in (0 : ℝ)..1, (f t).z⟩

/-- Velocity induced at `p` by a straight vortex filament of strength `γ` from `p1` to `p2`. -/
noncomputable def biotSavart (p p1 p2 : V3) (γ : ℝ) : V3 :=
  (γ / (4 * Real.pi)) • vecIntegral (biotSavartIntegrand p p1 p2)

open Filter Topology in
/-- Componentwise convergence of a family of vectors as the parameter goes to infinity. -/
def TendstoV (f : ℝ → V3) (v : V3) : Prop :=
  Tendsto (fun s => (f s).x) atTop (𝓝 v.x) ∧ Tendsto (fun s => (f s).y) atTop (𝓝 v.y) ∧
    Tendsto (fun s => (f s).z) atTop (𝓝 v.z)

end PySailing.Spec
