import Verif.Spec.Lattice
import Mathlib.Analysis.Calculus.Deriv.Basic

/-!
# Specification: sources and vorticity of a velocity field
-/

namespace PySailing.Spec

open PySailing

/-- The matrix `J` is the Jacobian matrix of the velocity field `v` at `p`: in every direction `d` the
components of the field have a derivative at `p`, and these derivatives are the vector `J d`. -/
def HasJacobian (v : V3 → V3) (p : V3) (J : M3) : Prop := ∀ d : V3,
  HasDerivAt (fun t : ℝ => (v (p + t • d)).x) (J.mulVec d).x 0 ∧
  HasDerivAt (fun t : ℝ => (v (p + t • d)).y) (J.mulVec d).y 0 ∧
  HasDerivAt (fun t : ℝ => (v (p + t • d)).z) (J.mulVec d).z 0

/-- The divergence. -/
def divergence (J : M3) : ℝ := J.r0.x + J.r1.y + J.r2.z

/-- The vorticity. -/
def curl (J : M3) : V3 := ⟨J.r2.y - J.r1.z, J.r0.z - J.r2.x, J.r1.x - J.r0.y⟩

/-- The three lengths that decide whether `p` is in the core of the filament from `a` to `b`. -/
noncomputable def coreLengths (p a b : V3) : List ℝ :=
  [(p - a).norm, (p - b).norm, (V3.cross (p - a) (p - b)).norm ^ 2]

/-- `p` is not on the surface of the core of the filament from `a` to `b`. -/
def offCoreSurface (p a b : V3) : Prop := ∀ l ∈ coreLengths p a b, l ≠ 1e-8

/-- `p` is outside of the core of the filament from `a` to `b`. -/
def outsideCore (p a b : V3) : Prop := ∀ l ∈ coreLengths p a b, 1e-8 < l

/-- `p` is not on the ray from `a` in the direction of the wind `V`. -/
def offRay (p a V : V3) : Prop := V ≠ 0 ∧ ∀ s : ℝ, 0 ≤ s → p ≠ a + s • V

variable {K : ℕ}

/-- Every finite filament of the lattice (edge of a ring; for a trailing edge panel without the rear
edge) satisfies `F`, every trailing vortex `W`. -/
def eachFilament (L : Fin K → PanelVars) (te : Fin K → Bool) (V : Fin K → V3) (F W : V3 → V3 → Prop) : Prop :=
  ∀ j, F (L j).ring.A (L j).ring.B ∧ F (L j).ring.B (L j).ring.C ∧ F (L j).ring.C (L j).ring.D ∧
    if te j then W (L j).ring.A (V j) ∧ W (L j).ring.D (V j) else F (L j).ring.D (L j).ring.A

end PySailing.Spec
