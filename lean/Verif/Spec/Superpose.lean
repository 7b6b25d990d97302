import Verif.Model.Wind
import Verif.Model.Solver

/-!
# Specification: winds of the same direction
-/

namespace PySailing.Spec

open PySailing

/-- At the height `h` the true wind and the wind due to the speed of the yacht add up to `v`. -/
def ApparentAt (w : WindObj) (h : ℝ) (v : V3) : Prop :=
  ∃ t, w.trueWindAt h = .ok t ∧ v = t + ⟨w.vYacht, 0, 0⟩

/-- At all heights in `H` where the wind `w` is defined, so is `w'`, and there the apparent wind of `w'` comes from the
same direction, with whatever strength. -/
def SameDirection (H : Set ℝ) (w w' : WindObj) : Prop :=
  ∀ h ∈ H, ∀ v, ApparentAt w h v → ∃ k : ℝ, 0 < k ∧ ApparentAt w' h (k • v)

/-- At all heights in `H` the apparent wind of `w` is `a` times that of `w₁` plus `b` times that of `w₂`. -/
def Combined (H : Set ℝ) (a b : ℝ) (w₁ w₂ w : WindObj) : Prop :=
  ∀ h ∈ H, ∀ v₁ v₂ v, ApparentAt w₁ h v₁ → ApparentAt w₂ h v₂ → ApparentAt w h v → v = a • v₁ + b • v₂

end PySailing.Spec
