import Verif.Model.Rounded
import Verif.Spec.Lattice

/-!
# Accuracy of rounded routines, and stability of a lattice (C125)
-/

namespace PySailing.Spec

variable {K : ℕ}

/-- On the lattice `L` in the winds `V` the routines compute the velocities of vortices of unit circulation up to `η₁`, the
sum of wind and induced velocities (from their own coefficients and circulations) up to `η₂` and its components along the
normals up to `η₃`.  Nothing is assumed about the matrix, the right-hand side and the linear solver. -/
structure Accurate (R : Routines) (L : Fin K → PanelVars) (te : Fin K → Bool) (g : ℝ) (V : Fin K → V3) (η₁ η₂ η₃ : ℝ) : Prop where
  coefs : ∀ c, R.coefs K L te V g = .ok c →
    ∀ i j, (c.2 i j - latticeVelocity L te V g (Pi.single j 1) (L i).ctrP).norm ≤ η₁
  velocity : ∀ c γ, R.coefs K L te V g = .ok c → R.solve K c.1 (R.rhs K V fun i => (L i).normal) = .ok γ →
    ∀ i, (R.appFs K V c.2 γ i - (V i + ∑ j, γ j • c.2 i j)).norm ≤ η₂
  flux : ∀ c γ, R.coefs K L te V g = .ok c → R.solve K c.1 (R.rhs K V fun i => (L i).normal) = .ok γ →
    ∀ i, |R.flux K (R.appFs K V c.2 γ) (fun i => (L i).normal) i + (R.appFs K V c.2 γ i).dot (L i).normal| ≤ η₃

/-- Circulations that let no more than `δ` pass through the panels are at most `C δ`. -/
def Stable (L : Fin K → PanelVars) (te : Fin K → Bool) (g : ℝ) (V : Fin K → V3) (C : ℝ) : Prop :=
  ∀ (γ : Fin K → ℝ) (δ : ℝ), (∀ i, |(latticeVelocity L te V g γ (L i).ctrP).dot (L i).normal| ≤ δ) → ∀ i, |γ i| ≤ C * δ

end PySailing.Spec
