import Verif.Model.Vec
import Mathlib.Data.List.Range
import Mathlib.Algebra.BigOperators.Fin

/-!
# Specification: arrays over sails, section coefficients
-/

namespace PySailing.Spec

open PySailing

/-- The array of an `nc` by `ns` grid with entries `f i j`, chordwise row after chordwise row. -/
def gridArray {α : Type} (nc ns : ℕ) (f : ℕ → ℕ → α) : List α :=
  (List.range nc).flatMap fun i => (List.range ns).map fun j => f i j

/-- The array of `n` grids (sails, then mirrored sails) with entries `f b i j` for panel `(i, j)` of
grid `b`. -/
def blockArray {α : Type} (nc ns n : ℕ) (f : ℕ → ℕ → ℕ → α) : List α :=
  ((List.range n).map fun b => gridArray nc ns (f b)).flatten

/-- Section coefficient of a strip of `nc` panels: the sum of force over dynamic pressure of the
panels, divided by the area of the strip. -/
noncomputable def sectionCoefficient (nc : ℕ) (rho : ℝ) (F V : ℕ → V3) (A : ℕ → ℝ) : ℝ :=
  (∑ i ∈ Finset.range nc, (F i).norm / (1 / 2 * rho * (V i).norm ^ 2)) /
    ∑ i ∈ Finset.range nc, A i

end PySailing.Spec
