import Mathlib.Analysis.Calculus.ContDiff.Defs
import Mathlib.Data.Real.Basic

/-!
# Specification: the interpolating cubic spline
-/

namespace PySailing.Spec

/-- On the set `I` the function `S` is a polynomial of degree at most three. -/
def CubicOn (S : ℝ → ℝ) (I : Set ℝ) : Prop :=
  ∃ a b c d : ℝ, ∀ x ∈ I, S x = a + b * x + c * x ^ 2 + d * x ^ 3

/-- `S` is the interpolating cubic spline through the points `(xs 0, ys 0), ..., (xs m, ys m)` with knots
at all interior abscissae but the second and the last but one ("not-a-knot" end conditions): it passes
through the points, is twice continuously differentiable, and is a cubic polynomial up to `xs 2`,
between neighbouring knots, and from `xs (m - 2)` on. -/
structure IsSpline (m : ℕ) (xs ys : ℕ → ℝ) (S : ℝ → ℝ) : Prop where
  through : ∀ i ≤ m, S (xs i) = ys i
  smooth : ContDiff ℝ 2 S
  first : CubicOn S (Set.Iic (xs 2))
  between : ∀ i, 2 ≤ i → i + 3 ≤ m → CubicOn S (Set.Icc (xs i) (xs (i + 1)))
  last : CubicOn S (Set.Ici (xs (m - 2)))

end PySailing.Spec
