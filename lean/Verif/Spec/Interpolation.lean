import Mathlib.Data.Real.Basic

/-!
# Specification: piecewise linear interpolation
-/

namespace PySailing.Spec

/-- `v` is the value at `x` of the polygon through the points `(xs i, ys i)`, `i ≤ m`, continued by
constants on both sides. -/
structure PolygonValue (m : ℕ) (xs ys : ℕ → ℝ) (x v : ℝ) : Prop where
  left : x ≤ xs 0 → v = ys 0
  right : xs m ≤ x → v = ys m
  between : ∀ i < m, xs i ≤ x → x ≤ xs (i + 1) →
    v = ys i + (x - xs i) / (xs (i + 1) - xs i) * (ys (i + 1) - ys i)

end PySailing.Spec
