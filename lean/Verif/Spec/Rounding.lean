import Verif.Spec.Arith
import Mathlib.Algebra.Order.Round
import Mathlib.Data.Int.Log

/-!
# Arithmetics that round every result (C128)
-/

namespace PySailing.Spec

open PySailing

/-- `rnd` rounds with relative error at most `u`, except that numbers above `1 / u ^ 2` may overflow and that there may be an
underflow error of at most `u ^ 2`; it keeps signs.  (Double precision: `u = 2 ^ (-53)`, with much larger exponents.) -/
structure MachineRounding (u : ℝ) (rnd : ℝ → ℝ) : Prop where
  pos : 0 < u
  small : u ≤ 1 / 100
  nonneg : ∀ x, 0 ≤ x → 0 ≤ rnd x
  near : ∀ x, |x| ≤ 1 / u ^ 2 → |rnd x - x| ≤ u * |x| + u ^ 2

/-- The arithmetic that rounds every single result; sums of three products are added from left to right. -/
noncomputable def roundedArith (rnd : ℝ → ℝ) (solve : LinearSolver) : Arith where
  lit x := rnd x
  add x y := rnd (x + y)
  sub x y := rnd (x - y)
  mul x y := rnd (x * y)
  div x y := rnd (x / y)
  dot v w := rnd (rnd (rnd (v.x * w.x) + rnd (v.y * w.y)) + rnd (v.z * w.z))
  norm v := rnd (Real.sqrt (rnd (rnd (rnd (v.x * v.x) + rnd (v.y * v.y)) + rnd (v.z * v.z))))
  solve := solve

/-- A routine for linear systems with a backward error of at most `growth K * u` for all systems whose condition number is below
`1 / u`, up to the factor `growth K`. -/
def BackwardStable (growth : ℕ → ℝ) (solve : LinearSolver) (u : ℝ) : Prop :=
  ∀ (K : ℕ) (M : Matrix (Fin K) (Fin K) ℝ) (b : Fin K → ℝ), M.det ≠ 0 →
    u * (growth K * (1 + ∑ i, ∑ j, |M i j|) * (1 + ∑ i, ∑ j, |M⁻¹ i j|)) ≤ 1 → u * ∑ i, |b i| ≤ 1 →
    ∃ γ, solve K M b = .ok γ ∧ ∀ i, |M.mulVec γ i - b i| ≤ u * (growth K * (1 + ∑ i, ∑ j, |M i j|) * (1 + ∑ j, |γ j|))

/-- Rounding to `p` binary digits: `x = m 2 ^ e` with `2 ^ (p - 1) ≤ |m| < 2 ^ p`, and `m` is rounded to an integer. -/
noncomputable def binaryRound (p : ℕ) (x : ℝ) : ℝ :=
  round (x / (2 : ℝ) ^ (Int.log 2 |x| + 1 - p)) * (2 : ℝ) ^ (Int.log 2 |x| + 1 - p)

/-- The exact solution, rounded. -/
noncomputable def roundedSolve (rnd : ℝ → ℝ) : LinearSolver := fun _ M b => (solveEq M b).map fun γ i => rnd (γ i)

end PySailing.Spec
