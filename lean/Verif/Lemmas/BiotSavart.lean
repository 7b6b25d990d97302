import Verif.Model.Velocity
import Verif.Spec.Vortex
import Mathlib.MeasureTheory.Integral.IntervalIntegral.FundThmCalculus
import Mathlib.Analysis.SpecialFunctions.Sqrt
import Mathlib.Analysis.Calculus.Deriv.Mul
import Mathlib.Analysis.Calculus.Deriv.Inv
import Mathlib.Analysis.Calculus.Deriv.Pow
import Mathlib.Tactic.LinearCombination

/-! # The Biot-Savart integral of a straight segment -/

namespace PySailing

open Spec

theorem integral_inv_cube (a b c : ℝ) (h : 0 < a * c - b ^ 2) (hc : 0 < c) :
    ∫ t in (0 : ℝ)..1, 1 / (Real.sqrt (a - 2 * b * t + c * t ^ 2)) ^ 3 =
      (c - b) / ((a * c - b ^ 2) * Real.sqrt (a - 2 * b + c))
        + b / ((a * c - b ^ 2) * Real.sqrt a) := by
  set Δ := a * c - b ^ 2 with hΔ
  have hq : ∀ t : ℝ, 0 < a - 2 * b * t + c * t ^ 2 := by
    intro t
    have : 0 < c * (a - 2 * b * t + c * t ^ 2) := by nlinarith [sq_nonneg (c * t - b)]
    exact (pos_iff_pos_of_mul_pos this).1 hc
  have hd : ∀ t ∈ Set.uIcc (0:ℝ) 1, HasDerivAt
      (fun t => (c * t - b) / (Δ * Real.sqrt (a - 2 * b * t + c * t ^ 2)))
      (1 / (Real.sqrt (a - 2 * b * t + c * t ^ 2)) ^ 3) t := by
    intro t _
    have hqt := hq t
    have hs : 0 < Real.sqrt (a - 2 * b * t + c * t ^ 2) := Real.sqrt_pos.2 hqt
    have hsq : Real.sqrt (a - 2 * b * t + c * t ^ 2) ^ 2 = a - 2 * b * t + c * t ^ 2 :=
      Real.sq_sqrt hqt.le
    have h1 : HasDerivAt (fun t : ℝ => a - 2 * b * t + c * t ^ 2) (-(2 * b) + c * (2 * t)) t := by
      have e1 : HasDerivAt (fun t : ℝ => a - 2 * b * t) (-(2 * b)) t := by
        simpa using ((hasDerivAt_id t).const_mul (2 * b)).const_sub a
      have e2 : HasDerivAt (fun t : ℝ => c * t ^ 2) (c * (2 * t)) t := by
        simpa using (hasDerivAt_pow 2 t).const_mul c
      exact e1.add e2
    have h2 := (h1.sqrt hqt.ne').const_mul Δ
    have h3 : HasDerivAt (fun t : ℝ => c * t - b) c t := by
      simpa using ((hasDerivAt_id t).const_mul c).sub_const b
    have h4 := h3.div h2 (mul_ne_zero h.ne' hs.ne')
    refine HasDerivAt.congr_deriv (f := fun t => (c * t - b) / (Δ * Real.sqrt (a - 2 * b * t + c * t ^ 2))) h4 ?_
    symm
    set s := Real.sqrt (a - 2 * b * t + c * t ^ 2)
    have hΔ' := h.ne'
    field_simp
    have : s ^ 2 * c - (c * t - b) * (c * t - b) = Δ := by rw [hsq, hΔ]; ring
    linear_combination -1 * this
  have hcont : Continuous fun t : ℝ => 1 / (Real.sqrt (a - 2 * b * t + c * t ^ 2)) ^ 3 := by
    apply Continuous.div continuous_const (by fun_prop)
    intro t
    exact pow_ne_zero _ (Real.sqrt_pos.2 (hq t)).ne'
  rw [intervalIntegral.integral_eq_sub_of_hasDerivAt hd (hcont.intervalIntegrable _ _)]
  simp only [mul_one, mul_zero, one_pow, sub_zero, zero_sub, add_zero, ne_eq,
    OfNat.ofNat_ne_zero, not_false_eq_true, zero_pow]
  ring

theorem vecIntegral_smul_const (f : ℝ → ℝ) (w : V3) :
    vecIntegral (fun t => f t • w) = (∫ t in (0 : ℝ)..1, f t) • w := by
  simp [vecIntegral]
  ext <;> simp

/-- The closed form used by the code is the Biot-Savart integral whenever `r1 × r2 ≠ 0`. -/
theorem biotSavart_closed (p p1 p2 : V3) (γ : ℝ) (h : V3.cross (p - p1) (p - p2) ≠ 0) :
    biotSavart p p1 p2 γ =
      (γ / (4 * Real.pi)) • ((p2 - p1).dot ((1 / (p - p1).norm) • (p - p1)
        - (1 / (p - p2).norm) • (p - p2))) •
        ((1 / (V3.cross (p - p1) (p - p2)).norm ^ 2) • V3.cross (p - p1) (p - p2)) := by
  unfold biotSavart
  congr 1
  set r0 := p2 - p1 with hr0
  set r1 := p - p1 with hr1
  set r2 := p - p2 with hr2
  have e2 : r2 = r1 - r0 := by rw [hr0, hr1, hr2]; abel
  have hcr : V3.cross r1 r2 = V3.cross r0 r1 := by
    rw [e2]; ext <;> simp <;> ring
  have hint : biotSavartIntegrand p p1 p2 = fun t =>
      (1 / (Real.sqrt (r1.dot r1 - 2 * r1.dot r0 * t + r0.dot r0 * t ^ 2)) ^ 3) •
        V3.cross r1 r2 := by
    funext t
    unfold biotSavartIntegrand
    have hx : p - segPoint p1 p2 t = r1 - t • r0 := by
      rw [segPoint, hr0, hr1]; abel
    rw [hx, ← hr0, hcr]
    congr 1
    · congr 2
      rw [V3.norm]; congr 1
      simp [V3.dot]; ring
    · ext <;> simp <;> ring
  have hΔ : r1.dot r1 * r0.dot r0 - r1.dot r0 ^ 2
      = (V3.cross r1 r2).dot (V3.cross r1 r2) := by
    rw [hcr, V3.cross_dot_self, V3.dot_comm r0 r1]; ring
  have hΔpos : 0 < r1.dot r1 * r0.dot r0 - r1.dot r0 ^ 2 := by
    rw [hΔ]; exact V3.dot_self_pos h
  have hc : 0 < r0.dot r0 := by
    apply V3.dot_self_pos
    intro h0
    apply h
    rw [hcr, h0]; simp
  rw [hint, vecIntegral_smul_const, integral_inv_cube _ _ _ hΔpos hc, smul_smul, hΔ, V3.norm_sq]
  congr 1
  have hn1 : Real.sqrt (r1.dot r1) = r1.norm := rfl
  have hn2 : Real.sqrt (r1.dot r1 - 2 * r1.dot r0 + r0.dot r0) = r2.norm := by
    rw [V3.norm, e2]; congr 1; simp [V3.dot]; ring
  rw [hn1, hn2, V3.dot_sub_right r0 ((1 / r1.norm) • r1), V3.dot_smul_right, V3.dot_smul_right]
  have h1 : r1.norm ≠ 0 := by
    rw [Ne, V3.norm_eq_zero]; intro h0; apply h; rw [h0]; simp
  have h2 : r2.norm ≠ 0 := by
    rw [Ne, V3.norm_eq_zero]; intro h0; apply h; rw [h0]; simp
  have hcc : (V3.cross r1 r2).dot (V3.cross r1 r2) ≠ 0 := (V3.dot_self_pos h).ne'
  have e3 : r0.dot r2 = r1.dot r0 - r0.dot r0 := by rw [e2, V3.dot_sub_right, V3.dot_comm]
  rw [e3, V3.dot_comm r0 r1]
  field_simp
  ring

end PySailing
