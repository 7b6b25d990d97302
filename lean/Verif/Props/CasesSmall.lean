import Verif.Props.Vortex
import Verif.Props.Interpolator
import Verif.Props.Spline
import Verif.Props.Coefs
import Verif.Props.Plotter
import Verif.Props.Bound
import Verif.Props.Aircraft
import Verif.Props.Wing
import Verif.Props.FlatWing
import Verif.Props.Waterline

/-!
# Cases for theorems about single functions

Concrete values that meet the hypotheses of theorems about the vortex functions, the interpolation of girths, the formulas of
the lift coefficient, the arrows of the picture and the wing class.
-/

namespace PySailing.Props

open PySailing PySailing.Spec

/-- C29: a segment of the `x` axis seen from the `y` axis, twice as large. -/
example : vortexLine ((2 : ℝ) • (⟨0, 1, 0⟩ : V3)) ((2 : ℝ) • 0) ((2 : ℝ) • ⟨1, 0, 0⟩) 3 =
    (1 / 2 : ℝ) • vortexLine ⟨0, 1, 0⟩ 0 ⟨1, 0, 0⟩ 3 := by
  have h1 : (1 : ℝ) ≤ Real.sqrt 2 := by
    rw [show (1 : ℝ) = Real.sqrt 1 by simp]
    exact Real.sqrt_le_sqrt (by norm_num)
  have h2 : (2 : ℝ) ≤ Real.sqrt 8 := by
    rw [show (2 : ℝ) = Real.sqrt (2 ^ 2) by simp]
    exact Real.sqrt_le_sqrt (by norm_num)
  have h3 : (1 : ℝ) ≤ Real.sqrt 4 := by
    rw [show (1 : ℝ) = Real.sqrt 1 by simp]
    exact Real.sqrt_le_sqrt (by norm_num)
  refine C29_scaling_partial _ _ _ 3 2 (by norm_num) ?_ ?_
  · norm_num [V3.norm, V3.dot, V3.cross]
    linarith
  · norm_num [V3.norm, V3.dot, V3.cross]
    constructor <;> linarith

/-- C29: a trailing vortex, twice as large. -/
example : vortexInfiniteLineCall ((2 : ℝ) • (⟨0, 1, 0⟩ : V3)) ((2 : ℝ) • 0) ⟨1, 0, 0⟩ 3 =
    (vortexInfiniteLineCall ⟨0, 1, 0⟩ 0 ⟨1, 0, 0⟩ 3).map fun v => (1 / 2 : ℝ) • v :=
  C29_scaling_infinite _ _ _ 3 2 (by norm_num)

/-- Three girths of a sail. -/
theorem girths_three (y0 y1 y2 : ℝ) : GirthData 2 [0, 1 / 2, 1] [y0, y1, y2] := by
  refine ⟨rfl, rfl, fun i hi => ?_⟩
  interval_cases i <;> norm_num

/-- C52: values that lie on a line. -/
example (spline : SplineFn) : interpolateGirths spline "linear" [0, 1 / 2, 1] ([0, 1 / 2, 1].map fun x => -2 * x + 5) 9 =
    .ok ((List.range 9).map fun k : ℕ => -2 * ((k : ℝ) / ((9 : ℕ) - 1)) + 5) :=
  C52_affine (m := 2) (-2) 5 (girths_three _ _ _) spline ⟨0, by norm_num, le_refl _⟩ ⟨1, by norm_num, le_refl _⟩

/-- C52, C82: increasing values of a sail; the interpolated values increase and stay between the smallest and the largest. -/
example (spline : SplineFn) : ∃ v, interpolateGirths spline "linear" [0, 1 / 2, 1] [1, 4, 5] 9 = .ok v ∧ v.length = 9 ∧
    (∀ w ∈ v, 1 ≤ w ∧ w ≤ 5) ∧ ∀ a b, v[2]? = some a → v[7]? = some b → a ≤ b := by
  obtain ⟨v, hv, hl, hr⟩ := C82_range_partial (girths_three 1 4 5) spline 9 (lo := 1) (hi := 5) (by
    intro y hy
    simp at hy
    rcases hy with rfl | rfl | rfl <;> norm_num)
  refine ⟨v, hv, hl, hr, fun a b ha hb => C52_monotone (girths_three 1 4 5) spline hv (fun i hi => ?_) (by norm_num) ha hb⟩
  interval_cases i <;> norm_num

/-- C52: the mirrored values. -/
example (spline : SplineFn) : ∃ w, interpolateAndMirrorGirths spline "linear" [0, 1 / 2, 1] [1, 4, 5] 9 = .ok w ∧
    w.length = 2 * 9 ∧ w.reverse = w := by
  obtain ⟨v, hv, hl, -⟩ := C82_range_partial (girths_three 1 4 5) spline 9 (lo := 1) (hi := 5) (by
    intro y hy
    simp at hy
    rcases hy with rfl | rfl | rfl <;> norm_num)
  obtain ⟨w, h1, h2, h3, -⟩ := C52_mirror spline "linear" hv hl
  exact ⟨w, h1, h2, h3⟩

/-- C81: four girths with the values of a cubic. -/
example : interpolateGirths fitpackSpline "spline" [0, 1 / 4, 3 / 4, 1]
    ([0, 1 / 4, 3 / 4, 1].map fun x => 1 + 2 * x + 3 * x ^ 2 + 4 * x ^ 3) 9 =
      .ok ((List.range 9).map fun k : ℕ => 1 + 2 * ((k : ℝ) / ((9 : ℕ) - 1)) + 3 * ((k : ℝ) / ((9 : ℕ) - 1)) ^ 2 +
        4 * ((k : ℝ) / ((9 : ℕ) - 1)) ^ 3) :=
  C81_cubic (m := 3) 1 2 3 4 ⟨rfl, rfl, fun i hi => by interval_cases i <;> norm_num⟩ (by norm_num) 9

/-- C97: a point at distance one from a segment. -/
example : (vortexLine ⟨0, 1, 0⟩ 0 ⟨1, 0, 0⟩ 3).norm ≤ |3| / (2 * Real.pi * 1) :=
  C97_filament _ _ _ 3 one_pos fun t _ _ => by
    unfold V3.norm
    refine Real.le_sqrt_of_sq_le ?_
    simp [V3.dot, lerp]
    nlinarith [sq_nonneg t]

/-- C97: a point at distance one from a trailing vortex. -/
example : ∃ v, vortexInfiniteLineCall ⟨0, 1, 0⟩ 0 ⟨1, 0, 0⟩ 3 = .ok v ∧ v.norm ≤ |3| / (2 * Real.pi * 1) := by
  rcases C97_trailing ⟨0, 1, 0⟩ 0 ⟨1, 0, 0⟩ 3 one_pos (fun t _ => by
    unfold V3.norm
    refine Real.le_sqrt_of_sq_le ?_
    simp [V3.dot]
    nlinarith [sq_nonneg t]) with ⟨-, h⟩ | h
  · simp [V3.ext_iff] at h
  · exact h

/-- C55: wings of aspect ratio ten at two and at four degrees. -/
example : ∃ p q : ℝ × ℝ, getCLCDFreeWing 10 2 = .ok p ∧ getCLCDFreeWing 10 4 = .ok q ∧ p.1 < q.1 := by
  obtain ⟨a, b, h, -⟩ := C55_formula 10 2 (by norm_num)
  obtain ⟨c, d, h', -⟩ := C55_formula 10 4 (by norm_num)
  exact ⟨(a, b), (c, d), h, h', (C55_angle 10 2 4 a b c d (by norm_num) h h').2 (by norm_num)⟩

/-- C56: the arrows of one sail and its mirror image, and the failure with three sails. -/
example (w : WindObj) (u : V3) : (∃ l, displayWinds (2 * (1 * 1)) 0
      ⟨1, w, List.replicate 2 0, List.replicate 2 u, [], List.replicate 2 u, [], []⟩ (List.replicate 2 u) 1 1 true = .ok l) ∧
    displayWinds (6 * (1 * 1)) 0 ⟨1, w, List.replicate 6 0, List.replicate 6 u, [], List.replicate 6 u, [], []⟩
      (List.replicate 6 u) 1 1 true = .error .assertionError := by
  exact ⟨⟨_, C56_arrows one_pos one_pos (Or.inl rfl) _ _ _ _ rfl rfl rfl rfl⟩,
    C56_other_counts one_pos one_pos (by norm_num) (by norm_num) _ _ _ _ rfl rfl rfl rfl⟩

/-- C41, C88: a wing of one panel and its reflection. -/
example : ∃ w w', aircraft Demo.wing = .ok w ∧ w.CL = 0 ∧ aircraft (reflectedWing Demo.wing) = .ok w' ∧ w'.CD = w.CD ∧
    w.CL * (0.5 * Demo.wing.rho * Demo.wing.V.dot Demo.wing.V * (2 * Demo.wing.half * Demo.wing.chord)) ≠
      (List.ofFn w.force).sum.dot (liftDirection Demo.wing.V) := by
  obtain ⟨w, hw, hne⟩ := Demo.wing_ok
  obtain ⟨w', hw', -, -, -, hcd, -⟩ := C88_opposite _ w hw (by norm_num [Demo.wing])
  exact ⟨w, w', hw, C41_CL_is_zero _ w hw rfl, hw', hcd, fun h => hne ((C41_exact _ w hw rfl).1 h)⟩

end PySailing.Props
