import Verif.Lemmas.MMatrix
import Mathlib.Analysis.Convex.Deriv
import Mathlib.Analysis.SpecialFunctions.Sqrt
import Mathlib.Analysis.Calculus.Deriv.Inv

/-!
# The influence of a strip falls off with the distance
-/

namespace PySailing

theorem hasDerivAt_rho2_right {x y : ℝ} (h : x ≠ 0 ∨ y ≠ 0) : HasDerivAt (rho2 x) (y / rho2 x y) y := by
  have hpos : x ^ 2 + y ^ 2 ≠ 0 := by
    rcases h with h | h <;> positivity
  have h1 : HasDerivAt (fun t : ℝ => x ^ 2 + t ^ 2) (2 * y) y := by
    simpa using ((hasDerivAt_id y).pow 2).const_add (x ^ 2)
  have h2 := h1.sqrt hpos
  refine h2.congr_deriv ?_
  unfold rho2
  rw [mul_div_mul_left _ _ (by norm_num : (2 : ℝ) ≠ 0)]

theorem hasDerivAt_rho2_left {x y : ℝ} (h : x ≠ 0 ∨ y ≠ 0) : HasDerivAt (fun t => rho2 t y) (x / rho2 x y) x := by
  have := hasDerivAt_rho2_right (x := y) (y := x) h.symm
  rw [rho2_comm x y]
  convert this using 1
  funext t
  exact rho2_comm t y

theorem hasDerivAt_corner {x y : ℝ} (hx : x ≠ 0) (hy : y ≠ 0) : HasDerivAt (corner x) (-(x / (rho2 x y * y ^ 2))) y := by
  have p := rho2_pos_left y hx
  have s := rho2_sq x y
  have h1 := (hasDerivAt_rho2_right (y := y) (Or.inl hx)).div ((hasDerivAt_id y).const_mul x) (mul_ne_zero hx hy)
  refine h1.congr_deriv ?_
  simp only [id]
  field_simp
  linear_combination -s

/-- Slope of a side, as a function of the end of the side. -/
noncomputable def sideSlope (y x : ℝ) : ℝ := x / (rho2 x y * y ^ 2)

theorem hasDerivAt_sideSlope {y : ℝ} (hy : y ≠ 0) (x : ℝ) : HasDerivAt (sideSlope y) (1 / rho2 x y ^ 3) x := by
  have p := rho2_pos_right x hy
  have s := rho2_sq x y
  have h1 := (hasDerivAt_id x).div ((hasDerivAt_rho2_left (x := x) (Or.inr hy)).mul_const (y ^ 2)) (by positivity)
  refine h1.congr_deriv ?_
  simp only [id]
  field_simp
  linear_combination s

theorem sideSlope_sub_mono {y z : ℝ} (hy : 0 < y) (hz : y ≤ z) : Monotone (fun x => sideSlope y x - sideSlope z x) := by
  have hz0 : 0 < z := hy.trans_le hz
  have hd : ∀ x, HasDerivAt (fun x => sideSlope y x - sideSlope z x) (1 / rho2 x y ^ 3 - 1 / rho2 x z ^ 3) x := fun x =>
    (hasDerivAt_sideSlope hy.ne' x).sub (hasDerivAt_sideSlope hz0.ne' x)
  refine monotone_of_deriv_nonneg (fun x => (hd x).differentiableAt) (fun x => ?_)
  rw [(hd x).deriv, sub_nonneg]
  have p := rho2_pos_right x hy.ne'
  apply one_div_le_one_div_of_le (by positivity)
  apply pow_le_pow_left₀ p.le
  exact Real.sqrt_le_sqrt (by nlinarith)

/-- Both ends of the side of a ring. -/
noncomputable def side (xf xr y : ℝ) : ℝ := corner xr y - corner xf y

theorem side_neg (xf xr y : ℝ) : side xf xr (-y) = -side xf xr y := by
  unfold side; rw [corner_neg_right, corner_neg_right]; ring

theorem hasDerivAt_side {xf xr y : ℝ} (hf : xf ≠ 0) (hr : xr ≠ 0) (hy : y ≠ 0) :
    HasDerivAt (side xf xr) (-(sideSlope y xr - sideSlope y xf)) y := by
  have := (hasDerivAt_corner hr hy).sub (hasDerivAt_corner hf hy)
  refine this.congr_deriv ?_
  unfold sideSlope
  ring

theorem side_deriv_mono {xf xr : ℝ} (hf : xf ≠ 0) (hr : xr ≠ 0) (hx : xf ≤ xr) : MonotoneOn (deriv (side xf xr)) (Set.Ioi 0) := by
  intro y hy z hz hyz
  rw [(hasDerivAt_side hf hr (ne_of_gt hy)).deriv, (hasDerivAt_side hf hr (ne_of_gt hz)).deriv]
  have := sideSlope_sub_mono hy hyz hx
  simp only at this
  linarith

theorem side_convex {xf xr : ℝ} (hf : xf ≠ 0) (hr : xr ≠ 0) (hx : xf ≤ xr) : ConvexOn ℝ (Set.Ioi 0) (side xf xr) := by
  refine MonotoneOn.convexOn_of_deriv (convex_Ioi 0) (fun y hy => ?_) ?_ ?_
  · exact (hasDerivAt_side hf hr (ne_of_gt hy)).continuousAt.continuousWithinAt
  · rw [interior_Ioi]
    exact fun y hy => (hasDerivAt_side hf hr (ne_of_gt hy)).differentiableAt.differentiableWithinAt
  · rw [interior_Ioi]
    exact side_deriv_mono hf hr hx

theorem side_eq {xf xr : ℝ} (hp : 0 < xf * xr) (y : ℝ) :
    side xf xr y = y * (xf ^ 2 - xr ^ 2) / (xr * xf * (xf * rho2 xr y + xr * rho2 xf y)) := by
  have hf : xf ≠ 0 := left_ne_zero_of_mul hp.ne'
  have hr : xr ≠ 0 := right_ne_zero_of_mul hp.ne'
  have p1 := rho2_pos_left y hf
  have p2 := rho2_pos_left y hr
  have s1 := rho2_sq xf y
  have s2 := rho2_sq xr y
  have hne : xf * rho2 xr y + xr * rho2 xf y ≠ 0 := by
    rcases pos_and_pos_or_neg_and_neg_of_mul_pos hp with ⟨a, b⟩ | ⟨a, b⟩
    · positivity
    · have := mul_pos (neg_pos.2 a) p2
      have := mul_pos (neg_pos.2 b) p1
      intro h0
      linarith
  unfold side corner
  by_cases hy : y = 0
  · subst hy; simp
  · rw [div_sub_div _ _ (mul_ne_zero hr hy) (mul_ne_zero hf hy), div_eq_div_iff (mul_ne_zero (mul_ne_zero hr hy) (mul_ne_zero hf hy))
      (mul_ne_zero (mul_ne_zero hr hf) hne)]
    linear_combination xr * xf * y * (xf ^ 2 * s2 - xr ^ 2 * s1)

theorem side_convex_line {xf xr : ℝ} (hp : 0 < xf * xr) (hx : xf ≤ xr) : ConvexOn ℝ (Set.Ici 0) (side xf xr) := by
  have hf : xf ≠ 0 := left_ne_zero_of_mul hp.ne'
  have hr : xr ≠ 0 := right_ne_zero_of_mul hp.ne'
  refine MonotoneOn.convexOn_of_deriv (convex_Ici 0) ?_ ?_ ?_
  · have hc : Continuous (side xf xr) := by
      have e : side xf xr = fun y => y * (xf ^ 2 - xr ^ 2) / (xr * xf * (xf * rho2 xr y + xr * rho2 xf y)) := funext (side_eq hp)
      rw [e]
      have c : ∀ x, Continuous (rho2 x) := fun x => by unfold rho2; fun_prop
      refine Continuous.div (by fun_prop) (by have := c xf; have := c xr; fun_prop) (fun y => mul_ne_zero (mul_ne_zero hr hf) ?_)
      have p1 := rho2_pos_left y hf
      have p2 := rho2_pos_left y hr
      rcases pos_and_pos_or_neg_and_neg_of_mul_pos hp with ⟨a, b⟩ | ⟨a, b⟩
      · positivity
      · have := mul_pos (neg_pos.2 a) p2
        have := mul_pos (neg_pos.2 b) p1
        intro h0
        linarith
    exact hc.continuousOn
  · rw [interior_Ici]
    exact fun y hy => (hasDerivAt_side hf hr (ne_of_gt hy)).differentiableAt.differentiableWithinAt
  · rw [interior_Ici]
    exact side_deriv_mono hf hr hx

theorem hasDerivAt_wakeKernel {C d : ℝ} (hC : 0 ≤ C) (hd : 0 < d) (y : ℝ) :
    HasDerivAt (wakeKernel C d) (-((d / rho2 d y + C) / (rho2 d y + C * d) ^ 2)) y := by
  have p := rho2_pos_left y hd.ne'
  have s := rho2_sq d y
  have q : 0 < rho2 d y + C * d := by positivity
  have h1 := ((hasDerivAt_id y).div (((hasDerivAt_rho2_right (y := y) (Or.inl hd.ne')).add_const (C * d)).const_mul d) (by positivity)).neg
  refine h1.congr_deriv ?_
  simp only [id]
  field_simp
  linear_combination -s

theorem wakeKernel_convex {C d : ℝ} (hC : 0 ≤ C) (hd : 0 < d) : ConvexOn ℝ (Set.Ici 0) (wakeKernel C d) := by
  refine MonotoneOn.convexOn_of_deriv (convex_Ici 0) (fun y _ => (hasDerivAt_wakeKernel hC hd y).continuousAt.continuousWithinAt)
    (fun y _ => (hasDerivAt_wakeKernel hC hd y).differentiableAt.differentiableWithinAt) ?_
  rw [interior_Ici]
  intro y hy z hz hyz
  rw [(hasDerivAt_wakeKernel hC hd y).deriv, (hasDerivAt_wakeKernel hC hd z).deriv, neg_le_neg_iff]
  have p := rho2_pos_left y hd.ne'
  have hle : rho2 d y ≤ rho2 d z := Real.sqrt_le_sqrt (by nlinarith [Set.mem_Ioi.1 hy])
  have q : 0 < rho2 d y + C * d := by positivity
  apply div_le_div₀ (by positivity)
  · have := div_le_div_of_nonneg_left hd.le p hle
    linarith
  · positivity
  · exact pow_le_pow_left₀ q.le (by linarith) 2

theorem wakeKernel_zero (C d : ℝ) : wakeKernel C d 0 = 0 := by unfold wakeKernel; simp

theorem side_zero (xf xr : ℝ) : side xf xr 0 = 0 := by unfold side corner; simp

/-- Increments of a convex function grow. -/
theorem _root_.ConvexOn.increments {D : Set ℝ} {F : ℝ → ℝ} (hF : ConvexOn ℝ D F) {y z w : ℝ} (hw : 0 ≤ w) (hyz : y ≤ z) (hy : y ∈ D)
    (hz : z + w ∈ D) : F (y + w) - F y ≤ F (z + w) - F z := by
  rcases eq_or_lt_of_le hw with h0 | h0
  · subst h0; simp
  have hd : 0 < z - y + w := by linarith
  set t := w / (z - y + w) with ht
  have t0 : 0 ≤ t := by positivity
  have t1 : 0 ≤ 1 - t := by
    rw [sub_nonneg, ht, div_le_one hd]; linarith
  have htw : t * (z - y + w) = w := by rw [ht]; field_simp
  have a := hF.2 hy hz t1 t0 (by ring)
  have b := hF.2 hy hz t0 t1 (by ring)
  simp only [smul_eq_mul] at a b
  have e1 : (1 - t) * y + t * (z + w) = y + w := by linear_combination htw
  have e2 : t * y + (1 - t) * (z + w) = z := by linear_combination -htw
  rw [e1] at a
  rw [e2] at b
  linarith

end PySailing
