import Verif.Lemmas.MMatrix
import Mathlib.Analysis.SpecialFunctions.Sqrt
import Mathlib.Analysis.Calculus.Deriv.Inv
import Mathlib.Analysis.Calculus.Deriv.MeanValue
import Mathlib.Analysis.Calculus.MeanValue
import Mathlib.Analysis.Convex.Function

/-!
# Velocities of trapezoidal vortex rings at points of their plane

A bound edge lies on a line `x = o + q y`; side edges lie on lines `y = const`.
-/

namespace PySailing.Taper

open Set

/-- Bound edge: antiderivative of `o / ρ³` along the line. -/
noncomputable def bd (o q y : ℝ) : ℝ := ((1 + q ^ 2) * y + o * q) / (o * rho2 (o + q * y) y)

/-- Side edge. -/
noncomputable def sd (x y : ℝ) : ℝ := x / (y * rho2 x y)

/-- Trailing vortex. -/
noncomputable def wk (C x y : ℝ) : ℝ := C * y / (rho2 x y * (rho2 x y + C * x))

theorem rho2_line_pos {o q y : ℝ} (h : o ≠ 0 ∨ y ≠ 0) : 0 < rho2 (o + q * y) y := by
  by_cases hy : y = 0
  · subst hy
    have ho : o ≠ 0 := h.resolve_right fun h => h rfl
    exact rho2_pos_left _ (by simpa using ho)
  · exact rho2_pos_right _ hy

theorem hasDerivAt_rho2 {o q y : ℝ} (h : o ≠ 0 ∨ y ≠ 0) :
    HasDerivAt (fun y => rho2 (o + q * y) y) ((q * (o + q * y) + y) / rho2 (o + q * y) y) y := by
  have hp := rho2_line_pos (q := q) h
  have h1 : HasDerivAt (fun y : ℝ => (o + q * y) ^ 2 + y ^ 2) (2 * (o + q * y) * q + 2 * y) y := by
    have a : HasDerivAt (fun y : ℝ => o + q * y) q y := by
      simpa using ((hasDerivAt_id y).const_mul q).const_add o
    have b := (a.pow 2).add ((hasDerivAt_id y).pow 2)
    refine b.congr_deriv ?_
    simp
  have h0 : (o + q * y) ^ 2 + y ^ 2 ≠ 0 := by
    have := rho2_sq (o + q * y) y
    rw [← this]
    positivity
  refine (h1.sqrt h0).congr_deriv ?_
  change (2 * (o + q * y) * q + 2 * y) / (2 * rho2 (o + q * y) y) = _
  field_simp

theorem hasDerivAt_bd (o q : ℝ) {y : ℝ} (h : o ≠ 0 ∨ y ≠ 0) :
    HasDerivAt (bd o q) (o / rho2 (o + q * y) y ^ 3) y := by
  by_cases ho : o = 0
  · subst ho
    have : bd 0 q = fun _ => 0 := by
      funext t; unfold bd; simp
    rw [this, zero_div]
    exact hasDerivAt_const _ _
  have hp := rho2_line_pos (q := q) h
  have hs := rho2_sq (o + q * y) y
  have hn : HasDerivAt (fun y : ℝ => (1 + q ^ 2) * y + o * q) (1 + q ^ 2) y := by
    simpa using ((hasDerivAt_id y).const_mul (1 + q ^ 2)).add_const (o * q)
  have hd := (hasDerivAt_rho2 (q := q) h).const_mul o
  refine (hn.div hd (by positivity)).congr_deriv ?_
  field_simp
  linear_combination (1 + q ^ 2) * hs

theorem hasDerivAt_sd (o q : ℝ) {y : ℝ} (h : y ≠ 0) :
    HasDerivAt (fun y => sd (o + q * y) y)
      (-(o / rho2 (o + q * y) y ^ 3) - (o + q * y) / (y ^ 2 * rho2 (o + q * y) y)) y := by
  have hp := rho2_line_pos (o := o) (q := q) (Or.inr h)
  have hs := rho2_sq (o + q * y) y
  have hn : HasDerivAt (fun y : ℝ => o + q * y) q y := by
    simpa using ((hasDerivAt_id y).const_mul q).const_add o
  have hd := (hasDerivAt_id y).mul (hasDerivAt_rho2 (o := o) (q := q) (Or.inr h))
  refine (hn.div hd (by simp only [Pi.mul_apply, id]; positivity)).congr_deriv ?_
  simp only [Pi.mul_apply, id]
  field_simp
  linear_combination (q * y) * hs

theorem wake_denom_pos {C x y : ℝ} (hC : 0 ≤ C) (hC1 : C ≤ 1) (h : 0 < x ∨ y ≠ 0) : 0 < rho2 x y + C * x := by
  rcases le_or_gt 0 x with hx | hx
  · have : 0 < rho2 x y := by
      rcases h with h | h
      · exact rho2_pos_left _ h.ne'
      · exact rho2_pos_right _ h
    positivity
  · have hy : y ≠ 0 := h.resolve_left (by linarith)
    have h1 : -x < rho2 x y := by
      apply Real.lt_sqrt_of_sq_lt
      have := sq_pos_of_ne_zero hy
      nlinarith
    nlinarith

theorem hasDerivAt_wk {C : ℝ} (hC : 0 ≤ C) (hC1 : C ≤ 1) (o q : ℝ) {y : ℝ} (h : 0 < o + q * y ∨ y ≠ 0) :
    HasDerivAt (fun y => wk C (o + q * y) y)
      (o / rho2 (o + q * y) y ^ 3 - (C / (rho2 (o + q * y) y * (rho2 (o + q * y) y + C * (o + q * y)))
        + o * (1 - C ^ 2) / (rho2 (o + q * y) y * (rho2 (o + q * y) y + C * (o + q * y)) ^ 2))) y := by
  have h' : o ≠ 0 ∨ y ≠ 0 := by
    by_cases hy : y = 0
    · left; subst hy
      have := h.resolve_right fun h => h rfl
      intro h0; rw [h0] at this; simp at this
    · exact Or.inr hy
  have hp := rho2_line_pos (q := q) h'
  have hq := wake_denom_pos hC hC1 h
  have hs := rho2_sq (o + q * y) y
  have hx : HasDerivAt (fun y : ℝ => o + q * y) q y := by
    simpa using ((hasDerivAt_id y).const_mul q).const_add o
  have hn : HasDerivAt (fun y : ℝ => C * y) C y := by
    simpa using (hasDerivAt_id y).const_mul C
  have hr := hasDerivAt_rho2 (q := q) h'
  have hd := hr.mul (hr.add (hx.const_mul C))
  refine (hn.div hd (by simp only [Pi.mul_apply, Pi.add_apply]; positivity)).congr_deriv ?_
  simp only [Pi.mul_apply, Pi.add_apply]
  generalize hR : rho2 (o + q * y) y = R at *
  generalize hX : o + q * y = X at *
  have ho : o = X - q * y := by rw [← hX]; ring
  subst ho
  field_simp
  linear_combination (2 * C * R + C ^ 2 * X) * hs

/-! ### Inequalities -/

theorem rho2_add_le (x y m : ℝ) : rho2 (x + m) y ≤ rho2 x y + |m| := by
  have h0 := rho2_nonneg x y
  have hx : |x| ≤ rho2 x y := Real.le_sqrt_of_sq_le (by rw [sq_abs]; nlinarith [sq_nonneg y])
  refine Real.sqrt_le_iff.2 ⟨by positivity, ?_⟩
  have h1 : x * m ≤ rho2 x y * |m| := (le_abs_self _).trans (by rw [abs_mul]; gcongr)
  nlinarith [rho2_sq x y, sq_abs m]

theorem abs_le_rho2 (x y : ℝ) : |y| ≤ rho2 x y := Real.le_sqrt_of_sq_le (by rw [sq_abs]; nlinarith [sq_nonneg x])

/-- Sine of the direction of a point. -/
theorem hasDerivAt_ratio {y : ℝ} (hy : y ≠ 0) (x : ℝ) :
    HasDerivAt (fun x => x / rho2 x y) (y ^ 2 / rho2 x y ^ 3) x := by
  have hp := rho2_pos_right x hy
  have hs := rho2_sq x y
  have h1 : HasDerivAt (fun x : ℝ => x ^ 2 + y ^ 2) (2 * x) x := by
    have b := ((hasDerivAt_id x).pow 2).add_const (y ^ 2)
    refine b.congr_deriv ?_
    simp
  have h2 : HasDerivAt (fun x => rho2 x y) (x / rho2 x y) x := by
    refine (h1.sqrt (by positivity)).congr_deriv ?_
    change 2 * x / (2 * rho2 x y) = _
    field_simp
  refine ((hasDerivAt_id x).div h2 hp.ne').congr_deriv ?_
  simp only [id]
  field_simp
  linear_combination hs

theorem ratio_mono {x1 x2 : ℝ} (h : x1 ≤ x2) {y : ℝ} (hy : y ≠ 0) : x1 / rho2 x1 y ≤ x2 / rho2 x2 y := by
  rw [div_le_div_iff₀ (rho2_pos_right _ hy) (rho2_pos_right _ hy)]
  exact mul_rho2_le h y

/-- The ratio grows at least by `ε y² / ρ³` on a step of `2 ε`. -/
theorem ratio_step {y ε : ℝ} (x : ℝ) (hε : 0 ≤ ε) (hy : 8 * ε ≤ |y|) (hy0 : y ≠ 0) :
    ε * (y ^ 2 / rho2 x y ^ 3) ≤ (x + 2 * ε) / rho2 (x + 2 * ε) y - x / rho2 x y := by
  rcases hε.eq_or_lt with h | h
  · subst h; simp
  obtain ⟨ξ, ⟨h1, h2⟩, h3⟩ := exists_hasDerivAt_eq_slope (fun x => x / rho2 x y) (fun x => y ^ 2 / rho2 x y ^ 3)
    (show x < x + 2 * ε by linarith)
    (fun z _ => (hasDerivAt_ratio hy0 z).continuousAt.continuousWithinAt) (fun z _ => hasDerivAt_ratio hy0 z)
  have e : (x + 2 * ε) / rho2 (x + 2 * ε) y - x / rho2 x y = 2 * ε * (y ^ 2 / rho2 ξ y ^ 3) := by
    rw [h3]; field_simp; ring
  rw [e]
  have hp := rho2_pos_right x hy0
  have hpξ := rho2_pos_right ξ hy0
  have hb : rho2 ξ y ≤ 5 / 4 * rho2 x y := by
    have a := rho2_add_le x y (ξ - x)
    rw [add_sub_cancel, abs_of_pos (by linarith)] at a
    have := abs_le_rho2 x y
    linarith
  have hc : rho2 ξ y ^ 3 ≤ 2 * rho2 x y ^ 3 := by
    have a := pow_le_pow_left₀ hpξ.le hb 3
    have : 0 < rho2 x y ^ 3 := by positivity
    nlinarith
  have hd : y ^ 2 / (2 * rho2 x y ^ 3) ≤ y ^ 2 / rho2 ξ y ^ 3 :=
    div_le_div_of_nonneg_left (by positivity) (by positivity) hc
  calc ε * (y ^ 2 / rho2 x y ^ 3) = 2 * ε * (y ^ 2 / (2 * rho2 x y ^ 3)) := by field_simp
    _ ≤ _ := mul_le_mul_of_nonneg_left hd (by positivity)

/-- Two edges at a distance of `w`: reserve for edges which are left out. -/
theorem ratio_reserve {x1 x2 y w ε : ℝ} (hε : 0 ≤ ε) (hw : 4 * ε ≤ w) (h : x1 + w ≤ x2) (hy : 8 * ε ≤ |y|) (hy0 : y ≠ 0) :
    x1 / (y ^ 2 * rho2 x1 y) + ε / rho2 x1 y ^ 3 + ε / rho2 x2 y ^ 3 ≤ x2 / (y ^ 2 * rho2 x2 y) := by
  have p1 := rho2_pos_right x1 hy0
  have p2 := rho2_pos_right x2 hy0
  have a1 := ratio_step x1 hε hy hy0
  have a2 := ratio_step (-x2) hε hy hy0
  have a3 := ratio_mono (show x1 + 2 * ε ≤ x2 - 2 * ε by linarith) hy0
  have e1 : rho2 (-x2 + 2 * ε) y = rho2 (x2 - 2 * ε) y := by
    rw [← rho2_neg_left]; congr 1; ring
  rw [e1, rho2_neg_left, show -x2 + 2 * ε = -(x2 - 2 * ε) by ring, neg_div, neg_div] at a2
  have hy2 : 0 < y ^ 2 := by positivity
  have key : ε * (y ^ 2 / rho2 x1 y ^ 3) + ε * (y ^ 2 / rho2 x2 y ^ 3) + x1 / rho2 x1 y ≤ x2 / rho2 x2 y := by linarith
  have := div_le_div_of_nonneg_right key hy2.le
  refine (le_of_eq ?_).trans (this.trans (le_of_eq ?_))
  · field_simp; ring
  · field_simp

/-- A function with non-positive derivative. -/
theorem le_of_hasDerivAt_nonpos {f f' : ℝ → ℝ} {a b : ℝ} (hab : a ≤ b) (hf : ∀ t ∈ Icc a b, HasDerivAt f (f' t) t)
    (h : ∀ t ∈ Icc a b, f' t ≤ 0) : f b ≤ f a := by
  rcases hab.eq_or_lt with e | hlt
  · rw [e]
  obtain ⟨c, hc, h3⟩ := exists_hasDerivAt_eq_slope f f' hlt (fun z hz => (hf z hz).continuousAt.continuousWithinAt)
    (fun z hz => hf z (Ioo_subset_Icc_self hz))
  have h4 := h c (Ioo_subset_Icc_self hc)
  rw [h3, div_nonpos_iff] at h4
  rcases h4 with ⟨_, h5⟩ | ⟨h5, _⟩ <;> linarith

/-- A ring beside the point; of its bound edges the parts `aL` and `aR` are left out. -/
theorem ring_beside {oL qL oR qR y1 y2 w ε aL aR : ℝ} (hε : 0 ≤ ε) (hL : aL * oL ≤ ε) (hR : -(aR * oR) ≤ ε) (hw : 4 * ε ≤ w) (h : y1 ≤ y2)
    (hy : ∀ t ∈ Icc y1 y2, t ≠ 0 ∧ 8 * ε ≤ |t|) (hx : ∀ t ∈ Icc y1 y2, oL + qL * t + w ≤ oR + qR * t) :
    sd (oR + qR * y2) y2 + (1 - aR) * bd oR qR y2 - sd (oL + qL * y2) y2 - (1 - aL) * bd oL qL y2 ≤
      sd (oR + qR * y1) y1 + (1 - aR) * bd oR qR y1 - sd (oL + qL * y1) y1 - (1 - aL) * bd oL qL y1 := by
  refine le_of_hasDerivAt_nonpos (f := fun t => sd (oR + qR * t) t + (1 - aR) * bd oR qR t - sd (oL + qL * t) t - (1 - aL) * bd oL qL t) h
    (fun t ht => (((hasDerivAt_sd oR qR (hy t ht).1).add ((hasDerivAt_bd oR qR (Or.inr (hy t ht).1)).const_mul (1 - aR))).sub
      (hasDerivAt_sd oL qL (hy t ht).1)).sub ((hasDerivAt_bd oL qL (Or.inr (hy t ht).1)).const_mul (1 - aL))) (fun t ht => ?_)
  obtain ⟨h0, h8⟩ := hy t ht
  have key := ratio_reserve hε hw (hx t ht) h8 h0
  have p1 := rho2_line_pos (o := oL) (q := qL) (Or.inr h0)
  have p2 := rho2_line_pos (o := oR) (q := qR) (Or.inr h0)
  have b1 : aL * oL / rho2 (oL + qL * t) t ^ 3 ≤ ε / rho2 (oL + qL * t) t ^ 3 :=
    div_le_div_of_nonneg_right hL (by positivity)
  have b2 : -(aR * oR) / rho2 (oR + qR * t) t ^ 3 ≤ ε / rho2 (oR + qR * t) t ^ 3 :=
    div_le_div_of_nonneg_right hR (by positivity)
  have e1 : aL * oL / rho2 (oL + qL * t) t ^ 3 = aL * (oL / rho2 (oL + qL * t) t ^ 3) := by ring
  have e2 : -(aR * oR) / rho2 (oR + qR * t) t ^ 3 = -(aR * (oR / rho2 (oR + qR * t) t ^ 3)) := by ring
  rw [e1] at b1
  rw [e2] at b2
  linarith

theorem rear_sum {C o ρ d : ℝ} (p2 : 0 < ρ) (p3 : 0 < d) (h : 0 ≤ C * d + (1 - C ^ 2) * o) :
    0 ≤ C / (ρ * d) + o * (1 - C ^ 2) / (ρ * d ^ 2) := by
  have e : C / (ρ * d) + o * (1 - C ^ 2) / (ρ * d ^ 2) = (C * d + (1 - C ^ 2) * o) / (ρ * d ^ 2) := by
    field_simp
  rw [e]
  positivity

/-- A horseshoe beside the point; the point is ahead of the line of its trailing edge or not too far behind it. -/
theorem shoe_beside {C oL qL oR qR y1 y2 w ε aL : ℝ} (hC : 0 ≤ C) (hC1 : C ≤ 1) (hε : 0 ≤ ε) (hL : aL * oL ≤ ε)
    (hR : ∀ t ∈ Icc y1 y2, 0 ≤ C * (rho2 (oR + qR * t) t + C * (oR + qR * t)) + (1 - C ^ 2) * oR) (hw : 4 * ε ≤ w)
    (h : y1 ≤ y2) (hy : ∀ t ∈ Icc y1 y2, t ≠ 0 ∧ 8 * ε ≤ |t|) (hx : ∀ t ∈ Icc y1 y2, oL + qL * t + w ≤ oR + qR * t) :
    sd (oR + qR * y2) y2 + wk C (oR + qR * y2) y2 - sd (oL + qL * y2) y2 - (1 - aL) * bd oL qL y2 ≤
      sd (oR + qR * y1) y1 + wk C (oR + qR * y1) y1 - sd (oL + qL * y1) y1 - (1 - aL) * bd oL qL y1 := by
  refine le_of_hasDerivAt_nonpos (f := fun t => sd (oR + qR * t) t + wk C (oR + qR * t) t - sd (oL + qL * t) t - (1 - aL) * bd oL qL t) h
    (fun t ht => (((hasDerivAt_sd oR qR (hy t ht).1).add (hasDerivAt_wk hC hC1 oR qR (Or.inr (hy t ht).1))).sub
      (hasDerivAt_sd oL qL (hy t ht).1)).sub ((hasDerivAt_bd oL qL (Or.inr (hy t ht).1)).const_mul (1 - aL))) (fun t ht => ?_)
  obtain ⟨h0, h8⟩ := hy t ht
  have key := ratio_reserve hε hw (hx t ht) h8 h0
  have p1 := rho2_line_pos (o := oL) (q := qL) (Or.inr h0)
  have p2 := rho2_line_pos (o := oR) (q := qR) (Or.inr h0)
  have p3 := wake_denom_pos (x := oR + qR * t) hC hC1 (Or.inr h0)
  have b1 : aL * oL / rho2 (oL + qL * t) t ^ 3 ≤ ε / rho2 (oL + qL * t) t ^ 3 :=
    div_le_div_of_nonneg_right hL (by positivity)
  have e1 : aL * oL / rho2 (oL + qL * t) t ^ 3 = aL * (oL / rho2 (oL + qL * t) t ^ 3) := by ring
  rw [e1] at b1
  have b2 : 0 ≤ ε / rho2 (oR + qR * t) t ^ 3 := by positivity
  have c1 := rear_sum p2 p3 (hR t ht)
  linarith

theorem recip_anti {x1 x2 y : ℝ} (h : x1 ≤ x2) (h1 : 0 < x1 ∨ y ≠ 0) :
    1 / (rho2 x2 y * (rho2 x2 y + 1 * x2)) ≤ 1 / (rho2 x1 y * (rho2 x1 y + 1 * x1)) := by
  have h2 : 0 < x2 ∨ y ≠ 0 := h1.imp (fun a => a.trans_le h) id
  have d1 := wake_denom_pos (C := 1) zero_le_one le_rfl h1
  have d2 := wake_denom_pos (C := 1) zero_le_one le_rfl h2
  rw [one_mul] at d1 d2 ⊢
  rw [one_mul]
  have p : ∀ {x : ℝ}, 0 < x ∨ y ≠ 0 → 0 < rho2 x y := by
    rintro x (a | a)
    · exact rho2_pos_left _ a.ne'
    · exact rho2_pos_right _ a
  have p1 := p h1
  have p2 := p h2
  have s1 := rho2_sq x1 y
  have s2 := rho2_sq x2 y
  have hm : rho2 x1 y + x1 ≤ rho2 x2 y + x2 := by
    have := rho2_add_le x2 y (x1 - x2)
    rw [add_sub_cancel, abs_of_nonpos (by linarith)] at this
    linarith
  apply one_div_le_one_div_of_le (by positivity)
  have e1 : rho2 x1 y * (rho2 x1 y + x1) = ((rho2 x1 y + x1) ^ 2 + y ^ 2) / 2 := by nlinarith
  have e2 : rho2 x2 y * (rho2 x2 y + x2) = ((rho2 x2 y + x2) ^ 2 + y ^ 2) / 2 := by nlinarith
  rw [e1, e2]
  have := pow_le_pow_left₀ d1.le hm 2
  linarith

theorem sd_eq {x y : ℝ} (hy : y ≠ 0) : sd x y = 1 / y - wk 1 x y := by
  have p := rho2_pos_right x hy
  have d := wake_denom_pos (C := 1) (x := x) zero_le_one le_rfl (Or.inr hy)
  have s := rho2_sq x y
  unfold sd wk
  rw [one_mul] at d
  rw [one_mul, one_mul]
  field_simp
  linear_combination -s

/-- A ring behind the point. -/
theorem ring_behind {oL qL oR qR y1 y2 : ℝ} (hL : 0 < oL) (hR : 0 < oR) (h1 : y1 < 0) (h2 : 0 < y2)
    (hx : ∀ t ∈ Icc y1 y2, oL + qL * t ≤ oR + qR * t) :
    sd (oR + qR * y2) y2 + bd oR qR y2 - sd (oL + qL * y2) y2 - bd oL qL y2 ≤
      sd (oR + qR * y1) y1 + bd oR qR y1 - sd (oL + qL * y1) y1 - bd oL qL y1 := by
  have hp : ∀ {o q : ℝ}, 0 < o → ∀ t, 0 < o + q * t ∨ t ≠ 0 := by
    intro o q ho t
    by_cases ht : t = 0
    · left; subst ht; simpa using ho
    · exact Or.inr ht
  have key := le_of_hasDerivAt_nonpos (f := fun t => bd oR qR t - wk 1 (oR + qR * t) t - (bd oL qL t - wk 1 (oL + qL * t) t)) (h1.le.trans h2.le)
    (fun t _ => ((hasDerivAt_bd oR qR (Or.inl hR.ne')).sub (hasDerivAt_wk zero_le_one le_rfl oR qR (hp hR t))).sub
      ((hasDerivAt_bd oL qL (Or.inl hL.ne')).sub (hasDerivAt_wk zero_le_one le_rfl oL qL (hp hL t)))) (fun t ht => by
    have := recip_anti (hx t ht) (hp hL t)
    simp only [one_pow, sub_self, mul_zero, zero_div, add_zero]
    linarith)
  rw [sd_eq h2.ne', sd_eq h2.ne', sd_eq h1.ne, sd_eq h1.ne]
  linarith

/-- A horseshoe behind the point. -/
theorem shoe_behind {C oL qL oR qR y1 y2 : ℝ} (hC : 0 ≤ C) (hC1 : C ≤ 1) (hL : 0 < oL) (hR : 0 < oR) (h1 : y1 < 0) (h2 : 0 < y2)
    (hx : ∀ t ∈ Icc y1 y2, oL + qL * t ≤ oR + qR * t) :
    sd (oR + qR * y2) y2 + wk C (oR + qR * y2) y2 - sd (oL + qL * y2) y2 - bd oL qL y2 ≤
      sd (oR + qR * y1) y1 + wk C (oR + qR * y1) y1 - sd (oL + qL * y1) y1 - bd oL qL y1 := by
  have hp : ∀ {o q : ℝ}, 0 < o → ∀ t, 0 < o + q * t ∨ t ≠ 0 := by
    intro o q ho t
    by_cases ht : t = 0
    · left; subst ht; simpa using ho
    · exact Or.inr ht
  have key := le_of_hasDerivAt_nonpos (f := fun t => wk C (oR + qR * t) t - wk 1 (oR + qR * t) t - (bd oL qL t - wk 1 (oL + qL * t) t)) (h1.le.trans h2.le)
    (fun t _ => ((hasDerivAt_wk hC hC1 oR qR (hp hR t)).sub (hasDerivAt_wk zero_le_one le_rfl oR qR (hp hR t))).sub
      ((hasDerivAt_bd oL qL (Or.inl hL.ne')).sub (hasDerivAt_wk zero_le_one le_rfl oL qL (hp hL t)))) (fun t ht => by
    have := recip_anti (hx t ht) (hp hL t)
    have p2 := rho2_line_pos (o := oR) (q := qR) (y := t) (Or.inl hR.ne')
    have p3 := wake_denom_pos hC hC1 (hp (q := qR) hR t)
    have c1 : 0 ≤ C / (rho2 (oR + qR * t) t * (rho2 (oR + qR * t) t + C * (oR + qR * t))) := by positivity
    have c2 : 0 ≤ oR * (1 - C ^ 2) / (rho2 (oR + qR * t) t * (rho2 (oR + qR * t) t + C * (oR + qR * t)) ^ 2) := by
      have : 0 ≤ 1 - C ^ 2 := by nlinarith
      positivity
    simp only [one_pow, sub_self, mul_zero, zero_div, add_zero]
    linarith)
  rw [sd_eq h2.ne', sd_eq h2.ne', sd_eq h1.ne, sd_eq h1.ne]
  linarith

theorem bd_neg (o q y : ℝ) : bd (-o) (-q) y = -bd o q y := by
  unfold bd
  rw [show -o + -q * y = -(o + q * y) by ring, rho2_neg_left, neg_sq, neg_mul_neg, neg_mul, div_neg]

theorem sd_neg (x y : ℝ) : sd (-x) y = -sd x y := by
  unfold sd; rw [rho2_neg_left, neg_div]

/-- A ring ahead of the point. -/
theorem ring_ahead {oL qL oR qR y1 y2 : ℝ} (hL : oL < 0) (hR : oR < 0) (h1 : y1 < 0) (h2 : 0 < y2)
    (hx : ∀ t ∈ Icc y1 y2, oL + qL * t ≤ oR + qR * t) :
    sd (oR + qR * y2) y2 + bd oR qR y2 - sd (oL + qL * y2) y2 - bd oL qL y2 ≤
      sd (oR + qR * y1) y1 + bd oR qR y1 - sd (oL + qL * y1) y1 - bd oL qL y1 := by
  have := ring_behind (oL := -oR) (qL := -qR) (oR := -oL) (qR := -qL) (neg_pos.2 hR) (neg_pos.2 hL) h1 h2
    (fun t ht => by have := hx t ht; linarith)
  rw [bd_neg, bd_neg, bd_neg, bd_neg] at this
  have e : ∀ o q y, sd (-o + -q * y) y = -sd (o + q * y) y := by
    intro o q y; rw [← sd_neg]; congr 1; ring
  rw [e, e, e, e] at this
  linarith

/-! ### Edges given by their ends -/

/-- Inclination of the line through two points. -/
noncomputable def lineQ (x1 x2 y1 y2 : ℝ) : ℝ := (x2 - x1) / (y2 - y1)

/-- Intersection of this line with the axis `y = 0`. -/
noncomputable def lineO (x1 x2 y1 y2 : ℝ) : ℝ := x1 - lineQ x1 x2 y1 y2 * y1

theorem line_fst (x1 x2 y1 y2 : ℝ) : lineO x1 x2 y1 y2 + lineQ x1 x2 y1 y2 * y1 = x1 := by
  unfold lineO; ring

theorem line_snd (x1 x2 : ℝ) {y1 y2 : ℝ} (h : y1 < y2) : lineO x1 x2 y1 y2 + lineQ x1 x2 y1 y2 * y2 = x2 := by
  have := (sub_pos.2 h).ne'
  unfold lineO lineQ
  field_simp
  ring

/-- 1 for edges which the program leaves out: the line passes the point at a small distance. -/
noncomputable def dropped (o h : ℝ) : ℝ := if 1e-4 ≤ |o| * h then 0 else 1

theorem dropped_le {o h : ℝ} (hh : 0 < h) : |dropped o h * o| ≤ 1e-4 / h := by
  unfold dropped
  split_ifs with h1
  · rw [zero_mul, abs_zero]; positivity
  · rw [one_mul, le_div_iff₀ hh]
    exact (not_le.1 h1).le

/-- A bound edge with the ends of the side edges. -/
noncomputable def edge (x1 x2 y1 y2 : ℝ) : ℝ :=
  sd x2 y2 - sd x1 y1 + (1 - dropped (lineO x1 x2 y1 y2) (y2 - y1)) *
    (bd (lineO x1 x2 y1 y2) (lineQ x1 x2 y1 y2) y2 - bd (lineO x1 x2 y1 y2) (lineQ x1 x2 y1 y2) y1)

/-- The ends of a trailing edge with the trailing vortices. -/
noncomputable def rear (C x1 x2 y1 y2 : ℝ) : ℝ := (sd x2 y2 + wk C x2 y2) - (sd x1 y1 + wk C x1 y1)

theorem affine_ge {α β y1 y2 w : ℝ} (h1 : w ≤ α + β * y1) (h2 : w ≤ α + β * y2) {t : ℝ} (ht : t ∈ Icc y1 y2) : w ≤ α + β * t := by
  obtain ⟨a, b⟩ := ht
  rcases le_or_gt 0 β with h | h
  · nlinarith
  · nlinarith

theorem between {x1 x2 x1' x2' y1 y2 w : ℝ} (h : y1 < y2) (h1 : x1 + w ≤ x1') (h2 : x2 + w ≤ x2') {t : ℝ} (ht : t ∈ Icc y1 y2) :
    lineO x1 x2 y1 y2 + lineQ x1 x2 y1 y2 * t + w ≤ lineO x1' x2' y1 y2 + lineQ x1' x2' y1 y2 * t := by
  have := affine_ge (α := lineO x1' x2' y1 y2 - lineO x1 x2 y1 y2) (β := lineQ x1' x2' y1 y2 - lineQ x1 x2 y1 y2) (y1 := y1) (y2 := y2) (w := w)
    (by have := line_fst x1 x2 y1 y2; have := line_fst x1' x2' y1 y2; linarith)
    (by have := line_snd x1 x2 h; have := line_snd x1' x2' h; linarith) ht
  linarith

/-- Heights of another strip, seen from a control point. -/
theorem heights {y1 y2 : ℝ} (hh : 0.04 ≤ y2 - y1) (hs : 0.02 ≤ y1 ∨ y2 ≤ -0.02) :
    ∀ t ∈ Icc y1 y2, t ≠ 0 ∧ 8 * (1e-4 / (y2 - y1)) ≤ |t| := by
  intro t ⟨h1, h2⟩
  have h0 : 8 * (1e-4 / (y2 - y1)) ≤ 0.02 := by
    rw [mul_div, div_le_iff₀ (by linarith)]
    nlinarith
  rcases hs with h | h
  · exact ⟨by intro h0; rw [h0] at h1; norm_num at h; linarith, h0.trans ((h.trans h1).trans (le_abs_self _))⟩
  · exact ⟨by intro h0; rw [h0] at h2; norm_num at h; linarith, h0.trans (le_trans (by linarith) (neg_le_abs t))⟩

theorem eps_le {h : ℝ} (hh : 0.04 ≤ h) : 4 * (1e-4 / h) ≤ 0.01 := by
  rw [mul_div, div_le_iff₀ (by linarith)]
  nlinarith

/-- A ring of another strip. -/
theorem edge_beside {x1 x2 x1' x2' y1 y2 : ℝ} (hh : 0.04 ≤ y2 - y1) (hs : 0.02 ≤ y1 ∨ y2 ≤ -0.02) (h1 : x1 + 0.01 ≤ x1')
    (h2 : x2 + 0.01 ≤ x2') : edge x1' x2' y1 y2 ≤ edge x1 x2 y1 y2 := by
  have hlt : y1 < y2 := by linarith
  have hp := sub_pos.2 hlt
  have key := ring_beside (oL := lineO x1 x2 y1 y2) (qL := lineQ x1 x2 y1 y2) (oR := lineO x1' x2' y1 y2) (qR := lineQ x1' x2' y1 y2)
    (aL := dropped (lineO x1 x2 y1 y2) (y2 - y1)) (aR := dropped (lineO x1' x2' y1 y2) (y2 - y1)) (ε := 1e-4 / (y2 - y1)) (w := 0.01)
    (by positivity) ((le_abs_self _).trans (dropped_le hp)) ((neg_le_abs _).trans (dropped_le hp)) (eps_le hh) hlt.le (heights hh hs)
    (fun t ht => between hlt h1 h2 ht)
  rw [line_fst, line_fst, line_snd _ _ hlt, line_snd _ _ hlt] at key
  unfold edge
  linarith

/-- A line that comes from infinity ahead of the point. -/
theorem recip_bound (x : ℝ) {y : ℝ} (hy : y ≠ 0) : 1 / (2 * rho2 x y ^ 2) ≤ x / (y ^ 2 * rho2 x y) + (y ^ 2)⁻¹ := by
  have p := rho2_pos_right x hy
  have s := rho2_sq x y
  have d := wake_denom_pos (C := 1) (x := x) zero_le_one le_rfl (Or.inr hy)
  have d' := wake_denom_pos (C := 1) (x := -x) (y := y) zero_le_one le_rfl (Or.inr hy)
  rw [rho2_neg_left] at d'
  have hx : -x ≤ rho2 x y := by linarith
  have hy2 : 0 < y ^ 2 := by positivity
  have e : x / (y ^ 2 * rho2 x y) + (y ^ 2)⁻¹ = 1 / (rho2 x y * (rho2 x y - x)) := by
    have : rho2 x y - x ≠ 0 := by linarith
    field_simp
    linear_combination s
  rw [e]
  apply one_div_le_one_div_of_le
  · apply mul_pos p; linarith
  · nlinarith

/-- The trailing edge of another strip is so near to the point or so far ahead of the wake of the point that the
velocity of the horseshoe has the sign of that of a ring. -/
def RearOk (C x1 x2 y1 y2 : ℝ) : Prop := ∀ t ∈ Icc y1 y2,
  0 ≤ C * (rho2 (lineO x1 x2 y1 y2 + lineQ x1 x2 y1 y2 * t) t + C * (lineO x1 x2 y1 y2 + lineQ x1 x2 y1 y2 * t)) +
    (1 - C ^ 2) * lineO x1 x2 y1 y2

theorem rearOk_ahead {C x1 x2 y1 y2 : ℝ} (hC : 0 ≤ C) (hC1 : C ≤ 1) (hs : 0 < y1 ∨ y2 < 0) (h : 0 ≤ lineO x1 x2 y1 y2) :
    RearOk C x1 x2 y1 y2 := by
  rintro t ⟨a, b⟩
  have ht : t ≠ 0 := by rintro rfl; rcases hs with h | h <;> linarith
  have d := wake_denom_pos (C := C) (x := lineO x1 x2 y1 y2 + lineQ x1 x2 y1 y2 * t) hC hC1 (Or.inr ht)
  have : 0 ≤ 1 - C ^ 2 := by nlinarith
  positivity

/-- Trailing edges of bounded slope. -/
theorem rearOk_slope {C x1 x2 y1 y2 Q : ℝ} (hC : 0 ≤ C) (hC1 : C ≤ 1) (hlt : y1 < y2) (hs : 0 < y1 ∨ y2 < 0) (hQ : 0 ≤ Q)
    (hq : |x2 - x1| ≤ Q * (y2 - y1)) (h1 : -(Q * |y1|) ≤ x1) (h2 : -(Q * |y2|) ≤ x2)
    (hw : 2 * Q * (1 - C ^ 2) ≤ C * (1 - C * (Q / Real.sqrt (1 + Q ^ 2)))) : RearOk C x1 x2 y1 y2 := by
  rintro t ⟨a, b⟩
  have hp := sub_pos.2 hlt
  have e1 := line_fst x1 x2 y1 y2
  have e2 := line_snd x1 x2 hlt
  have hqq : |lineQ x1 x2 y1 y2| ≤ Q := by
    unfold lineQ
    rw [abs_div, abs_of_pos hp, div_le_iff₀ hp]
    exact hq
  generalize lineO x1 x2 y1 y2 = o at *
  generalize lineQ x1 x2 y1 y2 = q at *
  have ht : t ≠ 0 := by rintro rfl; rcases hs with h | h <;> linarith
  set x := o + q * t with hx
  have hxt : -(Q * |t|) ≤ x := by
    have ex : (y2 - y1) * x = (y2 - t) * (o + q * y1) + (t - y1) * (o + q * y2) := by rw [hx]; ring
    have et : (y2 - y1) * |t| = (y2 - t) * |y1| + (t - y1) * |y2| := by
      rcases hs with h | h
      · rw [abs_of_pos h, abs_of_pos (h.trans hlt), abs_of_pos (h.trans_le a)]; ring
      · rw [abs_of_neg h, abs_of_neg (hlt.trans h), abs_of_neg (b.trans_lt h)]; ring
    have k1 := mul_le_mul_of_nonneg_left h1 (sub_nonneg.2 b)
    have k2 := mul_le_mul_of_nonneg_left h2 (sub_nonneg.2 a)
    rw [← e1] at k1
    rw [← e2] at k2
    have : (y2 - y1) * (-(Q * |t|)) ≤ (y2 - y1) * x := by
      rw [ex]
      have : (y2 - y1) * (-(Q * |t|)) = -(Q * ((y2 - y1) * |t|)) := by ring
      rw [this, et]
      linarith
    exact le_of_mul_le_mul_left this hp
  have ho : -(2 * Q * |t|) ≤ o := by
    have : q * t ≤ Q * |t| := (le_abs_self _).trans (by rw [abs_mul]; exact mul_le_mul_of_nonneg_right hqq (abs_nonneg t))
    linarith
  have hr := rho2_pos_right x ht
  have htr := abs_le_rho2 x t
  have hsq := rho2_sq x t
  have hs1 : 0 < Real.sqrt (1 + Q ^ 2) := Real.sqrt_pos.2 (by positivity)
  have hss : Real.sqrt (1 + Q ^ 2) ^ 2 = 1 + Q ^ 2 := Real.sq_sqrt (by positivity)
  have hxr : -(Q / Real.sqrt (1 + Q ^ 2) * rho2 x t) ≤ x := by
    rcases le_or_gt 0 x with h | h
    · have : 0 ≤ Q / Real.sqrt (1 + Q ^ 2) * rho2 x t := by positivity
      linarith
    have h5 : -x ≤ Q * |t| := by linarith
    have h6 : x ^ 2 ≤ Q ^ 2 * t ^ 2 := by
      have := pow_le_pow_left₀ (by linarith : 0 ≤ -x) h5 2
      rw [mul_pow, sq_abs] at this
      linarith [neg_sq x]
    have h7 : (-x * Real.sqrt (1 + Q ^ 2)) ^ 2 ≤ (Q * rho2 x t) ^ 2 := by
      rw [mul_pow, mul_pow, hss, hsq]; nlinarith
    have h8 := abs_le_of_sq_le_sq' h7 (by positivity)
    have : -x ≤ Q / Real.sqrt (1 + Q ^ 2) * rho2 x t := by
      rw [div_mul_eq_mul_div, le_div_iff₀ hs1]
      exact h8.2
    linarith
  generalize Q / Real.sqrt (1 + Q ^ 2) = σ at *
  have hC2 : 0 ≤ 1 - C ^ 2 := by nlinarith
  have k1 := mul_le_mul_of_nonneg_left ho hC2
  have k2 := mul_le_mul_of_nonneg_left hxr (mul_nonneg hC hC)
  have k3 := mul_le_mul_of_nonneg_right hw hr.le
  have k4 := mul_le_mul_of_nonneg_left htr (mul_nonneg (mul_nonneg zero_le_two hQ) hC2)
  linarith

/-- A horseshoe of another strip. -/
theorem rear_beside {C x1 x2 x1' x2' y1 y2 : ℝ} (hC : 0 ≤ C) (hC1 : C ≤ 1) (hh : 0.04 ≤ y2 - y1) (hs : 0.02 ≤ y1 ∨ y2 ≤ -0.02)
    (h1 : x1 + 0.01 ≤ x1') (h2 : x2 + 0.01 ≤ x2') (hR : RearOk C x1' x2' y1 y2) : rear C x1' x2' y1 y2 ≤ edge x1 x2 y1 y2 := by
  have hlt : y1 < y2 := by linarith
  have hp := sub_pos.2 hlt
  have key := shoe_beside (oL := lineO x1 x2 y1 y2) (qL := lineQ x1 x2 y1 y2) (oR := lineO x1' x2' y1 y2) (qR := lineQ x1' x2' y1 y2)
    (aL := dropped (lineO x1 x2 y1 y2) (y2 - y1)) (ε := 1e-4 / (y2 - y1)) (w := 0.01) hC hC1
    (by positivity) ((le_abs_self _).trans (dropped_le hp)) hR (eps_le hh) hlt.le (heights hh hs)
    (fun t ht => between hlt h1 h2 ht)
  rw [line_fst, line_fst, line_snd _ _ hlt, line_snd _ _ hlt] at key
  unfold edge rear
  linarith

/-- The sides behind the point, with the parts ahead of it continued to infinity. -/
theorem side_beside {C x1 x2 y1 y2 : ℝ} (hC : 0 ≤ C) (hC1 : C ≤ 1) (hlt : y1 < y2) (hs : 0 < y1 ∨ y2 < 0) (hR : RearOk C x1 x2 y1 y2) :
    sd x2 y2 + wk C x2 y2 + 1 / y2 ≤ sd x1 y1 + wk C x1 y1 + 1 / y1 := by
  have hy : ∀ t ∈ Icc y1 y2, t ≠ 0 := fun t ⟨a, b⟩ => by rintro rfl; rcases hs with h | h <;> linarith
  have key := le_of_hasDerivAt_nonpos (f := fun t => sd (lineO x1 x2 y1 y2 + lineQ x1 x2 y1 y2 * t) t +
      wk C (lineO x1 x2 y1 y2 + lineQ x1 x2 y1 y2 * t) t + t⁻¹) hlt.le
    (fun t ht => ((hasDerivAt_sd _ _ (hy t ht)).add (hasDerivAt_wk hC hC1 _ _ (Or.inr (hy t ht)))).add (hasDerivAt_inv (hy t ht)))
    (fun t ht => by
      have c1 := rear_sum (rho2_line_pos (o := lineO x1 x2 y1 y2) (q := lineQ x1 x2 y1 y2) (Or.inr (hy t ht))) (wake_denom_pos (C := C) hC hC1 (Or.inr (hy t ht))) (hR t ht)
      have p := rho2_line_pos (o := lineO x1 x2 y1 y2) (q := lineQ x1 x2 y1 y2) (Or.inr (hy t ht))
      have c2 := recip_bound (lineO x1 x2 y1 y2 + lineQ x1 x2 y1 y2 * t) (hy t ht)
      have : 0 ≤ 1 / (2 * rho2 (lineO x1 x2 y1 y2 + lineQ x1 x2 y1 y2 * t) t ^ 2) := by positivity
      linarith)
  simp only [line_fst, line_snd _ _ hlt] at key
  rw [one_div, one_div]
  exact key

/-- The front edge of another strip. -/
theorem front_beside {x1 x2 y1 y2 : ℝ} (hh : 0.04 ≤ y2 - y1) (hs : 0.02 ≤ y1 ∨ y2 ≤ -0.02) :
    edge x1 x2 y1 y2 + 1 / y2 ≤ 1 / y1 := by
  have hlt : y1 < y2 := by linarith
  have hp := sub_pos.2 hlt
  have hy := heights hh hs
  have hd := (neg_le_abs _).trans (dropped_le (o := lineO x1 x2 y1 y2) hp)
  have key := le_of_hasDerivAt_nonpos (f := fun t => sd (lineO x1 x2 y1 y2 + lineQ x1 x2 y1 y2 * t) t +
      (1 - dropped (lineO x1 x2 y1 y2) (y2 - y1)) * bd (lineO x1 x2 y1 y2) (lineQ x1 x2 y1 y2) t + t⁻¹) hlt.le
    (fun t ht => ((hasDerivAt_sd _ _ (hy t ht).1).add ((hasDerivAt_bd _ _ (Or.inr (hy t ht).1)).const_mul _)).add
      (hasDerivAt_inv (hy t ht).1))
    (fun t ht => by
      have h0 := (hy t ht).1
      have p := rho2_line_pos (o := lineO x1 x2 y1 y2) (q := lineQ x1 x2 y1 y2) (Or.inr h0)
      have c2 := recip_bound (lineO x1 x2 y1 y2 + lineQ x1 x2 y1 y2 * t) h0
      have c3 := abs_le_rho2 (lineO x1 x2 y1 y2 + lineQ x1 x2 y1 y2 * t) t
      have c4 := (hy t ht).2
      generalize rho2 (lineO x1 x2 y1 y2 + lineQ x1 x2 y1 y2 * t) t = R at *
      have c5 : -(dropped (lineO x1 x2 y1 y2) (y2 - y1) * lineO x1 x2 y1 y2) / R ^ 3 ≤ 1 / (2 * R ^ 2) := by
        rw [div_le_div_iff₀ (by positivity) (by positivity)]
        have : -(dropped (lineO x1 x2 y1 y2) (y2 - y1) * lineO x1 x2 y1 y2) ≤ R / 8 := by linarith
        have := mul_le_mul_of_nonneg_right this (show 0 ≤ 2 * R ^ 2 by positivity)
        have : 0 ≤ R ^ 3 := by positivity
        nlinarith
      have e : -(dropped (lineO x1 x2 y1 y2) (y2 - y1) * lineO x1 x2 y1 y2) / R ^ 3 =
          -(dropped (lineO x1 x2 y1 y2) (y2 - y1) * (lineO x1 x2 y1 y2 / R ^ 3)) := by ring
      rw [e] at c5
      linarith)
  simp only [line_fst, line_snd _ _ hlt] at key
  unfold edge
  rw [one_div, one_div]
  linarith

/-- The front edge of the strip of the point. -/
theorem front_own {x1 x2 w : ℝ} (hw : 0 < w) (hL : 1e-4 ≤ |lineO x1 x2 (-w) w| * (w - -w)) (h : lineO x1 x2 (-w) w < 0) :
    edge x1 x2 (-w) w + 2 / w ≤ 0 := by
  have hlt : -w < w := by linarith
  have e1 := line_fst x1 x2 (-w) w
  have e2 := line_snd x1 x2 hlt
  unfold edge
  rw [show dropped (lineO x1 x2 (-w) w) (w - -w) = 0 from if_pos hL, sub_zero, one_mul]
  generalize lineO x1 x2 (-w) w = o at *
  generalize lineQ x1 x2 (-w) w = q at *
  have ht : ∀ y : ℝ, y ≠ 0 → sd (o + q * y) y + bd o q y = rho2 (o + q * y) y / (o * y) := by
    intro y hy
    have p := rho2_pos_right (o + q * y) hy
    have s := rho2_sq (o + q * y) y
    have ho := h.ne
    unfold sd bd
    field_simp
    linear_combination -s
  have k1 := ht (-w) (by linarith)
  have k2 := ht w hw.ne'
  rw [e1] at k1
  rw [e2] at k2
  have a1 := neg_abs_le x1
  have a2 := neg_abs_le x2
  have b1 : |x1| ≤ rho2 x1 (-w) := Real.le_sqrt_of_sq_le (by rw [sq_abs]; nlinarith [sq_nonneg w])
  have b2 : |x2| ≤ rho2 x2 w := Real.le_sqrt_of_sq_le (by rw [sq_abs]; nlinarith [sq_nonneg w])
  have hsum : -(2 * o) ≤ rho2 x1 (-w) + rho2 x2 w := by
    have : x1 + x2 = 2 * o := by rw [← e1, ← e2]; ring
    linarith
  have e3 : rho2 x2 w / (o * w) - rho2 x1 (-w) / (o * -w) + 2 / w = (rho2 x1 (-w) + rho2 x2 w + 2 * o) / (o * w) := by
    have := h.ne
    field_simp
    ring
  have : (rho2 x1 (-w) + rho2 x2 w + 2 * o) / (o * w) ≤ 0 :=
    div_nonpos_of_nonneg_of_nonpos (by linarith) (mul_nonpos_of_nonpos_of_nonneg h.le hw.le)
  linarith

theorem dropped_zero {o h : ℝ} (h1 : 1e-4 ≤ |o| * h) : dropped o h = 0 := if_pos h1

/-- Rings of the same strip. -/
theorem edge_inLine {x1 x2 x1' x2' y1 y2 : ℝ} (hy1 : y1 < 0) (hy2 : 0 < y2) (h1 : x1 ≤ x1') (h2 : x2 ≤ x2')
    (hL : 1e-4 ≤ |lineO x1 x2 y1 y2| * (y2 - y1)) (hR : 1e-4 ≤ |lineO x1' x2' y1 y2| * (y2 - y1))
    (hs : 0 < lineO x1 x2 y1 y2 ∧ 0 < lineO x1' x2' y1 y2 ∨ lineO x1 x2 y1 y2 < 0 ∧ lineO x1' x2' y1 y2 < 0) :
    edge x1' x2' y1 y2 ≤ edge x1 x2 y1 y2 := by
  have hlt : y1 < y2 := hy1.trans hy2
  have hx : ∀ t ∈ Icc y1 y2, lineO x1 x2 y1 y2 + lineQ x1 x2 y1 y2 * t ≤ lineO x1' x2' y1 y2 + lineQ x1' x2' y1 y2 * t := by
    intro t ht
    have := between (w := 0) hlt (by linarith) (by linarith) ht (x1 := x1) (x2 := x2) (x1' := x1') (x2' := x2')
    linarith
  unfold edge
  rw [dropped_zero hL, dropped_zero hR, sub_zero, one_mul, one_mul]
  rcases hs with ⟨a, b⟩ | ⟨a, b⟩
  · have key := ring_behind a b hy1 hy2 hx
    rw [line_fst, line_fst, line_snd _ _ hlt, line_snd _ _ hlt] at key
    linarith
  · have key := ring_ahead a b hy1 hy2 hx
    rw [line_fst, line_fst, line_snd _ _ hlt, line_snd _ _ hlt] at key
    linarith

theorem rear_inLine {C x1 x2 x1' x2' y1 y2 : ℝ} (hC : 0 ≤ C) (hC1 : C ≤ 1) (hy1 : y1 < 0) (hy2 : 0 < y2) (h1 : x1 ≤ x1') (h2 : x2 ≤ x2')
    (hL : 1e-4 ≤ |lineO x1 x2 y1 y2| * (y2 - y1)) (a : 0 < lineO x1 x2 y1 y2) (b : 0 < lineO x1' x2' y1 y2) :
    rear C x1' x2' y1 y2 ≤ edge x1 x2 y1 y2 := by
  have hlt : y1 < y2 := hy1.trans hy2
  have hx : ∀ t ∈ Icc y1 y2, lineO x1 x2 y1 y2 + lineQ x1 x2 y1 y2 * t ≤ lineO x1' x2' y1 y2 + lineQ x1' x2' y1 y2 * t := by
    intro t ht
    have := between (w := 0) hlt (by linarith) (by linarith) ht (x1 := x1) (x2 := x2) (x1' := x1') (x2' := x2')
    linarith
  unfold edge rear
  rw [dropped_zero hL, sub_zero, one_mul]
  have key := shoe_behind hC hC1 a b hy1 hy2 hx
  rw [line_fst, line_fst, line_snd _ _ hlt, line_snd _ _ hlt] at key
  linarith

/-- The end of the outermost strip. -/
theorem end_pos {C x y : ℝ} (hC : 0 ≤ C) (hC1 : C ≤ 1) (hy : 0 < y) : 0 < sd x y + wk C x y + 1 / y := by
  have p := rho2_pos_right x hy.ne'
  have d := wake_denom_pos (x := x) hC hC1 (Or.inr hy.ne')
  have d1 := wake_denom_pos (C := 1) (x := x) zero_le_one le_rfl (Or.inr hy.ne')
  have hw : 0 ≤ wk C x y := by unfold wk; positivity
  have e : sd x y + 1 / y = (rho2 x y + 1 * x) / (y * rho2 x y) := by
    unfold sd
    field_simp
    ring
  have : 0 < sd x y + 1 / y := by rw [e]; positivity
  linarith

theorem sd_neg_right (x y : ℝ) : sd x (-y) = -sd x y := by
  unfold sd; rw [rho2_neg_right, neg_mul, div_neg]

theorem wk_neg_right (C x y : ℝ) : wk C x (-y) = -wk C x y := by
  unfold wk; rw [rho2_neg_right, mul_neg, neg_div]

/-- Disjoint strips, one of them around the origin. -/
theorem sum_strips_ge {ι : Type} [Fintype ι] [DecidableEq ι] {H : ℝ → ℝ} {w T B : ℝ} (hw : 0 < w)
    (hpos : ∀ x y, w ≤ x → x ≤ y → y ≤ T → H y ≤ H x) (hneg : ∀ x y, -B ≤ x → x ≤ y → y ≤ -w → H y ≤ H x)
    {a b : ι → ℝ} (hab : ∀ j, a j < b j) (hdis : ∀ j k, j ≠ k → b j ≤ a k ∨ b k ≤ a j) {i : ι} (ha : a i = -w) (hb : b i = w)
    (hT : ∀ j, b j ≤ T) (hB : ∀ j, -B ≤ a j) : H T - H (-B) ≤ ∑ j, (H (b j) - H (a j)) := by
  classical
  have hwT : w ≤ T := hb ▸ hT i
  have hwB : w ≤ B := by have := hB i; rw [ha] at this; linarith
  rw [← Finset.add_sum_erase _ _ (Finset.mem_univ i), ha, hb]
  rw [← Finset.sum_filter_add_sum_filter_not (Finset.univ.erase i) (fun j => w ≤ a j)]
  have hbelow : ∀ j ∈ (Finset.univ.erase i).filter (fun j => ¬ w ≤ a j), w ≤ -b j := by
    intro j hj
    obtain ⟨hj1, hj2⟩ := Finset.mem_filter.1 hj
    have := hdis j i (Finset.ne_of_mem_erase hj1)
    rw [ha, hb] at this
    rcases this with h | h
    · linarith
    · exact absurd h hj2
  have h1 := sum_intervals_le (H := fun x => H (min (max x w) T)) hw (fun x y hx hxy => hpos _ _ (le_min (le_max_right _ _) hwT)
      (min_le_min_right _ (max_le_max_right _ hxy)) (min_le_right _ _)) hab ((Finset.univ.erase i).filter (fun j => w ≤ a j))
      (fun j hj => (Finset.mem_filter.1 hj).2) (fun j _ k _ h => hdis j k h) hwT (fun j _ => hT j)
  have h2 := sum_intervals_le (H := fun x => -H (-(min (max x w) B))) hw (fun x y hx hxy => by
      have := hneg (-(min (max y w) B)) (-(min (max x w) B)) (neg_le_neg (min_le_right _ _))
        (neg_le_neg (min_le_min_right _ (max_le_max_right _ hxy))) (neg_le_neg (le_min (le_max_right _ _) hwB))
      linarith) (a := fun j => -b j) (b := fun j => -a j) (fun j => neg_lt_neg (hab j))
      ((Finset.univ.erase i).filter (fun j => ¬ w ≤ a j)) hbelow (fun j _ k _ h => by
        rcases hdis j k h with h | h
        · right; linarith
        · left; linarith) hwB (fun j _ => by have := hB j; linarith)
  have e1 : ∑ j ∈ (Finset.univ.erase i).filter (fun j => w ≤ a j), (H (b j) - H (a j)) =
      -∑ j ∈ (Finset.univ.erase i).filter (fun j => w ≤ a j), (H (min (max (a j) w) T) - H (min (max (b j) w) T)) := by
    rw [← Finset.sum_neg_distrib]
    refine Finset.sum_congr rfl fun j hj => ?_
    have h0 := (Finset.mem_filter.1 hj).2
    rw [max_eq_left h0, max_eq_left (h0.trans (hab j).le), min_eq_left (hT j), min_eq_left ((hab j).le.trans (hT j))]
    ring
  have e2 : ∑ j ∈ (Finset.univ.erase i).filter (fun j => ¬ w ≤ a j), (H (b j) - H (a j)) =
      -∑ j ∈ (Finset.univ.erase i).filter (fun j => ¬ w ≤ a j), (-H (-(min (max (-b j) w) B)) - -H (-(min (max (-a j) w) B))) := by
    rw [← Finset.sum_neg_distrib]
    refine Finset.sum_congr rfl fun j hj => ?_
    have h0 := hbelow j hj
    rw [max_eq_left h0, max_eq_left (h0.trans (neg_le_neg (hab j).le)), min_eq_left (by have := hB j; have := hab j; linarith),
      min_eq_left (by have := hB j; linarith), neg_neg, neg_neg]
    ring
  rw [e1, e2]
  simp only [max_self, max_eq_left hwT, max_eq_left hwB, min_self, min_eq_left hwT, min_eq_left hwB] at h1 h2
  linarith

end PySailing.Taper
