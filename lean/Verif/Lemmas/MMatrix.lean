import Mathlib.LinearAlgebra.Matrix.Gershgorin
import Mathlib.LinearAlgebra.Matrix.NonsingularInverse
import Mathlib.Analysis.Real.Sqrt
import Mathlib.Tactic.Linarith
import Mathlib.Tactic.FieldSimp
import Mathlib.Tactic.Ring
import Mathlib.Tactic.LinearCombination

/-!
# Matrices with non-positive off-diagonal entries and positive row sums, and the kernel of a planar lattice
-/

namespace PySailing

section matrix

variable {K : Type} [Fintype K] [DecidableEq K] {A : Matrix K K ℝ}

theorem det_ne_zero_of_rowSum (hoff : ∀ i j, i ≠ j → A i j ≤ 0) (hsum : ∀ i, 0 < ∑ j, A i j) : A.det ≠ 0 := by
  apply det_ne_zero_of_sum_row_lt_diag
  intro k
  have h1 : ∑ j ∈ Finset.univ.erase k, ‖A k j‖ = -∑ j ∈ Finset.univ.erase k, A k j := by
    rw [← Finset.sum_neg_distrib]
    refine Finset.sum_congr rfl fun j hj => ?_
    rw [Real.norm_eq_abs, abs_of_nonpos (hoff k j (Finset.ne_of_mem_erase hj).symm)]
  have h2 := hsum k
  rw [← Finset.add_sum_erase _ _ (Finset.mem_univ k)] at h2
  rw [h1, Real.norm_eq_abs]
  exact lt_of_lt_of_le (by linarith) (le_abs_self _)

/-- Minimum principle. -/
theorem solution_pos (hoff : ∀ i j, i ≠ j → A i j ≤ 0) (hsum : ∀ i, 0 < ∑ j, A i j) {x : K → ℝ}
    (hx : ∀ i, 0 < ∑ j, A i j * x j) (i : K) : 0 < x i := by
  haveI : Nonempty K := ⟨i⟩
  obtain ⟨m, hm⟩ := Finite.exists_min x
  have hxm : 0 < x m := by
    by_contra hn
    have hn : x m ≤ 0 := le_of_not_gt hn
    have h1 : ∑ j, A m j * x j ≤ ∑ j, A m j * x m := by
      apply Finset.sum_le_sum
      intro j _
      by_cases e : m = j
      · subst e; exact le_rfl
      · exact mul_le_mul_of_nonpos_left (hm j) (hoff m j e)
    rw [← Finset.sum_mul] at h1
    have h2 : (∑ j, A m j) * x m ≤ 0 := mul_nonpos_of_nonneg_of_nonpos (hsum m).le hn
    linarith [hx m]
  exact hxm.trans_le (hm i)

theorem solution_nonneg (hoff : ∀ i j, i ≠ j → A i j ≤ 0) (hsum : ∀ i, 0 < ∑ j, A i j) {x : K → ℝ}
    (hx : ∀ i, 0 ≤ ∑ j, A i j * x j) (i : K) : 0 ≤ x i := by
  by_contra hn
  have hn : x i < 0 := not_le.1 hn
  have h := solution_pos hoff hsum (x := fun j => x j - x i / 2) (fun k => by
    have e : ∑ j, A k j * (x j - x i / 2) = ∑ j, A k j * x j - (∑ j, A k j) * (x i / 2) := by
      rw [Finset.sum_mul, ← Finset.sum_sub_distrib]
      exact Finset.sum_congr rfl fun j _ => by ring
    rw [e]
    nlinarith [hx k, mul_pos (hsum k) (neg_pos.2 hn)]) i
  linarith

/-- Comparison with a supersolution. -/
theorem solution_le_of (hoff : ∀ i j, i ≠ j → A i j ≤ 0) (hsum : ∀ i, 0 < ∑ j, A i j) {x z : K → ℝ}
    (h : ∀ i, ∑ j, A i j * x j ≤ ∑ j, A i j * z j) (i : K) : x i ≤ z i := by
  have := solution_nonneg hoff hsum (x := fun j => z j - x j) (fun k => by
    have e : ∑ j, A k j * (z j - x j) = ∑ j, A k j * z j - ∑ j, A k j * x j := by
      rw [← Finset.sum_sub_distrib]
      exact Finset.sum_congr rfl fun j _ => by ring
    rw [e]
    linarith [h k]) i
  linarith

/-- Maximum principle. -/
theorem solution_le (hoff : ∀ i j, i ≠ j → A i j ≤ 0) {r b : ℝ} (hr : 0 < r) (hsum : ∀ i, r ≤ ∑ j, A i j)
    (hb : 0 ≤ b) {x : K → ℝ} (hx : ∀ i, ∑ j, A i j * x j ≤ b) (i : K) : r * x i ≤ b := by
  haveI : Nonempty K := ⟨i⟩
  obtain ⟨m, hm⟩ := Finite.exists_max x
  by_cases hn : x m ≤ 0
  · have : r * x i ≤ 0 := mul_nonpos_of_nonneg_of_nonpos hr.le ((hm i).trans hn)
    linarith
  have hn : 0 < x m := lt_of_not_ge hn
  have h1 : ∑ j, A m j * x m ≤ ∑ j, A m j * x j := by
    apply Finset.sum_le_sum
    intro j _
    by_cases e : m = j
    · subst e; exact le_rfl
    · exact mul_le_mul_of_nonpos_left (hm j) (hoff m j e)
  rw [← Finset.sum_mul] at h1
  calc r * x i ≤ r * x m := mul_le_mul_of_nonneg_left (hm i) hr.le
    _ ≤ (∑ j, A m j) * x m := mul_le_mul_of_nonneg_right (hsum m) hn.le
    _ ≤ b := h1.trans (hx m)

end matrix

section kernel

/-- Distance from the origin of the plane. -/
noncomputable def rho2 (x y : ℝ) : ℝ := Real.sqrt (x ^ 2 + y ^ 2)

theorem rho2_sq (x y : ℝ) : rho2 x y ^ 2 = x ^ 2 + y ^ 2 := Real.sq_sqrt (by positivity)

theorem rho2_nonneg (x y : ℝ) : 0 ≤ rho2 x y := Real.sqrt_nonneg _

theorem rho2_pos_left {x : ℝ} (y : ℝ) (h : x ≠ 0) : 0 < rho2 x y := Real.sqrt_pos.2 (by positivity)

theorem rho2_pos_right (x : ℝ) {y : ℝ} (h : y ≠ 0) : 0 < rho2 x y := Real.sqrt_pos.2 (by positivity)

theorem rho2_comm (x y : ℝ) : rho2 x y = rho2 y x := by unfold rho2; rw [add_comm]

@[simp] theorem rho2_neg_left (x y : ℝ) : rho2 (-x) y = rho2 x y := by unfold rho2; rw [neg_sq]

@[simp] theorem rho2_neg_right (x y : ℝ) : rho2 x (-y) = rho2 x y := by unfold rho2; rw [neg_sq]

theorem le_rho2_right (x y : ℝ) : y ≤ rho2 x y :=
  Real.le_sqrt_of_sq_le (by nlinarith [sq_nonneg x])

/-- `x / ρ(x, y)` increases with `x`. -/
theorem mul_rho2_le {x1 x2 : ℝ} (h : x1 ≤ x2) (y : ℝ) : x1 * rho2 x2 y ≤ x2 * rho2 x1 y := by
  have a1 := rho2_nonneg x1 y
  have a2 := rho2_nonneg x2 y
  have s1 := rho2_sq x1 y
  have s2 := rho2_sq x2 y
  rcases le_or_gt 0 x1 with h1 | h1
  · have h2 : 0 ≤ x2 := h1.trans h
    refine (sq_le_sq₀ (by positivity) (by positivity)).1 ?_
    rw [mul_pow, mul_pow, s1, s2]
    nlinarith [mul_nonneg (mul_nonneg (sub_nonneg.2 h) (add_nonneg h1 h2)) (sq_nonneg y)]
  · rcases le_or_gt 0 x2 with h2 | h2
    · have := mul_nonneg h2 a1
      have := mul_nonneg (neg_nonneg.2 h1.le) a2
      linarith
    · have key : -x2 * rho2 x1 y ≤ -x1 * rho2 x2 y := by
        have p1 : 0 ≤ -x1 := by linarith
        have p2 : 0 ≤ -x2 := by linarith
        refine (sq_le_sq₀ (by positivity) (by positivity)).1 ?_
        rw [mul_pow, mul_pow, s1, s2]
        nlinarith [mul_nonneg (mul_nonneg (sub_nonneg.2 h) (add_nonneg p1 p2)) (sq_nonneg y)]
      linarith

/-- Corner function of a planar vortex ring. -/
noncomputable def corner (x y : ℝ) : ℝ := rho2 x y / (x * y)

theorem corner_comm (x y : ℝ) : corner x y = corner y x := by
  unfold corner; rw [rho2_comm, mul_comm]

@[simp] theorem corner_neg_right (x y : ℝ) : corner x (-y) = -corner x y := by
  unfold corner; rw [rho2_neg_right, mul_neg, div_neg]

@[simp] theorem corner_neg_left (x y : ℝ) : corner (-x) y = -corner x y := by
  unfold corner; rw [rho2_neg_left, neg_mul, div_neg]

/-- Normal velocity (times `4π`) of the planar vortex ring with front edge at `xf`, rear edge at `xr`, side edges at
`y1` and `y2`, at the origin. -/
noncomputable def ringKernel (xf xr y1 y2 : ℝ) : ℝ := (corner xr y2 - corner xr y1) - (corner xf y2 - corner xf y1)

theorem corner_diff {x y1 y2 : ℝ} (hx : x ≠ 0) (h1 : 0 < y1) (h2 : 0 < y2) :
    corner x y2 - corner x y1 = -((y2 ^ 2 - y1 ^ 2) / (y1 * y2)) * (x / (y1 * rho2 x y2 + y2 * rho2 x y1)) := by
  have p1 := rho2_pos_left y1 hx
  have p2 := rho2_pos_left y2 hx
  have s1 := rho2_sq x y1
  have s2 := rho2_sq x y2
  have hd : y1 * rho2 x y2 + y2 * rho2 x y1 ≠ 0 := by positivity
  unfold corner
  field_simp
  linear_combination y1 ^ 2 * s2 - y2 ^ 2 * s1

/-- Beside the ring. -/
theorem ringKernel_beside_pos {xf xr y1 y2 : ℝ} (hx : xf ≤ xr) (hf : xf ≠ 0) (hr : xr ≠ 0) (h1 : 0 < y1) (h : y1 ≤ y2) :
    ringKernel xf xr y1 y2 ≤ 0 := by
  have h2 : 0 < y2 := h1.trans_le h
  unfold ringKernel
  rw [corner_diff hr h1 h2, corner_diff hf h1 h2]
  have hc : 0 ≤ (y2 ^ 2 - y1 ^ 2) / (y1 * y2) := div_nonneg (by nlinarith) (by positivity)
  have hm : xf / (y1 * rho2 xf y2 + y2 * rho2 xf y1) ≤ xr / (y1 * rho2 xr y2 + y2 * rho2 xr y1) := by
    have a1 := rho2_pos_left y1 hf
    have a2 := rho2_pos_left y2 hf
    have a3 := rho2_pos_left y1 hr
    have a4 := rho2_pos_left y2 hr
    rw [div_le_div_iff₀ (by positivity) (by positivity)]
    have m1 := mul_rho2_le hx y1
    have m2 := mul_rho2_le hx y2
    nlinarith [mul_le_mul_of_nonneg_left m1 h2.le, mul_le_mul_of_nonneg_left m2 h1.le]
  nlinarith [mul_le_mul_of_nonneg_left hm hc]

theorem ringKernel_beside {xf xr y1 y2 : ℝ} (hx : xf ≤ xr) (hf : xf ≠ 0) (hr : xr ≠ 0) (h : y1 ≤ y2)
    (hy : 0 < y1 ∨ y2 < 0) : ringKernel xf xr y1 y2 ≤ 0 := by
  rcases hy with hy | hy
  · exact ringKernel_beside_pos hx hf hr hy h
  · have := ringKernel_beside_pos (y1 := -y2) (y2 := -y1) hx hf hr (by linarith) (by linarith)
    unfold ringKernel at this ⊢
    simp only [corner_neg_right] at this
    linarith

theorem ringKernel_swap (xf xr y1 y2 : ℝ) : ringKernel xf xr y1 y2 = ringKernel y1 y2 xf xr := by
  unfold ringKernel
  rw [corner_comm xr y2, corner_comm xr y1, corner_comm xf y2, corner_comm xf y1]
  ring

/-- Ahead of or behind the ring. -/
theorem ringKernel_inLine {xf xr y1 y2 : ℝ} (hx : xf ≤ xr) (h1 : y1 ≠ 0) (h2 : y2 ≠ 0) (h : y1 ≤ y2)
    (hy : 0 < xf ∨ xr < 0) : ringKernel xf xr y1 y2 ≤ 0 := by
  rw [ringKernel_swap]
  exact ringKernel_beside h h1 h2 hx hy

/-- Wake of a trailing edge at distance `d` behind the point; `C` is the cosine of the angle between wind and chord. -/
noncomputable def wakeKernel (C d y : ℝ) : ℝ := -(y / (d * (rho2 d y + C * d)))

theorem wakeKernel_antitone {C d y1 y2 : ℝ} (hC : 0 ≤ C) (hd : 0 < d) (h : y1 ≤ y2) :
    wakeKernel C d y2 ≤ wakeKernel C d y1 := by
  have p1 := rho2_pos_left y1 hd.ne'
  have p2 := rho2_pos_left y2 hd.ne'
  unfold wakeKernel
  rw [neg_le_neg_iff, div_le_div_iff₀ (by positivity) (by positivity)]
  have m := mul_rho2_le h d
  rw [rho2_comm y2, rho2_comm y1] at m
  have : 0 ≤ C * d * (y2 - y1) := by have := sub_nonneg.2 h; positivity
  nlinarith [mul_le_mul_of_nonneg_left m hd.le]

theorem wakeKernel_neg (C d y : ℝ) : wakeKernel C d (-y) = -wakeKernel C d y := by
  unfold wakeKernel
  rw [rho2_neg_right, neg_div]

/-- One side of a strip: all rings of the strip and its wake. -/
noncomputable def stripKernel (C a d y : ℝ) : ℝ := corner a y + corner d y + wakeKernel C d y

theorem stripKernel_neg (C a d y : ℝ) : stripKernel C a d (-y) = -stripKernel C a d y := by
  unfold stripKernel
  rw [corner_neg_right, corner_neg_right, wakeKernel_neg]
  ring

theorem stripKernel_eq {C a d y : ℝ} (hC : 0 ≤ C) (hd : 0 < d) (hy : 0 < y) :
    stripKernel C a d y = rho2 a y / (a * y) + (d + C * rho2 d y) / (y * (rho2 d y + C * d)) := by
  have p := rho2_pos_left y hd.ne'
  have s := rho2_sq d y
  have : 0 < rho2 d y + C * d := by positivity
  unfold stripKernel wakeKernel corner
  rw [add_assoc]
  congr 1
  field_simp
  linear_combination s

theorem stripKernel_antitone {C a d y1 y2 : ℝ} (hC : 0 ≤ C) (hC1 : C ≤ 1) (ha : 0 < a) (hd : 0 < d) (h1 : 0 < y1) (h : y1 ≤ y2) :
    stripKernel C a d y2 ≤ stripKernel C a d y1 := by
  have h2 : 0 < y2 := h1.trans_le h
  rw [stripKernel_eq hC hd h1, stripKernel_eq hC hd h2]
  have p1 := rho2_pos_left y1 hd.ne'
  have p2 := rho2_pos_left y2 hd.ne'
  have q1 : 0 < rho2 d y1 + C * d := by positivity
  have q2 : 0 < rho2 d y2 + C * d := by positivity
  apply add_le_add
  · rw [div_le_div_iff₀ (by positivity) (by positivity)]
    have m := mul_rho2_le h a
    rw [rho2_comm y2, rho2_comm y1] at m
    nlinarith [mul_le_mul_of_nonneg_left m ha.le]
  · have hm : rho2 d y1 ≤ rho2 d y2 := by
      unfold rho2
      exact Real.sqrt_le_sqrt (by nlinarith)
    have e : (d + C * rho2 d y2) / (rho2 d y2 + C * d) ≤ (d + C * rho2 d y1) / (rho2 d y1 + C * d) := by
      rw [div_le_div_iff₀ q2 q1]
      have : 0 ≤ d * (1 - C ^ 2) * (rho2 d y2 - rho2 d y1) :=
        mul_nonneg (mul_nonneg hd.le (by nlinarith)) (sub_nonneg.2 hm)
      nlinarith
    calc (d + C * rho2 d y2) / (y2 * (rho2 d y2 + C * d))
        = (d + C * rho2 d y2) / (rho2 d y2 + C * d) / y2 := by rw [div_div, mul_comm y2]
      _ ≤ (d + C * rho2 d y1) / (rho2 d y1 + C * d) / y1 := by
          apply div_le_div₀ (by positivity) e h1 h
      _ = (d + C * rho2 d y1) / (y1 * (rho2 d y1 + C * d)) := by rw [div_div, mul_comm y1]

theorem stripKernel_ge {C a d y : ℝ} (hC : 0 ≤ C) (ha : 0 < a) (hd : 0 < d) (hy : 0 < y) :
    1 / a ≤ stripKernel C a d y := by
  rw [stripKernel_eq hC hd hy]
  have p := rho2_pos_left y hd.ne'
  have h1 : 1 / a ≤ rho2 a y / (a * y) := by
    rw [div_le_div_iff₀ ha (by positivity), one_mul, mul_comm (rho2 a y)]
    exact mul_le_mul_of_nonneg_left (le_rho2_right a y) ha.le
  have h2 : 0 ≤ (d + C * rho2 d y) / (y * (rho2 d y + C * d)) := by positivity
  linarith

/-- One side of the part of a strip behind the edge at `x`, with its wake. -/
noncomputable def tailKernel (C x d y : ℝ) : ℝ := corner d y + wakeKernel C d y - corner x y

theorem tailKernel_neg (C x d y : ℝ) : tailKernel C x d (-y) = -tailKernel C x d y := by
  unfold tailKernel
  rw [corner_neg_right, corner_neg_right, wakeKernel_neg]
  ring

theorem tailKernel_antitone {C x d y1 y2 : ℝ} (hC : 0 ≤ C) (hx : x ≠ 0) (hxd : x ≤ d) (hd : 0 < d) (h1 : 0 < y1) (h : y1 ≤ y2) :
    tailKernel C x d y2 ≤ tailKernel C x d y1 := by
  have e1 := ringKernel_beside_pos hxd hx hd.ne' h1 h
  have e2 := wakeKernel_antitone hC hd h
  unfold ringKernel at e1
  unfold tailKernel
  linarith

theorem tailKernel_ge {C x d y : ℝ} (hC : 0 ≤ C) (hC1 : C ≤ 1) (hx : x ≠ 0) (hxd : x ≤ d) (hd : 0 < d) (hy : 0 < y) :
    -(1 / x) ≤ tailKernel C x d y := by
  have p := rho2_pos_left y hd.ne'
  have hs := stripKernel_eq (a := -x) hC hd hy
  have e : tailKernel C x d y = stripKernel C (-x) d y := by
    unfold tailKernel stripKernel
    rw [corner_neg_left]; ring
  rcases lt_or_gt_of_ne hx with h | h
  · rw [e]
    have := stripKernel_ge hC (neg_pos.2 h) hd hy
    rwa [one_div, inv_neg, ← one_div] at this
  · rw [e, hs, rho2_neg_left]
    have px := rho2_pos_left y hx
    have sx := rho2_sq x y
    have sd := rho2_sq d y
    have m := mul_rho2_le hxd y
    have h1 : x / rho2 x y ≤ d / rho2 d y := by
      rw [div_le_div_iff₀ px p]; exact m
    have h2 : d / rho2 d y ≤ (d + C * rho2 d y) / (rho2 d y + C * d) := by
      rw [div_le_div_iff₀ p (by positivity)]
      have : d ^ 2 ≤ rho2 d y ^ 2 := by rw [sd]; nlinarith
      nlinarith [mul_le_mul_of_nonneg_left this hC]
    have h3 : (rho2 x y - y) / x ≤ x / rho2 x y := by
      rw [div_le_div_iff₀ h px]
      have := le_rho2_right x y
      nlinarith
    have h4 : (rho2 x y - y) / x ≤ (d + C * rho2 d y) / (rho2 d y + C * d) := h3.trans (h1.trans h2)
    have h5 : rho2 x y / (-x * y) = -(1 / x) - (rho2 x y - y) / x / y := by field_simp; ring
    have h6 : (d + C * rho2 d y) / (y * (rho2 d y + C * d)) = (d + C * rho2 d y) / (rho2 d y + C * d) / y := by
      rw [div_div, mul_comm y]
    rw [h5, h6]
    have := div_le_div_of_nonneg_right h4 hy.le
    linarith

/-- Disjoint intervals on one side. -/
theorem sum_intervals_le {ι : Type} [DecidableEq ι] {H : ℝ → ℝ} {w : ℝ} (hw : 0 < w)
    (hH : ∀ x y, 0 < x → x ≤ y → H y ≤ H x) {a b : ι → ℝ} (hab : ∀ j, a j < b j) (s : Finset ι)
    (hs : ∀ j ∈ s, w ≤ a j) (hdis : ∀ j ∈ s, ∀ k ∈ s, j ≠ k → b j ≤ a k ∨ b k ≤ a j) {R : ℝ} (hR : w ≤ R) (hbR : ∀ j ∈ s, b j ≤ R) :
    ∑ j ∈ s, (H (a j) - H (b j)) ≤ H w - H R := by
  induction s using Finset.induction_on_max_value b generalizing R with
  | empty => simp only [Finset.sum_empty]; linarith [hH w R hw hR]
  | insert m s hm hmax ih =>
    rw [Finset.sum_insert hm]
    have hwm := hs m (Finset.mem_insert_self _ _)
    have h1 : ∑ j ∈ s, (H (a j) - H (b j)) ≤ H w - H (a m) := by
      refine ih (fun j hj => hs j (Finset.mem_insert_of_mem hj))
        (fun j hj k hk => hdis j (Finset.mem_insert_of_mem hj) k (Finset.mem_insert_of_mem hk)) hwm ?_
      intro j hj
      have hne : j ≠ m := fun e => hm (e ▸ hj)
      rcases hdis j (Finset.mem_insert_of_mem hj) m (Finset.mem_insert_self _ _) hne with h | h
      · exact h
      · have := hmax j hj
        have := hab j
        have := hab m
        linarith
    have h2 := hH (b m) R (hw.trans_le (hwm.trans (hab m).le)) (hbR m (Finset.mem_insert_self _ _))
    linarith

/-- An odd kernel, decreasing and at least `m` on the right: all disjoint intervals together, one of them
centred. -/
theorem sum_intervals_ge {ι : Type} [Fintype ι] [DecidableEq ι] {H : ℝ → ℝ} {w m : ℝ} (hw : 0 < w)
    (hH : ∀ x y, 0 < x → x ≤ y → H y ≤ H x) (hodd : ∀ x, H (-x) = -H x) (hm : ∀ x, 0 < x → m ≤ H x)
    {a b : ι → ℝ} (hab : ∀ j, a j < b j) (hdis : ∀ j k, j ≠ k → b j ≤ a k ∨ b k ≤ a j) {i : ι} (ha : a i = -w) (hb : b i = w) :
    2 * m ≤ ∑ j, (H (b j) - H (a j)) := by
  classical
  rw [← Finset.add_sum_erase _ _ (Finset.mem_univ i), ha, hb, hodd]
  rw [← Finset.sum_filter_add_sum_filter_not (Finset.univ.erase i) (fun j => w ≤ a j)]
  obtain ⟨R, hR1, hR2⟩ : ∃ R, w ≤ R ∧ ∀ j, |a j| ≤ R ∧ |b j| ≤ R := by
    refine ⟨w + ∑ j, (|a j| + |b j|), ?_, fun j => ?_⟩
    · have : 0 ≤ ∑ j, (|a j| + |b j|) := Finset.sum_nonneg fun j _ => by positivity
      linarith
    · have := Finset.single_le_sum (f := fun j => |a j| + |b j|) (fun j _ => by positivity) (Finset.mem_univ j)
      have := abs_nonneg (a j)
      have := abs_nonneg (b j)
      constructor <;> linarith
  have hR : 0 < R := hw.trans_le hR1
  have h1 : ∑ j ∈ (Finset.univ.erase i).filter (fun j => w ≤ a j), (H (a j) - H (b j)) ≤ H w - H R :=
    sum_intervals_le hw hH hab _ (fun j hj => (Finset.mem_filter.1 hj).2) (fun j _ k _ h => hdis j k h) hR1
      (fun j _ => (le_abs_self _).trans (hR2 j).2)
  have h2 : ∑ j ∈ (Finset.univ.erase i).filter (fun j => ¬ w ≤ a j), (H (-b j) - H (-a j)) ≤ H w - H R := by
    refine sum_intervals_le (a := fun j => -b j) (b := fun j => -a j) hw hH (fun j => neg_lt_neg (hab j)) _ (fun j hj => ?_)
      (fun j _ k _ h => ?_) hR1 (fun j _ => (neg_le_abs _).trans (hR2 j).1)
    · obtain ⟨hj1, hj2⟩ := Finset.mem_filter.1 hj
      have := hdis j i (Finset.ne_of_mem_erase hj1)
      rw [ha, hb] at this
      rcases this with h | h
      · linarith
      · exact absurd h hj2
    · rcases hdis j k h with h | h
      · right; linarith
      · left; linarith
  have e1 : ∑ j ∈ (Finset.univ.erase i).filter (fun j => w ≤ a j), (H (b j) - H (a j)) =
      -∑ j ∈ (Finset.univ.erase i).filter (fun j => w ≤ a j), (H (a j) - H (b j)) := by
    rw [← Finset.sum_neg_distrib]
    exact Finset.sum_congr rfl fun j _ => by ring
  have e2 : ∑ j ∈ (Finset.univ.erase i).filter (fun j => ¬ w ≤ a j), (H (b j) - H (a j)) =
      -∑ j ∈ (Finset.univ.erase i).filter (fun j => ¬ w ≤ a j), (H (-b j) - H (-a j)) := by
    rw [← Finset.sum_neg_distrib]
    exact Finset.sum_congr rfl fun j _ => by rw [hodd, hodd]; ring
  rw [e1, e2]
  linarith [hm R hR]

end kernel

end PySailing
