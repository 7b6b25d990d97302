import Verif.Spec.Spline
import Mathlib.Analysis.Calculus.ContDiff.Basic
import Mathlib.Analysis.Calculus.ContDiff.Operations
import Mathlib.Analysis.Calculus.IteratedDeriv.Defs
import Mathlib.Analysis.Calculus.Deriv.Pow
import Mathlib.Analysis.Calculus.Deriv.Add
import Mathlib.Analysis.Calculus.Deriv.Mul
import Mathlib.Analysis.Calculus.Deriv.MeanValue
import Mathlib.Tactic.Linarith
import Mathlib.Tactic.FieldSimp
import Mathlib.Tactic.LinearCombination
import Mathlib.Tactic.Positivity
import Mathlib.LinearAlgebra.FiniteDimensional.Lemmas
import Mathlib.LinearAlgebra.Dimension.Constructions

/-!
# The interpolating cubic spline: uniqueness and existence
-/

namespace PySailing

open Spec Set

/-! ## Derivatives at the knots -/

theorem deriv_eq_of_eqOn {f g : ℝ → ℝ} {s : Set ℝ} {x : ℝ} (hf : DifferentiableAt ℝ f x) (hg : DifferentiableAt ℝ g x)
    (hs : UniqueDiffWithinAt ℝ s x) (hx : x ∈ s) (h : EqOn f g s) : deriv f x = deriv g x := by
  have h1 := hf.hasDerivAt.hasDerivWithinAt (s := s)
  have h2 := (hg.hasDerivAt.hasDerivWithinAt (s := s)).congr h (h hx)
  exact hs.eq_deriv _ h1 h2

/-- The cubic with given coefficients. -/
def cubic (a b c d x : ℝ) : ℝ := a + b * x + c * x ^ 2 + d * x ^ 3

theorem cubic_hasDerivAt (a b c d x : ℝ) : HasDerivAt (cubic a b c d) (b + 2 * c * x + 3 * d * x ^ 2) x := by
  have h := (((hasDerivAt_const x a).add ((hasDerivAt_id x).const_mul b)).add
    ((hasDerivAt_pow 2 x).const_mul c)).add ((hasDerivAt_pow 3 x).const_mul d)
  refine (h.congr_deriv ?_).congr_of_eventuallyEq (Filter.Eventually.of_forall fun y => ?_)
  · simp; ring
  · simp [cubic]

theorem cubic_deriv (a b c d : ℝ) : deriv (cubic a b c d) = cubic b (2 * c) (3 * d) 0 := by
  funext x
  rw [(cubic_hasDerivAt a b c d x).deriv]
  simp [cubic]

/-- On a set without isolated points a twice continuously differentiable function that is a cubic has the
derivatives of the cubic. -/
theorem cubic_derivs {S : ℝ → ℝ} (hS : ContDiff ℝ 2 S) {I : Set ℝ} (hI : UniqueDiffOn ℝ I) {a b c d : ℝ}
    (h : ∀ x ∈ I, S x = cubic a b c d x) {x : ℝ} (hx : x ∈ I) :
    deriv S x = b + 2 * c * x + 3 * d * x ^ 2 ∧ deriv (deriv S) x = 2 * c + 6 * d * x := by
  have hd : Differentiable ℝ S := hS.differentiable (by norm_num)
  have hd' : Differentiable ℝ (deriv S) := by
    have : ContDiff ℝ 1 (deriv S) := by
      have h2 : ContDiff ℝ (1 + 1) S := by simpa [one_add_one_eq_two] using hS
      exact (contDiff_succ_iff_deriv.1 h2).2.2
    exact this.differentiable (by norm_num)
  have e1 : ∀ y ∈ I, deriv S y = cubic b (2 * c) (3 * d) 0 y := fun y hy => by
    rw [deriv_eq_of_eqOn (hd y) (cubic_hasDerivAt a b c d y).differentiableAt (hI y hy) hy h, cubic_deriv]
  refine ⟨by rw [e1 x hx]; simp [cubic], ?_⟩
  rw [deriv_eq_of_eqOn (hd' x) (cubic_hasDerivAt b (2 * c) (3 * d) 0 x).differentiableAt (hI x hx) hx e1, cubic_deriv]
  simp only [cubic]; ring

/-! ## Uniqueness -/

/-- A cubic with three different zeros. -/
theorem cubic_three {a b c d x y z : ℝ} (hxy : x < y) (hyz : y < z) (hx : cubic a b c d x = 0)
    (hy : cubic a b c d y = 0) (hz : cubic a b c d z = 0) :
    c = -(d * (x + y + z)) ∧ b = d * (x * y + y * z + x * z) ∧ a = -(d * (x * y * z)) := by
  unfold cubic at *
  have h1 : b + c * (x + y) + d * (x ^ 2 + x * y + y ^ 2) = 0 := by
    have : (y - x) * (b + c * (x + y) + d * (x ^ 2 + x * y + y ^ 2)) = 0 := by linear_combination hy - hx
    exact (mul_eq_zero.1 this).resolve_left (by linarith)
  have h2 : b + c * (y + z) + d * (y ^ 2 + y * z + z ^ 2) = 0 := by
    have : (z - y) * (b + c * (y + z) + d * (y ^ 2 + y * z + z ^ 2)) = 0 := by linear_combination hz - hy
    exact (mul_eq_zero.1 this).resolve_left (by linarith)
  have h3 : c + d * (x + y + z) = 0 := by
    have : (z - x) * (c + d * (x + y + z)) = 0 := by linear_combination h2 - h1
    exact (mul_eq_zero.1 this).resolve_left (by linarith)
  have hc : c = -(d * (x + y + z)) := by linarith
  have hb : b = d * (x * y + y * z + x * z) := by linear_combination h1 - (x + y) * h3
  exact ⟨hc, hb, by linear_combination hx - x * hb - x ^ 2 * hc⟩

/-- Slope and curvature at the right end of an interval with zeros at both ends. -/
theorem cubic_step {a b c d x y : ℝ} (h : x < y) (hx : cubic a b c d x = 0) (hy : cubic a b c d y = 0)
    {s k s' k' : ℝ} (hs : s = b + 2 * c * x + 3 * d * x ^ 2) (hk : k = 2 * c + 6 * d * x)
    (hs' : s' = b + 2 * c * y + 3 * d * y ^ 2) (hk' : k' = 2 * c + 6 * d * y) :
    s' = -(2 * s + k * (y - x) / 2) ∧ k' * (y - x) = -(6 * s + 2 * k * (y - x)) := by
  have h1 : b + c * (x + y) + d * (x ^ 2 + x * y + y ^ 2) = 0 := by
    unfold cubic at *
    have : (y - x) * (b + c * (x + y) + d * (x ^ 2 + x * y + y ^ 2)) = 0 := by linear_combination hy - hx
    exact (mul_eq_zero.1 this).resolve_left (by linarith)
  subst hs hk hs' hk'
  constructor
  · linear_combination (3 : ℝ) * h1
  · linear_combination (6 : ℝ) * h1

variable {m : ℕ} {xs ys : ℕ → ℝ}

theorem strict_lt {xs : ℕ → ℝ} (h : ∀ i < m, xs i < xs (i + 1)) {i j : ℕ} (hij : i < j) (hj : j ≤ m) : xs i < xs j := by
  induction j with
  | zero => omega
  | succ j ih =>
    rcases Nat.lt_or_ge i j with h' | h'
    · exact (ih h' (by omega)).trans (h j (by omega))
    · have : i = j := by omega
      subst this
      exact h i (by omega)

theorem Spec.IsSpline.sub {ys' : ℕ → ℝ} {S T : ℝ → ℝ} (hS : IsSpline m xs ys S) (hT : IsSpline m xs ys' T) :
    IsSpline m xs (fun i => ys i - ys' i) fun x => S x - T x := by
  have key : ∀ I, CubicOn S I → CubicOn T I → CubicOn (fun x => S x - T x) I := by
    rintro I ⟨a, b, c, d, h⟩ ⟨a', b', c', d', h'⟩
    refine ⟨a - a', b - b', c - c', d - d', fun x hx => ?_⟩
    simp only [h x hx, h' x hx]; ring
  exact ⟨fun i hi => by simp only [hS.through i hi, hT.through i hi], hS.smooth.sub hT.smooth,
    key _ hS.first hT.first, fun i h1 h2 => key _ (hS.between i h1 h2) (hT.between i h1 h2), key _ hS.last hT.last⟩

theorem spline_zero_four (hx : ∀ i < 3, xs i < xs (i + 1)) {D : ℝ → ℝ} (h : IsSpline 3 xs (fun _ => 0) D) (x : ℝ) :
    D x = 0 := by
  obtain ⟨a, b, c, d, h1⟩ := h.first
  obtain ⟨a', b', c', d', h2⟩ := h.last
  have x01 := hx 0 (by omega)
  have x12 := hx 1 (by omega)
  have x23 := hx 2 (by omega)
  simp only [Nat.reduceAdd, Nat.reduceSub, zero_add, mem_Iic, mem_Ici] at *
  have t0 := h.through 0 (by omega)
  have t1 := h.through 1 (by omega)
  have t2 := h.through 2 (by omega)
  have t3 := h.through 3 (by omega)
  obtain ⟨e1, e2, e3⟩ := cubic_three (a := a) (b := b) (c := c) (d := d) x01 x12
    ((h1 _ (by linarith)).symm.trans t0) ((h1 _ (by linarith)).symm.trans t1) ((h1 _ (by linarith)).symm.trans t2)
  obtain ⟨f1, f2, f3⟩ := cubic_three (a := a') (b := b') (c := c') (d := d') x12 x23
    ((h2 _ (by linarith)).symm.trans t1) ((h2 _ (by linarith)).symm.trans t2) ((h2 _ (by linarith)).symm.trans t3)
  -- both cubics agree at two points between the second and the third abscissa
  have hm (t : ℝ) (ht0 : xs 1 < t) (ht1 : t < xs 2) : d * (t - xs 0) = d' * (t - xs 3) := by
    have e := (h1 t ht1.le).symm.trans (h2 t ht0.le)
    have hne : (t - xs 1) * (t - xs 2) ≠ 0 := mul_ne_zero (by linarith) (by linarith)
    have : (t - xs 1) * (t - xs 2) * (d * (t - xs 0) - d' * (t - xs 3)) = 0 := by
      rw [e1, e2, e3, f1, f2, f3] at e
      linear_combination e
    have := (mul_eq_zero.1 this).resolve_left hne
    linarith
  have m1 := hm ((xs 1 + xs 2) / 2) (by linarith) (by linarith)
  have m2 := hm ((3 * xs 1 + xs 2) / 4) (by linarith) (by linarith)
  have hdd : d = d' := by
    have : (d - d') * (xs 2 - xs 1) = 0 := by linear_combination 4 * m1 - 4 * m2
    have := (mul_eq_zero.1 this).resolve_right (by linarith)
    linarith
  have hd : d = 0 := by
    rw [← hdd] at m1
    have : d * (xs 3 - xs 0) = 0 := by linear_combination m1
    exact (mul_eq_zero.1 this).resolve_right (by linarith)
  rw [hd] at e1 e2 e3
  rw [← hdd, hd] at f1 f2 f3
  rcases le_total x (xs 2) with hx2 | hx2
  · rw [h1 x hx2, e1, e2, e3, hd]; ring
  · rw [h2 x (by linarith), f1, f2, f3, ← hdd, hd]; ring

theorem shooting (h4 : 4 ≤ m) (hx : ∀ i < m, xs i < xs (i + 1)) {s k : ℕ → ℝ} {d d' : ℝ}
    (s2 : s 2 = d * ((xs 2 - xs 0) * (xs 2 - xs 1))) (k2 : k 2 = 2 * d * ((xs 2 - xs 0) + (xs 2 - xs 1)))
    (sl : s (m - 2) = d' * ((xs (m - 1) - xs (m - 2)) * (xs m - xs (m - 2))))
    (kl : k (m - 2) = -(2 * d' * ((xs (m - 1) - xs (m - 2)) + (xs m - xs (m - 2)))))
    (step : ∀ i, 2 ≤ i → i + 3 ≤ m → s (i + 1) = -(2 * s i + k i * (xs (i + 1) - xs i) / 2) ∧
      k (i + 1) * (xs (i + 1) - xs i) = -(6 * s i + 2 * k i * (xs (i + 1) - xs i))) :
    d = 0 ∧ d' = 0 ∧ ∀ i, 2 ≤ i → i + 2 ≤ m → s i = 0 ∧ k i = 0 := by
  have lt := @strict_lt m xs hx
  have x01 := lt (i := 0) (j := 1) (by omega) (by omega)
  have x12 := lt (i := 1) (j := 2) (by omega) (by omega)
  have y01 := lt (i := m - 2) (j := m - 1) (by omega) (by omega)
  have y12 := lt (i := m - 1) (j := m) (by omega) (by omega)
  have inv : ∀ j, j + 4 ≤ m → (s (j + 2) = 0 ∧ k (j + 2) = 0) ∨ 0 < s (j + 2) * k (j + 2) := by
    intro j
    induction j with
    | zero =>
      intro _
      rw [zero_add, s2, k2]
      have : 0 < xs 2 - xs 0 := by linarith
      have : 0 < xs 2 - xs 1 := by linarith
      rcases eq_or_ne d 0 with h0 | h0
      · left; simp [h0]
      · right
        have : 0 < d ^ 2 := by positivity
        have : 0 < (xs 2 - xs 0) * (xs 2 - xs 1) * (2 * ((xs 2 - xs 0) + (xs 2 - xs 1))) := by positivity
        nlinarith
    | succ j ih =>
      intro hj
      obtain ⟨q1, q2⟩ := step (j + 2) (by omega) (by omega)
      have hh : 0 < xs (j + 2 + 1) - xs (j + 2) := by linarith [hx (j + 2) (by omega)]
      obtain ⟨e, he⟩ : ∃ e, e = xs (j + 2 + 1) - xs (j + 2) := ⟨_, rfl⟩
      rw [← he] at q1 q2 hh
      have ej : j + 1 + 2 = j + 2 + 1 := by omega
      rw [ej]
      rcases ih (by omega) with ⟨i1, i2⟩ | i
      · left
        rw [i1, i2] at q1 q2
        refine ⟨by rw [q1]; ring, ?_⟩
        have : k (j + 2 + 1) * e = 0 := by rw [q2]; ring
        exact (mul_eq_zero.1 this).resolve_right hh.ne'
      · right
        have : 0 < s (j + 2 + 1) * (k (j + 2 + 1) * e) := by
          rw [q1, q2]
          nlinarith [mul_pos i hh, sq_nonneg (s (j + 2)), sq_nonneg (k (j + 2) * e)]
        have e2 : s (j + 2 + 1) * (k (j + 2 + 1) * e) = s (j + 2 + 1) * k (j + 2 + 1) * e := by ring
        rw [e2] at this
        exact pos_of_mul_pos_left this hh.le
  have hd' : d' = 0 := by
    by_contra h0
    have hi := inv (m - 4) (by omega)
    have em : m - 4 + 2 = m - 2 := by omega
    rw [em, sl, kl] at hi
    have p1 : 0 < xs (m - 1) - xs (m - 2) := by linarith
    have p2 : 0 < xs m - xs (m - 2) := by linarith
    have p3 : 0 < d' ^ 2 := by positivity
    rcases hi with ⟨i1, -⟩ | i
    · exact (mul_ne_zero h0 (mul_pos p1 p2).ne') i1
    · have : 0 < (xs (m - 1) - xs (m - 2)) * (xs m - xs (m - 2)) * (2 * ((xs (m - 1) - xs (m - 2)) + (xs m - xs (m - 2)))) := by positivity
      nlinarith
  -- backwards: all slopes and curvatures vanish
  have back : ∀ j, j + 4 ≤ m → s (m - 2 - j) = 0 ∧ k (m - 2 - j) = 0 := by
    intro j
    induction j with
    | zero => intro _; rw [Nat.sub_zero, sl, kl, hd', mul_zero, zero_mul, zero_mul, neg_zero]; exact ⟨rfl, rfl⟩
    | succ j ih =>
      intro hj
      obtain ⟨i1, i2⟩ := ih (by omega)
      obtain ⟨q1, q2⟩ := step (m - 2 - (j + 1)) (by omega) (by omega)
      have e1 : m - 2 - (j + 1) + 1 = m - 2 - j := by omega
      rw [e1, i1] at q1
      rw [e1, i2, zero_mul] at q2
      have hh : 0 < xs (m - 2 - j) - xs (m - 2 - (j + 1)) := by
        have := hx (m - 2 - (j + 1)) (by omega); rw [e1] at this; linarith
      have hs0 : s (m - 2 - (j + 1)) = 0 := by linarith
      refine ⟨hs0, ?_⟩
      rw [hs0] at q2
      have : k (m - 2 - (j + 1)) * (xs (m - 2 - j) - xs (m - 2 - (j + 1))) = 0 := by linarith
      exact (mul_eq_zero.1 this).resolve_right hh.ne'
  have all : ∀ i, 2 ≤ i → i + 2 ≤ m → s i = 0 ∧ k i = 0 := fun i h1 h2 => by
    have := back (m - 2 - i) (by omega)
    have e : m - 2 - (m - 2 - i) = i := by omega
    rwa [e] at this
  have hd : d = 0 := by
    have := (all 2 le_rfl (by omega)).1
    rw [s2] at this
    exact (mul_eq_zero.1 this).resolve_right (mul_ne_zero (by linarith) (by linarith))
  exact ⟨hd, hd', all⟩

theorem spline_zero (hm : 3 ≤ m) (hx : ∀ i < m, xs i < xs (i + 1)) {D : ℝ → ℝ} (h : IsSpline m xs (fun _ => 0) D) (x : ℝ) :
    D x = 0 := by
  rcases Nat.lt_or_ge m 4 with h4 | h4
  · have : m = 3 := by omega
    subst this
    exact spline_zero_four hx h x
  obtain ⟨a, b, c, d, h1⟩ := h.first
  obtain ⟨a', b', c', d', h2⟩ := h.last
  have z : ∀ i ≤ m, D (xs i) = 0 := h.through
  obtain ⟨s, hs⟩ : ∃ s : ℕ → ℝ, s = fun i => deriv D (xs i) := ⟨_, rfl⟩
  obtain ⟨k, hk⟩ : ∃ k : ℕ → ℝ, k = fun i => deriv (deriv D) (xs i) := ⟨_, rfl⟩
  have lt := @strict_lt m xs hx
  -- first piece
  have x01 := lt (i := 0) (j := 1) (by omega) (by omega)
  have x12 := lt (i := 1) (j := 2) (by omega) (by omega)
  obtain ⟨e1, e2, e3⟩ := cubic_three (a := a) (b := b) (c := c) (d := d) x01 x12
    ((h1 _ (mem_Iic.2 (by linarith))).symm.trans (z 0 (by omega))) ((h1 _ (mem_Iic.2 (by linarith))).symm.trans (z 1 (by omega)))
    ((h1 _ (mem_Iic.2 le_rfl)).symm.trans (z 2 (by omega)))
  obtain ⟨g1, g2⟩ := cubic_derivs h.smooth (uniqueDiffOn_Iic _) h1 (mem_Iic.2 le_rfl)
  have s2 : s 2 = d * ((xs 2 - xs 0) * (xs 2 - xs 1)) := by
    rw [hs]; simp only; rw [g1, e1, e2]; ring
  have k2 : k 2 = 2 * d * ((xs 2 - xs 0) + (xs 2 - xs 1)) := by
    rw [hk]; simp only; rw [g2, e1]; ring
  -- last piece
  have y01 := lt (i := m - 2) (j := m - 1) (by omega) (by omega)
  have y12 := lt (i := m - 1) (j := m) (by omega) (by omega)
  obtain ⟨f1, f2, f3⟩ := cubic_three (a := a') (b := b') (c := c') (d := d') y01 y12
    ((h2 _ (mem_Ici.2 le_rfl)).symm.trans (z _ (by omega))) ((h2 _ (mem_Ici.2 (by linarith))).symm.trans (z _ (by omega)))
    ((h2 _ (mem_Ici.2 (by linarith))).symm.trans (z _ (by omega)))
  obtain ⟨g3, g4⟩ := cubic_derivs h.smooth (uniqueDiffOn_Ici _) h2 (mem_Ici.2 le_rfl)
  have sl : s (m - 2) = d' * ((xs (m - 1) - xs (m - 2)) * (xs m - xs (m - 2))) := by
    rw [hs]; simp only; rw [g3, f1, f2]; ring
  have kl : k (m - 2) = -(2 * d' * ((xs (m - 1) - xs (m - 2)) + (xs m - xs (m - 2)))) := by
    rw [hk]; simp only; rw [g4, f1]; ring
  -- the pieces between
  have step : ∀ i, 2 ≤ i → i + 3 ≤ m → s (i + 1) = -(2 * s i + k i * (xs (i + 1) - xs i) / 2) ∧
      k (i + 1) * (xs (i + 1) - xs i) = -(6 * s i + 2 * k i * (xs (i + 1) - xs i)) := fun i hi hi' => by
    obtain ⟨p, q, r, t, hp⟩ := h.between i hi hi'
    have hlt := hx i (by omega)
    have hu := uniqueDiffOn_Icc hlt
    obtain ⟨d1, d2⟩ := cubic_derivs h.smooth hu hp (left_mem_Icc.2 hlt.le)
    obtain ⟨d3, d4⟩ := cubic_derivs h.smooth hu hp (right_mem_Icc.2 hlt.le)
    exact cubic_step hlt ((hp _ (left_mem_Icc.2 hlt.le)).symm.trans (z i (by omega)))
      ((hp _ (right_mem_Icc.2 hlt.le)).symm.trans (z (i + 1) (by omega)))
      (by rw [hs]; exact d1) (by rw [hk]; exact d2) (by rw [hs]; exact d3) (by rw [hk]; exact d4)
  obtain ⟨hd, hd', all⟩ := shooting h4 hx s2 k2 sl kl step
  rw [hd] at e1 e2 e3
  rw [hd'] at f1 f2 f3
  rcases le_total x (xs 2) with hx2 | hx2
  · rw [h1 x hx2, e1, e2, e3, hd]; ring
  rcases le_total (xs (m - 2)) x with hxm | hxm
  · rw [h2 x hxm, f1, f2, f3, hd']; ring
  -- the interval of `x`
  have find : ∀ j, 2 + j ≤ m - 2 → x ≤ xs (2 + j) → x = xs 2 ∨ ∃ i, 2 ≤ i ∧ i + 3 ≤ m ∧ xs i ≤ x ∧ x ≤ xs (i + 1) := by
    intro j
    induction j with
    | zero => intro _ h0; left; exact le_antisymm h0 hx2
    | succ j ih =>
      intro h0 h1
      rcases le_total x (xs (2 + j)) with h' | h'
      · exact ih (by omega) h'
      · exact Or.inr ⟨2 + j, by omega, by omega, h', h1⟩
  rcases find (m - 4) (by omega) (by rw [show 2 + (m - 4) = m - 2 by omega]; exact hxm) with he | ⟨i, hi, hi', l, u⟩
  · rw [he]; exact z 2 (by omega)
  · obtain ⟨p, q, r, t, hp⟩ := h.between i hi hi'
    have hlt := hx i (by omega)
    obtain ⟨d1, d2⟩ := cubic_derivs h.smooth (uniqueDiffOn_Icc hlt) hp (left_mem_Icc.2 hlt.le)
    have z1 := (hp _ (left_mem_Icc.2 hlt.le)).symm.trans (z i (by omega))
    have z2 := (hp _ (right_mem_Icc.2 hlt.le)).symm.trans (z (i + 1) (by omega))
    obtain ⟨a1, a2⟩ := all i hi (by omega)
    rw [hs] at a1; rw [hk] at a2
    simp only [d1] at a1
    simp only [d2] at a2
    rw [hp x ⟨l, u⟩]
    -- with zero value, slope and curvature at the left end the cubic is `t (x - xs i)^3`
    have ht : t = 0 := by
      have : t * (xs (i + 1) - xs i) ^ 3 = 0 := by
        linear_combination z2 - z1 - (xs (i + 1) - xs i) * a1 - (xs (i + 1) - xs i) ^ 2 / 2 * a2
      exact (mul_eq_zero.1 this).resolve_right (pow_ne_zero 3 (by linarith))
    linear_combination z1 + (x - xs i) * a1 + (x - xs i) ^ 2 / 2 * a2 + (x - xs i) ^ 3 * ht

/-- There is at most one interpolating spline. -/
theorem Spec.IsSpline.unique (hm : 3 ≤ m) (hx : ∀ i < m, xs i < xs (i + 1)) {S T : ℝ → ℝ} (hS : IsSpline m xs ys S)
    (hT : IsSpline m xs ys T) : S = T := by
  funext x
  have h := hS.sub hT
  simp only [sub_self] at h
  exact sub_eq_zero.1 (spline_zero hm hx h x)

/-! ## Existence -/

theorem Spec.CubicOn.add {S T : ℝ → ℝ} {I : Set ℝ} (hS : CubicOn S I) (hT : CubicOn T I) :
    CubicOn (fun x => S x + T x) I := by
  obtain ⟨a, b, c, d, h⟩ := hS
  obtain ⟨a', b', c', d', h'⟩ := hT
  refine ⟨a + a', b + b', c + c', d + d', fun x hx => ?_⟩
  simp only [h x hx, h' x hx]; ring

theorem Spec.CubicOn.sum {ι : Type} (s : Finset ι) {f : ι → ℝ → ℝ} {I : Set ℝ} (h : ∀ i ∈ s, CubicOn (f i) I) :
    CubicOn (fun x => ∑ i ∈ s, f i x) I := by
  classical
  induction s using Finset.induction_on with
  | empty => exact ⟨0, 0, 0, 0, fun x _ => by simp⟩
  | insert i s hi ih =>
    have := (h i (Finset.mem_insert_self _ _)).add (ih fun j hj => h j (Finset.mem_insert_of_mem hj))
    simpa [Finset.sum_insert hi] using this

theorem maxPow_hasDerivAt (n : ℕ) (x : ℝ) :
    HasDerivAt (fun x : ℝ => (max 0 x) ^ (n + 2)) ((n + 2) * (max 0 x) ^ (n + 1)) x := by
  rcases lt_trichotomy x 0 with hx | rfl | hx
  · have e : (fun x : ℝ => (max 0 x) ^ (n + 2)) =ᶠ[nhds x] fun _ => 0 := by
      filter_upwards [eventually_lt_nhds hx] with y hy
      rw [max_eq_left hy.le, zero_pow (by omega)]
    rw [max_eq_left hx.le, zero_pow (by omega), mul_zero]
    exact (hasDerivAt_const x 0).congr_of_eventuallyEq e
  · rw [max_self, zero_pow (by omega), mul_zero]
    have h : (fun x : ℝ => (max 0 x) ^ (n + 2)) =O[nhds (0 : ℝ)] fun x => ‖x - 0‖ ^ (n + 2) := by
      refine Asymptotics.IsBigO.of_bound 1 (Filter.Eventually.of_forall fun y => ?_)
      rw [sub_zero, one_mul, norm_pow, norm_pow, norm_norm]
      refine pow_le_pow_left₀ (norm_nonneg _) ?_ _
      rw [Real.norm_eq_abs, Real.norm_eq_abs, abs_of_nonneg (le_max_left _ _)]
      exact max_le (abs_nonneg _) (le_abs_self _)
    have := h.hasFDerivAt (𝕜 := ℝ) (by omega)
    simpa using this.hasDerivAt
  · have e : (fun x : ℝ => (max 0 x) ^ (n + 2)) =ᶠ[nhds x] fun x => x ^ (n + 2) := by
      filter_upwards [eventually_gt_nhds hx] with y hy
      rw [max_eq_right hy.le]
    rw [max_eq_right hx.le]
    refine HasDerivAt.congr_of_eventuallyEq ?_ e
    have := hasDerivAt_pow (n + 2) x
    simpa using this

theorem maxCube_contDiff : ContDiff ℝ 2 fun x : ℝ => (max 0 x) ^ 3 := by
  have d1 : deriv (fun x : ℝ => (max 0 x) ^ 3) = fun x => 3 * (max 0 x) ^ 2 := by
    funext x
    rw [(maxPow_hasDerivAt 1 x).deriv]
    norm_num
  have d2 : deriv (fun x : ℝ => (max 0 x) ^ 2) = fun x => 2 * max 0 x := by
    funext x
    rw [(maxPow_hasDerivAt 0 x).deriv]
    norm_num
  have h1 : ContDiff ℝ 1 fun x : ℝ => (max 0 x) ^ 2 := by
    rw [contDiff_one_iff_deriv, d2]
    exact ⟨fun x => (maxPow_hasDerivAt 0 x).differentiableAt, by fun_prop⟩
  have h2 : ContDiff ℝ (1 + 1) fun x : ℝ => (max 0 x) ^ 3 := by
    rw [contDiff_succ_iff_deriv, d1]
    exact ⟨fun x => (maxPow_hasDerivAt 1 x).differentiableAt, by simp, contDiff_const.mul h1⟩
  simpa [one_add_one_eq_two] using h2

/-- The splines with knots `xs 2, ..., xs (m - 2)` in terms of truncated powers. -/
noncomputable def powerSpline (m : ℕ) (xs : ℕ → ℝ) (c : (Fin 4 → ℝ) × (Fin (m - 3) → ℝ)) (x : ℝ) : ℝ :=
  cubic (c.1 0) (c.1 1) (c.1 2) (c.1 3) x + ∑ i : Fin (m - 3), c.2 i * (max 0 (x - xs (i + 2))) ^ 3

theorem powerSpline_isSpline (hm : 3 ≤ m) (hx : ∀ i < m, xs i < xs (i + 1)) (c : (Fin 4 → ℝ) × (Fin (m - 3) → ℝ)) :
    IsSpline m xs (fun i => powerSpline m xs c (xs i)) (powerSpline m xs c) := by
  have lt := @strict_lt m xs hx
  have le : ∀ i j, i ≤ j → j ≤ m → xs i ≤ xs j := fun i j h h' => by
    rcases h.eq_or_lt with rfl | h
    · exact le_rfl
    · exact (lt h h').le
  have hc (I : Set ℝ) : CubicOn (cubic (c.1 0) (c.1 1) (c.1 2) (c.1 3)) I := ⟨_, _, _, _, fun x _ => rfl⟩
  have low {I : Set ℝ} {i : Fin (m - 3)} (h : ∀ x ∈ I, x ≤ xs (i + 2)) :
      CubicOn (fun x => c.2 i * (max 0 (x - xs (i + 2))) ^ 3) I :=
    ⟨0, 0, 0, 0, fun x hx => by beta_reduce; rw [max_eq_left (by linarith [h x hx])]; ring⟩
  have high {I : Set ℝ} {i : Fin (m - 3)} (h : ∀ x ∈ I, xs (i + 2) ≤ x) :
      CubicOn (fun x => c.2 i * (max 0 (x - xs (i + 2))) ^ 3) I :=
    ⟨-(c.2 i * xs (i + 2) ^ 3), 3 * c.2 i * xs (i + 2) ^ 2, -(3 * c.2 i * xs (i + 2)), c.2 i, fun x hx => by
      beta_reduce; rw [max_eq_right (by linarith [h x hx])]; ring⟩
  refine ⟨fun i _ => rfl, ?_, ?_, fun j hj hj' => ?_, ?_⟩
  · unfold powerSpline cubic
    refine ContDiff.add (by fun_prop) (ContDiff.sum fun i _ => contDiff_const.mul ?_)
    exact maxCube_contDiff.comp (contDiff_id.sub contDiff_const)
  · refine (hc _).add (CubicOn.sum _ fun i _ => low fun x hx => ?_)
    exact le_trans hx (le _ _ (by omega) (by omega))
  · refine (hc _).add (CubicOn.sum _ fun i _ => ?_)
    rcases Nat.lt_or_ge (i.val + 2) (j + 1) with h | h
    · exact high fun x hx => le_trans (le _ _ (by omega) (by omega)) hx.1
    · exact low fun x hx => le_trans hx.2 (le _ _ (by omega) (by omega))
  · refine (hc _).add (CubicOn.sum _ fun i _ => high fun x hx => ?_)
    exact le_trans (le _ _ (by omega) (by omega)) hx

/-- The values of a spline at the abscissae, as a linear map. -/
noncomputable def sampleMap (m : ℕ) (xs : ℕ → ℝ) : ((Fin 4 → ℝ) × (Fin (m - 3) → ℝ)) →ₗ[ℝ] (Fin (m + 1) → ℝ) where
  toFun c := fun i => powerSpline m xs c (xs i)
  map_add' c c' := by
    funext i
    simp only [powerSpline, cubic, Prod.fst_add, Prod.snd_add, Pi.add_apply, add_mul, Finset.sum_add_distrib]
    ring
  map_smul' r c := by
    funext i
    simp only [powerSpline, cubic, Prod.smul_fst, Prod.smul_snd, Pi.smul_apply, smul_eq_mul, RingHom.id_apply, mul_add,
      Finset.mul_sum]
    congr 1
    · ring
    · exact Finset.sum_congr rfl fun i _ => by ring

theorem sampleMap_injective (hm : 3 ≤ m) (hx : ∀ i < m, xs i < xs (i + 1)) : Function.Injective (sampleMap m xs) := by
  rw [← LinearMap.ker_eq_bot, LinearMap.ker_eq_bot']
  intro c hc
  have lt := @strict_lt m xs hx
  have le : ∀ i j, i ≤ j → j ≤ m → xs i ≤ xs j := fun i j h h' => by
    rcases h.eq_or_lt with rfl | h
    · exact le_rfl
    · exact (lt h h').le
  have hs := powerSpline_isSpline hm hx c
  have h0 : IsSpline m xs (fun _ => 0) (powerSpline m xs c) :=
    ⟨fun i hi => congrFun hc ⟨i, by omega⟩, hs.smooth, hs.first, hs.between, hs.last⟩
  have zero := spline_zero hm hx h0
  have hcub : ∀ x ≤ xs 2, cubic (c.1 0) (c.1 1) (c.1 2) (c.1 3) x = 0 := fun x hx2 => by
    have h := zero x
    unfold powerSpline at h
    rw [Finset.sum_eq_zero fun i _ => by
      rw [max_eq_left (by linarith [le 2 (i.val + 2) (by omega) (by omega)])]; ring, add_zero] at h
    exact h
  obtain ⟨e1, e2, e3⟩ := cubic_three (x := xs 2 - 2) (y := xs 2 - 1) (z := xs 2) (by linarith) (by linarith)
    (hcub _ (by linarith)) (hcub _ (by linarith)) (hcub _ le_rfl)
  have h4 := hcub (xs 2 - 3) (by linarith)
  have hd : c.1 3 = 0 := by
    unfold cubic at h4
    rw [e1, e2, e3] at h4
    linarith
  rw [hd] at e1 e2 e3
  have hfst : c.1 = 0 := by
    funext i
    fin_cases i
    · simpa using e3
    · simpa using e2
    · simpa using e1
    · simpa using hd
  have hsnd : ∀ n, ∀ i : Fin (m - 3), i.val = n → c.2 i = 0 := by
    intro n
    induction n using Nat.strong_induction_on with
    | _ n ih =>
      intro i hi
      have h := zero (xs (i.val + 3))
      unfold powerSpline at h
      rw [hfst] at h
      have hz : cubic ((0 : Fin 4 → ℝ) 0) ((0 : Fin 4 → ℝ) 1) ((0 : Fin 4 → ℝ) 2) ((0 : Fin 4 → ℝ) 3) (xs (i.val + 3)) = 0 := by
        simp [cubic]
      rw [hz, zero_add, Finset.sum_eq_single i] at h
      · have hlt := lt (i := i.val + 2) (j := i.val + 3) (by omega) (by omega)
        rw [max_eq_right (by linarith)] at h
        exact (mul_eq_zero.1 h).resolve_right (pow_ne_zero 3 (by linarith))
      · intro j _ hj
        rcases Nat.lt_or_ge j.val i.val with h' | h'
        · rw [ih j.val (by omega) j rfl, zero_mul]
        · have : i.val < j.val := lt_of_le_of_ne h' fun he => hj (Fin.ext he.symm)
          rw [max_eq_left (by linarith [le (i.val + 3) (j.val + 2) (by omega) (by omega)])]; ring
      · intro h; exact absurd (Finset.mem_univ _) h
  exact Prod.ext hfst (funext fun i => hsnd i.val i rfl)

/-- There is an interpolating spline for any four or more points with increasing abscissae. -/
theorem exists_spline (hm : 3 ≤ m) (hx : ∀ i < m, xs i < xs (i + 1)) (ys : ℕ → ℝ) : ∃ S, IsSpline m xs ys S := by
  have hfin : Module.finrank ℝ ((Fin 4 → ℝ) × (Fin (m - 3) → ℝ)) = Module.finrank ℝ (Fin (m + 1) → ℝ) := by
    simp [Module.finrank_prod]; omega
  have hsur := (LinearMap.injective_iff_surjective_of_finrank_eq_finrank hfin).1 (sampleMap_injective hm hx)
  obtain ⟨c, hc⟩ := hsur fun i => ys i.val
  have hs := powerSpline_isSpline hm hx c
  exact ⟨_, fun i hi => congrFun hc ⟨i, by omega⟩, hs.smooth, hs.first, hs.between, hs.last⟩

end PySailing
