import Mathlib.LinearAlgebra.Lagrange
import Mathlib.Algebra.Polynomial.BigOperators
import Mathlib.Data.Real.Basic
import Mathlib.Tactic.Linarith
import Mathlib.Tactic.FieldSimp
import Mathlib.Tactic.Ring

/-!
# The two-dimensional vortex lattice of a flat plate

`n` point vortices at `0, …, n - 1` and control points at `k + 1 / 2`.
-/

namespace PySailing

open Finset Polynomial

/-- Strength of vortex `q` of the flat plate at unit incidence (up to a factor). -/
noncomputable def plateWeight (n q : ℕ) : ℝ :=
  -((∏ k ∈ range n, ((q : ℝ) - (k + 1 / 2))) / ∏ j ∈ (range n).erase q, ((q : ℝ) - j))

/-- Difference of the two node polynomials. -/
noncomputable def platePoly (n : ℕ) : ℝ[X] :=
  Lagrange.nodal (range n) (fun k : ℕ => (k : ℝ) + 1 / 2) - Lagrange.nodal (range n) (fun k : ℕ => (k : ℝ))

theorem plate_inj (n : ℕ) : Set.InjOn (fun k : ℕ => (k : ℝ)) (range n) :=
  fun _ _ _ _ h => Nat.cast_injective h

theorem platePoly_degree {n : ℕ} (hn : 0 < n) : (platePoly n).degree < (range n).card := by
  unfold platePoly
  have h := degree_sub_lt (p := Lagrange.nodal (range n) (fun k : ℕ => (k : ℝ) + 1 / 2))
    (q := Lagrange.nodal (range n) (fun k : ℕ => (k : ℝ)))
    (by rw [Lagrange.degree_nodal, Lagrange.degree_nodal]) Lagrange.nodal_ne_zero
    (by rw [Lagrange.nodal_monic.leadingCoeff, Lagrange.nodal_monic.leadingCoeff])
  rwa [Lagrange.degree_nodal] at h

theorem platePoly_node {n q : ℕ} (hq : q ∈ range n) :
    (platePoly n).eval (q : ℝ) = ∏ k ∈ range n, ((q : ℝ) - (k + 1 / 2)) := by
  unfold platePoly
  rw [eval_sub, Lagrange.eval_nodal_at_node (v := fun k : ℕ => (k : ℝ)) hq, sub_zero, Lagrange.eval_nodal]

theorem plate_half_ne (k q : ℕ) : (k : ℝ) + 1 / 2 ≠ q := by
  intro h
  have h2 : 2 * (k : ℝ) + 1 = 2 * q := by linarith
  have h3 : 2 * k + 1 = 2 * q := by exact_mod_cast h2
  omega

/-- The flow is tangential at every control point. -/
theorem plate_tangential {n k : ℕ} (hk : k < n) :
    ∑ q ∈ range n, plateWeight n q / ((k : ℝ) + 1 / 2 - q) = 1 := by
  have hn : 0 < n := by omega
  have h := Lagrange.eq_interpolate (plate_inj n) (platePoly_degree hn)
  have h1 := congrArg (eval ((k : ℝ) + 1 / 2)) h
  rw [Lagrange.eval_interpolate_not_at_node _ (fun q _ => plate_half_ne k q)] at h1
  have h2 : eval ((k : ℝ) + 1 / 2) (platePoly n) = -eval ((k : ℝ) + 1 / 2) (Lagrange.nodal (range n) fun q : ℕ => (q : ℝ)) := by
    unfold platePoly
    rw [eval_sub, Lagrange.eval_nodal_at_node (v := fun k : ℕ => (k : ℝ) + 1 / 2) (mem_range.2 hk), zero_sub]
  rw [h2] at h1
  have h3 : eval ((k : ℝ) + 1 / 2) (Lagrange.nodal (range n) fun q : ℕ => (q : ℝ)) ≠ 0 :=
    Lagrange.eval_nodal_not_at_node fun q _ => plate_half_ne k q
  have h4 : -1 = ∑ i ∈ range n, Lagrange.nodalWeight (range n) (fun q : ℕ => (q : ℝ)) i * ((k : ℝ) + 1 / 2 - i)⁻¹ *
      eval (i : ℝ) (platePoly n) := by
    apply mul_left_cancel₀ h3
    rw [← h1]; ring
  have h5 : (1 : ℝ) = -∑ i ∈ range n, Lagrange.nodalWeight (range n) (fun q : ℕ => (q : ℝ)) i * ((k : ℝ) + 1 / 2 - i)⁻¹ *
      eval (i : ℝ) (platePoly n) := by linarith
  refine Eq.trans ?_ h5.symm
  rw [← sum_neg_distrib]
  refine sum_congr rfl fun q hq => ?_
  rw [platePoly_node hq]
  unfold plateWeight Lagrange.nodalWeight
  rw [prod_inv_distrib]
  simp only [div_eq_mul_inv]
  ring

/-- The total strength. -/
theorem plate_total (n : ℕ) : ∑ q ∈ range n, plateWeight n q = n / 2 := by
  rcases Nat.eq_zero_or_pos n with rfl | hn
  · simp
  have h := Lagrange.coeff_eq_sum (plate_inj n) (platePoly_degree hn)
  have hc : (platePoly n).coeff ((range n).card - 1) = -(n / 2) := by
    unfold platePoly
    rw [coeff_sub, Lagrange.nodal_eq, Lagrange.nodal_eq, prod_X_sub_C_coeff_card_pred _ _ (by simpa using hn),
      prod_X_sub_C_coeff_card_pred _ _ (by simpa using hn), sum_add_distrib]
    simp
    ring
  rw [hc] at h
  have h' : (n : ℝ) / 2 = -∑ i ∈ range n, eval (i : ℝ) (platePoly n) / ∏ j ∈ (range n).erase i, ((i : ℝ) - j) := by
    linarith
  rw [h', ← sum_neg_distrib]
  refine sum_congr rfl fun q hq => ?_
  rw [platePoly_node hq]
  rfl

/-- Sign of a product over the nodes before and after. -/
theorem prod_sign (s : Finset ℕ) (f : ℕ → ℝ) (q : ℕ) (h1 : ∀ k ∈ s, k < q → 0 < f k) (h2 : ∀ k ∈ s, q ≤ k → f k < 0) :
    0 < (-1) ^ (s.filter fun k => q ≤ k).card * ∏ k ∈ s, f k := by
  rw [← prod_filter_mul_prod_filter_not s (fun k => q ≤ k), ← mul_assoc, ← prod_const, ← prod_mul_distrib]
  apply mul_pos
  · apply prod_pos
    intro k hk
    obtain ⟨hk, hq⟩ := mem_filter.1 hk
    linarith [h2 k hk hq]
  · apply prod_pos
    intro k hk
    obtain ⟨hk, hq⟩ := mem_filter.1 hk
    exact h1 k hk (not_le.1 hq)

/-- All vortices turn the same way. -/
theorem plate_pos {n q : ℕ} (hq : q < n) : 0 < plateWeight n q := by
  have hA := prod_sign (range n) (fun k => (q : ℝ) - (k + 1 / 2)) q (by
    intro k _ h
    have : (k : ℝ) + 1 ≤ q := by exact_mod_cast h
    linarith) (by
    intro k _ h
    have : (q : ℝ) ≤ k := by exact_mod_cast h
    linarith)
  have hB := prod_sign ((range n).erase q) (fun j => (q : ℝ) - j) q (by
    intro k _ h
    have : (k : ℝ) + 1 ≤ q := by exact_mod_cast h
    linarith) (by
    intro k hk h
    have : q < k := lt_of_le_of_ne h (Ne.symm (ne_of_mem_erase hk))
    have : (q : ℝ) + 1 ≤ k := by exact_mod_cast this
    linarith)
  have hc : ((range n).filter fun k => q ≤ k).card = (((range n).erase q).filter fun k => q ≤ k).card + 1 := by
    rw [filter_erase, card_erase_add_one]
    exact mem_filter.2 ⟨mem_range.2 hq, le_rfl⟩
  rw [hc, pow_succ] at hA
  set N := (((range n).erase q).filter fun k => q ≤ k).card
  unfold plateWeight
  have hs : ((-1 : ℝ) ^ N) * (-1) ^ N = 1 := by rw [← mul_pow]; norm_num
  have hne : ((-1 : ℝ) ^ N) ≠ 0 := pow_ne_zero _ (by norm_num)
  have hne2 : (∏ j ∈ (range n).erase q, ((q : ℝ) - j)) ≠ 0 := right_ne_zero_of_mul hB.ne'
  have : -((∏ k ∈ range n, ((q : ℝ) - (k + 1 / 2))) / ∏ j ∈ (range n).erase q, ((q : ℝ) - j)) =
      ((-1) ^ N * -1 * ∏ k ∈ range n, ((q : ℝ) - (k + 1 / 2))) / ((-1) ^ N * ∏ j ∈ (range n).erase q, ((q : ℝ) - j)) := by
    rw [mul_assoc, mul_div_mul_left _ _ hne, neg_one_mul, neg_div]
  rw [this]
  exact div_pos hA hB

end PySailing
