import Verif.Spec.ArithWing
import Verif.Lemmas.Rounding

/-!
# Rounding every result is an accurate arithmetic for a whole wing
-/

namespace PySailing

open Spec

theorem BackwardStable.mono {growth growth' : ℕ → ℝ} (h : ∀ n, growth n ≤ growth' n) {solve : LinearSolver} {u : ℝ} (hu : 0 ≤ u)
    (hs : BackwardStable growth solve u) : BackwardStable growth' solve u := by
  intro K M b hdet hc hb
  have h1 : 0 ≤ ∑ i, ∑ j, |M i j| := Finset.sum_nonneg fun _ _ => Finset.sum_nonneg fun _ _ => abs_nonneg _
  have h2 : 0 ≤ ∑ i, ∑ j, |M⁻¹ i j| := Finset.sum_nonneg fun _ _ => Finset.sum_nonneg fun _ _ => abs_nonneg _
  have key : ∀ x : ℝ, 0 ≤ x → u * (growth K * (1 + ∑ i, ∑ j, |M i j|) * (1 + x)) ≤
      u * (growth' K * (1 + ∑ i, ∑ j, |M i j|) * (1 + x)) := fun x hx =>
    mul_le_mul_of_nonneg_left (mul_le_mul_of_nonneg_right (mul_le_mul_of_nonneg_right (h K) (by linarith)) (by linarith)) hu
  obtain ⟨γ, h3, h4⟩ := hs K M b hdet ((key _ h2).trans hc) hb
  exact ⟨γ, h3, fun i => (h4 i).trans (key _ (Finset.sum_nonneg fun _ _ => abs_nonneg _))⟩

namespace Spec.MachineRounding

variable {u : ℝ} {rnd : ℝ → ℝ}

/-- Partial sums, added up from left to right. -/
theorem foldl_near (R : MachineRounding u rnd) {S : ℝ} {n : ℕ} (hn : 10 * u * ((n : ℝ) + 1) * (1 + S) ≤ 1) :
    ∀ (xs : List ℝ) (k : ℕ) (s s' : ℝ), k + xs.length ≤ n → |s'| + (xs.map abs).sum ≤ S → |s - s'| ≤ k * (2 * u * (1 + S)) →
      |xs.foldl (fun s x => rnd (s + x)) s - (s' + xs.sum)| ≤ ((k + xs.length : ℕ) : ℝ) * (2 * u * (1 + S)) := by
  have hu := R.pos
  have hsm := R.small
  intro xs
  induction xs with
  | nil => intro k s s' _ _ h; simpa using h
  | cons x xs ih =>
    intro k s s' hk hS h
    simp only [List.map_cons, List.sum_cons, List.length_cons, List.foldl_cons] at hk hS ⊢
    have hnn : 0 ≤ (xs.map abs).sum := List.sum_nonneg (by simp)
    have hS0 : 0 ≤ S := le_trans (by positivity) hS
    have hkn : (k : ℝ) + 1 ≤ n := by exact_mod_cast (by omega : k + 1 ≤ n)
    have hE : (k : ℝ) * (2 * u * (1 + S)) ≤ 1 / 5 := by
      have : (k : ℝ) * (2 * u * (1 + S)) ≤ ((n : ℝ) + 1) * (2 * u * (1 + S)) :=
        mul_le_mul_of_nonneg_right (by linarith) (by positivity)
      nlinarith
    have h1 : |s' + x| ≤ S := (abs_add_le _ _).trans (by linarith)
    have h2 : |s + x - (s' + x)| ≤ k * (2 * u * (1 + S)) := by rw [add_sub_add_right_eq_sub]; exact h
    have h3 : |s + x| ≤ S + 1 / 5 := by
      have : s + x = (s' + x) + (s + x - (s' + x)) := by ring
      rw [this]
      exact (abs_add_le _ _).trans (by linarith)
    have h4 : S + 1 / 5 ≤ 1 / u ^ 2 := by
      rw [le_div_iff₀ (by positivity)]
      have h5 : u * (1 + S) ≤ 1 := by
        have : (0 : ℝ) ≤ n := Nat.cast_nonneg n
        nlinarith [mul_nonneg (mul_nonneg hu.le this) (by linarith : (0 : ℝ) ≤ 1 + S), mul_pos hu (by linarith : (0 : ℝ) < 1 + S)]
      nlinarith [mul_pos hu (by linarith : (0 : ℝ) < 1 + S)]
    have h5 := R.near (s + x) (h3.trans h4)
    have h6 : |rnd (s + x) - (s' + x)| ≤ ((k + 1 : ℕ) : ℝ) * (2 * u * (1 + S)) := by
      have e : rnd (s + x) - (s' + x) = (rnd (s + x) - (s + x)) + (s + x - (s' + x)) := by ring
      rw [e]
      refine (abs_add_le _ _).trans ?_
      have : u * |s + x| ≤ u * (S + 1 / 5) := mul_le_mul_of_nonneg_left h3 hu.le
      push_cast
      nlinarith
    have := ih (k + 1) (rnd (s + x)) (s' + x) (by omega) (by linarith [abs_add_le s' x]) h6
    rw [show k + (xs.length + 1) = k + 1 + xs.length by ring, ← add_assoc s' x]
    exact this

theorem accurateFull (R : MachineRounding u rnd) {growth : ℕ → ℝ} (hg : ∀ n : ℕ, (n : ℝ) + 1 ≤ growth n) {solve : LinearSolver}
    (hs : BackwardStable growth solve (10 * u)) : AccurateFull growth (roundedFull rnd solve) (10 * u) where
  toAccurateArith := R.accurate hs
  cos x _ := R.rounds _
  sin x _ := R.rounds _
  sqrt x _ := R.rounds _
  sum xs h := by
    have hu := R.pos
    have hS : 0 ≤ (xs.map abs).sum := List.sum_nonneg (by simp)
    have h0 : 10 * u * ((xs.length : ℝ) + 1) * (1 + (xs.map abs).sum) ≤ 10 * u * (growth xs.length * (1 + (xs.map abs).sum)) := by
      rw [mul_assoc]
      exact mul_le_mul_of_nonneg_left (mul_le_mul_of_nonneg_right (hg _) (by linarith)) (by linarith)
    have h1 := R.foldl_near (S := (xs.map abs).sum) (n := xs.length) (h0.trans h) xs 0 0 0 (by omega) (by simp) (by simp)
    rw [zero_add, Nat.zero_add] at h1
    refine h1.trans (le_trans ?_ h0)
    have : (0 : ℝ) ≤ xs.length := Nat.cast_nonneg _
    nlinarith [mul_nonneg (mul_nonneg this hu.le) (by linarith : (0 : ℝ) ≤ 1 + (xs.map abs).sum),
      mul_pos hu (by linarith : (0 : ℝ) < 1 + (xs.map abs).sum)]

end Spec.MachineRounding

end PySailing
