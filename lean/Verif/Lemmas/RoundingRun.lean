import Verif.Lemmas.RoundingSail
import Verif.Lemmas.Csys
import Verif.Spec.ArithRun

/-!
# Rounding every single result: a run (C134)
-/

namespace PySailing

open Spec

theorem entries_le_one {k : V3} (hk : k.dot k = 1) (θ : ℝ) (e : V3) (he : e.dot e = 1) :
    |((rotationMatrixCore k θ).mulVec e).x| ≤ 1 ∧ |((rotationMatrixCore k θ).mulVec e).y| ≤ 1 ∧ |((rotationMatrixCore k θ).mulVec e).z| ≤ 1 := by
  have hk0 : k ≠ 0 := by rintro rfl; simp [V3.dot] at hk
  have h := rodrigues_dot k θ hk e e
  rw [rotationMatrixCore_eq _ _ hk0, unit_of_dot_one hk]
  rw [he] at h
  generalize rodrigues k θ e = w at h
  simp only [V3.dot] at h
  refine ⟨?_, ?_, ?_⟩ <;> rw [abs_le] <;> constructor <;> nlinarith [sq_nonneg w.x, sq_nonneg w.y, sq_nonneg w.z]

namespace Spec.MachineRounding

variable {u : ℝ} {rnd : ℝ → ℝ}

theorem accurateRun (R : MachineRounding u rnd) (h0 : rnd 0 = 0) {growth : ℕ → ℝ} (hg : ∀ n : ℕ, 15 * ((n : ℝ) + 1) ≤ growth n)
    {condition : ℕ → ℝ → ℝ} (hc : ∀ n B, 1 + B ≤ condition n B)
    {solve : LinearSolver} (hs : BackwardStable growth solve (10 * u)) : AccurateRun growth condition (roundedRun rnd solve) (10 * u) where
  toAccurateSail := R.accurateSail h0 hg hs
  arcsin x _ := R.rounds _
  rotvec axis θ ha _ := by
    have hu := R.pos
    have hsm := R.small
    have key : ∀ x, |x| ≤ 1 → |rnd x - x| ≤ 10 * u * (1 + |θ|) := fun x hx => by
      have h1 := R.near x (hx.trans (by rw [le_div_iff₀ (by positivity)]; nlinarith))
      have h2 : u * |x| ≤ u := by nlinarith
      have h3 : 0 ≤ u * |θ| := by positivity
      nlinarith
    obtain ⟨a1, a2, a3⟩ := entries_le_one ha θ ⟨1, 0, 0⟩ (by simp [V3.dot])
    obtain ⟨b1, b2, b3⟩ := entries_le_one ha θ ⟨0, 1, 0⟩ (by simp [V3.dot])
    obtain ⟨c1, c2, c3⟩ := entries_le_one ha θ ⟨0, 0, 1⟩ (by simp [V3.dot])
    simp only [M3.mulVec, V3.dot, mul_zero, mul_one, add_zero, zero_add] at a1 a2 a3 b1 b2 b3 c1 c2 c3
    simp only [roundedRun, scipyMatrix_eq _ ha]
    exact ⟨⟨key _ a1, key _ b1, key _ c1⟩, ⟨key _ a2, key _ b2, key _ c2⟩, ⟨key _ a3, key _ b3, key _ c3⟩⟩
  spline B xNew xs ys v0 hB hv _ hall hu' := by
    have hu := R.pos
    have hsm := R.small
    have hcB := hc xs.length B
    refine ⟨v0.map rnd, ?_, ?_⟩
    · show ((fitpackSpline xNew xs ys).map (List.map rnd)) = _
      rw [hv]; rfl
    · unfold NearList
      rw [List.forall₂_map_left_iff, List.forall₂_same]
      intro x hx
      have hxB := hall x (by simp [hx])
      have h1 : 10 * u * (1 + B) ≤ 1 := le_trans (mul_le_mul_of_nonneg_left hcB (by positivity)) hu'
      have h2 := R.near x (hxB.trans (by rw [le_div_iff₀ (by positivity)]; nlinarith [mul_pos hu hB]))
      have h3 : u * |x| ≤ u * B := mul_le_mul_of_nonneg_left hxB hu.le
      have h4 : 10 * u * (1 + B) ≤ 10 * u * condition xs.length B := mul_le_mul_of_nonneg_left hcB (by positivity)
      have h5 : 0 < u * B := mul_pos hu hB
      nlinarith

end Spec.MachineRounding

end PySailing
