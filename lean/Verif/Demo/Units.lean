import Verif.Demo.TwoPanels
import Verif.Demo.SmallPanel

/-!
# Demo: the lattice of a panel and its mirror image in other units of length
-/

namespace PySailing.Demo

open Spec

/-- Enlarging the panel and its mirror image moves no point into a core or out of it. -/
theorem sizesIrrelevant2 {s : ℝ} (hs : 1 / 2 ≤ s) :
    SizesIrrelevant (K := 2) s (fun i => [vars (-1), (vars (-1)).mirrored][i]) (fun i => [1, 1].getD i 0) := by
  have h0 : 0 < s := by linarith
  have out (p p1 p2 : V3) (h1 : 1 / 16 ≤ (p - p1).dot (p - p1)) (h2 : 1 / 16 ≤ (p - p2).dot (p - p2))
      (h3 : 1 / 16 ≤ (V3.cross (p - p1) (p - p2)).dot (V3.cross (p - p1) (p - p2))) :
      sameCore s p p1 p2 := by
    have n (v : V3) (hv : 1 / 16 ≤ v.dot v) : 1 / 4 ≤ v.norm := by
      rw [V3.norm]
      apply Real.le_sqrt_of_sq_le
      linarith
    have a1 := n _ h1
    have a2 := n _ h2
    have m1 : 1 / 8 ≤ s * (p - p1).norm := by nlinarith
    have m2 : 1 / 8 ≤ s * (p - p2).norm := by nlinarith
    have m3 : 1 / 256 ≤ (s * s) ^ 2 * (V3.cross (p - p1) (p - p2)).dot (V3.cross (p - p1) (p - p2)) := by
      have b1 : 1 / 4 ≤ s * s := by nlinarith
      have b2 : 1 / 16 ≤ (s * s) ^ 2 := by nlinarith
      nlinarith
    unfold sameCore inSegmentCore
    rw [← smul_sub, ← smul_sub, V3.cross_smul_left, V3.cross_smul_right, smul_smul, V3.norm_smul,
      V3.norm_smul, V3.norm_smul, mul_pow, V3.norm_sq, abs_of_pos h0, abs_of_pos (mul_pos h0 h0)]
    norm_num
    constructor
    · rintro (hh | hh | hh) <;> exfalso <;> linarith
    · rintro (hh | hh | hh) <;> exfalso <;> linarith
  have inn (p p1 p2 : V3) (h0 : V3.cross (p - p1) (p - p2) = 0) : sameCore s p p1 p2 := by
    unfold sameCore inSegmentCore
    rw [← smul_sub, ← smul_sub, V3.cross_smul_left, V3.cross_smul_right, h0]
    simp
    norm_num
  refine ⟨fun i => ?_, fun i j p hp => ?_⟩
  · have : [(1 : ℝ), 1].getD i 0 = 1 := by
      change Fin 2 at i
      fin_cases i <;> rfl
    rw [this]
    nlinarith
  simp only [List.mem_cons, List.not_mem_nil, or_false] at hp
  change Fin 2 at i
  change Fin 2 at j
  fin_cases i <;> fin_cases j <;> rcases hp with rfl | rfl
  all_goals refine ⟨?_, ?_, ?_, ?_⟩
  all_goals first
    | (refine inn _ _ _ ?_; ext <;> simp [vars, PanelVars.mirrored, mirror]; done)
    | (refine out _ _ _ ?_ ?_ ?_ <;> simp [vars, PanelVars.mirrored, mirror, V3.dot] <;> norm_num; done)

end PySailing.Demo
