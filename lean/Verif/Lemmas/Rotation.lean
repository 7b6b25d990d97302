import Verif.Model.Csys
import Verif.Spec.Rotation
import Mathlib.Tactic.LinearCombination
import Mathlib.Tactic.FinCases

/-! # Lemmas about rotations -/

namespace PySailing

open Spec

theorem unit_dot_self {k : V3} (h : k ≠ 0) : (unit k).dot (unit k) = 1 := by
  have hp := V3.norm_pos h
  rw [unit, V3.dot_smul_left, V3.dot_smul_right, ← V3.norm_mul_self]
  field_simp

theorem quatMatrix_eq_rodrigues (u : V3) (θ : ℝ) (hu : u.dot u = 1) (v : V3) :
    (quatMatrix (Real.cos (θ/2)) (Real.sin (θ/2) * -u.x) (Real.sin (θ/2) * -u.y)
      (Real.sin (θ/2) * -u.z)).mulVec v = rodrigues u θ v := by
  have hc : Real.cos θ = Real.cos (θ/2) ^ 2 - Real.sin (θ/2) ^ 2 := by
    rw [← Real.cos_two_mul', mul_div_cancel₀ _ (two_ne_zero)]
  have hs : Real.sin θ = 2 * Real.sin (θ/2) * Real.cos (θ/2) := by
    rw [← Real.sin_two_mul, mul_div_cancel₀ _ (two_ne_zero)]
  have h1 : Real.sin (θ/2) ^ 2 = 1 - Real.cos (θ/2) ^ 2 := by
    rw [← Real.sin_sq_add_cos_sq (θ/2)]; ring
  have hu' : u.x * u.x + u.y * u.y + u.z * u.z = 1 := hu
  rw [rodrigues, hc, hs]
  set C := Real.cos (θ/2)
  set S := Real.sin (θ/2)
  have h1' : S ^ 2 + C ^ 2 = 1 := by rw [h1]; ring
  ext <;> simp [quatMatrix, V3.dot]
  · linear_combination (-(S ^ 2 * v.x)) * hu' + (u.x * (u.x * v.x + u.y * v.y + u.z * v.z)) * h1'
  · linear_combination (-(S ^ 2 * v.y)) * hu' + (u.y * (u.x * v.x + u.y * v.y + u.z * v.z)) * h1'
  · linear_combination (-(S ^ 2 * v.z)) * hu' + (u.z * (u.x * v.x + u.y * v.y + u.z * v.z)) * h1'

theorem rotationMatrixCore_eq (k : V3) (θ : ℝ) (h : k ≠ 0) (v : V3) :
    (rotationMatrixCore k θ).mulVec v = rodrigues (unit k) θ v :=
  quatMatrix_eq_rodrigues (unit k) θ (unit_dot_self h) v

theorem rodrigues_add (u : V3) (θ : ℝ) (a b : V3) :
    rodrigues u θ (a + b) = rodrigues u θ a + rodrigues u θ b := by
  ext <;> simp [rodrigues, V3.dot] <;> ring

theorem rodrigues_sub (u : V3) (θ : ℝ) (a b : V3) :
    rodrigues u θ (a - b) = rodrigues u θ a - rodrigues u θ b := by
  ext <;> simp [rodrigues, V3.dot] <;> ring

theorem rodrigues_smul (u : V3) (θ s : ℝ) (a : V3) :
    rodrigues u θ (s • a) = s • rodrigues u θ a := by
  ext <;> simp [rodrigues, V3.dot] <;> ring

theorem rodrigues_zero_angle (u v : V3) : rodrigues u 0 v = v := by
  simp [rodrigues]

theorem rodrigues_axis (u : V3) (θ : ℝ) (hu : u.dot u = 1) : rodrigues u θ u = u := by
  simp only [rodrigues, hu]
  ext <;> simp

theorem rodrigues_comp (u : V3) (α β : ℝ) (hu : u.dot u = 1) (v : V3) :
    rodrigues u β (rodrigues u α v) = rodrigues u (α + β) v := by
  have hu' : u.x * u.x + u.y * u.y + u.z * u.z = 1 := hu
  simp only [rodrigues, Real.cos_add, Real.sin_add]
  set ca := Real.cos α
  set sa := Real.sin α
  set cb := Real.cos β
  set sb := Real.sin β
  ext <;> simp [V3.dot]
  · linear_combination (-(sa * sb * v.x) + (1 - ca) * (1 - cb) * u.x * (u.x * v.x + u.y * v.y + u.z * v.z)) * hu'
  · linear_combination (-(sa * sb * v.y) + (1 - ca) * (1 - cb) * u.y * (u.x * v.x + u.y * v.y + u.z * v.z)) * hu'
  · linear_combination (-(sa * sb * v.z) + (1 - ca) * (1 - cb) * u.z * (u.x * v.x + u.y * v.y + u.z * v.z)) * hu'

theorem rodrigues_neg_cancel (u : V3) (θ : ℝ) (hu : u.dot u = 1) (v : V3) :
    rodrigues u (-θ) (rodrigues u θ v) = v := by
  rw [rodrigues_comp u _ _ hu, add_neg_cancel, rodrigues_zero_angle]

theorem rodrigues_dot (u : V3) (θ : ℝ) (hu : u.dot u = 1) (a b : V3) :
    (rodrigues u θ a).dot (rodrigues u θ b) = a.dot b := by
  have hu' : u.x * u.x + u.y * u.y + u.z * u.z = 1 := hu
  have h1 : Real.sin θ ^ 2 + Real.cos θ ^ 2 = 1 := Real.sin_sq_add_cos_sq θ
  simp only [rodrigues]
  set C := Real.cos θ
  set S := Real.sin θ
  simp [V3.dot]
  linear_combination
    (S ^ 2 * (a.x * b.x + a.y * b.y + a.z * b.z)
      + (1 - C) ^ 2 * (u.x * a.x + u.y * a.y + u.z * a.z) * (u.x * b.x + u.y * b.y + u.z * b.z)) * hu'
    + ((a.x * b.x + a.y * b.y + a.z * b.z) - (u.x * a.x + u.y * a.y + u.z * a.z) * (u.x * b.x + u.y * b.y + u.z * b.z)) * h1

theorem rodrigues_norm (u : V3) (θ : ℝ) (hu : u.dot u = 1) (a : V3) :
    (rodrigues u θ a).norm = a.norm := by
  rw [V3.norm, rodrigues_dot u θ hu, V3.norm]

theorem rodrigues_cross (u : V3) (θ : ℝ) (hu : u.dot u = 1) (a b : V3) :
    V3.cross (rodrigues u θ a) (rodrigues u θ b) = rodrigues u θ (V3.cross a b) := by
  have hu' : u.x * u.x + u.y * u.y + u.z * u.z = 1 := hu
  have h1 : Real.sin θ ^ 2 + Real.cos θ ^ 2 = 1 := Real.sin_sq_add_cos_sq θ
  simp only [rodrigues]
  set C := Real.cos θ
  set S := Real.sin θ
  ext <;> simp [V3.dot]
  · linear_combination
      (C * (1 - C) * (a.y * b.z - a.z * b.y)
        + S * (1 - C) * ((u.x * b.x + u.y * b.y + u.z * b.z) * a.x - (u.x * a.x + u.y * a.y + u.z * a.z) * b.x)) * hu'
      + (u.x * (a.y * b.z - a.z * b.y) + u.y * (a.z * b.x - a.x * b.z) + u.z * (a.x * b.y - a.y * b.x)) * u.x * h1
  · linear_combination
      (C * (1 - C) * (a.z * b.x - a.x * b.z)
        + S * (1 - C) * ((u.x * b.x + u.y * b.y + u.z * b.z) * a.y - (u.x * a.x + u.y * a.y + u.z * a.z) * b.y)) * hu'
      + (u.x * (a.y * b.z - a.z * b.y) + u.y * (a.z * b.x - a.x * b.z) + u.z * (a.x * b.y - a.y * b.x)) * u.y * h1
  · linear_combination
      (C * (1 - C) * (a.x * b.y - a.y * b.x)
        + S * (1 - C) * ((u.x * b.x + u.y * b.y + u.z * b.z) * a.z - (u.x * a.x + u.y * a.y + u.z * a.z) * b.z)) * hu'
      + (u.x * (a.y * b.z - a.z * b.y) + u.y * (a.z * b.x - a.x * b.z) + u.z * (a.x * b.y - a.y * b.x)) * u.z * h1

theorem rodrigues_neg_axis (u : V3) (θ : ℝ) (v : V3) :
    rodrigues (-u) θ v = rodrigues u (-θ) v := by
  simp only [rodrigues, Real.cos_neg, Real.sin_neg]
  ext <;> simp [V3.dot] <;> ring

theorem unit_smul_pos (k : V3) {s : ℝ} (hs : 0 < s) : unit (s • k) = unit k := by
  by_cases hk : k = 0
  · subst hk; simp [unit]
  have hp := V3.norm_pos hk
  rw [unit, unit, V3.norm_smul, abs_of_pos hs, smul_smul]
  congr 1
  field_simp

theorem unit_smul_neg (k : V3) {s : ℝ} (hs : s < 0) : unit (s • k) = -unit k := by
  by_cases hk : k = 0
  · subst hk; simp [unit]
  have hp := V3.norm_pos hk
  rw [unit, unit, V3.norm_smul, abs_of_neg hs, smul_smul, ← neg_smul]
  congr 1
  have hs' := hs.ne
  field_simp

theorem norm_smul_unit {k : V3} (h : k ≠ 0) : k.norm • unit k = k := by
  have hp := V3.norm_pos h
  rw [unit, smul_smul, mul_one_div_cancel hp.ne', one_smul]

/-! ### The homogeneous-matrix product -/

theorem matD_mulVec (p q : V3) : (matD p).mulVec (homog q) = homog (q - p) := by
  ext i; fin_cases i <;> simp [matD, homog, Matrix.mulVec, dotProduct, Fin.sum_univ_four] <;> ring

theorem matDinv_mulVec (p q : V3) : (matDinv p).mulVec (homog q) = homog (p + q) := by
  ext i; fin_cases i <;> simp [matDinv, homog, Matrix.mulVec, dotProduct, Fin.sum_univ_four] <;> ring

theorem matRx_mulVec (b c v : ℝ) (q : V3) : (matRx b c v).mulVec (homog q) =
    homog ⟨q.x, c/v * q.y - b/v * q.z, b/v * q.y + c/v * q.z⟩ := by
  ext i; fin_cases i <;> simp [matRx, homog, Matrix.mulVec, dotProduct, Fin.sum_univ_four] <;> ring

theorem matRxInv_mulVec (b c v : ℝ) (q : V3) : (matRxInv b c v).mulVec (homog q) =
    homog ⟨q.x, c/v * q.y + b/v * q.z, -(b/v) * q.y + c/v * q.z⟩ := by
  ext i; fin_cases i <;> simp [matRxInv, homog, Matrix.mulVec, dotProduct, Fin.sum_univ_four] <;> ring

theorem matRy_mulVec (a v l : ℝ) (q : V3) : (matRy a v l).mulVec (homog q) =
    homog ⟨v/l * q.x - a/l * q.z, q.y, a/l * q.x + v/l * q.z⟩ := by
  ext i; fin_cases i <;> simp [matRy, homog, Matrix.mulVec, dotProduct, Fin.sum_univ_four] <;> ring

theorem matRyInv_mulVec (a v l : ℝ) (q : V3) : (matRyInv a v l).mulVec (homog q) =
    homog ⟨v/l * q.x + a/l * q.z, q.y, -(a/l) * q.x + v/l * q.z⟩ := by
  ext i; fin_cases i <;> simp [matRyInv, homog, Matrix.mulVec, dotProduct, Fin.sum_univ_four] <;> ring

theorem matRz_mulVec (θ : ℝ) (q : V3) : (matRz θ).mulVec (homog q) =
    homog ⟨Real.cos θ * q.x - Real.sin θ * q.y, Real.sin θ * q.x + Real.cos θ * q.y, q.z⟩ := by
  ext i; fin_cases i <;> simp [matRz, homog, Matrix.mulVec, dotProduct, Fin.sum_univ_four] <;> ring

theorem dehomog_homog (q : V3) : dehomog (homog q) = q := rfl

/-- Pure algebra: conjugating a z rotation by the two alignments is Rodrigues' formula. -/
theorem align_rodrigues (B C A V ct st : ℝ) (q : V3)
    (h1 : B ^ 2 + C ^ 2 = 1) (h2 : A ^ 2 + V ^ 2 = 1) :
    let q1 : V3 := ⟨q.x, C * q.y - B * q.z, B * q.y + C * q.z⟩
    let q2 : V3 := ⟨V * q1.x - A * q1.z, q1.y, A * q1.x + V * q1.z⟩
    let q3 : V3 := ⟨ct * q2.x - st * q2.y, st * q2.x + ct * q2.y, q2.z⟩
    let q4 : V3 := ⟨V * q3.x + A * q3.z, q3.y, -A * q3.x + V * q3.z⟩
    let q5 : V3 := ⟨q4.x, C * q4.y + B * q4.z, -B * q4.y + C * q4.z⟩
    let u : V3 := ⟨A, V * B, V * C⟩
    q5 = ct • q + st • V3.cross u q + ((1 - ct) * u.dot q) • u := by
  intro q1 q2 q3 q4 q5 u
  ext <;> simp [q5, q4, q3, q2, q1, u, V3.dot]
  · linear_combination (ct * q.x) * h2
  · linear_combination ((B * (ct * (B * q.y + C * q.z)))) * h2 + (ct * q.y + st * A * (- q.z)) * h1
  · linear_combination ((C * (ct * (B * q.y + C * q.z)))) * h2 + (ct * q.z + st * A * q.y) * h1

theorem rotateAboutLineCore_eq (p1 p2 : V3) (θ : ℝ)
    (h : (p2 - p1).y ^ 2 + (p2 - p1).z ^ 2 ≠ 0) (p : V3) :
    rotateAboutLineCore p1 p2 θ p = rotateAboutLine p1 p2 θ p := by
  set ax := p2 - p1 with hax
  have hnn : 0 ≤ ax.y ^ 2 + ax.z ^ 2 := by positivity
  have hv2 := Real.mul_self_sqrt hnn
  have hvp : 0 < Real.sqrt (ax.y ^ 2 + ax.z ^ 2) := Real.sqrt_pos.2 (lt_of_le_of_ne hnn (Ne.symm h))
  have hax0 : ax ≠ 0 := by
    intro h0; apply h; rw [h0]; simp
  have hlp := V3.norm_pos hax0
  have hl2 := V3.norm_mul_self ax
  unfold rotateAboutLineCore arbitraryAxisMatrix
  simp only [← hax]
  set v := Real.sqrt (ax.y ^ 2 + ax.z ^ 2)
  set l := ax.norm with hl
  simp only [← Matrix.mulVec_mulVec, matD_mulVec, matRx_mulVec, matRy_mulVec, matRz_mulVec,
    matRyInv_mulVec, matRxInv_mulVec, matDinv_mulVec, dehomog_homog]
  unfold rotateAboutLine rodrigues
  rw [← hax]
  congr 1
  have hu : unit ax = ⟨ax.x / l, v / l * (ax.y / v), v / l * (ax.z / v)⟩ := by
    ext <;> simp [unit, ← hl] <;> field_simp
  have key := align_rodrigues (ax.y / v) (ax.z / v) (ax.x / l) (v / l) (Real.cos θ) (Real.sin θ)
    (p - p1) (by field_simp; linarith [hv2]) (by
      field_simp
      have : ax.dot ax = ax.x * ax.x + ax.y * ax.y + ax.z * ax.z := rfl
      nlinarith [hv2, hl2])
  rw [hu]
  exact key

end PySailing
