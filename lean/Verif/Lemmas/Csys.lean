import Verif.Lemmas.Rotation

/-! # Lemmas about `Csys` -/

namespace PySailing

open Spec

theorem unit_of_dot_one {k : V3} (h : k.dot k = 1) : unit k = k := by
  simp [unit, V3.norm, h]

theorem ex_dot : Csys.ex.dot Csys.ex = 1 := by simp [Csys.ex, V3.dot]
theorem ez_dot : Csys.ez.dot Csys.ez = 1 := by simp [Csys.ez, V3.dot]
theorem ex_ne : Csys.ex ≠ 0 := by
  intro h; have := congrArg V3.x h; simp [Csys.ex] at this
theorem ez_ne : Csys.ez ≠ 0 := by
  intro h; have := congrArg V3.z h; simp [Csys.ez] at this

theorem rot_ex (θ : ℝ) (v : V3) : (rotationMatrixCore Csys.ex θ).mulVec v =
    ⟨v.x, Real.cos θ * v.y - Real.sin θ * v.z, Real.sin θ * v.y + Real.cos θ * v.z⟩ := by
  rw [rotationMatrixCore_eq _ _ ex_ne, unit_of_dot_one ex_dot]
  ext <;> simp [rodrigues, Csys.ex, V3.dot] <;> ring

theorem rot_ez (θ : ℝ) (v : V3) : (rotationMatrixCore Csys.ez θ).mulVec v =
    ⟨Real.cos θ * v.x - Real.sin θ * v.y, Real.sin θ * v.x + Real.cos θ * v.y, v.z⟩ := by
  rw [rotationMatrixCore_eq _ _ ez_ne, unit_of_dot_one ez_dot]
  ext <;> simp [rodrigues, Csys.ez, V3.dot] <;> ring

theorem deg2rad_neg (x : ℝ) : deg2rad (-x) = -deg2rad x := by simp [deg2rad]

namespace Csys
variable (c : Csys)

theorem heeling_mulVec (v : V3) : c.heeling.mulVec v =
    ⟨v.x, Real.cos (deg2rad c.heelDeg) * v.y + Real.sin (deg2rad c.heelDeg) * v.z,
      -Real.sin (deg2rad c.heelDeg) * v.y + Real.cos (deg2rad c.heelDeg) * v.z⟩ := by
  rw [heeling, rot_ex, deg2rad_neg, Real.cos_neg, Real.sin_neg]
  ext <;> simp

theorem reverseHeeling_mulVec (v : V3) : c.reverseHeeling.mulVec v =
    ⟨v.x, Real.cos (deg2rad c.heelDeg) * v.y - Real.sin (deg2rad c.heelDeg) * v.z,
      Real.sin (deg2rad c.heelDeg) * v.y + Real.cos (deg2rad c.heelDeg) * v.z⟩ := by
  rw [reverseHeeling, rot_ex]

theorem leeway_mulVec (v : V3) : c.leeway.mulVec v =
    ⟨Real.cos (deg2rad c.leewayDeg) * v.x - Real.sin (deg2rad c.leewayDeg) * v.y,
      Real.sin (deg2rad c.leewayDeg) * v.x + Real.cos (deg2rad c.leewayDeg) * v.y, v.z⟩ := by
  rw [leeway, rot_ez]

theorem reverseLeeway_mulVec (v : V3) : c.reverseLeeway.mulVec v =
    ⟨Real.cos (deg2rad c.leewayDeg) * v.x + Real.sin (deg2rad c.leewayDeg) * v.y,
      -Real.sin (deg2rad c.leewayDeg) * v.x + Real.cos (deg2rad c.leewayDeg) * v.y, v.z⟩ := by
  rw [reverseLeeway, rot_ez, deg2rad_neg, Real.cos_neg, Real.sin_neg]
  ext <;> simp

theorem reverseLeeway_leeway (v : V3) : c.reverseLeeway.mulVec (c.leeway.mulVec v) = v := by
  have h := Real.sin_sq_add_cos_sq (deg2rad c.leewayDeg)
  rw [reverseLeeway_mulVec, leeway_mulVec]
  ext <;> simp <;> [linear_combination v.x * h; linear_combination v.y * h]

theorem reverseHeeling_heeling (v : V3) : c.reverseHeeling.mulVec (c.heeling.mulVec v) = v := by
  have h := Real.sin_sq_add_cos_sq (deg2rad c.heelDeg)
  rw [reverseHeeling_mulVec, heeling_mulVec]
  ext <;> simp <;> [linear_combination v.y * h; linear_combination v.z * h]

theorem heeling_reverseHeeling (v : V3) : c.heeling.mulVec (c.reverseHeeling.mulVec v) = v := by
  have h := Real.sin_sq_add_cos_sq (deg2rad c.heelDeg)
  rw [reverseHeeling_mulVec, heeling_mulVec]
  ext <;> simp <;> [linear_combination v.y * h; linear_combination v.z * h]

theorem heeling_dot (a b : V3) : (c.heeling.mulVec a).dot (c.heeling.mulVec b) = a.dot b := by
  rw [heeling, rotationMatrixCore_eq _ _ ex_ne, rotationMatrixCore_eq _ _ ex_ne]
  exact rodrigues_dot _ _ (unit_dot_self ex_ne) _ _

theorem reverseHeeling_dot (a b : V3) :
    (c.reverseHeeling.mulVec a).dot (c.reverseHeeling.mulVec b) = a.dot b := by
  rw [reverseHeeling, rotationMatrixCore_eq _ _ ex_ne, rotationMatrixCore_eq _ _ ex_ne]
  exact rodrigues_dot _ _ (unit_dot_self ex_ne) _ _

theorem leeway_dot (a b : V3) : (c.leeway.mulVec a).dot (c.leeway.mulVec b) = a.dot b := by
  rw [leeway, rotationMatrixCore_eq _ _ ez_ne, rotationMatrixCore_eq _ _ ez_ne]
  exact rodrigues_dot _ _ (unit_dot_self ez_ne) _ _

theorem leeway_norm (a : V3) : (c.leeway.mulVec a).norm = a.norm := by
  rw [V3.norm, leeway_dot, V3.norm]

theorem heeling_norm (a : V3) : (c.heeling.mulVec a).norm = a.norm := by
  rw [V3.norm, heeling_dot, V3.norm]

theorem reverseHeeling_norm (a : V3) : (c.reverseHeeling.mulVec a).norm = a.norm := by
  rw [V3.norm, reverseHeeling_dot, V3.norm]

theorem rotatePointWithMirror_pos {p : V3} (h : 0 < p.z) :
    c.rotatePointWithMirror p = c.leeway.mulVec (c.heeling.mulVec p) := by
  simp [rotatePointWithMirror, h]

theorem rotatePointWithMirror_npos {p : V3} (h : ¬ 0 < p.z) :
    c.rotatePointWithMirror p = c.leeway.mulVec (c.reverseHeeling.mulVec p) := by
  simp only [rotatePointWithMirror, gt_iff_lt, h, if_false]

theorem mirror_heeling (p : V3) :
    c.reverseHeeling.mulVec (mirror p) = mirror (c.heeling.mulVec p) := by
  rw [reverseHeeling_mulVec, heeling_mulVec]
  ext <;> simp [mirror] <;> ring

theorem mirror_reverseHeeling (p : V3) :
    c.heeling.mulVec (mirror p) = mirror (c.reverseHeeling.mulVec p) := by
  rw [reverseHeeling_mulVec, heeling_mulVec]
  ext <;> simp [mirror] <;> ring

theorem mirror_leeway (p : V3) : c.leeway.mulVec (mirror p) = mirror (c.leeway.mulVec p) := by
  rw [leeway_mulVec, leeway_mulVec]; ext <;> simp [mirror]

theorem rotatePointWithMirror_mirror {p : V3} (h : p.z ≠ 0) :
    c.rotatePointWithMirror (mirror p) = mirror (c.rotatePointWithMirror p) := by
  rcases lt_or_gt_of_ne h with h | h
  · have h1 : 0 < (mirror p).z := by simp [mirror, h]
    rw [rotatePointWithMirror_pos _ h1, rotatePointWithMirror_npos _ (not_lt.2 h.le),
      mirror_reverseHeeling, mirror_leeway]
  · have h1 : ¬ 0 < (mirror p).z := by simp [mirror, le_of_lt h]
    rw [rotatePointWithMirror_pos _ h, rotatePointWithMirror_npos _ h1,
      mirror_heeling, mirror_leeway]

/-- Upright, both branches agree. -/
theorem rotatePointWithMirror_upright (h : Real.sin (deg2rad c.heelDeg) = 0) (p : V3) :
    c.rotatePointWithMirror p = c.leeway.mulVec (c.heeling.mulVec p) := by
  by_cases hp : 0 < p.z
  · exact c.rotatePointWithMirror_pos hp
  · rw [c.rotatePointWithMirror_npos hp, reverseHeeling_mulVec, heeling_mulVec, h]
    simp

theorem rotatePointWithMirror_mirror_upright (h : Real.sin (deg2rad c.heelDeg) = 0) (p : V3) :
    c.rotatePointWithMirror (mirror p) = mirror (c.rotatePointWithMirror p) := by
  rw [c.rotatePointWithMirror_upright h, c.rotatePointWithMirror_upright h, ← mirror_leeway]
  congr 1
  rw [heeling_mulVec, heeling_mulVec, h]
  ext <;> simp [mirror]

theorem leeway_sum (l : List V3) : (l.map c.leeway.mulVec).sum = c.leeway.mulVec l.sum := by
  induction l with
  | nil => simp
  | cons a l ih => simp [ih, M3.mulVec_add]

end Csys

/-- For a unit axis and *any* signed angle, scipy's rotation vector agrees with Rodrigues. -/
theorem scipyRotvec_smul (u : V3) (hu : u.dot u = 1) (θ : ℝ) (v : V3) :
    scipyRotvec (θ • u) v = rodrigues u θ v := by
  have hun : u.norm = 1 := by simp [V3.norm, hu]
  have hu0 : u ≠ 0 := by rintro rfl; simp at hu
  unfold scipyRotvec
  rcases lt_trichotomy θ 0 with h | h | h
  · have : θ • u ≠ 0 := by simp [smul_eq_zero, h.ne, hu0]
    rw [if_neg this, unit_smul_neg _ h, unit_of_dot_one hu, V3.norm_smul, hun, abs_of_neg h,
      rodrigues_neg_axis]
    simp
  · subst h; simp [rodrigues_zero_angle]
  · have : θ • u ≠ 0 := by simp [smul_eq_zero, h.ne', hu0]
    rw [if_neg this, unit_smul_pos _ h, unit_of_dot_one hu, V3.norm_smul, hun, abs_of_pos h]
    simp

theorem M3.ext_of_basis (m : M3) : m =
    ⟨⟨(m.mulVec ⟨1,0,0⟩).x, (m.mulVec ⟨0,1,0⟩).x, (m.mulVec ⟨0,0,1⟩).x⟩,
     ⟨(m.mulVec ⟨1,0,0⟩).y, (m.mulVec ⟨0,1,0⟩).y, (m.mulVec ⟨0,0,1⟩).y⟩,
     ⟨(m.mulVec ⟨1,0,0⟩).z, (m.mulVec ⟨0,1,0⟩).z, (m.mulVec ⟨0,0,1⟩).z⟩⟩ := by
  ext <;> simp [V3.dot]

theorem scipyMatrix_eq (u : V3) (hu : u.dot u = 1) (θ : ℝ) :
    scipyMatrix (θ • u) = rotationMatrixCore u θ := by
  have hu0 : u ≠ 0 := by rintro rfl; simp at hu
  rw [M3.ext_of_basis (rotationMatrixCore u θ)]
  simp only [scipyMatrix, scipyRotvec_smul u hu, rotationMatrixCore_eq _ _ hu0, unit_of_dot_one hu]

theorem M3.almostEq_refl (m : M3) : m.almostEq m := by
  have h : ∀ a : ℝ, PySailing.almostEq a a := by intro a; unfold PySailing.almostEq; norm_num
  exact ⟨⟨h _, h _, h _⟩, ⟨h _, h _, h _⟩, ⟨h _, h _, h _⟩⟩

end PySailing
