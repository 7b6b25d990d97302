import Verif.Demo.Force
import Verif.Props.Reported

/-!
# Lift and drag of the concrete sail are not zero
-/

namespace PySailing.Demo

open PySailing Spec

/-- Both panels together push the air at the pressure point against the direction of motion. -/
theorem panelCp_neg : (vortexHorseshoeV2 ⟨1 / 4, 0, 3 / 2⟩ ⟨5 / 4, 0, 1⟩ ⟨1 / 4, 0, 1⟩ ⟨1 / 4, 0, 2⟩ ⟨5 / 4, 0, 2⟩ V 1).x +
    (vortexHorseshoeV2 ⟨1 / 4, 0, 3 / 2⟩ (mirror ⟨5 / 4, 0, 2⟩) (mirror ⟨1 / 4, 0, 2⟩)
      (mirror ⟨1 / 4, 0, 1⟩) (mirror ⟨5 / 4, 0, 1⟩) V 1).x < 0 := by
  rw [panelHorseshoe_x _ _ _ _ _ (1 / 2) (-(1 / 2)) rfl rfl rfl rfl rfl (by ext <;> simp <;> norm_num)
      (by ext <;> simp <;> norm_num),
    panelHorseshoe_x _ _ _ _ _ (7 / 2) (5 / 2) rfl rfl rfl rfl rfl (by ext <;> simp [mirror] <;> norm_num)
      (by ext <;> simp [mirror] <;> norm_num)]
  have hpi : 0 < 1 / (4 * Real.pi) := by have := Real.pi_pos; positivity
  rw [← mul_add]
  apply mul_neg_of_pos_of_neg hpi
  have hh := h_pos
  have hs := h_sq
  have h1 : h ≤ 71 / 100 := by nlinarith
  obtain ⟨a, ha⟩ : ∃ a, a = Real.sqrt (1 + 1 / 2 * (1 / 2)) := ⟨_, rfl⟩
  obtain ⟨b, hb⟩ : ∃ b, b = Real.sqrt (1 + 5 / 2 * (5 / 2)) := ⟨_, rfl⟩
  obtain ⟨c, hc⟩ : ∃ c, c = Real.sqrt (1 + 7 / 2 * (7 / 2)) := ⟨_, rfl⟩
  have ha2 : a * a = 5 / 4 := by rw [ha, Real.mul_self_sqrt] <;> norm_num
  have hb2 : b * b = 29 / 4 := by rw [hb, Real.mul_self_sqrt] <;> norm_num
  have ha0 : 0 ≤ a := ha ▸ Real.sqrt_nonneg _
  have hb0 : 0 ≤ b := hb ▸ Real.sqrt_nonneg _
  have hc0 : 0 ≤ c := hc ▸ Real.sqrt_nonneg _
  have ha1 : a ≤ 112 / 100 := by nlinarith
  rw [show (1 : ℝ) + -(1 / 2) * -(1 / 2) = 1 + 1 / 2 * (1 / 2) by ring, ← ha, ← hb, ← hc]
  have e1 : h * (1 / 2) / (a * (a + h)) ≥ h * (21 / 100) := by
    have : 0 < a * (a + h) := by nlinarith
    rw [ge_iff_le, le_div_iff₀ this]
    nlinarith
  have e2 : h * (5 / 2) / (b * (b + h)) ≤ h * (2 / 5) := by
    have : 0 < b * (b + h) := by nlinarith
    rw [div_le_iff₀ this]
    nlinarith
  have e3 : 0 ≤ h * (7 / 2) / (c * (c + h)) := by positivity
  have e4 : h * -(1 / 2) / (a * (a + h)) = -(h * (1 / 2) / (a * (a + h))) := by ring
  rw [e4]
  nlinarith

/-- Lift and drag of the sail. -/
theorem liftDrag2_ne {r : Vlm} (hr : vlm input2 = .ok r) (hV : r.inlet.vAppInfs = [V, V])
    (hv : r.vars = [vars (-1), (vars (-1)).mirrored]) : r.out.lift.getD 0 0 ≠ 0 ∧ r.out.drag.getD 0 0 ≠ 0 := by
  have hm := Props.C39_mirror input2 [pts] (by simp [input2]) (by simp [input2]) rfl rfl rfl r hr
  obtain ⟨hK, hsym, -⟩ := hm
  have hflux := (Props.C30_no_flow _ _ hr).1
  have h34 := Props.C35_reported _ _ hr 2 (by simp [input2]) (by simp [input2]) (by simp)
    (by rw [input2_panels]; rfl) rfl 0 0 0 (by simp) (by simp [input2]) (by simp [input2])
  have h35 := Props.C35_decomposition _ _ hr
  obtain ⟨hin, -, -, -, hs⟩ := (vlm_ok_iff _ r).1 hr
  obtain ⟨inp, areas, vars', inl, sol⟩ := r
  simp only at hv hV hin
  subst hv
  subst hin
  obtain ⟨g1, -⟩ := hsym 0 0 0 (by simp) (by simp [input2]) (by simp [input2]) (0 : Fin 2) (1 : Fin 2) rfl rfl
  obtain ⟨Γ, hΓ, -, -, -, hlift, hdrag⟩ := h34 (0 : Fin 2) rfl
  replace hΓ : Γ = sol.gamma (0 : Fin 2) := hΓ rfl
  subst hΓ
  obtain ⟨-, hvi, hvf, -⟩ := h35 (0 : Fin 2)
  obtain ⟨-, hfc, hn⟩ := hflux (0 : Fin 2)
  show sol.lift (0 : Fin 2) ≠ 0 ∧ sol.drag (0 : Fin 2) ≠ 0
  have hlat : ∀ p, latticeVelocity (fun i : Fin [vars (-1), (vars (-1)).mirrored].length =>
      [vars (-1), (vars (-1)).mirrored][i]) (fun i => input2.te.getD i false) (fun i => inl.vAppInfs.getD i 0)
      input2.g sol.gamma p = sol.gamma (0 : Fin 2) • (-1 : ℝ) • (vortexHorseshoeV2 p ⟨5 / 4, 0, 1⟩ ⟨1 / 4, 0, 1⟩
        ⟨1 / 4, 0, 2⟩ ⟨5 / 4, 0, 2⟩ V 1 + vortexHorseshoeV2 p (mirror ⟨5 / 4, 0, 2⟩) (mirror ⟨1 / 4, 0, 2⟩)
      (mirror ⟨1 / 4, 0, 1⟩) (mirror ⟨5 / 4, 0, 1⟩) V 1) := by
    intro p
    rw [latticeVelocity_eq]
    show ∑ j : Fin 2, _ = _
    rw [Fin.sum_univ_two]
    have e0 : velCoef (fun i : Fin [vars (-1), (vars (-1)).mirrored].length =>
        [vars (-1), (vars (-1)).mirrored][i]) (fun i => input2.te.getD i false)
        (fun i => inl.vAppInfs.getD i 0) input2.g p (0 : Fin 2) = vortexHorseshoeV2 p ⟨5 / 4, 0, 1⟩ ⟨1 / 4, 0, 1⟩
        ⟨1 / 4, 0, 2⟩ ⟨5 / 4, 0, 2⟩ V (-1) := by
      rw [hV]; rfl
    have e1 : velCoef (fun i : Fin [vars (-1), (vars (-1)).mirrored].length =>
        [vars (-1), (vars (-1)).mirrored][i]) (fun i => input2.te.getD i false)
        (fun i => inl.vAppInfs.getD i 0) input2.g p (1 : Fin 2) = vortexHorseshoeV2 p (mirror ⟨5 / 4, 0, 2⟩)
        (mirror ⟨1 / 4, 0, 2⟩) (mirror ⟨1 / 4, 0, 1⟩) (mirror ⟨5 / 4, 0, 1⟩) V (-1) := by
      rw [hV]; rfl
    rw [e0, e1, horseshoe_gamma, horseshoe_gamma _ (mirror _)]
    have g1' : sol.gamma (1 : Fin 2) = sol.gamma (0 : Fin 2) := g1
    rw [g1', ← smul_add, ← smul_add]
  have hn' : (V + latticeVelocity (fun i : Fin [vars (-1), (vars (-1)).mirrored].length =>
      [vars (-1), (vars (-1)).mirrored][i]) (fun i => input2.te.getD i false) (fun i => inl.vAppInfs.getD i 0)
      input2.g sol.gamma ⟨3 / 4, 0, 3 / 2⟩).dot ⟨0, 1, 0⟩ = 0 := by
    have e := hn
    rw [hfc] at e
    rw [show V = inl.vAppInfs.getD 0 0 by rw [hV]; rfl]
    exact e
  have hv0 : sol.vFsCp (0 : Fin 2) = V + latticeVelocity (fun i : Fin [vars (-1), (vars (-1)).mirrored].length =>
      [vars (-1), (vars (-1)).mirrored][i]) (fun i => input2.te.getD i false) (fun i => inl.vAppInfs.getD i 0)
      input2.g sol.gamma ⟨1 / 4, 0, 3 / 2⟩ := by
    have e := hvf
    rw [hvi] at e
    rw [show V = inl.vAppInfs.getD 0 0 by rw [hV]; rfl]
    exact e
  have fl : sol.lift (0 : Fin 2) = (1 : ℝ) • V3.cross (inl.vAppInfs.getD 0 0)
      ((sol.gamma (0 : Fin 2) * -1) • ((⟨1 / 4, 0, 2⟩ : V3) - ⟨1 / 4, 0, 1⟩)) := Option.some.inj hlift
  have fd : sol.drag (0 : Fin 2) = (1 : ℝ) • V3.cross (sol.vIndCp (0 : Fin 2))
      ((sol.gamma (0 : Fin 2) * -1) • ((⟨1 / 4, 0, 2⟩ : V3) - ⟨1 / 4, 0, 1⟩)) := Option.some.inj hdrag
  rw [hlat] at hn' hv0
  have ha := unit_y_lower
  have hb := image_y
  have hx := panelCp_neg
  have hpi : 0 < 1 / (4 * Real.pi) := by have := Real.pi_pos; positivity
  generalize sol.gamma (0 : Fin 2) = γ at *
  generalize (1 / (4 * Real.pi) : ℝ) = q at *
  generalize vortexHorseshoeV2 ⟨3 / 4, 0, 3 / 2⟩ ⟨5 / 4, 0, 1⟩ ⟨1 / 4, 0, 1⟩ ⟨1 / 4, 0, 2⟩ ⟨5 / 4, 0, 2⟩ V 1 = A at *
  generalize vortexHorseshoeV2 ⟨3 / 4, 0, 3 / 2⟩ (mirror ⟨5 / 4, 0, 2⟩) (mirror ⟨1 / 4, 0, 2⟩)
    (mirror ⟨1 / 4, 0, 1⟩) (mirror ⟨5 / 4, 0, 1⟩) V 1 = B at *
  generalize vortexHorseshoeV2 ⟨1 / 4, 0, 3 / 2⟩ ⟨5 / 4, 0, 1⟩ ⟨1 / 4, 0, 1⟩ ⟨1 / 4, 0, 2⟩ ⟨5 / 4, 0, 2⟩ V 1 = C at *
  generalize vortexHorseshoeV2 ⟨1 / 4, 0, 3 / 2⟩ (mirror ⟨5 / 4, 0, 2⟩) (mirror ⟨1 / 4, 0, 2⟩)
    (mirror ⟨1 / 4, 0, 1⟩) (mirror ⟨5 / 4, 0, 1⟩) V 1 = D at *
  rw [abs_le] at hb
  have hg : γ * (A.y + B.y) = 1 := by
    simp [V3.dot, V] at hn'
    linarith
  have hgp : 0 < γ := by
    by_contra hc
    push Not at hc
    nlinarith
  have hvx : (sol.vFsCp (0 : Fin 2)).x = 1 + γ * (-1 * (C.x + D.x)) := by
    rw [hv0]; simp [V]; ring
  have hix : (sol.vIndCp (0 : Fin 2)).x = γ * (-1 * (C.x + D.x)) := by
    have := congrArg V3.x hvf
    rw [hvx] at this
    simp only [Props.windAt] at this
    rw [show inl.vAppInfs.getD ((0 : Fin 2) : ℕ) 0 = V by rw [hV]; rfl] at this
    simp [V] at this
    linarith
  rw [fl, fd]
  refine ⟨fun h0 => ?_, fun h0 => ?_⟩
  · have := congrArg V3.y h0
    rw [show inl.vAppInfs.getD 0 0 = V by rw [hV]; rfl] at this
    simp [V] at this
    rcases this with h | h
    · linarith
    · norm_num at h
  · have := congrArg V3.y h0
    simp [hix] at this
    rcases this with (h | h) | h | h
    · linarith
    · linarith
    · linarith
    · norm_num at h

end PySailing.Demo
