import Verif.Demo.TwoPanels
import Verif.Props.Solver
import Verif.Props.Lattice
import Verif.Props.Mirror

/-!
# The force on the concrete sail is not zero
-/

namespace PySailing.Demo

open PySailing Spec

theorem panelLine_x (p p1 p2 : V3) (g : ℝ) (h0 : p.y = 0) (h1 : p1.y = 0) (h2 : p2.y = 0) :
    (vortexLine p p1 p2 g).x = 0 := by
  by_cases hout : coreTest p p1 p2
  · rw [vortexLine_core g hout]; rfl
  · rw [vortexLine_out _ hout]
    simp [h0, h1, h2]

/-- The velocity in the direction of motion induced by a wake that starts one chord behind. -/
theorem panelWake_x (P A : V3) (z : ℝ) (hr : P - A = ⟨-1, 0, z⟩) :
    (vortexInfiniteLine P A V 1).x =
      (1 / (4 * Real.pi)) * (h * z / (Real.sqrt (1 + z * z) * (Real.sqrt (1 + z * z) + h))) := by
  have nV : V.norm = 2 * h := by
    have e : V.dot V = 2 := by simp [V3.dot, V]; norm_num
    rw [V3.norm, e, Real.sqrt_eq_iff_mul_self_eq (by norm_num) (by have := h_pos; linarith)]
    have := h_sq; linarith
  have hu : (1 / V.norm) = h := by
    rw [nV]; have := h_sq; have := h_pos
    field_simp; nlinarith
  have hn : (P - A).norm = Real.sqrt (1 + z * z) := by
    rw [hr, V3.norm]; congr 1; simp [V3.dot]
  unfold vortexInfiniteLine
  have hd : V.dot (P - A) = -1 := by rw [hr]; simp [V, V3.dot]
  simp only [hu, V3.dot_smul_left, V3.cross_smul_left, hn, hd]
  rw [hr, show Real.sqrt (1 + z * z) - h * -1 = Real.sqrt (1 + z * z) + h by ring]
  generalize Real.sqrt (1 + z * z) * (Real.sqrt (1 + z * z) + h) = D
  simp [V]
  ring

theorem panelHorseshoe_x (p A B C D : V3) (zA zD : ℝ) (h0 : p.y = 0) (hA : A.y = 0) (hB : B.y = 0) (hC : C.y = 0)
    (hD : D.y = 0) (hrA : p - A = ⟨-1, 0, zA⟩) (hrD : p - D = ⟨-1, 0, zD⟩) :
    (vortexHorseshoeV2 p A B C D V 1).x = (1 / (4 * Real.pi)) *
      (h * zD / (Real.sqrt (1 + zD * zD) * (Real.sqrt (1 + zD * zD) + h)) -
       h * zA / (Real.sqrt (1 + zA * zA) * (Real.sqrt (1 + zA * zA) + h))) := by
  unfold vortexHorseshoeV2
  rw [vortexInfiniteLine_gamma _ A V (-1 * 1)]
  simp only [V3.add_x, V3.smul_x, panelLine_x _ _ _ _ h0 hA hB, panelLine_x _ _ _ _ h0 hB hC, panelLine_x _ _ _ _ h0 hC hD,
    panelWake_x _ _ _ hrA, panelWake_x _ _ _ hrD]
  ring

/-- Both panels together push the air at the pressure point against the direction of motion. -/
theorem panelCp_x : (vortexHorseshoeV2 ⟨1 / 4, 0, 3 / 2⟩ ⟨5 / 4, 0, 1⟩ ⟨1 / 4, 0, 1⟩ ⟨1 / 4, 0, 2⟩ ⟨5 / 4, 0, 2⟩ V 1).x +
    (vortexHorseshoeV2 ⟨1 / 4, 0, 3 / 2⟩ (mirror ⟨5 / 4, 0, 2⟩) (mirror ⟨1 / 4, 0, 2⟩)
      (mirror ⟨1 / 4, 0, 1⟩) (mirror ⟨5 / 4, 0, 1⟩) V 1).x ≤ 0 := by
  rw [panelHorseshoe_x _ _ _ _ _ (1 / 2) (-(1 / 2)) rfl rfl rfl rfl rfl (by ext <;> simp <;> norm_num)
      (by ext <;> simp <;> norm_num),
    panelHorseshoe_x _ _ _ _ _ (7 / 2) (5 / 2) rfl rfl rfl rfl rfl (by ext <;> simp [mirror] <;> norm_num)
      (by ext <;> simp [mirror] <;> norm_num)]
  have hpi : 0 < 1 / (4 * Real.pi) := by have := Real.pi_pos; positivity
  rw [← mul_add]
  apply mul_nonpos_of_nonneg_of_nonpos hpi.le
  have hh := h_pos
  have hs := h_sq
  have h1 : h ≤ 71 / 100 := by nlinarith
  obtain ⟨a, ha⟩ : ∃ a, a = Real.sqrt (1 + 1 / 2 * (1 / 2)) := ⟨_, rfl⟩
  obtain ⟨b, hb⟩ : ∃ b, b = Real.sqrt (1 + 5 / 2 * (5 / 2)) := ⟨_, rfl⟩
  obtain ⟨c, hc⟩ : ∃ c, c = Real.sqrt (1 + 7 / 2 * (7 / 2)) := ⟨_, rfl⟩
  have ha2 : a * a = 5 / 4 := by rw [ha, Real.mul_self_sqrt] <;> norm_num
  have hb2 : b * b = 29 / 4 := by rw [hb, Real.mul_self_sqrt] <;> norm_num
  have ha0 : 0 ≤ a := ha ▸ Real.sqrt_nonneg _
  have hb0 : 0 ≤ b := hb ▸ Real.sqrt_nonneg _
  have hc0 : 0 ≤ c := hc ▸ Real.sqrt_nonneg _
  have ha1 : a ≤ 112 / 100 := by nlinarith
  rw [show (1 : ℝ) + -(1 / 2) * -(1 / 2) = 1 + 1 / 2 * (1 / 2) by ring, ← ha, ← hb, ← hc]
  have e1 : h * (1 / 2) / (a * (a + h)) ≥ h * (1 / 5) := by
    have : 0 < a * (a + h) := by nlinarith
    rw [ge_iff_le, le_div_iff₀ this]
    nlinarith
  have e2 : h * (5 / 2) / (b * (b + h)) ≤ h * (2 / 5) := by
    have : 0 < b * (b + h) := by nlinarith
    rw [div_le_iff₀ this]
    nlinarith
  have e3 : 0 ≤ h * (7 / 2) / (c * (c + h)) := by positivity
  have e4 : h * -(1 / 2) / (a * (a + h)) = -(h * (1 / 2) / (a * (a + h))) := by ring
  rw [e4]
  nlinarith

/-- The force across the sail. -/
theorem force2_y {r : Vlm} (hr : vlm input2 = .ok r) (hV : r.inlet.vAppInfs = [V, V])
    (hv : r.vars = [vars (-1), (vars (-1)).mirrored]) : (r.out.force.getD 0 0).y ≠ 0 := by
  have hm := Props.C39_mirror input2 [pts] (by simp [input2]) (by simp [input2]) rfl rfl rfl r hr
  obtain ⟨hK, hsym, -⟩ := hm
  have hflux := (Props.C30_no_flow _ _ hr).1
  have h34 := Props.C34_vlm _ _ hr 2 (by simp [input2]) (by simp [input2]) (by simp)
    (by rw [input2_panels]; rfl) rfl 0 0 0 (by simp) (by simp [input2]) (by simp [input2])
  have h35 := Props.C35_decomposition _ _ hr
  obtain ⟨hin, -, -, -, hs⟩ := (vlm_ok_iff _ r).1 hr
  obtain ⟨inp, areas, vars', inl, sol⟩ := r
  simp only at hv hV hin
  subst hv
  subst hin
  obtain ⟨g1, -⟩ := hsym 0 0 0 (by simp) (by simp [input2]) (by simp [input2]) (0 : Fin 2) (1 : Fin 2) rfl rfl
  have f0 := (h34 (0 : Fin 2) rfl).1 rfl
  obtain ⟨-, hvi, hvf, -⟩ := h35 (0 : Fin 2)
  obtain ⟨-, hfc, hn⟩ := hflux (0 : Fin 2)
  show (sol.force (0 : Fin 2)).y ≠ 0
  have hlat : ∀ p, latticeVelocity (fun i : Fin [vars (-1), (vars (-1)).mirrored].length =>
      [vars (-1), (vars (-1)).mirrored][i]) (fun i => input2.te.getD i false) (fun i => inl.vAppInfs.getD i 0)
      input2.g sol.gamma p = sol.gamma (0 : Fin 2) • (-1 : ℝ) • (vortexHorseshoeV2 p ⟨5 / 4, 0, 1⟩ ⟨1 / 4, 0, 1⟩
        ⟨1 / 4, 0, 2⟩ ⟨5 / 4, 0, 2⟩ V 1 + vortexHorseshoeV2 p (mirror ⟨5 / 4, 0, 2⟩) (mirror ⟨1 / 4, 0, 2⟩)
      (mirror ⟨1 / 4, 0, 1⟩) (mirror ⟨5 / 4, 0, 1⟩) V 1) := by
    intro p
    rw [latticeVelocity_eq]
    show ∑ j : Fin 2, _ = _
    rw [Fin.sum_univ_two]
    have e0 : velCoef (fun i : Fin [vars (-1), (vars (-1)).mirrored].length =>
        [vars (-1), (vars (-1)).mirrored][i]) (fun i => input2.te.getD i false)
        (fun i => inl.vAppInfs.getD i 0) input2.g p (0 : Fin 2) = vortexHorseshoeV2 p ⟨5 / 4, 0, 1⟩ ⟨1 / 4, 0, 1⟩
        ⟨1 / 4, 0, 2⟩ ⟨5 / 4, 0, 2⟩ V (-1) := by
      rw [hV]; rfl
    have e1 : velCoef (fun i : Fin [vars (-1), (vars (-1)).mirrored].length =>
        [vars (-1), (vars (-1)).mirrored][i]) (fun i => input2.te.getD i false)
        (fun i => inl.vAppInfs.getD i 0) input2.g p (1 : Fin 2) = vortexHorseshoeV2 p (mirror ⟨5 / 4, 0, 2⟩)
        (mirror ⟨1 / 4, 0, 2⟩) (mirror ⟨1 / 4, 0, 1⟩) (mirror ⟨5 / 4, 0, 1⟩) V (-1) := by
      rw [hV]; rfl
    rw [e0, e1, horseshoe_gamma, horseshoe_gamma _ (mirror _)]
    have g1' : sol.gamma (1 : Fin 2) = sol.gamma (0 : Fin 2) := g1
    rw [g1', ← smul_add, ← smul_add]
  have hn' : (V + latticeVelocity (fun i : Fin [vars (-1), (vars (-1)).mirrored].length =>
      [vars (-1), (vars (-1)).mirrored][i]) (fun i => input2.te.getD i false) (fun i => inl.vAppInfs.getD i 0)
      input2.g sol.gamma ⟨3 / 4, 0, 3 / 2⟩).dot ⟨0, 1, 0⟩ = 0 := by
    have e := hn
    rw [hfc] at e
    rw [show V = inl.vAppInfs.getD 0 0 by rw [hV]; rfl]
    exact e
  have hv0 : sol.vFsCp (0 : Fin 2) = V + latticeVelocity (fun i : Fin [vars (-1), (vars (-1)).mirrored].length =>
      [vars (-1), (vars (-1)).mirrored][i]) (fun i => input2.te.getD i false) (fun i => inl.vAppInfs.getD i 0)
      input2.g sol.gamma ⟨1 / 4, 0, 3 / 2⟩ := by
    have e := hvf
    rw [hvi] at e
    rw [show V = inl.vAppInfs.getD 0 0 by rw [hV]; rfl]
    exact e
  have f0' : sol.force (0 : Fin 2) = (1 : ℝ) • V3.cross (sol.vFsCp (0 : Fin 2))
      (sol.gamma (0 : Fin 2) • (⟨0, 0, -1⟩ : V3)) := f0
  rw [hlat] at hn' hv0
  have ha := unit_y_lower
  have hb := image_y
  have hx := panelCp_x
  have hpi : 0 < 1 / (4 * Real.pi) := by have := Real.pi_pos; positivity
  generalize sol.gamma (0 : Fin 2) = γ at *
  generalize (1 / (4 * Real.pi) : ℝ) = q at *
  generalize vortexHorseshoeV2 ⟨3 / 4, 0, 3 / 2⟩ ⟨5 / 4, 0, 1⟩ ⟨1 / 4, 0, 1⟩ ⟨1 / 4, 0, 2⟩ ⟨5 / 4, 0, 2⟩ V 1 = A at *
  generalize vortexHorseshoeV2 ⟨3 / 4, 0, 3 / 2⟩ (mirror ⟨5 / 4, 0, 2⟩) (mirror ⟨1 / 4, 0, 2⟩)
    (mirror ⟨1 / 4, 0, 1⟩) (mirror ⟨5 / 4, 0, 1⟩) V 1 = B at *
  generalize vortexHorseshoeV2 ⟨1 / 4, 0, 3 / 2⟩ ⟨5 / 4, 0, 1⟩ ⟨1 / 4, 0, 1⟩ ⟨1 / 4, 0, 2⟩ ⟨5 / 4, 0, 2⟩ V 1 = C at *
  generalize vortexHorseshoeV2 ⟨1 / 4, 0, 3 / 2⟩ (mirror ⟨5 / 4, 0, 2⟩) (mirror ⟨1 / 4, 0, 2⟩)
    (mirror ⟨1 / 4, 0, 1⟩) (mirror ⟨5 / 4, 0, 1⟩) V 1 = D at *
  rw [abs_le] at hb
  have hg : γ * (A.y + B.y) = 1 := by
    simp [V3.dot, V] at hn'
    linarith
  have hgp : 0 < γ := by
    by_contra hc
    push Not at hc
    nlinarith
  have hvx : (sol.vFsCp (0 : Fin 2)).x = 1 + γ * (-1 * (C.x + D.x)) := by
    rw [hv0]; simp [V]; ring
  rw [f0']
  intro this
  simp [hvx] at this
  rcases this with h | h
  · nlinarith
  · linarith

/-- The force on the sail. -/
theorem force2_ne {r : Vlm} (hr : vlm input2 = .ok r) (hV : r.inlet.vAppInfs = [V, V])
    (hv : r.vars = [vars (-1), (vars (-1)).mirrored]) : r.out.force.getD 0 0 ≠ 0 :=
  fun h => force2_y hr hV hv (by rw [h]; rfl)

end PySailing.Demo
