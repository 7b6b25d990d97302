import Verif.Demo.OnePanel
import Verif.Lemmas.Scaling

/-!
# The one-panel lattice at other sizes
-/

namespace PySailing.Demo

open PySailing Spec

/-- The square panel and the wind of `Demo.input`, `s` times as large. -/
noncomputable def sized (s : ℝ) : VlmInput :=
  { input with panels := input.panels.map (scalePanel s), wind := scaleHeights s input.wind }

theorem sized_one : sized 1 = input := by
  simp [sized, input, scalePanel, scaleHeights, wind]

/-- Normal velocity at the control point due to a unit vortex of the panel of size `s`. -/
noncomputable def unitY (s : ℝ) : ℝ :=
  (vortexHorseshoeV2 (s • ⟨3 / 4, 0, 3 / 2⟩) (s • ⟨5 / 4, 0, 1⟩) (s • ⟨1 / 4, 0, 1⟩)
    (s • ⟨1 / 4, 0, 2⟩) (s • ⟨5 / 4, 0, 2⟩) V 1).y

theorem velCoef_sized (s : ℝ) (i j : Fin 1) :
    (velCoef (K := 1) (fun _ => (vars (-1)).scaled s) (fun _ => true) (fun _ => V) (-1)
      ((vars (-1)).scaled s).ctrP j).dot ((vars (-1)).scaled s).normal = -unitY s := by
  rw [velCoef_eq, if_pos rfl, horseshoe_gamma, V3.dot_smul_left]
  simp only [PanelVars.scaled, vars, unitY, V3.dot, mul_zero, mul_one, zero_add, add_zero]
  ring

theorem gamma_sized {s : ℝ} (hu : unitY s ≠ 0) :
    coreGamma (K := 1) (fun _ => (vars (-1)).scaled s) (fun _ => true) (-1) (fun _ => V) =
      fun _ => 1 / unitY s := by
  symm
  apply coreGamma_unique
  · rw [Matrix.det_fin_one, influence_eq, velCoef_sized s 0 0]
    exact neg_ne_zero.2 hu
  · funext i
    rw [← latticeVelocity_dot, latticeVelocity_eq]
    simp only [Finset.univ_unique, Finset.sum_singleton, V3.dot_smul_left]
    rw [velCoef_sized s 0]
    simp only [PanelVars.scaled, vars, V, V3.dot]
    field_simp
    norm_num

theorem vlm_sized {s : ℝ} (hs : 0 < s) (hA : 1e-14 ≤ s ^ 2) (hu : unitY s ≠ 0) :
    ∃ r, vlm (sized s) = .ok r ∧ r.out.gamma = [1 / unitY s] := by
  obtain ⟨i, hi, hV⟩ := inlet (-1) 1
  obtain ⟨i', hi', hV', -⟩ := inletConditions_scaled hs wind 1 _ hi
  rw [hV] at hV'
  have hw := wellPosed (g := -1) (rho := 1) (by norm_num) (by norm_num)
  have hwp : WellPosed (K := 1) (fun _ => (vars (-1)).scaled s) (fun _ => s ^ 2) (fun _ => true) 1 (-1)
      (fun _ => V) :=
    ⟨clearOfWakes_scaled hs hw.ctr, clearOfWakes_scaled hs hw.cp,
      by rw [Matrix.det_fin_one, influence_eq, velCoef_sized s 0 0]; exact neg_ne_zero.2 hu,
      fun _ => hA, hw.rho, hw.wind⟩
  have hsol : ∃ sol, vlmSolve (sized s) [(vars (-1)).scaled s] [V] = .ok sol ∧
      sol.gamma = fun _ => 1 / unitY s := by
    refine ⟨solOf _ _ _ _ _ _ _ _ _, (vlmCore_ok_iff _ _ _ _ _ _ _ _ _).2 ⟨?_, ?_, rfl⟩, ?_⟩
    all_goals
      have e1 : (fun i : Fin [(vars (-1)).scaled s].length => [(vars (-1)).scaled s][i]) =
          fun _ => (vars (-1)).scaled s := by
        funext i; simp
      have e2 : (fun i : Fin [(vars (-1)).scaled s].length =>
          (getPanelsArea (sized s).panels).getD i 0) = fun _ => s ^ 2 := by
        funext i
        have : panelArea panel = 1 := by simpa [getPanelsArea] using area
        simp [sized, input, getPanelsArea, panelArea_scaled hs, this]
      have e3 : (fun i : Fin [(vars (-1)).scaled s].length => (sized s).te.getD i false) =
          fun _ => true := by
        funext i
        simp [sized, input]
      have e4 : (fun i : Fin [(vars (-1)).scaled s].length => [V].getD i 0) = fun _ => V := by
        funext i
        simp
    · rw [e1, e2, e3, e4]
      exact hwp
    · intro i _
      simp [sized, input]
    · rw [e1, e3, e4]
      exact gamma_sized hu
  obtain ⟨sol, hsol, hg⟩ := hsol
  rw [← hV'] at hsol
  refine ⟨⟨sized s, getPanelsArea (sized s).panels, [(vars (-1)).scaled s], i', sol⟩, (vlm_ok_iff _ _).2
    ⟨rfl, rfl, ?_, ?_, hsol⟩, ?_⟩
  · simp only [sized]
    rw [calculateVlmVariables_scaled hs]
    simp only [input, calc_vars]
    rfl
  · exact hi'
  · simp [Vlm.out, VlmSolution.arrays, hg]

/-- The three bound legs of a unit panel. -/
theorem unitY_one : unitY 1 = 3 * ((1 / (4 * Real.pi)) * (2 / h)) + (1 / (4 * Real.pi)) * (4 / 3) * h := by
  unfold unitY
  simp only [one_smul]
  unfold vortexHorseshoeV2
  rw [vortexInfiniteLine_gamma _ ⟨5 / 4, 0, 1⟩ V (-1 * 1)]
  simp only [V3.add_y, V3.smul_y]
  rw [line_y _ ⟨5 / 4, 0, 1⟩ ⟨1 / 4, 0, 1⟩ (by simp [V3.dot]; norm_num) (by simp [V3.dot]; norm_num)
      (by ext <;> simp <;> norm_num) (by simp [V3.dot]; norm_num),
    line_y _ ⟨1 / 4, 0, 1⟩ ⟨1 / 4, 0, 2⟩ (by simp [V3.dot]; norm_num) (by simp [V3.dot]; norm_num)
      (by ext <;> simp <;> norm_num) (by simp [V3.dot]; norm_num),
    line_y _ ⟨1 / 4, 0, 2⟩ ⟨5 / 4, 0, 2⟩ (by simp [V3.dot]; norm_num) (by simp [V3.dot]; norm_num)
      (by ext <;> simp <;> norm_num) (by simp [V3.dot]; norm_num),
    wake_y _ ⟨5 / 4, 0, 2⟩ (by simp [V3.dot]; norm_num) (by simp [V3.dot, V]; norm_num),
    wake_y _ ⟨5 / 4, 0, 1⟩ (by simp [V3.dot]; norm_num) (by simp [V3.dot, V]; norm_num)]
  have e1 : (V3.cross V ((⟨3 / 4, 0, 3 / 2⟩ : V3) - ⟨5 / 4, 0, 2⟩)).y = 1 / 2 := by
    simp [V]; norm_num
  have e2 : (V3.cross V ((⟨3 / 4, 0, 3 / 2⟩ : V3) - ⟨5 / 4, 0, 1⟩)).y = -(1 / 2) := by
    simp [V]; norm_num
  rw [e1, e2]
  ring

/-- One centimetre: all bound legs are cut off by the core radius, only the two wake lines are left. -/
theorem unitY_cm : unitY (1 / 100) = 100 * ((1 / (4 * Real.pi)) * (4 / 3) * h) := by
  have hs : (0 : ℝ) < 1 / 100 := by norm_num
  have core (p p1 p2 : V3) (h0 : (V3.cross (p - p1) (p - p2)) = ⟨0, 1 / 2, 0⟩) :
      vortexLine ((1 / 100 : ℝ) • p) ((1 / 100 : ℝ) • p1) ((1 / 100 : ℝ) • p2) 1 = 0 := by
    apply vortexLine_core
    right; right
    rw [← smul_sub, ← smul_sub, V3.cross_smul_left, V3.cross_smul_right, h0, V3.norm_sq]
    simp [V3.dot]
    norm_num
  unfold unitY vortexHorseshoeV2
  rw [core _ ⟨5 / 4, 0, 1⟩ ⟨1 / 4, 0, 1⟩ (by ext <;> simp <;> norm_num),
    core _ ⟨1 / 4, 0, 1⟩ ⟨1 / 4, 0, 2⟩ (by ext <;> simp <;> norm_num),
    core _ ⟨1 / 4, 0, 2⟩ ⟨5 / 4, 0, 2⟩ (by ext <;> simp <;> norm_num),
    vortexInfiniteLine_size hs, vortexInfiniteLine_size hs,
    vortexInfiniteLine_gamma _ ⟨5 / 4, 0, 1⟩ V (-1 * 1)]
  simp only [V3.add_y, V3.smul_y, V3.zero_y]
  rw [wake_y _ ⟨5 / 4, 0, 2⟩ (by simp [V3.dot]; norm_num) (by simp [V3.dot, V]; norm_num),
    wake_y _ ⟨5 / 4, 0, 1⟩ (by simp [V3.dot]; norm_num) (by simp [V3.dot, V]; norm_num)]
  have e1 : (V3.cross V ((⟨3 / 4, 0, 3 / 2⟩ : V3) - ⟨5 / 4, 0, 2⟩)).y = 1 / 2 := by
    simp [V]; norm_num
  have e2 : (V3.cross V ((⟨3 / 4, 0, 3 / 2⟩ : V3) - ⟨5 / 4, 0, 1⟩)).y = -(1 / 2) := by
    simp [V]; norm_num
  rw [e1, e2]
  ring

/-- Doubling the size of the demo lattice moves no point into a core or out of it. -/
theorem sizesIrrelevant : SizesIrrelevant (K := 1) 2 (fun _ => vars (-1)) (fun _ => 1) := by
  have out (p p1 p2 : V3) (h1 : 1 / 16 ≤ (p - p1).dot (p - p1)) (h2 : 1 / 16 ≤ (p - p2).dot (p - p2))
      (h3 : 1 / 16 ≤ (V3.cross (p - p1) (p - p2)).dot (V3.cross (p - p1) (p - p2))) :
      sameCore 2 p p1 p2 := by
    have n (v : V3) (hv : 1 / 16 ≤ v.dot v) : 1 / 4 ≤ v.norm := by
      rw [V3.norm]
      apply Real.le_sqrt_of_sq_le
      linarith
    have a1 := n _ h1
    have a2 := n _ h2
    unfold sameCore inSegmentCore
    rw [← smul_sub, ← smul_sub, V3.cross_smul_left, V3.cross_smul_right, smul_smul, V3.norm_smul,
      V3.norm_smul, V3.norm_smul, mul_pow, V3.norm_sq]
    norm_num
    constructor
    · rintro (hh | hh | hh) <;> exfalso <;> linarith
    · rintro (hh | hh | hh) <;> exfalso <;> linarith
  have inn (p p1 p2 : V3) (h0 : V3.cross (p - p1) (p - p2) = 0) : sameCore 2 p p1 p2 := by
    unfold sameCore inSegmentCore
    rw [← smul_sub, ← smul_sub, V3.cross_smul_left, V3.cross_smul_right, h0]
    simp
    norm_num
  refine ⟨fun _ => by norm_num, fun _ _ p hp => ?_⟩
  simp only [List.mem_cons, List.not_mem_nil, or_false] at hp
  rcases hp with rfl | rfl
  · refine ⟨out _ _ _ ?_ ?_ ?_, out _ _ _ ?_ ?_ ?_, out _ _ _ ?_ ?_ ?_, out _ _ _ ?_ ?_ ?_⟩ <;>
      simp [vars, V3.dot] <;> norm_num
  · refine ⟨out _ _ _ ?_ ?_ ?_, inn _ _ _ ?_, out _ _ _ ?_ ?_ ?_, out _ _ _ ?_ ?_ ?_⟩
    all_goals try (simp [vars, V3.dot] <;> norm_num; done)
    ext <;> simp [vars]

end PySailing.Demo
