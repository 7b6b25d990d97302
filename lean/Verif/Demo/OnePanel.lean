import Verif.Lemmas.Motion

/-!
# A concrete lattice

One square panel in the plane `y = 0` above the water, apparent wind at 45 degrees.  Used to show that
the hypotheses of the solver theorems are satisfiable.
-/

namespace PySailing.Demo

open PySailing Spec

/-- A square panel with corners `(1,0,1) (0,0,1) (0,0,2) (1,0,2)`. -/
def panel : Panel := ⟨⟨1, 0, 1⟩, ⟨0, 0, 1⟩, ⟨0, 0, 2⟩, ⟨1, 0, 2⟩⟩

/-- True wind 1 on the beam, boat speed 1. -/
def wind : WindObj := ⟨90, 1, 1, .flat⟩

/-- One sail of one panel; a trailing edge panel, not flagged as leading edge. -/
def input : VlmInput where
  panels := [panel]
  nc := 1
  ns := 1
  rho := 1
  wind := wind
  te := [true]
  le := [false]
  g := -1

/-- Its variables. -/
noncomputable def vars (g : ℝ) : PanelVars where
  normal := ⟨0, 1, 0⟩
  ctrP := ⟨3 / 4, 0, 3 / 2⟩
  cp := ⟨1 / 4, 0, 3 / 2⟩
  ring := ⟨⟨5 / 4, 0, 1⟩, ⟨1 / 4, 0, 1⟩, ⟨1 / 4, 0, 2⟩, ⟨5 / 4, 0, 2⟩⟩
  span := ⟨0, 0, g⟩
  leMid := ⟨0, 0, 3 / 2⟩
  teMid := ⟨1, 0, 3 / 2⟩

theorem normalRaw_panel : normalRaw panel = ⟨0, 2, 0⟩ := by
  ext <;> simp [normalRaw, panel] <;> norm_num

theorem panelVars_eq (g : ℝ) : panelVars g panel (behindA panel) (behindD panel) = vars g := by
  have hn : (⟨0, 2, 0⟩ : V3).norm = 2 := by
    simp [V3.norm, V3.dot]
  unfold panelVars vars
  rw [normalRaw_panel, hn]
  ext <;> simp [panel, quarterB, quarterC, behindA, behindD] <;> norm_num

theorem calc_vars (g : ℝ) : calculateVlmVariables [panel] [true] g 1 1 = .ok [vars g] := by
  have hex : ¬ ∃ q ∈ [panel], normalRaw q = 0 := by
    simp [normalRaw_panel, V3.ext_iff]
  unfold calculateVlmVariables
  simp only [mul_one, one_ne_zero, if_false, List.length_cons, List.length_nil, zero_add, Nat.div_self,
    arraySplit, zero_lt_one]
  simp only [Nat.mod_self, Nat.div_self zero_lt_one, List.replicate_zero, List.nil_append, Nat.sub_zero,
    List.replicate_one, chunksOf, List.take, bind, Except.bind, List.zip_cons_cons, List.zip_nil_right,
    List.mapM_cons, List.mapM_nil, pure, Except.pure]
  have h0 : vlmVarsAt g 1 1 [panel] [true] 0 = .ok (vars g) := by
    unfold vlmVarsAt
    simp only [idx, bind, Except.bind, List.getElem?_cons_zero]
    simp [panelVars_eq]
  have hr : List.range [panel].length = [0] := rfl
  rw [hr]
  simp only [List.mapM_cons, List.mapM_nil, bind, Except.bind, pure, Except.pure, h0]
  simp only [ne_eq, not_true_eq_false, if_false, if_neg hex]
  rfl

theorem trueWind : wind.trueWindAt |3 / 2| = .ok ⟨0, 1, 0⟩ := by
  simp only [WindObj.trueWindAt, wind, WindObj.lengthToXyz, WindObj.alpha]
  have h : deg2rad 90 = Real.pi / 2 := by unfold deg2rad; ring
  rw [h]
  simp

/-- The apparent wind. -/
def V : V3 := ⟨1, 1, 0⟩

theorem inlet (g rho : ℝ) : ∃ i, inletConditions wind rho [(vars g).cp] = .ok i ∧ i.vAppInfs = [V] := by
  unfold inletConditions
  simp only [List.mapM_cons, List.mapM_nil, bind, Except.bind, pure, Except.pure, vars, trueWind]
  refine ⟨_, by simp; rfl, ?_⟩
  simp [WindObj.appInfs, wind, V]

theorem area : getPanelsArea [panel] = [1] := by
  have e1 : V3.cross (panel.p2 - panel.p1) (panel.p3 - panel.p2) = ⟨0, 1, 0⟩ := by
    ext <;> simp [panel] <;> norm_num
  have e2 : V3.cross (panel.p3 - panel.p2) (panel.p4 - panel.p3) = ⟨0, 1, 0⟩ := by
    ext <;> simp [panel] <;> norm_num
  have hn : (⟨0, 1, 0⟩ : V3).norm = 1 := by simp [V3.norm, V3.dot]
  simp only [getPanelsArea, List.map_cons, List.map_nil, panelArea, e1, e2, hn]
  norm_num

/-- `√(1/2)`. -/
noncomputable def h : ℝ := Real.sqrt (1 / 2)

theorem h_pos : 0 < h := Real.sqrt_pos.2 (by norm_num)
theorem h_sq : h * h = 1 / 2 := Real.mul_self_sqrt (by norm_num)

theorem line_y (p p1 p2 : V3) (h1 : (p - p1).dot (p - p1) = 1 / 2)
    (h2 : (p - p2).dot (p - p2) = 1 / 2)
    (hc : V3.cross (p - p1) (p - p2) = ⟨0, 1 / 2, 0⟩)
    (hd : (p2 - p1).dot ((p - p1) - (p - p2)) = 1) :
    (vortexLine p p1 p2 1).y = (1 / (4 * Real.pi)) * (2 / h) := by
  have n1 : (p - p1).norm = h := by rw [V3.norm, h1]; rfl
  have n2 : (p - p2).norm = h := by rw [V3.norm, h2]; rfl
  have nc : (V3.cross (p - p1) (p - p2)).norm ^ 2 = 1 / 4 := by
    rw [V3.norm_sq, hc]; simp [V3.dot]; norm_num
  have hlo : (1e-8 : ℝ) ≤ h := by
    have := h_sq; have := h_pos
    nlinarith
  have hout : ¬ coreTest p p1 p2 := by
    unfold coreTest
    rw [n1, n2, nc]
    push Not
    refine ⟨hlo, hlo, by norm_num⟩
  rw [vortexLine_out _ hout, n1, n2, nc, ← smul_sub, V3.dot_smul_right, hd, hc]
  have := h_pos.ne'
  simp
  field_simp
  norm_num

theorem wake_y (P A : V3) (h1 : (P - A).dot (P - A) = 1 / 2) (hd : V.dot (P - A) = -(1 / 2)) :
    (vortexInfiniteLine P A V 1).y = (1 / (4 * Real.pi)) * (4 / 3) * (h * (V3.cross V (P - A)).y) := by
  have n1 : (P - A).norm = h := by rw [V3.norm, h1]; rfl
  have nV : V.norm = 2 * h := by
    have e : V.dot V = 2 := by simp [V3.dot, V]; norm_num
    rw [V3.norm, e, Real.sqrt_eq_iff_mul_self_eq (by norm_num) (by have := h_pos; linarith)]
    have := h_sq; linarith
  have hu : (1 / V.norm) = h := by
    rw [nV]; have := h_sq; have := h_pos
    field_simp; nlinarith
  unfold vortexInfiniteLine
  simp only [hu, n1, V3.dot_smul_left, hd, V3.cross_smul_left]
  have hh : h * (h - h * -(1 / 2)) = 3 / 4 := by have := h_sq; nlinarith
  rw [hh]
  simp
  ring

/-- Normal velocity at the control point due to a unit vortex: positive. -/
theorem unit_y : 0 < (vortexHorseshoeV2 ⟨3 / 4, 0, 3 / 2⟩ ⟨5 / 4, 0, 1⟩ ⟨1 / 4, 0, 1⟩
    ⟨1 / 4, 0, 2⟩ ⟨5 / 4, 0, 2⟩ V 1).y := by
  unfold vortexHorseshoeV2
  rw [vortexInfiniteLine_gamma _ ⟨5 / 4, 0, 1⟩ V (-1 * 1)]
  simp only [V3.add_y, V3.smul_y]
  rw [line_y _ ⟨5 / 4, 0, 1⟩ ⟨1 / 4, 0, 1⟩ (by simp [V3.dot]; norm_num) (by simp [V3.dot]; norm_num)
      (by ext <;> simp <;> norm_num) (by simp [V3.dot]; norm_num),
    line_y _ ⟨1 / 4, 0, 1⟩ ⟨1 / 4, 0, 2⟩ (by simp [V3.dot]; norm_num) (by simp [V3.dot]; norm_num)
      (by ext <;> simp <;> norm_num) (by simp [V3.dot]; norm_num),
    line_y _ ⟨1 / 4, 0, 2⟩ ⟨5 / 4, 0, 2⟩ (by simp [V3.dot]; norm_num) (by simp [V3.dot]; norm_num)
      (by ext <;> simp <;> norm_num) (by simp [V3.dot]; norm_num),
    wake_y _ ⟨5 / 4, 0, 2⟩ (by simp [V3.dot]; norm_num) (by simp [V3.dot, V]; norm_num),
    wake_y _ ⟨5 / 4, 0, 1⟩ (by simp [V3.dot]; norm_num) (by simp [V3.dot, V]; norm_num)]
  have e1 : (V3.cross V ((⟨3 / 4, 0, 3 / 2⟩ : V3) - ⟨5 / 4, 0, 2⟩)).y = 1 / 2 := by
    simp [V]; norm_num
  have e2 : (V3.cross V ((⟨3 / 4, 0, 3 / 2⟩ : V3) - ⟨5 / 4, 0, 1⟩)).y = -(1 / 2) := by
    simp [V]; norm_num
  rw [e1, e2]
  have := h_pos
  have hpi := Real.pi_pos
  have : 0 < 1 / (4 * Real.pi) * (2 / h) := by positivity
  have : 0 < 1 / (4 * Real.pi) * (4 / 3) * (h * (1 / 2)) := by positivity
  nlinarith

theorem horseshoe_gamma (p A B C D W : V3) (g : ℝ) :
    vortexHorseshoeV2 p A B C D W g = g • vortexHorseshoeV2 p A B C D W 1 := by
  unfold vortexHorseshoeV2
  rw [vortexLine_gamma p A B g, vortexLine_gamma p B C g, vortexLine_gamma p C D g,
    vortexInfiniteLine_gamma p D W g, vortexInfiniteLine_gamma p A W (-1 * g),
    vortexInfiniteLine_gamma p A W (-1 * 1)]
  simp only [smul_add, smul_smul]
  congr 2
  ring

theorem wake_clear (p A : V3) (hz : p.z ≠ A.z) (W : V3) (hW : W.z = 0) (s : ℝ) : p ≠ A + s • W := by
  intro e
  apply hz
  rw [e]; simp [hW]

theorem wellPosed {g rho : ℝ} (hg : g ≠ 0) (hr : rho ≠ 0) :
    WellPosed (K := 1) (fun _ => vars g) (fun _ => 1) (fun _ => true) rho g (fun _ => V) where
  ctr i j _ := by
    refine ⟨by simp [V, V3.ext_iff], fun s _ => ⟨?_, ?_⟩⟩ <;>
      apply wake_clear <;> simp [vars, V] <;> norm_num
  cp i j _ := by
    refine ⟨by simp [V, V3.ext_iff], fun s _ => ⟨?_, ?_⟩⟩ <;>
      apply wake_clear <;> simp [vars, V] <;> norm_num
  regular := by
    rw [Matrix.det_fin_one, influence_eq, velCoef_eq]
    simp only [if_true]
    rw [horseshoe_gamma, V3.dot_smul_left]
    refine mul_ne_zero hg ?_
    have := unit_y
    simp only [vars, V3.dot, mul_zero, mul_one, zero_add, add_zero]
    exact this.ne'
  areas i := by norm_num
  rho _ := hr
  wind i := by simp [V, V3.ext_iff]

/-- `Vlm` returns for the demo input. -/
theorem vlm_ok : ∃ r, vlm input = .ok r ∧ r.inlet.vAppInfs = [V] ∧ r.vars = [vars (-1)] := by
  obtain ⟨i, hi, hV⟩ := inlet (-1) 1
  have hs : ∃ sol, vlmSolve input [vars (-1)] [V] = .ok sol := by
    have hw := wellPosed (g := -1) (rho := 1) (by norm_num) (by norm_num)
    refine ⟨solOf _ _ _ _ _ _ _ _ _, (vlmCore_ok_iff _ _ _ _ _ _ _ _ _).2 ⟨?_, ?_, rfl⟩⟩
    · have e1 : (fun i : Fin [vars (-1)].length => [vars (-1)][i]) = fun _ => vars (-1) := by
        funext i; simp
      have e2 : (fun i : Fin [vars (-1)].length => (getPanelsArea input.panels).getD i 0) =
          fun _ => (1 : ℝ) := by
        funext i
        have : input.panels = [panel] := rfl
        rw [this, area]
        simp
      have e3 : (fun i : Fin [vars (-1)].length => input.te.getD i false) = fun _ => true := by
        funext i
        simp [input]
      have e4 : (fun i : Fin [vars (-1)].length => [V].getD i 0) = fun _ => V := by
        funext i
        simp
      rw [e1, e2, e3, e4]
      exact hw
    · intro i _
      simp [input]
  obtain ⟨sol, hs⟩ := hs
  rw [← hV] at hs
  exact ⟨⟨input, getPanelsArea input.panels, [vars (-1)], i, sol⟩, (vlm_ok_iff _ _).2
    ⟨rfl, rfl, calc_vars (-1), hi, hs⟩, hV, rfl⟩

end PySailing.Demo
