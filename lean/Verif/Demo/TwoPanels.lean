import Verif.Demo.OnePanel
import Verif.Lemmas.Mirror

/-!
# A concrete lattice with a mirror image

The square panel of `Demo/OnePanel.lean` and its mirror image in the water plane.
-/

namespace PySailing.Demo

open PySailing Spec

/-- The corner points of `panel`. -/
def pts (r k : ℕ) : V3 := ⟨k, 0, 1 + r⟩

theorem panelOf_pts : panelOf pts 0 0 = panel := by
  simp [panelOf, pts, panel]; norm_num

/-- A sail of one panel and its mirror image. -/
def input2 : VlmInput where
  panels := blockPanels 1 1 ([pts] ++ [pts].map (mirrorMesh 1))
  nc := 1
  ns := 1
  rho := 1
  wind := wind
  te := trailingFlags 1 1 2
  le := leadingFlags 1 1 2
  g := -1

theorem input2_panels : input2.panels = [panel, mirrorPanel panel] := by
  have h1 : panelOf pts 0 0 = panel := panelOf_pts
  have h2 : panelOf (mirrorMesh 1 pts) 0 0 = mirrorPanel panel := by
    rw [← h1]
    exact panelOf_mirrorMesh 1 pts (i := 0) (j := 0) zero_lt_one
  show [panelOf pts 0 0, panelOf (mirrorMesh 1 pts) 0 0] = _
  rw [h1, h2]

theorem meshVars_pts (g : ℝ) : meshVars g 1 pts 0 0 = vars g := by
  unfold meshVars
  rw [if_pos rfl, panelOf_pts, panelVars_eq]

theorem calc_vars2 : calculateVlmVariables input2.panels input2.te input2.g input2.nc input2.ns =
    .ok [vars (-1), (vars (-1)).mirrored] := by
  classical
  have h := calculateVlmVariables_blocks (-1) (nc := 1) (ns := 1) one_pos one_pos
    ([pts] ++ [pts].map (mirrorMesh 1)) (by simp)
  have hne : ¬ ∃ q ∈ blockPanels 1 1 ([pts] ++ [pts].map (mirrorMesh 1)), normalRaw q = 0 := by
    have e : blockPanels 1 1 ([pts] ++ [pts].map (mirrorMesh 1)) = [panel, mirrorPanel panel] :=
      input2_panels
    rw [e]
    simp [normalRaw_mirror, normalRaw_panel, V3.ext_iff, mirror]
  rw [if_neg hne] at h
  have h' : calculateVlmVariables input2.panels input2.te input2.g input2.nc input2.ns =
    .ok [meshVars (-1) 1 pts 0 0, meshVars (-1) 1 (mirrorMesh 1 pts) 0 0] := h
  rw [h', meshVars_mirror _ _ _ _ one_pos, show 1 - 1 - 0 = 0 from rfl, meshVars_pts]

theorem inlet2 : ∃ i, inletConditions wind 1 ([vars (-1), (vars (-1)).mirrored].map PanelVars.cp) =
    .ok i ∧ i.vAppInfs = [V, V] := by
  unfold inletConditions
  have h : |(mirror ⟨1 / 4, 0, 3 / 2⟩ : V3).z| = |3 / 2| := by simp [mirror]
  simp only [List.map_cons, List.map_nil, List.mapM_cons, List.mapM_nil, bind, Except.bind, pure,
    Except.pure, vars, PanelVars.mirrored, h, trueWind]
  refine ⟨_, by simp; rfl, ?_⟩
  simp [WindObj.appInfs, wind, V]

theorem abs_dot_le (a b : V3) : |a.dot b| ≤ a.norm * b.norm := by
  rw [V3.norm, V3.norm, ← Real.sqrt_mul (by simp only [V3.dot]; nlinarith [mul_self_nonneg a.x, mul_self_nonneg a.y, mul_self_nonneg a.z])]
  apply Real.abs_le_sqrt
  simp only [V3.dot]
  nlinarith [mul_self_nonneg (a.x * b.y - a.y * b.x), mul_self_nonneg (a.x * b.z - a.z * b.x),
    mul_self_nonneg (a.y * b.z - a.z * b.y)]

theorem abs_dot_unit_le (a b : V3) : |a.dot ((1 / b.norm) • b)| ≤ a.norm := by
  rw [V3.dot_smul_right, abs_mul]
  have h := abs_dot_le a b
  by_cases hb : b.norm = 0
  · rw [hb]; simp [V3.norm, Real.sqrt_nonneg]
  · have hb' : 0 < b.norm := lt_of_le_of_ne (Real.sqrt_nonneg _) (Ne.symm hb)
    rw [abs_of_pos (by positivity), one_div, inv_mul_le_iff₀ hb', mul_comm]
    exact h

/-- A bound for the velocity of a segment of length one. -/
theorem line_bound (p p1 p2 : V3) (c : ℝ) (hc0 : c ≠ 0) (hl : (p2 - p1).norm = 1)
    (hc : V3.cross (p - p1) (p - p2) = ⟨0, c, 0⟩) :
    |(vortexLine p p1 p2 1).y| ≤ (1 / (4 * Real.pi)) * (2 / |c|) := by
  have hpi := Real.pi_pos
  have hcp : 0 < |c| := abs_pos.2 hc0
  by_cases hout : coreTest p p1 p2
  · rw [vortexLine_core 1 hout]
    simp
    positivity
  rw [vortexLine_out _ hout]
  have nc : (V3.cross (p - p1) (p - p2)).norm ^ 2 = c * c := by
    rw [V3.norm_sq, hc]; simp [V3.dot]
  rw [nc, hc]
  obtain ⟨d, hd⟩ : ∃ d, d = (p2 - p1).dot ((1 / (p - p1).norm) • (p - p1)
        - (1 / (p - p2).norm) • (p - p2)) := ⟨_, rfl⟩
  have hdb : |d| ≤ 2 := by
    rw [hd, V3.dot_sub_right]
    have h1 := abs_dot_unit_le (p2 - p1) (p - p1)
    have h2 := abs_dot_unit_le (p2 - p1) (p - p2)
    rw [hl] at h1 h2
    have := abs_sub ((p2 - p1).dot ((1 / (p - p1).norm) • (p - p1)))
      ((p2 - p1).dot ((1 / (p - p2).norm) • (p - p2)))
    linarith
  rw [← hd]
  have e : (((1 : ℝ) / (4 * Real.pi)) • d • (1 / (c * c)) • (⟨0, c, 0⟩ : V3)).y =
      1 / (4 * Real.pi) * (d / c) := by
    simp
    field_simp
  rw [e, abs_mul, abs_of_pos (by positivity : (0 : ℝ) < 1 / (4 * Real.pi)), abs_div]
  gcongr

/-- A bound for the velocity of a wake along `V`. -/
theorem wake_bound (P A : V3) (h1 : V.dot (P - A) ≤ 0) (hz : 5 / 2 ≤ |(P - A).z|) :
    |(vortexInfiniteLine P A V 1).y| ≤ (1 / (4 * Real.pi)) * (2 / 5) := by
  have hpi := Real.pi_pos
  have nV : V.norm = 2 * h := by
    have e : V.dot V = 2 := by simp [V3.dot, V]; norm_num
    rw [V3.norm, e, Real.sqrt_eq_iff_mul_self_eq (by norm_num) (by have := h_pos; linarith)]
    have := h_sq; linarith
  have hu : (1 / V.norm) = h := by
    rw [nV]; have := h_sq; have := h_pos
    field_simp; nlinarith
  have hh1 : h ≤ 1 := by have := h_sq; nlinarith [h_pos]
  unfold vortexInfiniteLine
  simp only [hu, V3.dot_smul_left, V3.cross_smul_left]
  obtain ⟨r, hr⟩ : ∃ r, r = P - A := ⟨_, rfl⟩
  rw [← hr] at h1 hz ⊢
  have hzn : |r.z| ≤ r.norm := by
    rw [V3.norm]
    apply Real.abs_le_sqrt
    simp only [V3.dot]
    nlinarith [mul_self_nonneg r.x, mul_self_nonneg r.y]
  have hn : 0 < r.norm := by linarith
  have hd : r.norm ≤ r.norm - h * V.dot r := by nlinarith [h_pos]
  have hden : r.norm * r.norm ≤ r.norm * (r.norm - h * V.dot r) := by gcongr
  have e : ((1 / (4 * Real.pi)) • (1 / (r.norm * (r.norm - h * V.dot r))) • h • V.cross r).y =
      1 / (4 * Real.pi) * (1 / (r.norm * (r.norm - h * V.dot r)) * (h * (-r.z))) := by
    simp [V]
  rw [e, abs_mul, abs_of_pos (by positivity : (0 : ℝ) < 1 / (4 * Real.pi))]
  have hdpos : 0 < r.norm * (r.norm - h * V.dot r) := lt_of_lt_of_le (by positivity) hden
  gcongr
  rw [abs_mul, abs_of_pos (by positivity : 0 < 1 / (r.norm * (r.norm - h * V.dot r))), abs_mul,
    abs_of_pos h_pos, abs_neg, one_div, inv_mul_le_iff₀ hdpos]
  have h3 : h * |r.z| ≤ |r.z| := by nlinarith [abs_nonneg r.z]
  nlinarith

/-- Normal velocity at the control point due to a unit vortex on the image panel. -/
theorem image_y : |(vortexHorseshoeV2 ⟨3 / 4, 0, 3 / 2⟩ (mirror ⟨5 / 4, 0, 2⟩) (mirror ⟨1 / 4, 0, 2⟩)
    (mirror ⟨1 / 4, 0, 1⟩) (mirror ⟨5 / 4, 0, 1⟩) V 1).y| ≤ 1 / (4 * Real.pi) * 7 := by
  unfold vortexHorseshoeV2
  rw [vortexInfiniteLine_gamma _ _ V (-1 * 1)]
  simp only [V3.add_y, V3.smul_y, mirror]
  have b1 := line_bound ⟨3 / 4, 0, 3 / 2⟩ ⟨5 / 4, 0, -2⟩ ⟨1 / 4, 0, -2⟩ (7 / 2) (by norm_num)
    (by rw [V3.norm, Real.sqrt_eq_iff_mul_self_eq] <;> simp [V3.dot] <;> norm_num)
    (by ext <;> simp <;> norm_num)
  have b2 := line_bound ⟨3 / 4, 0, 3 / 2⟩ ⟨1 / 4, 0, -2⟩ ⟨1 / 4, 0, -1⟩ (1 / 2) (by norm_num)
    (by rw [V3.norm, Real.sqrt_eq_iff_mul_self_eq] <;> simp [V3.dot] <;> norm_num)
    (by ext <;> simp <;> norm_num)
  have b3 := line_bound ⟨3 / 4, 0, 3 / 2⟩ ⟨1 / 4, 0, -1⟩ ⟨5 / 4, 0, -1⟩ (-(5 / 2)) (by norm_num)
    (by rw [V3.norm, Real.sqrt_eq_iff_mul_self_eq] <;> simp [V3.dot] <;> norm_num)
    (by ext <;> simp <;> norm_num)
  have b4 := wake_bound ⟨3 / 4, 0, 3 / 2⟩ ⟨5 / 4, 0, -1⟩ (by simp [V3.dot, V]; norm_num)
    (by simp; norm_num)
  have b5 := wake_bound ⟨3 / 4, 0, 3 / 2⟩ ⟨5 / 4, 0, -2⟩ (by simp [V3.dot, V]; norm_num)
    (by simp; rw [abs_of_pos] <;> norm_num)
  have hpi : 0 < 1 / (4 * Real.pi) := by have := Real.pi_pos; positivity
  generalize (1 / (4 * Real.pi) : ℝ) = q at *
  norm_num at b1 b2 b3 b4 b5
  rw [abs_le] at *
  constructor <;> nlinarith

/-- The direct influence is larger. -/
theorem unit_y_lower : 1 / (4 * Real.pi) * 8 ≤ (vortexHorseshoeV2 ⟨3 / 4, 0, 3 / 2⟩ ⟨5 / 4, 0, 1⟩
    ⟨1 / 4, 0, 1⟩ ⟨1 / 4, 0, 2⟩ ⟨5 / 4, 0, 2⟩ V 1).y := by
  unfold vortexHorseshoeV2
  rw [vortexInfiniteLine_gamma _ ⟨5 / 4, 0, 1⟩ V (-1 * 1)]
  simp only [V3.add_y, V3.smul_y]
  rw [line_y _ ⟨5 / 4, 0, 1⟩ ⟨1 / 4, 0, 1⟩ (by simp [V3.dot]; norm_num) (by simp [V3.dot]; norm_num)
      (by ext <;> simp <;> norm_num) (by simp [V3.dot]; norm_num),
    line_y _ ⟨1 / 4, 0, 1⟩ ⟨1 / 4, 0, 2⟩ (by simp [V3.dot]; norm_num) (by simp [V3.dot]; norm_num)
      (by ext <;> simp <;> norm_num) (by simp [V3.dot]; norm_num),
    line_y _ ⟨1 / 4, 0, 2⟩ ⟨5 / 4, 0, 2⟩ (by simp [V3.dot]; norm_num) (by simp [V3.dot]; norm_num)
      (by ext <;> simp <;> norm_num) (by simp [V3.dot]; norm_num),
    wake_y _ ⟨5 / 4, 0, 2⟩ (by simp [V3.dot]; norm_num) (by simp [V3.dot, V]; norm_num),
    wake_y _ ⟨5 / 4, 0, 1⟩ (by simp [V3.dot]; norm_num) (by simp [V3.dot, V]; norm_num)]
  have e1 : (V3.cross V ((⟨3 / 4, 0, 3 / 2⟩ : V3) - ⟨5 / 4, 0, 2⟩)).y = 1 / 2 := by
    simp [V]; norm_num
  have e2 : (V3.cross V ((⟨3 / 4, 0, 3 / 2⟩ : V3) - ⟨5 / 4, 0, 1⟩)).y = -(1 / 2) := by
    simp [V]; norm_num
  rw [e1, e2]
  have hp := h_pos
  have hs := h_sq
  have hh : 2 / h = 4 * h := by
    field_simp
    nlinarith
  have h7 : 7 / 10 ≤ h := by nlinarith
  have hpi : 0 < 1 / (4 * Real.pi) := by have := Real.pi_pos; positivity
  rw [hh]
  nlinarith

/-- The two panels. -/
noncomputable def vars2 (i : Fin 2) : PanelVars := if i = 0 then vars (-1) else (vars (-1)).mirrored

theorem mirror_V : mirror V = V := by simp [mirror, V]

theorem kernel2 (i j : Fin 2) : velCoef vars2 (fun _ => true) (fun _ => V) (-1) (vars2 i).ctrP j =
    if i = 0 then
      if j = 0 then velCoef vars2 (fun _ => true) (fun _ => V) (-1) (vars (-1)).ctrP 0
      else velCoef vars2 (fun _ => true) (fun _ => V) (-1) (vars (-1)).ctrP 1
    else
      if j = 0 then mirror (velCoef vars2 (fun _ => true) (fun _ => V) (-1) (vars (-1)).ctrP 1)
      else mirror (velCoef vars2 (fun _ => true) (fun _ => V) (-1) (vars (-1)).ctrP 0) := by
  simp only [velCoef_eq, if_true]
  fin_cases i <;> fin_cases j <;> simp [vars2, PanelVars.mirrored, -one_div] <;>
    rw [← vortexHorseshoeV2_mirror, mirror_V] <;> simp only [mirror_mirror]

theorem wellPosed2 :
    WellPosed (K := 2) vars2 (fun _ => 1) (fun _ => true) 1 (-1) (fun _ => V) where
  ctr i j _ := by
    refine ⟨by simp [V, V3.ext_iff], fun s _ => ⟨?_, ?_⟩⟩ <;>
      apply wake_clear <;> fin_cases i <;> fin_cases j <;>
      simp [vars2, vars, V, PanelVars.mirrored, mirror] <;> norm_num
  cp i j _ := by
    refine ⟨by simp [V, V3.ext_iff], fun s _ => ⟨?_, ?_⟩⟩ <;>
      apply wake_clear <;> fin_cases i <;> fin_cases j <;>
      simp [vars2, vars, V, PanelVars.mirrored, mirror] <;> norm_num
  regular := by
    rw [Matrix.det_fin_two]
    simp only [influence_eq, kernel2]
    have ha := unit_y_lower
    have hb := image_y
    have hpi : 0 < 1 / (4 * Real.pi) := by have := Real.pi_pos; positivity
    simp only [velCoef_eq, if_true]
    simp [vars2, vars, PanelVars.mirrored, V3.dot, -one_div]
    rw [horseshoe_gamma _ _ _ _ _ _ (-1)]
    rw [horseshoe_gamma _ (mirror _) _ _ _ _ (-1)]
    simp only [mirror, V3.smul_y] at *
    rw [abs_le] at hb
    intro h
    nlinarith
  areas i := by norm_num
  rho _ := one_ne_zero
  wind i := by simp [V, V3.ext_iff]

theorem area2 : getPanelsArea input2.panels = [1, 1] := by
  have h : panelArea panel = 1 := by
    have := area
    simpa [getPanelsArea] using this
  rw [input2_panels]
  simp [getPanelsArea, panelArea_mirror, h]

/-- `Vlm` returns for the symmetric demo input. -/
theorem vlm_ok2 : ∃ r, vlm input2 = .ok r ∧ r.inlet.vAppInfs = [V, V] ∧
    r.vars = [vars (-1), (vars (-1)).mirrored] ∧ r.areas = [1, 1] := by
  obtain ⟨i, hi, hV⟩ := inlet2
  have hs : ∃ sol, vlmSolve input2 [vars (-1), (vars (-1)).mirrored] [V, V] = .ok sol := by
    refine ⟨solOf _ _ _ _ _ _ _ _ _, (vlmCore_ok_iff _ _ _ _ _ _ _ _ _).2 ⟨?_, ?_, rfl⟩⟩
    · have e1 : (fun i : Fin [vars (-1), (vars (-1)).mirrored].length =>
          [vars (-1), (vars (-1)).mirrored][i]) = vars2 := by
        funext i
        change Fin 2 at i
        fin_cases i <;> rfl
      have e2 : (fun i : Fin [vars (-1), (vars (-1)).mirrored].length =>
          (getPanelsArea input2.panels).getD i 0) = fun _ => (1 : ℝ) := by
        funext i
        rw [area2]
        change Fin 2 at i
        fin_cases i <;> rfl
      have e3 : (fun i : Fin [vars (-1), (vars (-1)).mirrored].length => input2.te.getD i false) =
          fun _ => true := by
        funext i
        change Fin 2 at i
        fin_cases i <;> rfl
      have e4 : (fun i : Fin [vars (-1), (vars (-1)).mirrored].length => [V, V].getD i 0) =
          fun _ => V := by
        funext i
        change Fin 2 at i
        fin_cases i <;> rfl
      rw [e1, e2, e3, e4]
      exact wellPosed2
    · intro i _
      change Fin 2 at i
      fin_cases i <;> simp [input2]
  obtain ⟨sol, hs⟩ := hs
  rw [← hV] at hs
  exact ⟨⟨input2, getPanelsArea input2.panels, _, i, sol⟩, (vlm_ok_iff _ _).2
    ⟨rfl, rfl, calc_vars2, hi, hs⟩, hV, rfl, area2⟩

/-- The same lattice in any wind that blows with speed 1 from abeam at its height. -/
theorem vlm_ok2_wind (w : WindObj) (h1 : w.trueWindAt |3 / 2| = .ok ⟨0, 1, 0⟩) (h2 : w.vYacht = 1) :
    ∃ r, vlm { input2 with wind := w } = .ok r ∧ r.inlet.winds = w ∧
      r.vars = [vars (-1), (vars (-1)).mirrored] := by
  obtain ⟨r, hr, hV, hv, -⟩ := vlm_ok2
  obtain ⟨-, -, e3, -, e5⟩ := (vlm_ok_iff _ _).1 hr
  have hi : ∃ i, inletConditions w 1 (r.vars.map PanelVars.cp) = .ok i ∧ i.vAppInfs = [V, V] ∧ i.winds = w := by
    rw [hv]
    unfold inletConditions
    have h : |(mirror ⟨1 / 4, 0, 3 / 2⟩ : V3).z| = |3 / 2| := by simp [mirror]
    simp only [List.map_cons, List.map_nil, List.mapM_cons, List.mapM_nil, bind, Except.bind, pure,
      Except.pure, vars, PanelVars.mirrored, h, h1]
    refine ⟨_, by simp; rfl, ?_, rfl⟩
    simp [WindObj.appInfs, h2, V]
  obtain ⟨i, hi, hiV, hw⟩ := hi
  rw [hV, ← hiV] at e5
  exact ⟨⟨{ input2 with wind := w }, getPanelsArea input2.panels, r.vars, i, r.sol⟩, (vlm_ok_iff _ _).2
    ⟨rfl, rfl, e3, hi, e5⟩, hw, hv⟩

end PySailing.Demo
