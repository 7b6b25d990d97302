import Verif.Demo.TwoPanels
import Verif.Lemmas.Aircraft

/-!
# A concrete free wing

Chord 1, span 1, one panel, wind at 45 degrees to the chord.
-/

namespace PySailing.Demo

open PySailing Spec Props

/-- The wing. -/
noncomputable def wing : AircraftInput where
  chord := 1
  half := 1 / 2
  aoaDeg := 0
  ns := 1
  nc := 1
  V := V
  rho := 1
  g := 1

/-- Its panel variables. -/
noncomputable def wingVars : PanelVars where
  normal := ⟨0, 1, 0⟩
  ctrP := ⟨3 / 4, 0, 0⟩
  cp := ⟨1 / 4, 0, 0⟩
  ring := ⟨⟨5 / 4, 0, -1 / 2⟩, ⟨1 / 4, 0, -1 / 2⟩, ⟨1 / 4, 0, 1 / 2⟩, ⟨5 / 4, 0, 1 / 2⟩⟩
  span := ⟨0, 0, 1⟩
  leMid := ⟨0, 0, 0⟩
  teMid := ⟨1, 0, 0⟩

/-- Its panel. -/
noncomputable def wingPanel : Panel :=
  ⟨⟨1, 0, -1 / 2⟩, ⟨0, 0, -1 / 2⟩, ⟨0, 0, 1 / 2⟩, ⟨1, 0, 1 / 2⟩⟩

theorem panelOf_wing : panelOf (wingPoint 1 (1 / 2) 0 1 1) 0 0 = wingPanel := by
  unfold panelOf wingPoint wingPanel
  simp
  norm_num

theorem blockPanels_wing : blockPanels 1 1 [wingPoint 1 (1 / 2) 0 1 1] = [wingPanel] := by
  show [panelOf (wingPoint 1 (1 / 2) 0 1 1) 0 0] = _
  rw [panelOf_wing]

theorem normalRaw_wing : normalRaw wingPanel = ⟨0, 2, 0⟩ := by
  ext <;> simp [normalRaw, wingPanel] <;> norm_num

theorem panelVars_wing :
    panelVars 1 wingPanel (behindA wingPanel) (behindD wingPanel) = wingVars := by
  have hn : (⟨0, 2, 0⟩ : V3).norm = 2 := by
    simp [V3.norm, V3.dot]
  unfold panelVars wingVars
  rw [normalRaw_wing, hn]
  ext <;> simp [wingPanel, quarterB, quarterC, behindA, behindD] <;> norm_num

theorem calc_wing : calculateAircraftVariables [wingPanel] 1 = .ok [wingVars] := by
  unfold calculateAircraftVariables
  rw [if_neg (by simp [normalRaw_wing, V3.ext_iff])]
  simp [panelVars_wing]

theorem area_wing : getPanelsArea [wingPanel] = [1] := by
  have e1 : V3.cross (wingPanel.p2 - wingPanel.p1) (wingPanel.p3 - wingPanel.p2) = ⟨0, 1, 0⟩ := by
    ext <;> simp [wingPanel] <;> norm_num
  have e2 : V3.cross (wingPanel.p3 - wingPanel.p2) (wingPanel.p4 - wingPanel.p3) = ⟨0, 1, 0⟩ := by
    ext <;> simp [wingPanel] <;> norm_num
  have hn : (⟨0, 1, 0⟩ : V3).norm = 1 := by simp [V3.norm, V3.dot]
  simp only [getPanelsArea, List.map_cons, List.map_nil, panelArea, e1, e2, hn]
  norm_num

/-- Normal velocity at the control point due to a unit vortex. -/
theorem wing_y_lower : 1 / (4 * Real.pi) * 8 ≤ (vortexHorseshoeV2 ⟨3 / 4, 0, 0⟩ ⟨5 / 4, 0, -1 / 2⟩
    ⟨1 / 4, 0, -1 / 2⟩ ⟨1 / 4, 0, 1 / 2⟩ ⟨5 / 4, 0, 1 / 2⟩ V 1).y := by
  unfold vortexHorseshoeV2
  rw [vortexInfiniteLine_gamma _ ⟨5 / 4, 0, -1 / 2⟩ V (-1 * 1)]
  simp only [V3.add_y, V3.smul_y]
  rw [line_y _ ⟨5 / 4, 0, -1 / 2⟩ ⟨1 / 4, 0, -1 / 2⟩ (by simp [V3.dot]; norm_num)
      (by simp [V3.dot]; norm_num) (by ext <;> simp <;> norm_num) (by simp [V3.dot]; norm_num),
    line_y _ ⟨1 / 4, 0, -1 / 2⟩ ⟨1 / 4, 0, 1 / 2⟩ (by simp [V3.dot]; norm_num)
      (by simp [V3.dot]; norm_num) (by ext <;> simp <;> norm_num) (by simp [V3.dot]; norm_num),
    line_y _ ⟨1 / 4, 0, 1 / 2⟩ ⟨5 / 4, 0, 1 / 2⟩ (by simp [V3.dot]; norm_num)
      (by simp [V3.dot]; norm_num) (by ext <;> simp <;> norm_num) (by simp [V3.dot]; norm_num),
    wake_y _ ⟨5 / 4, 0, 1 / 2⟩ (by simp [V3.dot]; norm_num) (by simp [V3.dot, V]; norm_num),
    wake_y _ ⟨5 / 4, 0, -1 / 2⟩ (by simp [V3.dot]; norm_num) (by simp [V3.dot, V]; norm_num)]
  have e1 : (V3.cross V ((⟨3 / 4, 0, 0⟩ : V3) - ⟨5 / 4, 0, 1 / 2⟩)).y = 1 / 2 := by
    simp [V]
  have e2 : (V3.cross V ((⟨3 / 4, 0, 0⟩ : V3) - ⟨5 / 4, 0, -1 / 2⟩)).y = -(1 / 2) := by
    simp [V]; norm_num
  rw [e1, e2]
  have hp := h_pos
  have hs := h_sq
  have hh : 2 / h = 4 * h := by
    field_simp
    nlinarith
  have h7 : 7 / 10 ≤ h := by nlinarith
  have hpi : 0 < 1 / (4 * Real.pi) := by have := Real.pi_pos; positivity
  rw [hh]
  nlinarith

theorem line_x (p p1 p2 : V3) (c : ℝ) (hc : V3.cross (p - p1) (p - p2) = ⟨0, c, 0⟩) :
    (vortexLine p p1 p2 1).x = 0 := by
  by_cases hout : coreTest p p1 p2
  · rw [vortexLine_core 1 hout]; simp
  · rw [vortexLine_out _ hout, hc]; simp

theorem wake_dot (P A W : V3) (g : ℝ) : (vortexInfiniteLine P A W g).dot W = 0 := by
  unfold vortexInfiniteLine
  simp only [V3.dot_smul_left, V3.cross_smul_left, V3.dot_cross_left]
  ring

/-- The component along the wind of the velocity at the pressure point due to a unit vortex. -/
theorem wing_cp : |(vortexHorseshoeV2 ⟨1 / 4, 0, 0⟩ ⟨5 / 4, 0, -1 / 2⟩
    ⟨1 / 4, 0, -1 / 2⟩ ⟨1 / 4, 0, 1 / 2⟩ ⟨5 / 4, 0, 1 / 2⟩ V 1).dot V| ≤ 1 / (4 * Real.pi) * 8 := by
  unfold vortexHorseshoeV2
  simp only [V3.dot_add_left, wake_dot]
  have hpi : 0 < 1 / (4 * Real.pi) := by have := Real.pi_pos; positivity
  have hl : ∀ p p1 p2 : V3, ∀ c, V3.cross (p - p1) (p - p2) = ⟨0, c, 0⟩ →
      (vortexLine p p1 p2 1).dot V = (vortexLine p p1 p2 1).y := by
    intro p p1 p2 c hc
    simp [V3.dot, V, line_x p p1 p2 c hc]
  rw [hl _ _ _ (1 / 2) (by ext <;> simp <;> norm_num), hl _ _ _ 0 (by ext <;> simp),
    hl _ _ _ (1 / 2) (by ext <;> simp <;> norm_num)]
  have b1 := line_bound ⟨1 / 4, 0, 0⟩ ⟨5 / 4, 0, -1 / 2⟩ ⟨1 / 4, 0, -1 / 2⟩ (1 / 2) (by norm_num)
    (by rw [V3.norm, Real.sqrt_eq_iff_mul_self_eq] <;> simp [V3.dot] <;> norm_num)
    (by ext <;> simp <;> norm_num)
  have b3 := line_bound ⟨1 / 4, 0, 0⟩ ⟨1 / 4, 0, 1 / 2⟩ ⟨5 / 4, 0, 1 / 2⟩ (1 / 2) (by norm_num)
    (by rw [V3.norm, Real.sqrt_eq_iff_mul_self_eq] <;> simp [V3.dot] <;> norm_num)
    (by ext <;> simp <;> norm_num)
  have b2 : (vortexLine ⟨1 / 4, 0, 0⟩ ⟨1 / 4, 0, -1 / 2⟩ ⟨1 / 4, 0, 1 / 2⟩ 1).y = 0 := by
    rw [vortexLine_core]
    · simp
    · unfold coreTest
      right; right
      have e : V3.cross ((⟨1 / 4, 0, 0⟩ : V3) - ⟨1 / 4, 0, -1 / 2⟩)
          ((⟨1 / 4, 0, 0⟩ : V3) - ⟨1 / 4, 0, 1 / 2⟩) = 0 := by
        ext <;> simp
      rw [e]
      simp [V3.norm]
      norm_num
  rw [b2]
  generalize (1 / (4 * Real.pi) : ℝ) = q at *
  norm_num at b1 b3
  rw [abs_le] at *
  constructor <;> nlinarith

theorem wing_wellPosed :
    WellPosed (K := 1) (fun _ => wingVars) (fun _ => 1) (fun _ => true) 1 1 (fun _ => V) where
  ctr i j _ := by
    refine ⟨by simp [V, V3.ext_iff], fun s _ => ⟨?_, ?_⟩⟩ <;>
      apply wake_clear <;> simp [wingVars, V] <;> norm_num
  cp i j _ := by
    refine ⟨by simp [V, V3.ext_iff], fun s _ => ⟨?_, ?_⟩⟩ <;>
      apply wake_clear <;> simp [wingVars, V] <;> norm_num
  regular := by
    rw [Matrix.det_fin_one, influence_eq, velCoef_eq]
    simp only [if_true]
    have := wing_y_lower
    have hpi : 0 < 1 / (4 * Real.pi) := by have := Real.pi_pos; positivity
    simp only [wingVars, V3.dot, mul_zero, mul_one, zero_add, add_zero]
    intro h0
    rw [h0] at this
    linarith
  areas i := by norm_num
  rho _ := one_ne_zero
  wind i := by simp [V, V3.ext_iff]

/-- The lift of any solution of the wing's lattice is not zero. -/
theorem wing_lift (w : Aircraft) (hte' : w.panelSet.te = trailingFlags wing.nc wing.ns 1)
    (hle' : w.panelSet.le = leadingFlags wing.nc wing.ns 1)
    (sol : VlmSolution [wingVars].length)
    (hs : vlmCore (fun i : Fin [wingVars].length => [wingVars][i])
        (fun i => (getPanelsArea w.panelSet.panels).getD i 0)
        (fun i => w.panelSet.te.getD i false) (fun i => w.panelSet.le.getD i false) wing.ns wing.rho
        wing.g (fun _ => wing.V) = .ok sol) :
    (List.ofFn sol.force).sum.dot (liftDirection wing.V) ≠ 0 := by
  obtain ⟨hW, -, hsol⟩ := (vlmCore_ok_iff _ _ _ _ _ _ _ _ _).1 hs
  have hflux := coreGamma_flux hW.regular (0 : Fin 1)
  obtain ⟨γ, hγ⟩ : ∃ γ : Fin 1 → ℝ, γ = coreGamma (fun i : Fin [wingVars].length => [wingVars][i])
    (fun i => w.panelSet.te.getD i false) wing.g (fun _ => wing.V) := ⟨_, rfl⟩
  have hte0 : w.panelSet.te.getD 0 false = true := by rw [hte']; rfl
  have hlat : ∀ p, latticeVelocity (fun i : Fin [wingVars].length => [wingVars][i])
      (fun i => w.panelSet.te.getD i false) (fun _ => wing.V) wing.g γ p =
      γ 0 • vortexHorseshoeV2 p ⟨5 / 4, 0, -1 / 2⟩ ⟨1 / 4, 0, -1 / 2⟩ ⟨1 / 4, 0, 1 / 2⟩
        ⟨5 / 4, 0, 1 / 2⟩ V 1 := by
    intro p
    unfold latticeVelocity
    show ∑ j : Fin 1, _ = _
    rw [Fin.sum_univ_one]
    simp only [hte0, wingVars, wing, Fin.val_zero, if_true]
    rfl
  have hforce : (List.ofFn sol.force).sum = 1 • V3.cross (V + γ 0 • vortexHorseshoeV2 ⟨1 / 4, 0, 0⟩
      ⟨5 / 4, 0, -1 / 2⟩ ⟨1 / 4, 0, -1 / 2⟩ ⟨1 / 4, 0, 1 / 2⟩ ⟨5 / 4, 0, 1 / 2⟩ V 1)
      (γ 0 • ⟨0, 0, 1⟩) := by
    rw [List.sum_ofFn]
    show ∑ j : Fin 1, _ = _
    rw [Fin.sum_univ_one, hsol]
    simp only [solOf, panelForce, ← hγ, hlat]
    have hcase : gammaForForce (fun i : Fin [wingVars].length => w.panelSet.le.getD i false) γ wing.ns
        0 = γ 0 := by
      unfold gammaForForce
      rw [if_pos]
      rw [hle']
      rfl
    rw [hcase]
    simp only [wing, wingVars, one_smul]
    rfl
  rw [hforce]
  rw [← hγ] at hflux
  have hflux' : V.y + γ 0 * (vortexHorseshoeV2 ⟨3 / 4, 0, 0⟩ ⟨5 / 4, 0, -1 / 2⟩ ⟨1 / 4, 0, -1 / 2⟩
      ⟨1 / 4, 0, 1 / 2⟩ ⟨5 / 4, 0, 1 / 2⟩ V 1).y = 0 := by
    have := hlat (wingVars.ctrP)
    rw [show ([wingVars][(0 : Fin 1)]).ctrP = wingVars.ctrP from rfl] at hflux
    rw [this] at hflux
    simpa [V3.dot, wing, wingVars] using hflux
  have ha := wing_y_lower
  have hb := wing_cp
  generalize (vortexHorseshoeV2 ⟨3 / 4, 0, 0⟩ ⟨5 / 4, 0, -1 / 2⟩ ⟨1 / 4, 0, -1 / 2⟩
      ⟨1 / 4, 0, 1 / 2⟩ ⟨5 / 4, 0, 1 / 2⟩ V 1).y = a at ha hflux'
  generalize (vortexHorseshoeV2 ⟨1 / 4, 0, 0⟩ ⟨5 / 4, 0, -1 / 2⟩ ⟨1 / 4, 0, -1 / 2⟩
      ⟨1 / 4, 0, 1 / 2⟩ ⟨5 / 4, 0, 1 / 2⟩ V 1) = v at hb ⊢
  have hpi : 0 < 1 / (4 * Real.pi) := by have := Real.pi_pos; positivity
  generalize (1 / (4 * Real.pi) : ℝ) = q at *
  have hapos : 0 < a := by linarith
  have hv : v.dot V = v.x + v.y := by simp [V3.dot, V]
  rw [hv, abs_le] at hb
  have hg : γ 0 = -1 / a := by
    have : V.y = 1 := rfl
    rw [this] at hflux'
    field_simp
    linarith
  have hgneg : γ 0 < 0 := by rw [hg]; exact div_neg_of_neg_of_pos (by norm_num) hapos
  have hprod : -1 ≤ γ 0 * (v.x + v.y) := by
    rw [hg, neg_div, neg_mul, neg_le_neg_iff, one_div, inv_mul_le_iff₀ hapos]
    linarith [hb.2]
  have e : (1 • V3.cross (V + γ 0 • v) (γ 0 • (⟨0, 0, 1⟩ : V3))).dot (liftDirection wing.V) =
      -(γ 0 * (2 + γ 0 * (v.x + v.y))) := by
    rw [one_smul]
    simp [V3.dot, liftDirection, wing, V]
    ring
  rw [e]
  have : γ 0 * (2 + γ 0 * (v.x + v.y)) < 0 := mul_neg_of_neg_of_pos hgneg (by linarith)
  linarith [this.ne]

/-- `Aircraft` returns for the wing, and the lift is not zero. -/
theorem wing_ok : ∃ w, aircraft wing = .ok w ∧
    (List.ofFn w.force).sum.dot (liftDirection wing.V) ≠ 0 := by
  obtain ⟨ps, hps, hpan, hte, hle⟩ := wing.panelSet_eq one_pos one_pos
  have hpan' : ps.panels = [wingPanel] := by rw [hpan]; exact blockPanels_wing
  have hS : (0.5 * wing.rho * wing.V.norm ^ 2 * wing.S : ℝ) ≠ 0 := by
    rw [V3.norm_sq]
    simp [wing, AircraftInput.S, V, V3.dot]
    norm_num
  have hth : ∃ th, getCLCDFreeWing (2 * wing.half / wing.chord) wing.aoaDeg = .ok th := by
    unfold getCLCDFreeWing
    have hpi := Real.pi_pos
    have h1 : Real.pi * (2 * wing.half / wing.chord) * 0.8 ≠ 0 := by
      simp only [wing]; positivity
    have h2 : 1 + 2 * Real.pi / (Real.pi * (2 * wing.half / wing.chord) * 0.8) ≠ 0 := by
      have : 0 < 1 + 2 * Real.pi / (Real.pi * (2 * wing.half / wing.chord) * 0.8) := by
        simp only [wing]; positivity
      exact this.ne'
    simp only [if_neg h1, if_neg h2]
    exact ⟨_, rfl⟩
  obtain ⟨th, hth⟩ := hth
  have hw : ∃ w, aircraft wing = .ok w := by
    unfold aircraft
    rw [if_neg (by simp [wing])]
    simp only [bind, Except.bind, hth, hps]
    rw [if_neg (by rw [hpan']; simp), hpan']
    have hc : calculateAircraftVariables [wingPanel] wing.g = .ok [wingVars] := calc_wing
    rw [hc]
    simp only [nanTrap]
    have e1 : (fun i : Fin [wingVars].length => [wingVars][i]) = fun _ => wingVars := by
      funext i; simp
    have e2 : (fun i : Fin [wingVars].length => (getPanelsArea [wingPanel]).getD i 0) =
        fun _ => (1 : ℝ) := by
      funext i
      rw [area_wing]
      simp
    have e3 : (fun i : Fin [wingVars].length => ps.te.getD i false) = fun _ => true := by
      funext i
      change Fin 1 at i
      rw [hte]
      fin_cases i
      rfl
    have hW : WellPosed (K := [wingVars].length) (fun _ => wingVars) (fun _ => 1) (fun _ => true) 1 wing.g
      (fun _ => wing.V) := wing_wellPosed
    rw [e1, e2, e3, solveLattice_eq, if_neg (not_not.2 hW.ctr), if_neg hW.regular,
      if_neg (by push Not; exact hW.areas)]
    simp only
    have hix : IndexOk (fun i : Fin [wingVars].length => ps.le.getD i false) wing.ns := by
      intro i _
      simp [wing]
    rw [calcForceWrapper_eq _ _ _ _ _ _ _ _ _ (by simp), if_neg (not_not.2 hW.cp),
      if_neg (not_not.2 hix)]
    simp only [calcPressure, getVlmCLCD]
    rw [if_neg (by simp)]
    simp only [if_neg hS]
    exact ⟨_, rfl⟩
  obtain ⟨w, hw⟩ := hw
  refine ⟨w, hw, ?_⟩
  obtain ⟨-, -, -, -, -, -, -, hp, hte', hle', hv, ⟨sol, hs, -, h2, -⟩, -⟩ := aircraft_inv hw
  have hp' : w.panelSet.panels = [wingPanel] := by rw [hp]; exact blockPanels_wing
  have hvars : w.vars = [wingVars] := by
    have := aircraftVariables_eq wing.g (nc := wing.nc) (ns := wing.ns) one_pos one_pos
      (wingPoint wing.chord wing.half wing.aoaDeg wing.nc wing.ns) (wingPoint_even _ _ _ _ _)
    rw [hp, hte', ← this] at hv
    have hc : calculateAircraftVariables (blockPanels wing.nc wing.ns
      [wingPoint wing.chord wing.half wing.aoaDeg wing.nc wing.ns]) wing.g = .ok [wingVars] := by
      have e : blockPanels wing.nc wing.ns
        [wingPoint wing.chord wing.half wing.aoaDeg wing.nc wing.ns] = [wingPanel] := blockPanels_wing
      rw [e]
      exact calc_wing
    rw [hc] at hv
    injection hv with hv
    exact hv.symm
  rw [← h2]
  clear h2
  have key : ∀ l : List PanelVars, l = [wingVars] → ∀ sol : VlmSolution l.length,
      vlmCore (fun i : Fin l.length => l[i])
        (fun i => (getPanelsArea w.panelSet.panels).getD i 0)
        (fun i => w.panelSet.te.getD i false) (fun i => w.panelSet.le.getD i false) wing.ns wing.rho
        wing.g (fun _ => wing.V) = .ok sol →
      (List.ofFn sol.force).sum.dot (liftDirection wing.V) ≠ 0 := by
    rintro l rfl sol hs
    exact wing_lift w hte' hle' sol hs
  exact key w.vars hvars sol hs

end PySailing.Demo
