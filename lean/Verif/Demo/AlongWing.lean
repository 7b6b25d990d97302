import Verif.Demo.Wing
import Verif.Lemmas.Wing

/-!
# A free wing along the free stream

The wing of `Verif.Demo.Wing` with the wind along its chord.
-/

namespace PySailing.Demo

open PySailing Spec Props

/-- The wing. -/
noncomputable def alongWing : AircraftInput := { wing with V := ⟨1, 0, 0⟩ }

theorem wake_y_pos (P A : V3) (s : ℝ) (hs : s * (A.z - P.z) > 0) (hw : A.x > P.x) :
    0 < s * (vortexInfiniteLine P A ⟨1, 0, 0⟩ 1).y := by
  have hn : (⟨1, 0, 0⟩ : V3).norm = 1 := by simp [V3.norm, V3.dot]
  have hne : P - A ≠ 0 := by
    intro h0
    have := congrArg V3.x h0
    simp at this
    linarith
  have hp := V3.norm_pos hne
  have hpi := Real.pi_pos
  unfold vortexInfiniteLine
  simp only [hn, V3.smul_y]
  have hd : ((1 / 1 : ℝ) • (⟨1, 0, 0⟩ : V3)).dot (P - A) = P.x - A.x := by simp [V3.dot]
  have hc : (V3.cross ((1 / 1 : ℝ) • (⟨1, 0, 0⟩ : V3)) (P - A)).y = A.z - P.z := by simp
  rw [hd, hc]
  have h2 : 0 < (P - A).norm - (P.x - A.x) := by linarith
  have e : s * (1 / (4 * Real.pi) * (1 / ((P - A).norm * ((P - A).norm - (P.x - A.x))) *
      (A.z - P.z))) = 1 / (4 * Real.pi) * (1 / ((P - A).norm * ((P - A).norm - (P.x - A.x)))) *
      (s * (A.z - P.z)) := by ring
  rw [e]
  positivity

theorem alongWing_y : 0 < (vortexHorseshoeV2 ⟨3 / 4, 0, 0⟩ ⟨5 / 4, 0, -1 / 2⟩
    ⟨1 / 4, 0, -1 / 2⟩ ⟨1 / 4, 0, 1 / 2⟩ ⟨5 / 4, 0, 1 / 2⟩ ⟨1, 0, 0⟩ 1).y := by
  unfold vortexHorseshoeV2
  rw [vortexInfiniteLine_gamma _ ⟨5 / 4, 0, -1 / 2⟩ _ (-1 * 1)]
  simp only [V3.add_y, V3.smul_y]
  rw [line_y _ ⟨5 / 4, 0, -1 / 2⟩ ⟨1 / 4, 0, -1 / 2⟩ (by simp [V3.dot]; norm_num)
      (by simp [V3.dot]; norm_num) (by ext <;> simp <;> norm_num) (by simp [V3.dot]; norm_num),
    line_y _ ⟨1 / 4, 0, -1 / 2⟩ ⟨1 / 4, 0, 1 / 2⟩ (by simp [V3.dot]; norm_num)
      (by simp [V3.dot]; norm_num) (by ext <;> simp <;> norm_num) (by simp [V3.dot]; norm_num),
    line_y _ ⟨1 / 4, 0, 1 / 2⟩ ⟨5 / 4, 0, 1 / 2⟩ (by simp [V3.dot]; norm_num)
      (by simp [V3.dot]; norm_num) (by ext <;> simp <;> norm_num) (by simp [V3.dot]; norm_num)]
  have w1 := wake_y_pos ⟨3 / 4, 0, 0⟩ ⟨5 / 4, 0, 1 / 2⟩ 1 (by norm_num) (by norm_num)
  have w2 := wake_y_pos ⟨3 / 4, 0, 0⟩ ⟨5 / 4, 0, -1 / 2⟩ (-1 * 1) (by norm_num) (by norm_num)
  have hp := h_pos
  have hpi := Real.pi_pos
  have h3 : 0 < 1 / (4 * Real.pi) * (2 / h) := by positivity
  linarith

theorem alongWing_wellPosed : WellPosed (K := 1) (fun _ => wingVars) (fun _ => 1) (fun _ => true) 1 1
    (fun _ => ⟨1, 0, 0⟩) where
  ctr i j _ := by
    refine ⟨by simp [V3.ext_iff], fun s _ => ⟨?_, ?_⟩⟩ <;>
      · intro h0
        have := congrArg V3.z h0
        simp [wingVars] at this
        try norm_num at this
  cp i j _ := by
    refine ⟨by simp [V3.ext_iff], fun s _ => ⟨?_, ?_⟩⟩ <;>
      · intro h0
        have := congrArg V3.z h0
        simp [wingVars] at this
        try norm_num at this
  regular := by
    rw [Matrix.det_fin_one, influence_eq, velCoef_eq]
    simp only [if_true]
    have := alongWing_y
    simp only [wingVars, V3.dot, mul_zero, mul_one, zero_add, add_zero]
    exact this.ne'
  areas i := by norm_num
  rho _ := one_ne_zero
  wind i := by simp [V3.ext_iff]

/-- `Aircraft` returns for this wing. -/
theorem alongWing_ok : ∃ w, aircraft alongWing = .ok w := by
  obtain ⟨w, hw, -⟩ := wing_ok
  obtain ⟨-, hc, -, -, -, har, hth, -⟩ := aircraft_inv hw
  rw [har] at hth
  have hq : 0.5 * alongWing.rho * alongWing.V.norm ^ 2 * alongWing.S ≠ 0 := by
    rw [V3.norm_sq]
    simp [alongWing, wing, AircraftInput.S, V3.dot]
    norm_num
  have hv : calculateVlmVariables (blockPanels alongWing.nc alongWing.ns
      [wingPoint alongWing.chord alongWing.half alongWing.aoaDeg alongWing.nc alongWing.ns])
      (trailingFlags alongWing.nc alongWing.ns 1) alongWing.g alongWing.nc alongWing.ns =
      .ok [wingVars] := by
    have := aircraftVariables_eq alongWing.g (nc := alongWing.nc) (ns := alongWing.ns) one_pos one_pos
      _ (wingPoint_even alongWing.chord alongWing.half alongWing.aoaDeg alongWing.nc alongWing.ns)
    rw [← this]
    have e : blockPanels alongWing.nc alongWing.ns
      [wingPoint alongWing.chord alongWing.half alongWing.aoaDeg alongWing.nc alongWing.ns] =
      [wingPanel] := blockPanels_wing
    rw [e]
    exact calc_wing
  obtain ⟨w', hw', -⟩ := aircraft_of (a := alongWing) hc one_pos one_pos hq hth hv
    (sol := solOf (fun i : Fin [wingVars].length => [wingVars][i]) _ _ _ _ _ _ _ _)
    ((vlmCore_ok_iff _ _ _ _ _ _ _ _ _).2 ⟨by
      have e1 : (fun i : Fin [wingVars].length => [wingVars][i]) = fun _ => wingVars := by
        funext i; simp
      have e2 : (fun i : Fin [wingVars].length => (getPanelsArea (blockPanels alongWing.nc alongWing.ns
          [wingPoint alongWing.chord alongWing.half alongWing.aoaDeg alongWing.nc
            alongWing.ns])).getD i 0) = fun _ => (1 : ℝ) := by
        funext i
        have e : blockPanels alongWing.nc alongWing.ns
          [wingPoint alongWing.chord alongWing.half alongWing.aoaDeg alongWing.nc alongWing.ns] =
          [wingPanel] := blockPanels_wing
        rw [e, area_wing]
        simp
      have e3 : (fun i : Fin [wingVars].length =>
          (trailingFlags alongWing.nc alongWing.ns 1).getD i false) = fun _ => true := by
        funext i
        change Fin 1 at i
        fin_cases i
        rfl
      rw [e1, e2, e3]
      exact alongWing_wellPosed, by
      intro i _
      simp [alongWing, wing], rfl⟩)
  exact ⟨w', hw'⟩

end PySailing.Demo
