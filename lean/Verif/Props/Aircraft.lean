import Verif.Demo.Wing

/-!
# C41, C63, C64: the free wing
-/

namespace PySailing.Props

open PySailing PySailing.Spec

/-! ## C64 -/

/-- **C64.** Whenever `Aircraft` returns, its panels are the cells of an even grid over the
rectangular wing: chord `chord_length` turned by the angle of attack, span from `-half_wing_span` to
`half_wing_span` along the z axis; the trailing edge flags mark the last chordwise row, the leading edge
flags the first one (none if there is one row only); the aspect ratio is the span over the chord. -/
theorem C64_wing_geometry (a : AircraftInput) (w : Aircraft) (h : aircraft a = .ok w) :
    w.panelSet.panels.length = a.nc * a.ns ∧
    (∀ i j, i < a.nc → j < a.ns → w.panelSet.panels[i * a.ns + j]? =
      some (panelOf (wingPoint a.chord a.half a.aoaDeg a.nc a.ns) i j) ∧
      w.panelSet.te[i * a.ns + j]? = some (decide (i + 1 = a.nc)) ∧
      w.panelSet.le[i * a.ns + j]? = some (decide (i = 0 ∧ 2 ≤ a.nc))) ∧
    w.AR * a.chord = 2 * a.half := by
  obtain ⟨-, hc, -, -, -, har, -, hp, hte, hle, -⟩ := aircraft_inv h
  refine ⟨by rw [hp, blockPanels_length]; simp, fun i j hi hj => ?_, ?_⟩
  · have e : panelNo a.nc a.ns 0 i j = i * a.ns + j := by unfold panelNo; ring
    rw [hp, hte, hle, ← e]
    exact ⟨blocks_get [wingPoint a.chord a.half a.aoaDeg a.nc a.ns] panelOf (by simp) hi hj,
      blockFlags_get _ one_pos hi hj, blockFlags_get _ one_pos hi hj⟩
  · rw [har]; field_simp

/-- The hypothesis is met: a wing for which `Aircraft` returns. -/
example : ∃ w, aircraft Demo.wing = .ok w ∧ w.panelSet.panels[0]? = some Demo.wingPanel := by
  obtain ⟨w, hw, -⟩ := Demo.wing_ok
  refine ⟨w, hw, ?_⟩
  rw [← Demo.panelOf_wing]
  exact ((C64_wing_geometry _ w hw).2.1 0 0 one_pos one_pos).1

/-! ## C63 -/

/-- The arguments with which `Vlm` would be called for the panels of a wing. -/
def wingVlmInput (a : AircraftInput) (ps : PanelSet) (wind : WindObj) : VlmInput where
  panels := ps.panels
  nc := a.nc
  ns := a.ns
  rho := a.rho
  wind := wind
  te := ps.te
  le := ps.le
  g := a.g

/-- **C63.** The free wing and the sail solver are the same computation: whenever `Aircraft` returns,
`Vlm` on the panels of the wing, with the free stream as apparent wind at every panel, returns as well,
with the same circulations, forces and pressures. -/
theorem C63_same_as_vlm (a : AircraftInput) (w : Aircraft) (h : aircraft a = .ok w) (wind : WindObj) :
    ∃ o, vlmWithWinds (wingVlmInput a w.panelSet wind)
        (List.replicate w.panelSet.panels.length a.V) = .ok o ∧
      o.gamma = List.ofFn w.gamma ∧ o.force = List.ofFn w.force ∧
      o.pressure = List.ofFn w.pressure := by
  obtain ⟨-, -, -, -, -, -, -, hp, hte, hle, hv, ⟨sol, hs, h1, h2, h3⟩, -⟩ := aircraft_inv h
  have hK := (calculateVlmVariables_ok hv).1
  refine ⟨sol.arrays, ?_, by rw [← h1]; rfl, by rw [← h2]; rfl, by rw [← h3]; rfl⟩
  unfold vlmWithWinds
  have hv' : calculateVlmVariables (wingVlmInput a w.panelSet wind).panels
      (wingVlmInput a w.panelSet wind).te (wingVlmInput a w.panelSet wind).g
      (wingVlmInput a w.panelSet wind).nc (wingVlmInput a w.panelSet wind).ns = .ok w.vars := hv
  rw [hv']
  simp only [nanTrap, bind, Except.bind]
  have hs' : vlmSolve (wingVlmInput a w.panelSet wind) w.vars
      (List.replicate w.panelSet.panels.length a.V) = .ok sol := by
    unfold vlmSolve
    have e : (fun i : Fin w.vars.length =>
        (List.replicate w.panelSet.panels.length a.V).getD i 0) = fun _ => a.V := by
      funext i
      rw [List.getD_eq_getElem?_getD, List.getElem?_replicate_of_lt (by rw [← hK]; exact i.isLt)]
      rfl
    rw [e]
    exact hs
  rw [hs']

/-- The hypothesis is met. -/
example : ∃ w, aircraft Demo.wing = .ok w ∧ ∃ o, vlmWithWinds
    (wingVlmInput Demo.wing w.panelSet Demo.wind) (List.replicate w.panelSet.panels.length Demo.V) =
      .ok o ∧ o.force = List.ofFn w.force := by
  obtain ⟨w, hw, -⟩ := Demo.wing_ok
  obtain ⟨o, ho, -, hf, -⟩ := C63_same_as_vlm _ w hw Demo.wind
  exact ⟨w, hw, o, ho, hf⟩

/-! ## C41 -/

/-- **C41 (refuted part).** The wing spans the z axis, but `CL` is computed from the z component of
the total force: for every wing and every free stream normal to the span `CL` is exactly `0`, whatever
the angle of attack. -/
theorem C41_CL_is_zero (a : AircraftInput) (w : Aircraft) (h : aircraft a = .ok w)
    (hV : a.V.z = 0) : w.CL = 0 := by
  obtain ⟨-, -, hnc, hns, -, -, -, hp, hte, hle, hv, ⟨sol, hs, -, h2, -⟩, hCL, -⟩ := aircraft_inv h
  have hK : w.vars.length = 1 * (a.nc * a.ns) := by
    rw [(calculateVlmVariables_ok hv).1, hp, blockPanels_length, List.length_singleton]
  rw [hp, hte] at hv
  rw [hp, hte, hle] at hs
  have T := transfer_flip hnc hns (fun r k hr => wingPoint_mirror a.chord a.half a.aoaDeg a.nc hns hr k)
    hv a.V hV hK
  have hsym := (symmetric_solution T hs).1
  have hz : (List.ofFn w.force).sum.z = 0 := by
    rw [← h2, List.sum_ofFn]
    have e : ∑ i, sol.force i = mirror (∑ i, sol.force i) := by
      rw [isIsometry_mirror.map_fsum]
      rw [← Equiv.sum_comp (flipPerm a.nc a.ns hK) (fun i => mirror (sol.force i))]
      exact Finset.sum_congr rfl fun i _ => (hsym i).2.1
    have := congrArg V3.z e
    simp only [mirror] at this
    linarith
  rw [hCL, hz, zero_div]

/-- **C41 (refuted).** `CL` is not the lift coefficient: there is a wing and a free stream normal to its
span for which the lift (the force along the direction normal to span and free stream) is not zero,
although the reported `CL` is. -/
theorem C41_refuted : ∃ (a : AircraftInput) (w : Aircraft), aircraft a = .ok w ∧ a.V.z = 0 ∧
    (List.ofFn w.force).sum.dot (liftDirection a.V) ≠ 0 ∧ w.CL = 0 := by
  obtain ⟨w, hw, hl⟩ := Demo.wing_ok
  exact ⟨_, w, hw, rfl, hl, C41_CL_is_zero _ w hw rfl⟩

/-- **C41 (partial).** What does hold: `Cxyz` is the total force divided by the dynamic pressure times
area, so its component normal to span and free stream is the lift coefficient; `CD` is the component of
the total force along a free stream in x direction, divided by the same number. -/
theorem C41_coefficients_partial (a : AircraftInput) (w : Aircraft) (h : aircraft a = .ok w) :
    0.5 * a.rho * a.V.dot a.V * (2 * a.half * a.chord) ≠ 0 ∧
    ∃ c, w.Cxyz = .ok c ∧
      (0.5 * a.rho * a.V.dot a.V * (2 * a.half * a.chord)) • c = (List.ofFn w.force).sum ∧
      w.CD = c.x ∧ w.CL = c.z := by
  obtain ⟨hin, -, -, -, hq, -, -, -, -, -, -, -, hCL, hCD, -⟩ := aircraft_inv h
  have e : 0.5 * a.rho * a.V.norm ^ 2 * a.S = 0.5 * a.rho * a.V.dot a.V * (2 * a.half * a.chord) := by
    rw [V3.norm_sq, AircraftInput.S]
  rw [e] at hq hCL hCD
  refine ⟨hq, (1 / (0.5 * a.rho * a.V.dot a.V * (2 * a.half * a.chord))) • (List.ofFn w.force).sum,
    ?_, ?_, ?_, ?_⟩
  · unfold Aircraft.Cxyz getVlmCxyz
    rw [hin, e, if_neg hq]
  · rw [smul_smul, mul_one_div_cancel hq, one_smul]
  · rw [hCD]; simp; ring
  · rw [hCL]; simp; ring

/-- The hypothesis is met, with a lift coefficient that is not zero. -/
example : ∃ w c, aircraft Demo.wing = .ok w ∧ w.Cxyz = .ok c ∧
    c.dot (liftDirection Demo.V) ≠ 0 := by
  obtain ⟨w, hw, hl⟩ := Demo.wing_ok
  obtain ⟨-, c, hc, hf, -⟩ := C41_coefficients_partial _ w hw
  refine ⟨w, c, hw, hc, fun h0 => hl ?_⟩
  rw [← hf, V3.dot_smul_left]
  have : c.dot (liftDirection Demo.wing.V) = 0 := h0
  rw [this, mul_zero]

/-- **C41**, exactly: in a free stream normal to the span the reported `CL` is the lift coefficient if and only if there is
no lift. -/
theorem C41_exact (a : AircraftInput) (w : Aircraft) (h : aircraft a = .ok w) (hV : a.V.z = 0) :
    w.CL * (0.5 * a.rho * a.V.dot a.V * (2 * a.half * a.chord)) = (List.ofFn w.force).sum.dot (liftDirection a.V) ↔
      (List.ofFn w.force).sum.dot (liftDirection a.V) = 0 := by
  rw [C41_CL_is_zero a w h hV, zero_mul]
  exact eq_comm

end PySailing.Props
