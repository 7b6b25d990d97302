import Verif.Props.Reference

/-!
# The picture of a run (C105)
-/

namespace PySailing.Props

open PySailing PySailing.Spec

/-- **C105.**  The picture of a run shows this run.  The title names the colours; every panel of the sails and their
images is drawn with its own pressure coefficient, on a scale from the smallest to the largest one; there is a green
arrow for the true wind and a blue one for the apparent wind at every panel of the first chordwise row of each sail and
image, and no other wind arrow; the force on the sails is shown by an arrow at the centre of effort, with its
direction and a length of 0.8 times the mean apparent wind speed, and by the opposite arrow at the centre of lateral
resistance of the hull. -/
theorem C105_picture (spline : SplineFn) (c : Config) (s : Scene) (h : .picture (some s) ∈ (run spline c).1) :
    ∃ p, prepare spline c = .ok p ∧
      s.title = "VLM mode: Panels colored by coefficient of pressure" ∧
      s.panels.polygons.length = p.set.panels.length ∧
      (∀ k (hk : k < p.set.panels.length),
        s.panels.polygons[k]? = some (p.set.panels[k], p.vlm.out.pCoeffs.getD k 0)) ∧
      s.panels.vmin ∈ p.vlm.out.pCoeffs ∧ s.panels.vmax ∈ p.vlm.out.pCoeffs ∧
      (∀ x ∈ p.vlm.out.pCoeffs, s.panels.vmin ≤ x ∧ x ≤ s.panels.vmax) ∧
      s.winds =
        (firstRowArrows c.solver.nc c.solver.ns (2 * p.set.sails.length) fun _ k =>
          windArrow (windOrigin s.panels.water p.vlm.inlet.awaInfsDeg).1
            (windOrigin s.panels.water p.vlm.inlet.awaInfsDeg).2 (row p.vlm.inlet.twsAtCp k)
            (row p.vlm.inlet.cpPoints k) "green") ++
        (firstRowArrows c.solver.nc c.solver.ns (2 * p.set.sails.length) fun _ k =>
          windArrow (windOrigin s.panels.water p.vlm.inlet.awaInfsDeg).1
            (windOrigin s.panels.water p.vlm.inlet.awaInfsDeg).2 (row p.vlm.inlet.vAppInfs k)
            (row p.vlm.inlet.cpPoints k) "blue") ∧
      ∃ (ce d : V3) (x : ℝ), p.flow.res.centreOfEffort = .ok ce ∧
        s.force.arrows = [⟨ce, ce + d, "black", 0.75⟩, ⟨p.hull.clr, p.hull.clr - d, "black", 0.75⟩] ∧
        d = x • p.flow.res.forceTotal ∧ 0 ≤ x ∧
        d.norm = 0.8 * ((p.vlm.flowArrays.vFsCp.map V3.norm).sum / p.vlm.flowArrays.vFsCp.length) := by
  obtain ⟨p, hp, hd⟩ := run_picture h
  refine ⟨p, hp, ?_⟩
  obtain ⟨hn, hpos, hlen, -⟩ := prepared_shape hp
  obtain ⟨main, jib, base, -, -, -, -, -, -, -, -, hv, res, hres, hflow⟩ := prepare_ok hp
  have hr0 : p.flow.res = res := by rw [hflow]; rfl
  have hin : p.vlm.input = c.vlmInput p.set (windGetProfile c.wind) := ((vlm_ok_iff _ _).1 hv).1
  obtain ⟨-, -, f3, -, -, f6, -⟩ := inviscidFlow_fields hres
  rw [hr0] at hd ⊢
  unfold displayScene at hd
  simp only [bind, Except.bind] at hd
  split at hd
  · cases hd
  rename_i P hP
  split at hd
  · cases hd
  rename_i W hW
  split at hd
  · cases hd
  rename_i fp hfp
  injection hd with hd
  subst hd
  obtain ⟨h1, h2, h3, h4, h5⟩ := C68_panel_colours hv hP
  refine ⟨rfl, h1, h2, h3, h4, h5, ?_, ?_⟩
  · have hnc : 0 < c.solver.nc := Nat.pos_of_mul_pos_right hpos
    have hns : 0 < c.solver.ns := Nat.pos_of_mul_pos_left hpos
    obtain ⟨-, hl, -, hvl, -⟩ := vlm_lengths hv
    obtain ⟨hin', hcp, hne⟩ := vlm_inlet hv
    obtain ⟨-, ht, -⟩ := (inletConditions_ok_iff _ _ _ _).1 hin'
    have hL : (c.vlmInput p.set (windGetProfile c.wind)).panels.length =
        2 * p.set.sails.length * (c.solver.nc * c.solver.ns) := by
      rw [show (c.vlmInput p.set (windGetProfile c.wind)).panels = p.set.panels from rfl, hlen, Nat.mul_assoc]
    have c3 : p.vlm.inlet.cpPoints.length = 2 * p.set.sails.length * (c.solver.nc * c.solver.ns) := by
      rw [hcp, List.length_map, hl, hL]
    have c1 : p.vlm.inlet.twsAtCp.length = 2 * p.set.sails.length * (c.solver.nc * c.solver.ns) := by
      rw [(mapM_ok_inv ht).1, c3]
    have c4 : res.vInd.length = 2 * p.set.sails.length * (c.solver.nc * c.solver.ns) := by
      rw [f3]; simp [Vlm.flowArrays, Vlm.out, VlmSolution.arrays, hl, hL]
    rw [hin, hl, hL, show (c.vlmInput p.set (windGetProfile c.wind)).ns = c.solver.ns from rfl,
      show (c.vlmInput p.set (windGetProfile c.wind)).nc = c.solver.nc from rfl,
      C56_arrows hnc hns (l := 2 * p.set.sails.length) (by omega) P.water p.vlm.inlet res.vInd false c1
        (by rw [hvl, hL]) c3 c4] at hW
    injection hW with hW
    rw [← hW]
    simp
  · have hF : res.forceTotal ≠ 0 := by
      intro h0
      rw [C67_no_force hres h0 p.hull] at hfp
      cases hfp
    have hne : p.vlm.flowArrays.vFsCp ≠ [] := by
      intro e
      have h0 : p.vlm.vars.length = 0 := by
        have := congrArg List.length e
        simpa [Vlm.flowArrays, Vlm.out, VlmSolution.arrays] using this
      exact (vlm_inlet hv).2.2 (List.eq_nil_of_length_eq_zero h0)
    obtain ⟨plot, ce, hplot, hce, d, x, ha, hdx, hx, -, hnorm⟩ := C67_force_arrows hres hF hne p.hull
    rw [hfp] at hplot
    injection hplot with hplot
    subst hplot
    exact ⟨ce, d, x, hce, ha, hdx, hx, hnorm⟩

/-- Non-vacuity: the demonstration run has a picture. -/
example (spline : SplineFn) : ∃ s, .picture (some s) ∈ (run spline Demo.config).1 :=
  let ⟨_, s, _, hs, _⟩ := demo_picture spline
  ⟨s, hs⟩

end PySailing.Props
