import Verif.Lemmas.TackRun
import Verif.Lemmas.TackExit
import Verif.Demo.Cambered
import Verif.Props.Workbook

/-!
# The same yacht on the other tack (C85)
-/

namespace PySailing.Props

open Spec

/-- **C85**, uncambered sails: whatever heel, leeway, wind profile, rig, twist, mesh and number of sails, if a
run writes its workbook, then so does the run on the other tack, and the two workbooks differ exactly by the
sign of the entries that belong to port or starboard.  Missing: cambered sails, see `C85_refuted`. -/
theorem C85_other_tack_partial (spline : SplineFn) (c : Config)
    (hk : c.solver.interpolation = "linear" ∨ spline = fitpackSpline)
    (hm : c.rig.sailsDef ≠ "jib" → Flat c.main) (hj : c.rig.sailsDef ≠ "main" → Flat c.jib) (t : SavedResults)
    (h : .workbook (some t) ∈ (run spline c).1) :
    ∃ t', .workbook (some t') ∈ (run spline (otherTack c)).1 ∧
      t'.components = t.components.map (fun col => (col.1, col.2.map (cellOnOtherTack c.leewayDeg col.1))) ∧
      (∀ name, t'.integrals name = (t.integrals name).map (onOtherTack c.leewayDeg name)) ∧
      t'.inlet = t.inlet.map (fun row => (row.1, onOtherTack c.leewayDeg row.1 row.2)) :=
  ⟨_, workbook_other hk (fun hd => noCamber_of_flat hk (hm hd)) (fun hd => noCamber_of_flat hk (hj hd)) h, rfl,
    fun _ => rfl, rfl⟩

/-- Non-vacuity: the run of the one panel sail. -/
example (spline : SplineFn) : ∃ t, .workbook (some t) ∈ (run spline Demo.config).1 ∧
    Flat Demo.config.main ∧ Demo.config.solver.interpolation = "linear" := by
  obtain ⟨t, ht⟩ := demo_workbook spline
  refine ⟨t, ht, ?_, rfl⟩
  intro camber h
  cases h
  simp

theorem girths_const (spline : SplineFn) (v : ℝ) : interpolateGirths spline "linear" [0, 1] [v, v] (1 + 1) = .ok [v, v] := by
  simp [interpolateGirths, npInterp, linspace01, interp1, List.range, List.range.loop]

theorem cambered_other (spline : SplineFn) : run spline (otherTack Demo.cambered) = ([], .error (.sysExit 1)) := by
  obtain ⟨p, hp, -⟩ := Demo.prepared_cambered spline
  obtain ⟨main, jib, base, h1, h2, h3, h4, h5, h6, -⟩ := prepare_ok hp
  cases h1; cases h2
  have hi : interpolatedSail spline ⟨1, 1, "linear", "real_twist"⟩ (otherSide Demo.camberedConf) =
      .ok ([1, 1], [-0, -0], [-(1 / 10), -(1 / 10)], [1 / 2, 1 / 2]) := by
    unfold interpolatedSail
    simp only [otherSide, Demo.camberedConf, demoConf, Option.map_some, List.map_cons, List.map_nil, needArray, bind,
      Except.bind, girths_const]
  have hm : ∀ a b, makeAirfoilMesh a b 1 1 [1, 1] [1 / 2, 1 / 2] [-(1 / 10), -(1 / 10)] = .error (.sysExit 1) :=
    fun a b => ((C12_airfoil_mesh_rejects a b 1 1 _ _ _).2 rfl 0 (by norm_num) (fun i hi => absurd hi (by omega))).2
      _ _ rfl rfl (Or.inl (by norm_num))
  have hs : ∀ cs, sailMain spline ⟨1, 1, "linear", "real_twist"⟩ (demoRig "main") (some (otherSide Demo.camberedConf)) cs =
      .error (.sysExit 1) := by
    intro cs
    unfold sailMain
    simp only [attr, need, bind, Except.bind, hi, demoRig]
    unfold SailFactory.makeMainSail sailGeometry
    simp only [bind, Except.bind, RigConf.factory]
    rw [hm]
  have hset : ∀ cs, sailSetOf spline ⟨1, 1, "linear", "real_twist"⟩ (demoRig "main") (some (otherSide Demo.camberedConf))
      (some (otherSide Demo.camberedConf)) cs = .error (.sysExit 1) := by
    intro cs
    have := hs cs
    simp only [sailSetOf, selectedJib, selectedMain, demoRig] at this ⊢
    simp only [this]
    rfl
  have hpr : prepare spline (otherTack Demo.cambered) = .error (.sysExit 1) := by
    unfold prepare prepareGeometry
    have g1 : mainSailInit (otherTack Demo.cambered).main = .ok (otherSide Demo.camberedConf) := rfl
    have g2 : jibSailInit (otherTack Demo.cambered).jib = .ok (otherSide Demo.camberedConf) := rfl
    have g3 : windPostInit (otherTack Demo.cambered).wind = .ok () := by
      simp [windPostInit, otherTack, Demo.cambered, Demo.config]
    have g4 := C59_csys_constructor_total (otherTack Demo.cambered).heelDeg (otherTack Demo.cambered).leewayDeg
      (otherTack Demo.cambered).vRef
    have g5 : sailPostInit (otherTack Demo.cambered).rig (some (otherSide Demo.camberedConf))
        (some (otherSide Demo.camberedConf)) = .ok () := by
      rw [sailPostInit_other]
      exact ((C53_validation_partial (demoRig "main")).2.1 rfl (some Demo.camberedConf) Demo.camberedConf).1
        ⟨⟨_, rfl⟩, Demo.camberedConf_complete⟩
    have g6 : ∀ cs, sailSetOf spline (otherTack Demo.cambered).solver (otherTack Demo.cambered).rig
        (some (otherSide Demo.camberedConf)) (some (otherSide Demo.camberedConf)) cs = .error (.sysExit 1) := hset
    simp only [g1, g2, g3, g4, g5, g6, bind, Except.bind]
  unfold run
  rw [hpr]

/-- **C85** fails for cambered sails: a yacht with ten percent camber is computed on one tack; on the other tack
its camber has the opposite sign and the program ends with status 1 and without results. -/
theorem C85_refuted (spline : SplineFn) :
    (∃ t, .workbook (some t) ∈ (run spline Demo.cambered).1) ∧
    run spline (otherTack Demo.cambered) = ([], .error (.sysExit 1)) := by
  refine ⟨?_, cambered_other spline⟩
  obtain ⟨p, hp, hc, hvl, hv, -⟩ := Demo.prepared_cambered spline
  refine demo_prepared_workbook spline hp rfl rfl (by norm_num [Demo.cambered, Demo.config, demoRig, deg2rad_90]) hc hv ?_
  obtain ⟨-, -, -, hinl, -⟩ := (vlm_ok_iff _ _).1 hvl
  rw [((inletConditions_ok_iff _ _ _ _).1 hinl).2.2]
  exact ⟨_, rfl⟩

/-- **C85, exactly where it holds.**  For every run that writes its workbook: if the sections of the selected sails
have no camber, the run on the other tack writes the mirrored workbook; if one of them has, however little, the
run on the other tack writes nothing and ends with status 1. -/
theorem C85_exact (spline : SplineFn) (c : Config)
    (hk : c.solver.interpolation = "linear" ∨ spline = fitpackSpline) (t : SavedResults)
    (h : .workbook (some t) ∈ (run spline c).1) :
    (((c.rig.sailsDef ≠ "jib" → NoCamber spline c.solver c.main) ∧
        (c.rig.sailsDef ≠ "main" → NoCamber spline c.solver c.jib)) →
      ∃ t', .workbook (some t') ∈ (run spline (otherTack c)).1 ∧
        t'.components = t.components.map (fun col => (col.1, col.2.map (cellOnOtherTack c.leewayDeg col.1))) ∧
        (∀ name, t'.integrals name = (t.integrals name).map (onOtherTack c.leewayDeg name)) ∧
        t'.inlet = t.inlet.map (fun row => (row.1, onOtherTack c.leewayDeg row.1 row.2))) ∧
    (¬ ((c.rig.sailsDef ≠ "jib" → NoCamber spline c.solver c.main) ∧
        (c.rig.sailsDef ≠ "main" → NoCamber spline c.solver c.jib)) →
      run spline (otherTack c) = ([], .error (.sysExit 1))) := by
  refine ⟨fun hn => ⟨_, workbook_other hk hn.1 hn.2 h, rfl, fun _ => rfl, rfl⟩, fun hn => ?_⟩
  obtain ⟨p, hp, -⟩ := run_workbook h
  exact run_cambered hk hp hn

/-- Non-vacuity: both cases occur among runs that write a workbook. -/
example (spline : SplineFn) :
    ((∃ t, .workbook (some t) ∈ (run spline Demo.config).1) ∧ NoCamber spline Demo.config.solver Demo.config.main) ∧
    (∃ t, .workbook (some t) ∈ (run spline Demo.cambered).1) ∧
      ¬ NoCamber spline Demo.cambered.solver Demo.cambered.main := by
  refine ⟨⟨demo_workbook spline, noCamber_of_flat (Or.inl rfl) ?_⟩, (C85_refuted spline).1, fun h => ?_⟩
  · intro camber h
    cases h
    simp
  · have := h [0, 1] [1 / 10, 1 / 10] [1 / 10, 1 / 10] rfl rfl (girths_const spline _) (1 / 10) (by simp)
    norm_num at this

end PySailing.Props
