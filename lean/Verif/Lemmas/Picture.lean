import Verif.Props.Workbook
import Verif.Demo.Force

/-!
# Lemmas on the picture of a run
-/

namespace PySailing.Props

open Spec

theorem sailGeometry_vRef (s : SailInput) (h l : ℝ) (v v' : V3) :
    sailGeometry { s with csys := ⟨h, l, v⟩ } = sailGeometry { s with csys := ⟨h, l, v'⟩ } := rfl

theorem sailSetOf_vRef (spline : SplineFn) (s : SolverConf) (rig : RigConf) (m j : Option SailConf) (h l : ℝ)
    (v v' : V3) : sailSetOf spline s rig m j ⟨h, l, v⟩ = sailSetOf spline s rig m j ⟨h, l, v'⟩ := by
  have e1 : sailJib spline s rig j ⟨h, l, v⟩ = sailJib spline s rig j ⟨h, l, v'⟩ := rfl
  have e2 : sailMain spline s rig m ⟨h, l, v⟩ = sailMain spline s rig m ⟨h, l, v'⟩ := rfl
  unfold sailSetOf selectedJib selectedMain
  rw [e1, e2]

theorem hull_vRef (s b h l : ℝ) (v v' c : V3) : hullGeometry s b ⟨h, l, v⟩ c = hullGeometry s b ⟨h, l, v'⟩ c := rfl

theorem determineVector_shift {F M : V3} {s : ℝ} {ce w : V3} (h : determineVector F s M = .ok ce) :
    determineVector F (s - w.dot F) (M + -V3.cross w F) = .ok (ce - w) := by
  unfold determineVector at h ⊢
  split_ifs at h ⊢ with h0
  injection h with h
  rw [← h]
  congr 1
  ext <;> simp only [V3.smul_x, V3.smul_y, V3.smul_z, V3.add_x, V3.add_y, V3.add_z, V3.cross_x, V3.neg_x, V3.neg_y,
      V3.neg_z, V3.cross_y, V3.cross_z, V3.sub_x, V3.sub_y, V3.sub_z] <;> field_simp <;> simp only [V3.dot] <;> ring

/-- Where the picture comes from. -/
theorem picture_iff {spline : SplineFn} {c : Config} {p : Prepared} (hp : prepare spline c = .ok p) (s : Option Scene) :
    .picture s ∈ (run spline c).1 ↔ (∃ t, nanAsNone (saveResults p.vlm p.csys p.flow p.set.sails p.csys) = .ok t) ∧
      nanAsNone (displayScene p.vlm p.flow.res p.hull false false) = .ok s := by
  unfold run
  rw [hp]
  unfold outputSteps
  have hrest : ∀ x : Option Scene, .picture x ∉ (emit [(plotCp p.set.zeroMesh p.vlm.out.pCoeffs).map .cpMap,
    sectionPlotStep (coeffPlotData p.vlm c.solver.nc c.solver.ns) (·.drag) "lift" ["blue", "green"],
    sectionPlotStep (coeffPlotData p.vlm c.solver.nc c.solver.ns) (·.lift) "drag" ["teal", "purple"]]).1 := by
    intro x hx
    have hm := mem_emit hx
    simp only [List.mem_cons, List.not_mem_nil, or_false] at hm
    rcases hm with h1 | h1 | h1
    · cases hx : plotCp p.set.zeroMesh p.vlm.out.pCoeffs with
      | error e => rw [hx] at h1; cases h1
      | ok o => rw [hx] at h1; cases h1
    · obtain ⟨f, hf, -⟩ := sectionPlotStep_kind h1.symm
      cases hf
    · obtain ⟨f, hf, -⟩ := sectionPlotStep_kind h1.symm
      cases hf
  cases h1 : nanAsNone (saveResults p.vlm p.csys p.flow p.set.sails p.csys) with
  | error e => simp [emit, Except.map, h1]
  | ok t =>
  cases h2 : nanAsNone (displayScene p.vlm p.flow.res p.hull false false) with
  | error e => simp [emit, Except.map, h1, h2]
  | ok t' =>
  have e : (emit [(nanAsNone (saveResults p.vlm p.csys p.flow p.set.sails p.csys)).map .workbook,
    .ok .caseCopy,
    (nanAsNone (displayScene p.vlm p.flow.res p.hull false false)).map .picture,
    (plotCp p.set.zeroMesh p.vlm.out.pCoeffs).map .cpMap,
    sectionPlotStep (coeffPlotData p.vlm c.solver.nc c.solver.ns) (·.drag) "lift" ["blue", "green"],
    sectionPlotStep (coeffPlotData p.vlm c.solver.nc c.solver.ns) (·.lift) "drag" ["teal", "purple"]]).1 =
    .workbook t :: .caseCopy :: .picture t' :: (emit [(plotCp p.set.zeroMesh p.vlm.out.pCoeffs).map .cpMap,
    sectionPlotStep (coeffPlotData p.vlm c.solver.nc c.solver.ns) (·.drag) "lift" ["blue", "green"],
    sectionPlotStep (coeffPlotData p.vlm c.solver.nc c.solver.ns) (·.lift) "drag" ["teal", "purple"]]).1 := by
    rw [h1, h2]; rfl
  simp only at h1 h2 ⊢
  rw [e]
  simp only [List.mem_cons, reduceCtorEq, false_or, hrest, or_false, Effect.picture.injEq, Except.ok.injEq,
    exists_eq', true_and]
  exact eq_comm

theorem saveResults_okShift {r : Vlm} {h l : ℝ} {v v' : V3} {o o' : FlowObject} {sails : List SailGeom}
    {t : Option SavedResults} (hs : nanAsNone (saveResults r ⟨h, l, v⟩ o sails ⟨h, l, v⟩) = .ok t) :
    ∃ t', nanAsNone (saveResults r ⟨h, l, v'⟩ o' sails ⟨h, l, v'⟩) = .ok t' := by
  have e1 : windIntegral r.inlet.winds ⟨h, l, v'⟩ = windIntegral r.inlet.winds ⟨h, l, v⟩ := rfl
  have e2 : cpGirthsAll sails ⟨h, l, v'⟩ (r.vars.map PanelVars.cp) =
    cpGirthsAll sails ⟨h, l, v⟩ (r.vars.map PanelVars.cp) := rfl
  unfold saveResults at hs ⊢
  rw [e1, e2]
  simp only [bind, Except.bind] at hs ⊢
  cases h1 : windIntegral r.inlet.winds ⟨h, l, v⟩ with
  | error e => simp only [h1] at hs ⊢; cases e <;> first | exact ⟨_, rfl⟩ | cases hs
  | ok ic =>
  simp only [h1] at hs ⊢
  cases h2 : cpGirthsAll sails ⟨h, l, v⟩ (r.vars.map PanelVars.cp) with
  | error e => simp only [h2] at hs ⊢; cases e <;> first | exact ⟨_, rfl⟩ | cases hs
  | ok g =>
  simp only [h2] at hs ⊢
  cases h3 : cpGirthsAbove g.1 sails with
  | error e => simp only [h3] at hs ⊢; cases e <;> first | exact ⟨_, rfl⟩ | cases hs
  | ok ga =>
  simp only [h3] at hs ⊢
  cases h4 : arraySplit g.2 (2 * sails.length) with
  | error e => simp only [h4] at hs ⊢; cases e <;> first | exact ⟨_, rfl⟩ | cases hs
  | ok parts => exact ⟨_, rfl⟩

/-- The picture is drawn with finite numbers if the total force is not zero. -/
theorem picture_drawn {spline : SplineFn} {c : Config} {p : Prepared} (hp : prepare spline c = .ok p)
    (hz : ∃ v ∈ p.vlm.vars, v.leMid.z ≠ 0 ∨ v.teMid.z ≠ 0)
    (ht : ∃ t, nanAsNone (saveResults p.vlm p.csys p.flow p.set.sails p.csys) = .ok t)
    (hF : p.flow.res.forceTotal ≠ 0) : ∃ s, .picture (some s) ∈ (run spline c).1 := by
  obtain ⟨hn, -, hlen, -⟩ := prepared_shape hp
  obtain ⟨main, jib, base, -, -, -, -, -, -, -, -, hv, res, hres, hflow⟩ := prepare_ok hp
  have hne : p.set.sails ≠ [] := by
    intro e; rw [e] at hn; simp at hn
  have hsh := vlm_shaped hv hne (m := c.solver.nc * c.solver.ns) hlen
  have hr0 : p.flow.res = res := by rw [hflow]; rfl
  rw [hr0] at hF
  obtain ⟨res1, hr1, -, h1⟩ := C47_centre_partial _ _ p.csys _ hsh
  rw [hres] at hr1
  injection hr1 with hr1
  subst hr1
  obtain ⟨ce, hce, -⟩ := h1 hF
  obtain ⟨P, hP⟩ := C68_drawn hv "p_coeffs" hz
  obtain ⟨W, hW, -⟩ := (C56_vlm hv (n := p.set.sails.length) (by omega) (by
    rw [show (c.vlmInput p.set (windGetProfile c.wind)).panels = p.set.panels from rfl, hlen, Nat.mul_assoc]; rfl)
    P.water false).1 hn
  obtain ⟨-, -, f3, -, -, f6, -⟩ := inviscidFlow_fields hres
  have hmean : ∃ m, npMean res.vFsLength = .ok m := by
    unfold npMean
    rw [if_neg]
    · exact ⟨_, rfl⟩
    · rw [f6]
      intro e
      have h0 : p.vlm.vars.length = 0 := by
        have := congrArg List.length e
        simpa [Vlm.flowArrays, Vlm.out, VlmSolution.arrays] using this
      exact (vlm_inlet hv).2.2 (List.eq_nil_of_length_eq_zero h0)
  obtain ⟨mean, hmean⟩ := hmean
  have hu : ∃ u, normalize res.forceTotal = .ok u := by
    unfold normalize
    rw [if_neg]
    · exact ⟨_, rfl⟩
    · intro h0
      apply dot_self_ne hF
      rw [← V3.norm_sq, h0]; norm_num
  obtain ⟨u, hu⟩ := hu
  have hs : ∃ s, displayScene p.vlm p.flow.res p.hull false false = .ok s := by
    rw [hr0]
    unfold displayScene displayCeClr
    have hin : p.vlm.input = c.vlmInput p.set (windGetProfile c.wind) := ((vlm_ok_iff _ _).1 hv).1
    have hW' : displayWinds p.vlm.vars.length P.water p.vlm.inlet res.vInd p.vlm.input.ns p.vlm.input.nc false =
        .ok W := by rw [f3, hin]; exact hW
    simp [hP, hW', hmean, hce, hu, bind, Except.bind]
  obtain ⟨s, hs⟩ := hs
  exact ⟨s, (picture_iff hp _).2 ⟨ht, by rw [hs]; rfl⟩⟩

theorem run_congr {spline : SplineFn} {c c' : Config} (hs : c'.solver = c.solver)
    (h : prepare spline c' = prepare spline c) : run spline c' = run spline c := by
  unfold run outputSteps
  rw [h, hs]

end PySailing.Props
