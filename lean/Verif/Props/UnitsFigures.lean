import Verif.Lemmas.UnitsFigures
import Verif.Props.Units
import Verif.Props.Figures

/-!
# The figures of the same settings in other units (C140)
-/

namespace PySailing.Props

open PySailing PySailing.Spec

theorem figures_units {spline : SplineFn} {c : Config} {u : Units} (hu : u.Positive)
    (hk : c.solver.interpolation = "linear" ∨ spline = fitpackSpline) {p : Prepared} (hp : prepare spline c = .ok p)
    (hz : ∃ v ∈ p.vlm.vars, v.leMid.z ≠ 0 ∨ v.teMid.z ≠ 0) (hw : ReferenceAboveWater c.wind)
    (hg : u.length ≤ 1 ∨ ∃ g, prepareGeometry spline (inUnits u c) = .ok g)
    (hi : u.length = 1 ∨
      SizesIrrelevant u.length (fun i : Fin p.vlm.vars.length => p.vlm.vars[i]) (fun i => p.vlm.areas.getD i 0)) :
    (run spline c).2 = .ok () ∧ (run spline (inUnits u c)).2 = .ok () ∧
    (∀ m, .cpMap m ∈ (run spline c).1 → .cpMap (mapInUnits u m) ∈ (run spline (inUnits u c)).1) ∧
    (∀ name f, .sectionPlot name f ∈ (run spline c).1 →
      .sectionPlot name (f.map (figureInUnits u)) ∈ (run spline (inUnits u c)).1) := by
  obtain ⟨p', hp', hv, hcp, hco⟩ := prepare_units_figures hu hk hp hg hi
  have hz' : ∃ v ∈ p'.vlm.vars, v.leMid.z ≠ 0 ∨ v.teMid.z ≠ 0 := by
    obtain ⟨v, hm, h⟩ := hz
    refine ⟨v.scaled u.length, by rw [hv]; exact List.mem_map_of_mem hm, ?_⟩
    simpa [PanelVars.scaled, hu.length.ne'] using h
  have hw' : ReferenceAboveWater (inUnits u c).wind := by
    intro he ref wl h1 h2
    simp only [inUnits, windInUnits, Option.map_eq_some_iff] at h1 h2
    obtain ⟨ref0, e1, rfl⟩ := h1
    obtain ⟨wl0, e2, rfl⟩ := h2
    obtain ⟨a, b⟩ := hw he ref0 wl0 e1 e2
    exact ⟨mul_pos hu.length a, mul_lt_mul_of_pos_left b hu.length⟩
  have hr := (C72_completes_partial spline c p hp hz hw).1
  have hr' := (C72_completes_partial spline (inUnits u c) p' hp' hz' hw').1
  have hmem : ∀ {e : Effect}, .ok e ∈ outputSteps (inUnits u c) p' → e ∈ (run spline (inUnits u c)).1 := by
    intro e he
    unfold run at hr' ⊢
    rw [hp'] at hr' ⊢
    exact mem_emit_of_ok hr' he
  have hsolver : (inUnits u c).solver = c.solver := rfl
  refine ⟨hr, hr', fun m hm => hmem ?_, fun name f hf => hmem ?_⟩
  · obtain ⟨q, hq, hm⟩ := run_cpMap hm
    obtain rfl : q = p := Except.ok.inj (hq.symm.trans hp)
    unfold outputSteps
    rw [hcp, hm]
    simp [Except.map]
  · obtain ⟨q, hq, hm⟩ := mem_run hf
    obtain rfl : q = p := Except.ok.inj (hq.symm.trans hp)
    have h1 : ∀ {e}, sectionPlotStep (coeffPlotData q.vlm c.solver.nc c.solver.ns) (·.drag) "lift" ["blue", "green"] = .ok e →
        _ := fun {e} => sectionPlotStep_units u hco (·.drag) (fun _ => rfl) "lift" ["blue", "green"] (e := e)
    have h2 : ∀ {e}, sectionPlotStep (coeffPlotData q.vlm c.solver.nc c.solver.ns) (·.lift) "drag" ["teal", "purple"] = .ok e →
        _ := fun {e} => sectionPlotStep_units u hco (·.lift) (fun _ => rfl) "drag" ["teal", "purple"] (e := e)
    have other : ∀ {α : Type} {x : Py α} {g : α → Effect}, (∀ a, g a ≠ .sectionPlot name f) →
        Except.ok (.sectionPlot name f) ≠ x.map g := by
      intro α x g hne he
      cases x with
      | error e => cases he
      | ok a => exact hne a (Except.ok.inj he).symm
    unfold outputSteps at hm ⊢
    rw [hsolver]
    simp only [List.mem_cons, List.not_mem_nil, or_false] at hm ⊢
    rcases hm with hm | hm | hm | hm | hm | hm
    · exact absurd hm (other fun a => by simp)
    · simp at hm
    · exact absurd hm (other fun a => by simp)
    · exact absurd hm (other fun a => by simp)
    · obtain ⟨f', e, h⟩ := h1 hm.symm
      injection e with e1 e2
      subst e1 e2
      simp only [h, true_or, or_true]
    · obtain ⟨f', e, h⟩ := h2 hm.symm
      injection e with e1 e2
      subst e1 e2
      simp only [h, or_true]

/-- **C140, speeds and densities.**  Multiplying the speeds of wind and yacht and the density by positive factors changes
neither the map of pressure coefficients nor the plots of the section coefficients. -/
theorem C140_speed_density (spline : SplineFn) (c : Config) (v d : ℝ) (hv : 0 < v) (hd : 0 < d)
    (hk : c.solver.interpolation = "linear" ∨ spline = fitpackSpline) (p : Prepared) (hp : prepare spline c = .ok p)
    (hz : ∃ q ∈ p.vlm.vars, q.leMid.z ≠ 0 ∨ q.teMid.z ≠ 0) (hw : ReferenceAboveWater c.wind) :
    (run spline c).2 = .ok () ∧ (run spline (inUnits ⟨1, v, d⟩ c)).2 = .ok () ∧
    (∀ m, .cpMap m ∈ (run spline c).1 → .cpMap m ∈ (run spline (inUnits ⟨1, v, d⟩ c)).1) ∧
    (∀ name f, .sectionPlot name f ∈ (run spline c).1 →
      .sectionPlot name f ∈ (run spline (inUnits ⟨1, v, d⟩ c)).1) := by
  obtain ⟨h1, h2, h3, h4⟩ := figures_units (u := ⟨1, v, d⟩) ⟨one_pos, hv, hd⟩ hk hp hz hw (Or.inl le_rfl) (Or.inl rfl)
  have e1 : ∀ m, mapInUnits ⟨1, v, d⟩ m = m := fun m => by simp [mapInUnits]
  have e2 : ∀ f, figureInUnits ⟨1, v, d⟩ f = f := fun f => by simp [figureInUnits]
  refine ⟨h1, h2, fun m hm => by simpa only [e1] using h3 m hm, fun name f hf => ?_⟩
  have := h4 name f hf
  have e3 : figureInUnits ⟨1, v, d⟩ = id := funext e2
  rwa [e3, Option.map_id] at this

/-- **C140, all units.**  In other units the map of pressure coefficients shows the same coefficients on panels whose
outlines have changed by the unit of length, and the plots of the section coefficients show the same coefficients at
heights that have changed by the unit of length, provided the absolute sizes in the code do not distinguish the two
lattices (and, if the numbers for lengths grow, the sails still pass the test of the twist). -/
theorem C140_figures_partial (spline : SplineFn) (c : Config) (u : Units) (hu : u.Positive)
    (hk : c.solver.interpolation = "linear" ∨ spline = fitpackSpline) (p : Prepared) (hp : prepare spline c = .ok p)
    (hz : ∃ q ∈ p.vlm.vars, q.leMid.z ≠ 0 ∨ q.teMid.z ≠ 0) (hw : ReferenceAboveWater c.wind)
    (hg : u.length ≤ 1 ∨ ∃ g, prepareGeometry spline (inUnits u c) = .ok g)
    (hi : SizesIrrelevant u.length (fun i : Fin p.vlm.vars.length => p.vlm.vars[i]) (fun i => p.vlm.areas.getD i 0)) :
    (run spline c).2 = .ok () ∧ (run spline (inUnits u c)).2 = .ok () ∧
    (∀ m, .cpMap m ∈ (run spline c).1 → .cpMap (mapInUnits u m) ∈ (run spline (inUnits u c)).1) ∧
    (∀ name f, .sectionPlot name f ∈ (run spline c).1 →
      .sectionPlot name (f.map (figureInUnits u)) ∈ (run spline (inUnits u c)).1) :=
  figures_units hu hk hp hz hw hg (Or.inr hi)

/-- Non-vacuity of both: the run of the one panel sail, with lengths in fathoms and speeds in knots. -/
example (spline : SplineFn) : ∃ p, prepare spline Demo.config = .ok p ∧
    (∃ q ∈ p.vlm.vars, q.leMid.z ≠ 0 ∨ q.teMid.z ≠ 0) ∧ ReferenceAboveWater Demo.config.wind ∧
    (⟨1 / 1.8288, 3600 / 1852, 1⟩ : Units).Positive ∧ (1 / 1.8288 : ℝ) ≤ 1 ∧
    SizesIrrelevant (1 / 1.8288) (fun i : Fin p.vlm.vars.length => p.vlm.vars[i]) (fun i => p.vlm.areas.getD i 0) ∧
    ∃ m, .cpMap m ∈ (run spline Demo.config).1 ∧ m ≠ [] := by
  obtain ⟨p, hp, -, hvl, hv, -⟩ := Demo.prepared spline
  obtain ⟨r, hr, -, -, ha⟩ := Demo.vlm_ok2
  obtain rfl : r = p.vlm := Except.ok.inj (hr.symm.trans hvl)
  have key : ∀ V A, V = [Demo.vars (-1), (Demo.vars (-1)).mirrored] → A = [1, 1] →
      SizesIrrelevant (1 / 1.8288) (fun i : Fin V.length => V[i]) (fun i => A.getD i 0) := by
    rintro V A rfl rfl
    exact Demo.sizesIrrelevant2 (s := 1 / 1.8288) (by norm_num)
  have hz : ∃ q ∈ p.vlm.vars, q.leMid.z ≠ 0 ∨ q.teMid.z ≠ 0 := by rw [hv]; exact demo_offWater
  have hw : ReferenceAboveWater Demo.config.wind := by intro h; simp [Demo.config] at h
  refine ⟨p, hp, hz, hw, ⟨by norm_num, by norm_num, by norm_num⟩, by norm_num, key _ _ hv ha, ?_⟩
  have hr := (C72_completes_partial spline _ p hp hz hw).1
  obtain ⟨-, hpos, hlen, hzm⟩ := prepared_shape hp
  have hc : p.vlm.out.pCoeffs.length = p.set.zeroMesh.length := by
    obtain ⟨main, jib, base, -, -, -, -, -, -, -, -, hv', -⟩ := prepare_ok hp
    have hl' := (vlm_lengths hv').2.1
    rw [hzm]
    simp [Vlm.out, VlmSolution.arrays, hl']
    rfl
  refine ⟨(p.set.zeroMesh.map sideView).zip p.vlm.out.pCoeffs, ?_, ?_⟩
  · have : .ok (.cpMap ((p.set.zeroMesh.map sideView).zip p.vlm.out.pCoeffs)) ∈ outputSteps Demo.config p := by
      unfold outputSteps plotCp
      rw [if_pos hc.symm]
      simp [Except.map]
    unfold run at hr ⊢
    rw [hp] at hr ⊢
    exact mem_emit_of_ok hr this
  · intro h
    have hl : ((p.set.zeroMesh.map sideView).zip p.vlm.out.pCoeffs).length = 0 := by rw [h]; rfl
    rw [List.length_zip, List.length_map, hc, min_self, hzm, hlen] at hl
    obtain ⟨hn, -⟩ := prepared_shape hp
    rcases hn with e | e <;> rw [e] at hl <;> omega

end PySailing.Props
