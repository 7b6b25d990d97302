import Verif.Lemmas.UnitsWorkbook
import Verif.Demo.Units
import Verif.Props.Workbook

/-!
# The same settings in other units (C139)
-/

namespace PySailing.Props

open PySailing PySailing.Spec

/-- **C139, speeds and densities.**  If a run writes its workbook, so does the run with the speeds of wind and yacht
multiplied by `v` and the density by `d`, and the two workbooks differ exactly by the powers of `v` and `d` that belong
to the unit of each row and column. -/
theorem C139_speed_density (spline : SplineFn) (c : Config) (v d : ℝ) (hv : 0 < v) (hd : 0 < d)
    (hk : c.solver.interpolation = "linear" ∨ spline = fitpackSpline) (t : SavedResults)
    (h : .workbook (some t) ∈ (run spline c).1) :
    ∃ t', .workbook (some t') ∈ (run spline (inUnits ⟨1, v, d⟩ c)).1 ∧
      t'.components = t.components.map (fun col => (col.1, col.2.map (cellInUnits ⟨1, v, d⟩ col.1))) ∧
      (∀ name, t'.integrals name = (t.integrals name).map (unitOf ⟨1, v, d⟩ name * ·)) ∧
      t'.inlet = t.inlet.map (fun row => (row.1, unitOf ⟨1, v, d⟩ row.1 * row.2)) :=
  ⟨_, workbook_units (u := ⟨1, v, d⟩) ⟨one_pos, hv, hd⟩ hk h (Or.inl le_rfl) (Or.inl rfl), rfl, fun _ => rfl, rfl⟩

/-- Non-vacuity: the run of the one panel sail with knots in place of metres per second. -/
example (spline : SplineFn) : ∃ t, .workbook (some t) ∈ (run spline Demo.config).1 ∧
    (0 : ℝ) < 3600 / 1852 ∧ Demo.config.solver.interpolation = "linear" := by
  obtain ⟨t, ht⟩ := demo_workbook spline
  exact ⟨t, ht, by norm_num, rfl⟩

/-- **C139, all units.**  If a run writes its workbook, so does the run with the same settings in other units, and each
row and column of the workbook has changed by the factor of its unit, provided the absolute sizes in the code (core
radius of a vortex line, smallest panel area) do not distinguish the two lattices.  If the numbers for lengths grow, the
settings in the new units must also pass the test of the twisted sail, which compares lengths with an absolute
tolerance. -/
theorem C139_units_partial (spline : SplineFn) (c : Config) (u : Units) (hu : u.Positive)
    (hk : c.solver.interpolation = "linear" ∨ spline = fitpackSpline) (t : SavedResults)
    (h : .workbook (some t) ∈ (run spline c).1)
    (hg : u.length ≤ 1 ∨ ∃ g, prepareGeometry spline (inUnits u c) = .ok g)
    (hi : ∀ p, prepare spline c = .ok p →
      SizesIrrelevant u.length (fun i : Fin p.vlm.vars.length => p.vlm.vars[i]) (fun i => p.vlm.areas.getD i 0)) :
    ∃ t', .workbook (some t') ∈ (run spline (inUnits u c)).1 ∧
      t'.components = t.components.map (fun col => (col.1, col.2.map (cellInUnits u col.1))) ∧
      (∀ name, t'.integrals name = (t.integrals name).map (unitOf u name * ·)) ∧
      t'.inlet = t.inlet.map (fun row => (row.1, unitOf u row.1 * row.2)) :=
  ⟨_, workbook_units hu hk h hg (Or.inr hi), rfl, fun _ => rfl, rfl⟩

/-- Non-vacuity: the run of the one panel sail, with lengths in fathoms and speeds in knots. -/
example (spline : SplineFn) : ∃ t, .workbook (some t) ∈ (run spline Demo.config).1 ∧
    (⟨1 / 1.8288, 3600 / 1852, 1⟩ : Units).Positive ∧ (1 / 1.8288 : ℝ) ≤ 1 ∧
    ∀ p, prepare spline Demo.config = .ok p →
      SizesIrrelevant (1 / 1.8288) (fun i : Fin p.vlm.vars.length => p.vlm.vars[i]) (fun i => p.vlm.areas.getD i 0) := by
  obtain ⟨t, ht⟩ := demo_workbook spline
  refine ⟨t, ht, ⟨by norm_num, by norm_num, by norm_num⟩, by norm_num, fun p hp => ?_⟩
  obtain ⟨p', hp', -, hvl, hv, -⟩ := Demo.prepared spline
  obtain rfl : p' = p := Except.ok.inj (hp'.symm.trans hp)
  obtain ⟨r, hr, -, -, ha⟩ := Demo.vlm_ok2
  obtain rfl : r = p'.vlm := Except.ok.inj (hr.symm.trans hvl)
  have key : ∀ V A, V = [Demo.vars (-1), (Demo.vars (-1)).mirrored] → A = [1, 1] →
      SizesIrrelevant (1 / 1.8288) (fun i : Fin V.length => V[i]) (fun i => A.getD i 0) := by
    rintro V A rfl rfl
    exact Demo.sizesIrrelevant2 (s := 1 / 1.8288) (by norm_num)
  exact key _ _ hv ha

/-- **C139 does not hold in general.**  Whatever the settings, if they are written in a unit of length that is large enough,
the run writes nothing at all: the threshold `1e-14` for the areas of the panels is absolute. -/
theorem C139_refuted (spline : SplineFn) (c : Config)
    (hk : c.solver.interpolation = "linear" ∨ spline = fitpackSpline) (t : SavedResults)
    (h : .workbook (some t) ∈ (run spline c).1) :
    ∃ δ : ℝ, 0 < δ ∧ ∀ u : Units, u.Positive → u.length < δ → (run spline (inUnits u c)).1 = [] := by
  obtain ⟨p, hp, -⟩ := run_workbook h
  obtain ⟨main, jib, base, -, -, -, -, -, -, -, -, hv, -⟩ := prepare_ok hp
  obtain ⟨hs, hpos, hlen, -⟩ := prepared_shape hp
  have ha := ((vlm_ok_iff _ _).1 hv).2.1
  have hl : 0 < p.vlm.areas.length := by
    rw [ha]
    simp only [getPanelsArea, List.length_map, Config.vlmInput, hlen]
    rcases hs with e | e <;> rw [e] <;> omega
  obtain ⟨x, hx⟩ := List.exists_mem_of_length_pos hl
  have hx0 : 1e-14 ≤ x := vlm_areas_large hv hx
  have hx1 : 0 < x := lt_of_lt_of_le (by norm_num) hx0
  refine ⟨min 1 (1e-14 / x), lt_min one_pos (by positivity), fun u hu hlt => ?_⟩
  obtain ⟨h1, h2⟩ := lt_min_iff.1 hlt
  unfold run
  cases hp' : prepare spline (inUnits u c) with
  | error e => rfl
  | ok p' =>
  exfalso
  obtain ⟨main', jib', base', -, -, -, -, -, -, -, -, hv', -⟩ := prepare_ok hp'
  have hm : u.length ^ 2 * x ∈ p'.vlm.areas := by
    rw [prepare_units_areas hu h1.le hk hp hp']
    exact List.mem_map_of_mem hx
  have h3 : 1e-14 ≤ u.length ^ 2 * x := vlm_areas_large hv' hm
  have h4 : u.length * x < 1e-14 := (lt_div_iff₀ hx1).1 h2
  have h5 : u.length ^ 2 * x ≤ u.length * x := by
    have := hu.length
    nlinarith [mul_pos this hx1]
  linarith

/-- Non-vacuity: the run of the one panel sail. -/
example (spline : SplineFn) : ∃ t, .workbook (some t) ∈ (run spline Demo.config).1 ∧
    Demo.config.solver.interpolation = "linear" := by
  obtain ⟨t, ht⟩ := demo_workbook spline
  exact ⟨t, ht, rfl⟩

end PySailing.Props
