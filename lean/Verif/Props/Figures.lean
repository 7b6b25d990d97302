import Verif.Props.Main
import Verif.Props.Plotter
import Verif.Demo.Drag

/-!
# The figures of a run (C43, C44, C69)
-/

namespace PySailing.Props

open Spec

/-! ## C43: the plotted data -/

theorem normalisedC_mean {ns : ℕ} {S c : ℕ → ℝ} {l : List ℝ}
    (h : normalisedC ((List.range ns).map S) ((List.range ns).map c) = .ok l) :
    (∑ j ∈ Finset.range ns, S j * c j) / (∑ j ∈ Finset.range ns, S j) ≠ 0 := by
  intro h0
  unfold normalisedC at h
  simp only [range_map_sum, zipWith_range] at h
  split_ifs at h

theorem coeffPlotData_means {a : VlmInput} {r : Vlm} (h : vlm a = .ok r) {k : ℕ} (hk : 0 < k)
    (hlen : a.panels.length = 2 * k * (a.nc * a.ns)) (hnc : 0 < a.nc) (hns : 0 < a.ns) {D : CoeffPlotData}
    (hD : coeffPlotData r a.nc a.ns = .ok D) {b : ℕ} (hb : b < k) :
    sailMean r b (vlmSection r r.out.lift b) ≠ 0 ∧ sailMean r b (vlmSection r r.out.drag b) ≠ 0 := by
  obtain ⟨hin, hl, hal, hVl, hrho, hpos⟩ := vlm_lengths h
  obtain ⟨hcl, hcd⟩ := C43_vlm a r h k hk hlen hnc hns
  unfold coeffPlotData at hD
  rw [hcl, hcd] at hD
  have hn := Nat.mul_pos hns hnc
  simp only [bind, Except.bind] at hD
  rw [if_neg (by omega)] at hD
  have e : r.input.panels.length / (a.ns * a.nc * 2) = k := by
    rw [hin, hlen, show 2 * k * (a.nc * a.ns) = k * (a.ns * a.nc * 2) by ring]
    exact Nat.mul_div_cancel _ (by omega)
  rw [e] at hD
  have hA := npSplit_blockArray (nc := a.nc) (ns := a.ns) (n := 2 * k)
    (fun b i j => r.areas.getD (panelNo a.nc a.ns b i j) 0) (by omega)
  rw [← eq_blockArray r.areas 0 (by rw [hal, hlen])] at hA
  have hP := npSplit_blockArray (nc := a.nc) (ns := a.ns) (n := 2 * k)
    (fun b i j => (r.vars.map PanelVars.cp).getD (panelNo a.nc a.ns b i j) 0) (by omega)
  rw [← eq_blockArray (r.vars.map PanelVars.cp) 0 (by rw [List.length_map, hl, hlen])] at hP
  rw [hA, hP] at hD
  simp only at hD
  split at hD
  · cases hD
  rename_i rows hrows
  obtain ⟨row, -, hrow⟩ := (mapM_ok_inv hrows).2 b (by simpa using hb)
  have hget {α : Type} (n : ℕ) (f : ℕ → α) (hbn : b < n) :
      idx ((List.range n).map f) b = .ok (f b) :=
    idx_of_getElem? (by rw [List.getElem?_map, List.getElem?_range hbn]; rfl)
  rw [List.getElem_range] at hrow
  rw [hget (2 * k) _ (by omega), hget (2 * k) _ (by omega), hget k _ hb, hget k _ hb] at hrow
  simp only at hrow
  unfold coeffPlotSail at hrow
  rw [mapM_ok (g := fun j => stripArea r b j) (by
    intro j hj
    rw [stripColumn_grid _ (List.mem_range.1 hj)]
    simp only [bind, Except.bind, range_map_sum]
    unfold stripArea entry
    rw [hin])] at hrow
  rw [mapM_ok (g := fun j =>
    (∑ i ∈ Finset.range a.nc, (entry (r.vars.map PanelVars.cp) 0 a.nc a.ns b i j).z) / (a.nc : ℝ)) (by
    intro j hj
    rw [gridArray_map, stripColumn_grid _ (List.mem_range.1 hj)]
    simp only [bind, Except.bind, range_map_sum]
    rfl)] at hrow
  simp only [bind, Except.bind] at hrow
  have hSm (c : ℕ → ℝ) : sailMean r b c = (∑ j ∈ Finset.range a.ns, stripArea r b j * c j) /
      ∑ j ∈ Finset.range a.ns, stripArea r b j := by unfold sailMean; rw [hin]
  split at hrow
  · cases hrow
  rename_i l1 hl1
  split at hrow
  · cases hrow
  rename_i l2 hl2
  rw [hSm, hSm]
  exact ⟨normalisedC_mean hl1, normalisedC_mean hl2⟩

/-- **C43**, exactly when there are data to plot: `get_data_for_coeff_plot` returns finite numbers if and only
if no sail has mean lift or drag coefficient zero. -/
theorem C43_plot_data_iff (a : VlmInput) (r : Vlm) (h : vlm a = .ok r) (k : ℕ) (hk : 0 < k)
    (hlen : a.panels.length = 2 * k * (a.nc * a.ns)) (hnc : 0 < a.nc) (hns : 0 < a.ns) :
    (∃ D, coeffPlotData r a.nc a.ns = .ok D) ↔ ∀ b, b < k →
      sailMean r b (vlmSection r r.out.lift b) ≠ 0 ∧ sailMean r b (vlmSection r r.out.drag b) ≠ 0 :=
  ⟨fun ⟨_, hD⟩ _ hb => coeffPlotData_means h hk hlen hnc hns hD hb, fun hm =>
    ⟨_, (C43_plot_data a r h k hk hlen hnc hns (fun b hb => (hm b hb).1) fun b hb => (hm b hb).2).1⟩⟩

/-! ## C44: the section plots of a run -/

/-- **C44**, in terms of a run: each section plot that a run shows has one point per sail and strip, at the
mean height of the pressure points of the strip.  The plot named, labelled and filed as lift shows the *drag*
coefficients of the strips relative to the mean of the sail, the one named drag the *lift* coefficients. -/
theorem C44_run_partial (spline : SplineFn) (c : Config) (name : String) (F : Figure)
    (h : .sectionPlot name (some F) ∈ (run spline c).1) :
    ∃ p k, prepare spline c = .ok p ∧ k = p.set.sails.length ∧
      F.yData = ((List.range k).map fun b => (List.range c.solver.ns).map fun j =>
        (∑ i ∈ Finset.range c.solver.nc,
          (entry (p.vlm.vars.map PanelVars.cp) 0 c.solver.nc c.solver.ns b i j).z) / c.solver.nc) ∧
      ((name = "lift" ∧ F.file = "section_cl" ∧ F.xlabel = "Section $c_l$" ∧
          F.series.map (fun s => (s.1, s.2.1, s.2.2.1)) = [("jib", "o", "blue"), ("main", "^", "green")].take k ∧
          F.xData = (List.range k).map fun b => (List.range c.solver.ns).map fun j =>
            vlmSection p.vlm p.vlm.out.drag b j / sailMean p.vlm b (vlmSection p.vlm p.vlm.out.drag b)) ∨
        (name = "drag" ∧ F.file = "section_cd" ∧ F.xlabel = "Section $c_d$" ∧
          F.series.map (fun s => (s.1, s.2.1, s.2.2.1)) = [("jib", "o", "teal"), ("main", "^", "purple")].take k ∧
          F.xData = (List.range k).map fun b => (List.range c.solver.ns).map fun j =>
            vlmSection p.vlm p.vlm.out.lift b j / sailMean p.vlm b (vlmSection p.vlm p.vlm.out.lift b))) := by
  obtain ⟨p, D, hp, hD, hF⟩ := run_sectionPlot h
  obtain ⟨hn, hpos, hlen, -⟩ := prepared_shape hp
  obtain ⟨main, jib, base, -, -, -, -, -, -, -, -, hv, -⟩ := prepare_ok hp
  have hnc : 0 < c.solver.nc := Nat.pos_of_mul_pos_right hpos
  have hns : 0 < c.solver.ns := Nat.pos_of_mul_pos_left hpos
  have hk : 0 < p.set.sails.length := by omega
  have hlen' : (c.vlmInput p.set (windGetProfile c.wind)).panels.length =
      2 * p.set.sails.length * (c.solver.nc * c.solver.ns) := by
    show p.set.panels.length = _
    rw [hlen]; ring
  have hm := fun b (hb : b < p.set.sails.length) => coeffPlotData_means hv hk hlen' hnc hns hD hb
  have hd := (C43_plot_data _ _ hv _ hk hlen' hnc hns (fun b hb => (hm b hb).1) fun b hb => (hm b hb).2).1
  rw [show (c.vlmInput p.set (windGetProfile c.wind)).nc = c.solver.nc from rfl,
    show (c.vlmInput p.set (windGetProfile c.wind)).ns = c.solver.ns from rfl, hD] at hd
  injection hd with hd
  refine ⟨p, _, hp, rfl, ?_⟩
  rcases hF with ⟨e, hF⟩ | ⟨e, hF⟩
  · obtain ⟨a1, a2, a3, -, a4⟩ := plotSectionCoeff_ok hF (by rw [hd]; simp)
    rw [a1, a2, a4, hd]
    exact ⟨rfl, Or.inl ⟨e, (a3 rfl).1, (a3 rfl).2, by simp, rfl⟩⟩
  · obtain ⟨a1, a2, -, a3, a4⟩ := plotSectionCoeff_ok hF (by rw [hd]; simp)
    rw [a1, a2, a4, hd]
    exact ⟨rfl, Or.inr ⟨e, (a3 rfl).1, (a3 rfl).2, by simp, rfl⟩⟩

theorem mem_emit_of_ok {steps : List (Py Effect)} (h : (emit steps).2 = .ok ()) {e : Effect} (he : .ok e ∈ steps) :
    e ∈ (emit steps).1 := by
  induction steps with
  | nil => simp at he
  | cons x rest ih =>
    cases x with
    | error err => cases h
    | ok y =>
      simp only [emit, List.mem_cons] at h he ⊢
      rcases he with he | he
      · left; injection he
      · right; exact ih h he

theorem demo_completes (spline : SplineFn) : (run spline Demo.config).2 = .ok () := by
  obtain ⟨p, hp, -, -, hv, -⟩ := Demo.prepared spline
  refine (C72_completes_partial spline _ p hp (by rw [hv]; exact demo_offWater) ?_).1
  intro h; simp [Demo.config] at h

theorem demo_run_mem {spline : SplineFn} {p : Prepared} (hp : prepare spline Demo.config = .ok p) {e : Effect}
    (he : .ok e ∈ outputSteps Demo.config p) : e ∈ (run spline Demo.config).1 := by
  have h := demo_completes spline
  unfold run at h ⊢
  rw [hp] at h ⊢
  exact mem_emit_of_ok h he

theorem sectionCoefficient_one {F V : ℕ → V3} {A : ℕ → ℝ} (hF : F 0 ≠ 0) (hV : V 0 ≠ 0) (hA : 0 < A 0) :
    0 < sectionCoefficient 1 1 F V A := by
  unfold sectionCoefficient
  simp only [Finset.sum_range_one]
  have h1 := V3.norm_pos hF
  have h2 := V3.norm_pos hV
  positivity

/-- Non-vacuity of `C43_plot_data_iff` and `C44_run_partial`: the run of the one panel sail shows both section
plots. -/
theorem demo_sectionPlots (spline : SplineFn) :
    (∃ F, .sectionPlot "lift" (some F) ∈ (run spline Demo.config).1) ∧
    ∃ F, .sectionPlot "drag" (some F) ∈ (run spline Demo.config).1 := by
  obtain ⟨p, hp, hc, hvl, hv, hV⟩ := Demo.prepared spline
  obtain ⟨l0, d0⟩ := Demo.liftDrag2_ne hvl hV hv
  obtain ⟨hin, hlv, hla, hlV, hrho, hpos⟩ := vlm_lengths hvl
  have hm : ∀ b, b < 1 → sailMean p.vlm b (vlmSection p.vlm p.vlm.out.lift b) ≠ 0 ∧
      sailMean p.vlm b (vlmSection p.vlm p.vlm.out.drag b) ≠ 0 := by
    intro b hb
    obtain rfl : b = 0 := by omega
    have hA : 0 < p.vlm.areas.getD 0 0 := (hpos 0 (by rw [Demo.input2_panels]; simp)).1
    have hW : p.vlm.inlet.vAppInfs.getD 0 0 ≠ 0 := (hpos 0 (by rw [Demo.input2_panels]; simp)).2
    have e1 : p.vlm.input.nc = 1 := by rw [hin]; rfl
    have e2 : p.vlm.input.ns = 1 := by rw [hin]; rfl
    have e3 : p.vlm.input.rho = 1 := by rw [hin]; rfl
    have key : ∀ F : List V3, F.getD 0 0 ≠ 0 → sailMean p.vlm 0 (vlmSection p.vlm F 0) ≠ 0 := by
      intro F hF
      unfold sailMean vlmSection stripArea
      simp only [e1, e2, e3, Finset.sum_range_one]
      have := sectionCoefficient_one (F := fun i => entry F 0 1 1 0 i 0)
        (V := fun i => entry p.vlm.inlet.vAppInfs 0 1 1 0 i 0) (A := fun i => entry p.vlm.areas 0 1 1 0 i 0) hF hW hA
      have h2 : 0 < entry p.vlm.areas 0 1 1 0 0 0 := hA
      positivity
    exact ⟨key _ l0, key _ d0⟩
  obtain ⟨D, hD⟩ := (C43_plot_data_iff _ _ hvl 1 one_pos (by rw [Demo.input2_panels]; rfl) one_pos one_pos).2 hm
  have hd := (C43_plot_data _ _ hvl 1 one_pos (by rw [Demo.input2_panels]; rfl) one_pos one_pos
    (fun b hb => (hm b hb).1) fun b hb => (hm b hb).2).1
  have hD' : coeffPlotData p.vlm Demo.config.solver.nc Demo.config.solver.ns = .ok D := hD
  rw [hD] at hd
  injection hd with hd
  obtain ⟨F1, h1⟩ := plotSectionCoeff_drawn (x := D.drag) (y := D.meanCpZ) (n := 1) (by rw [hd]; simp) (by rw [hd]; simp)
    (by rw [hd]; simp [Demo.input2]) (by rw [hd]; simp [Demo.input2]) (name := "lift") (Or.inl rfl)
    (colors := ["blue", "green"]) rfl
  obtain ⟨F2, h2⟩ := plotSectionCoeff_drawn (x := D.lift) (y := D.meanCpZ) (n := 1) (by rw [hd]; simp) (by rw [hd]; simp)
    (by rw [hd]; simp [Demo.input2]) (by rw [hd]; simp [Demo.input2]) (name := "drag") (Or.inr rfl)
    (colors := ["teal", "purple"]) rfl
  refine ⟨⟨F1, demo_run_mem hp ?_⟩, F2, demo_run_mem hp ?_⟩
  · simp only [outputSteps, List.mem_cons]
    refine Or.inr (Or.inr (Or.inr (Or.inr (Or.inl ?_))))
    simp only [sectionPlotStep, hD', nanAsNone, bind, Except.bind, h1]
    rfl
  · simp only [outputSteps, List.mem_cons]
    refine Or.inr (Or.inr (Or.inr (Or.inr (Or.inr (Or.inl ?_)))))
    simp only [sectionPlotStep, hD', nanAsNone, bind, Except.bind, h2]
    rfl

/-! ## C69: the pressure map of a run -/

theorem run_cpMap {spline : SplineFn} {c : Config} {m : List (List (ℝ × ℝ) × ℝ)}
    (h : .cpMap m ∈ (run spline c).1) :
    ∃ p, prepare spline c = .ok p ∧ plotCp p.set.zeroMesh p.vlm.out.pCoeffs = .ok m := by
  obtain ⟨p, hp, hm⟩ := mem_run h
  refine ⟨p, hp, ?_⟩
  unfold outputSteps at hm
  simp only [List.mem_cons, List.not_mem_nil, or_false] at hm
  rcases hm with h1 | h1 | h1 | h1 | h1 | h1
  · cases hx : nanAsNone (saveResults p.vlm p.csys p.flow p.set.sails p.csys) with
    | error e => rw [hx] at h1; cases h1
    | ok o => rw [hx] at h1; cases h1
  · cases h1
  · cases hx : nanAsNone (displayScene p.vlm p.flow.res p.hull false false) with
    | error e => rw [hx] at h1; cases h1
    | ok o => rw [hx] at h1; cases h1
  · cases hx : plotCp p.set.zeroMesh p.vlm.out.pCoeffs with
    | error e => rw [hx] at h1; cases h1
    | ok o => rw [hx] at h1; cases h1; rfl
  · obtain ⟨f, hf, -⟩ := sectionPlotStep_kind h1.symm
    cases hf
  · obtain ⟨f, hf, -⟩ := sectionPlotStep_kind h1.symm
    cases hf

/-- **C69**, in terms of a run: the pressure map of a well-formed configuration shows every panel of every
sail as it is on the upright yacht before twist, with the pressure coefficient computed for that panel. -/
theorem C69_run (c : Config) (hw : WellFormed c) (m : List (List (ℝ × ℝ) × ℝ))
    (h : .cpMap m ∈ (run fitpackSpline c).1) :
    ∃ p ss, prepare fitpackSpline c = .ok p ∧ m.length = 2 * ss.length * (c.solver.nc * c.solver.ns) ∧
      (c.rig.sailsDef = "jib" → ∃ sj, ss = [sj] ∧
        DesignedJib c.solver c.rig ⟨c.heelDeg, c.leewayDeg, c.vRef⟩ (jibData c) sj) ∧
      (c.rig.sailsDef = "main" → ∃ sm, ss = [sm] ∧
        DesignedMain c.solver c.rig ⟨c.heelDeg, c.leewayDeg, c.vRef⟩ (mainData c) sm) ∧
      (c.rig.sailsDef = "jib_and_main" → ∃ sj sm, ss = [sj, sm] ∧
        DesignedJib c.solver c.rig ⟨c.heelDeg, c.leewayDeg, c.vRef⟩ (jibData c) sj ∧
        DesignedMain c.solver c.rig ⟨c.heelDeg, c.leewayDeg, c.vRef⟩ (mainData c) sm) ∧
      ∀ b i j (_ : b < ss.length), i < c.solver.nc → j < c.solver.ns →
        (p.vlm.input.panels[panelNo c.solver.nc c.solver.ns b i j]? = some (panelOf (abovePoints ss[b]) i j) ∧
          m[panelNo c.solver.nc c.solver.ns b i j]? = some (closedOutline (panelOf (uprightPoints ss[b].1) i j),
            p.vlm.out.pCoeffs.getD (panelNo c.solver.nc c.solver.ns b i j) 0)) ∧
        (p.vlm.input.panels[panelNo c.solver.nc c.solver.ns (ss.length + b) i j]? =
            some (panelOf (underPoints ss[b]) i j) ∧
          m[panelNo c.solver.nc c.solver.ns (ss.length + b) i j]? =
            some (closedOutline (panelOf (uprightImagePoints ss[b].1) i j),
              p.vlm.out.pCoeffs.getD (panelNo c.solver.nc c.solver.ns (ss.length + b) i j) 0)) := by
  obtain ⟨p, hp, hm⟩ := run_cpMap h
  obtain ⟨main, jib, base, h1, h2, h3, -, -, hset, -, -, hv, -⟩ := prepare_ok hp
  obtain ⟨ss, set, hset', hb, hpan, hcs, hne, d1, d2, d3⟩ := wellFormed_set hw
  have e1 : mainSailInit c.main = .ok (mainData c) := withTwist_default hw.main_twist 12 5
  have e2 : jibSailInit c.jib = .ok (jibData c) := withTwist_default hw.jib_twist 15 7
  rw [e1] at h1; cases h1
  rw [e2] at h2; cases h2
  rw [C59_csys_constructor_total] at h3
  injection h3 with h3
  rw [← h3, hset'] at hset
  injection hset with hset
  subst hset
  obtain ⟨hin, -⟩ := vlm_lengths hv
  obtain ⟨m', hm', hl, hall⟩ := C69_cp_map hb (sailSetOf_sails hset') (a := c.vlmInput p.set (windGetProfile c.wind))
    rfl hv
  rw [hm] at hm'
  cases hm'
  refine ⟨p, ss, hp, ?_, d1, d2, d3, ?_⟩
  · rw [hl]
    show p.set.panels.length = _
    rw [hpan, blockPanels_length, List.length_append, List.length_map, List.length_map]; ring
  · rw [hin]
    exact hall

/-- Non-vacuity of `C69_run`: the run of the one panel sail shows a pressure map. -/
example : WellFormed Demo.config ∧ ∃ m, .cpMap m ∈ (run fitpackSpline Demo.config).1 := by
  refine ⟨{ mode := by simp [Demo.config, twistModes]
            ns_pos := le_rfl
            nc_pos := le_rfl
            heel := by simp [Demo.config, deg2rad]
            sails := by simp [Demo.config, demoRig]
            base := by simp [Demo.config, demoRig]
            main_twist := Or.inl (by simp [Demo.config, demoConf])
            jib_twist := Or.inl (by simp [Demo.config, demoConf])
            jib := fun h => absurd rfl h
            main := fun _ => ⟨demo_goodMain _, _, _, _, _, _, demo_goodSail⟩
            wind := by simp [WindIncomplete, Demo.config] }, ?_⟩
  obtain ⟨p, hp, hc, hvl, hv, hV⟩ := Demo.prepared fitpackSpline
  obtain ⟨hin, hlv, -⟩ := vlm_lengths hvl
  obtain ⟨-, -, -, hz⟩ := prepared_shape hp
  have : p.set.zeroMesh.length = p.vlm.out.pCoeffs.length := by
    obtain ⟨main, jib, base, -, -, -, -, -, -, -, -, hv', -⟩ := prepare_ok hp
    have h2 : p.vlm.vars.length = p.set.panels.length := (vlm_lengths hv').2.1
    rw [hz, ← h2]
    simp [Vlm.out, VlmSolution.arrays]
  exact ⟨_, demo_run_mem hp (by
    simp only [outputSteps, List.mem_cons]
    refine Or.inr (Or.inr (Or.inr (Or.inl ?_)))
    rw [plotCp, if_pos this]
    rfl)⟩

end PySailing.Props
