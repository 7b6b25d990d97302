import Verif.Lemmas.HeadingWorkbook
import Verif.Lemmas.UnitsFigures

/-!
# Lemmas: the yacht and the wind turned together, figures
-/

namespace PySailing

open Spec Props

theorem coeffPlotSail_turned (δ : ℝ) (nc ns : ℕ) (A : List ℝ) (P : List V3) (l d : List ℝ) :
    coeffPlotSail nc ns A (P.map (turned δ)) l d = coeffPlotSail nc ns A P l d := by
  have ez : (P.map (turned δ)).map V3.z = P.map V3.z := by
    simp only [List.map_map]
    rfl
  unfold coeffPlotSail
  rw [ez]

theorem coeffPlotData_turned {δ : ℝ} {r r' : Vlm} (hl : r'.sectionLift = r.sectionLift)
    (hd : r'.sectionDrag = r.sectionDrag) (hn : r'.input.panels.length = r.input.panels.length)
    (ha : r'.areas = r.areas) (hc : r'.vars.map PanelVars.cp = (r.vars.map PanelVars.cp).map (turned δ)) (nc ns : ℕ) :
    coeffPlotData r' nc ns = coeffPlotData r nc ns := by
  unfold coeffPlotData
  rw [hl, hd, hn, ha, hc]
  cases r.sectionLift with
  | error e => rfl
  | ok cl =>
    cases r.sectionDrag with
    | error e => rfl
    | ok cd =>
      simp only [bind, Except.bind]
      split
      · rfl
      rw [npSplit_map (turned δ)]
      cases npSplit r.areas _ with
      | error e => rfl
      | ok As =>
        cases npSplit (r.vars.map PanelVars.cp) _ with
        | error e => rfl
        | ok Ps =>
          simp only [Except.map]
          rw [mapM_map_rel (fun i => (idx As i).bind fun a => (idx Ps i).bind fun p => (idx cl i).bind fun l =>
            (idx cd i).bind fun d => coeffPlotSail nc ns a p l d) _ id]
          · simp only [Except.bind]
            generalize List.mapM (m := Py) _ (List.range _) = z
            cases z with
            | error e => rfl
            | ok rows => simp only [Except.map, List.map_id]
          · intro i _
            rw [idx_map]
            cases idx As i with
            | error e => rfl
            | ok a =>
              cases idx Ps i with
              | error e => rfl
              | ok p =>
                cases idx cl i with
                | error e => rfl
                | ok l =>
                  cases idx cd i with
                  | error e => rfl
                  | ok d =>
                    simp only [Except.map, Except.bind, coeffPlotSail_turned]
                    cases coeffPlotSail nc ns a p l d <;> rfl

theorem sections_turned {δ : ℝ} {r r' : Vlm}
    (hn : r'.input.panels.length = r.input.panels.length) (hns : r'.input.ns = r.input.ns)
    (hnc : r'.input.nc = r.input.nc) (hrho : r'.input.rho = r.input.rho)
    (ha : r'.areas = r.areas) (hV : r'.inlet.vAppInfs = r.inlet.vAppInfs.map (turned δ))
    (ho : r'.out = mapAll r.out id (turned δ) (turned δ) id id) :
    r'.sectionLift = r.sectionLift ∧ r'.sectionDrag = r.sectionDrag := by
  have key (F : List V3) : getC r.input.panels.length r.areas (F.map (turned δ))
      (r.inlet.vAppInfs.map (turned δ)) r.input.ns r.input.nc r.input.rho =
      getC r.input.panels.length r.areas F r.inlet.vAppInfs r.input.ns r.input.nc r.input.rho := by
    have h1 := getC_scaled (isIsometry_turned δ) one_pos one_pos r.input.panels.length r.areas F r.inlet.vAppInfs
      r.input.ns r.input.nc r.input.rho
    simpa only [one_pow, one_mul, one_smul, Function.comp_def] using h1
  unfold Vlm.sectionLift Vlm.sectionDrag
  rw [hn, hns, hnc, hrho, ha, hV, ho]
  exact ⟨key _, key _⟩

/-- What the preparation yields for the figures of the turned scene. -/
theorem prepare_turn_figures {spline : SplineFn} {c : Config} {δ : ℝ} (hrest : c.wind.sog = 0) {p : Prepared}
    (hp : prepare spline c = .ok p) (hg : ∃ g, prepareGeometry spline (turnedScene δ c) = .ok g) :
    ∃ p', prepare spline (turnedScene δ c) = .ok p' ∧
      p'.vlm.vars.map PanelVars.leMid = (p.vlm.vars.map PanelVars.leMid).map (turned δ) ∧
      p'.vlm.vars.map PanelVars.teMid = (p.vlm.vars.map PanelVars.teMid).map (turned δ) ∧
      plotCp p'.set.zeroMesh p'.vlm.out.pCoeffs = plotCp p.set.zeroMesh p.vlm.out.pCoeffs ∧
      coeffPlotData p'.vlm c.solver.nc c.solver.ns = coeffPlotData p.vlm c.solver.nc c.solver.ns := by
  obtain ⟨p', res, res', hp', c1, c2, c3, c4, w0, w1, w2, w3, w4, w5, w6, ho, -, -, -, ha, hle, hte⟩ := prepare_turn hrest hp hg
  obtain ⟨main, jib, base, -, -, -, -, -, -, -, -, hv, -⟩ := prepare_ok hp
  obtain ⟨main', jib', base', -, -, -, -, -, -, -, -, hv', -⟩ := prepare_ok hp'
  have hi := ((vlm_ok_iff _ _).1 hv).1
  have hi' := ((vlm_ok_iff _ _).1 hv').1
  have hn : p'.vlm.input.panels.length = p.vlm.input.panels.length := by
    rw [hi, hi', c2]
    simp [Config.vlmInput, SailSet.turn]
  obtain ⟨h1, h2⟩ := sections_turned hn (by rw [hi, hi']; rfl) (by rw [hi, hi']; rfl) (by rw [hi, hi']; rfl) ha w4 ho
  refine ⟨p', hp', hle, hte, ?_, coeffPlotData_turned h1 h2 hn ha c3 _ _⟩
  rw [c2, ho]
  simp [SailSet.turn, mapAll]

end PySailing
