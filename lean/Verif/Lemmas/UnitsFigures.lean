import Verif.Lemmas.UnitsWorkbook
import Verif.Lemmas.Outputs
import Verif.Lemmas.ArithCore

/-!
# Lemmas: settings in other units, figures
-/

namespace PySailing

open Spec Props

theorem sum_mul_left (k : ℝ) (A : List ℝ) : (A.map (k * ·)).sum = k * A.sum := by
  have := List.sum_map_mul_left A id k
  simpa using this

theorem normalisedC_size {k : ℝ} (hk : k ≠ 0) (A c : List ℝ) : normalisedC (A.map (k * ·)) c = normalisedC A c := by
  have h1 : (A.map (k * ·)).sum = k * A.sum := sum_mul_left k A
  have h2 : (List.zipWith (· * ·) (A.map (k * ·)) c).sum = k * (List.zipWith (· * ·) A c).sum := by
    induction A generalizing c with
    | nil => simp
    | cons a A ih =>
      cases c with
      | nil => simp
      | cons x c =>
        simp only [List.map_cons, List.zipWith_cons_cons, List.sum_cons]
        rw [ih c (sum_mul_left k A)]
        ring
  unfold normalisedC
  simp only [h1, h2, mul_div_mul_left _ _ hk, mul_eq_zero, hk, false_or]

theorem coeffPlotSail_units {s : ℝ} (hs : 0 < s) (nc ns : ℕ) (A : List ℝ) (P : List V3) (l d : List ℝ) :
    coeffPlotSail nc ns (A.map (s ^ 2 * ·)) (P.map (big s)) l d =
      (coeffPlotSail nc ns A P l d).map fun x => (x.1.map (s * ·), x.2) := by
  unfold coeffPlotSail
  have e1 : (List.range ns).mapM (fun j => do
        let as ← stripColumn nc ns (A.map (s ^ 2 * ·)) j
        (.ok as.sum : Py ℝ)) =
      ((List.range ns).mapM fun j => do
        let as ← stripColumn nc ns A j
        (.ok as.sum : Py ℝ)).map (List.map (s ^ 2 * ·)) := by
    refine mapM_map_rel _ _ _ _ fun j _ => ?_
    rw [stripColumn_map]
    cases stripColumn nc ns A j with
    | error e => rfl
    | ok as =>
      simp only [Except.map, bind, Except.bind]
      rw [sum_mul_left]
  have ez : (P.map (big s)).map V3.z = (P.map V3.z).map (s * ·) := by
    simp only [List.map_map]
    rfl
  have e2 : (List.range ns).mapM (fun j => do
        let zs ← stripColumn nc ns ((P.map (big s)).map V3.z) j
        (.ok (zs.sum / nc) : Py ℝ)) =
      ((List.range ns).mapM fun j => do
        let zs ← stripColumn nc ns (P.map V3.z) j
        (.ok (zs.sum / nc) : Py ℝ)).map (List.map (s * ·)) := by
    refine mapM_map_rel _ _ _ _ fun j _ => ?_
    rw [ez, stripColumn_map]
    cases stripColumn nc ns (P.map V3.z) j with
    | error e => rfl
    | ok zs =>
      simp only [Except.map, bind, Except.bind]
      rw [sum_mul_left, mul_div_assoc]
  rw [e1, e2]
  cases (List.range ns).mapM (fun j => do
        let as ← stripColumn nc ns A j
        (.ok as.sum : Py ℝ)) with
  | error e => rfl
  | ok as =>
    cases (List.range ns).mapM (fun j => do
        let zs ← stripColumn nc ns (P.map V3.z) j
        (.ok (zs.sum / nc) : Py ℝ)) with
    | error e => rfl
    | ok zs =>
      simp only [Except.map, bind, Except.bind]
      rw [normalisedC_size (by positivity), normalisedC_size (by positivity)]
      cases normalisedC as l with
      | error e => rfl
      | ok l' =>
        cases normalisedC as d <;> rfl

/-- The data of the section plots in other units. -/
noncomputable def CoeffPlotData.big (s : ℝ) (d : CoeffPlotData) : CoeffPlotData :=
  { d with meanCpZ := d.meanCpZ.map (List.map (s * ·)) }

theorem coeffPlotData_units {s : ℝ} (hs : 0 < s) {r r' : Vlm} (hl : r'.sectionLift = r.sectionLift)
    (hd : r'.sectionDrag = r.sectionDrag) (hn : r'.input.panels.length = r.input.panels.length)
    (ha : r'.areas = r.areas.map (s ^ 2 * ·))
    (hc : r'.vars.map PanelVars.cp = (r.vars.map PanelVars.cp).map (big s)) (nc ns : ℕ) :
    coeffPlotData r' nc ns = (coeffPlotData r nc ns).map (CoeffPlotData.big s) := by
  unfold coeffPlotData
  rw [hl, hd, hn, ha, hc]
  cases r.sectionLift with
  | error e => rfl
  | ok cl =>
    cases r.sectionDrag with
    | error e => rfl
    | ok cd =>
      simp only [bind, Except.bind]
      split
      · rfl
      rw [npSplit_map, npSplit_map]
      cases npSplit r.areas _ with
      | error e => rfl
      | ok As =>
        cases npSplit (r.vars.map PanelVars.cp) _ with
        | error e => rfl
        | ok Ps =>
          simp only [Except.map]
          rw [mapM_map_rel (fun i => (idx As i).bind fun a => (idx Ps i).bind fun p => (idx cl i).bind fun l =>
            (idx cd i).bind fun d => coeffPlotSail nc ns a p l d) _ (fun x => (x.1.map (s * ·), x.2))]
          · simp only [Except.bind]
            generalize List.mapM (m := Py) _ (List.range _) = z
            cases z with
            | error e => rfl
            | ok rows =>
              simp only [Except.map, CoeffPlotData.big, List.map_map]
              rfl
          · intro i _
            rw [idx_map, idx_map]
            cases idx As i with
            | error e => rfl
            | ok a =>
              cases idx Ps i with
              | error e => rfl
              | ok p =>
                cases idx cl i with
                | error e => rfl
                | ok l =>
                  cases idx cd i with
                  | error e => rfl
                  | ok d =>
                    simp only [Except.map, Except.bind]
                    exact coeffPlotSail_units hs nc ns a p l d

theorem sections_units {u : Units} (hu : u.Positive) {r r' : Vlm}
    (hn : r'.input.panels.length = r.input.panels.length) (hns : r'.input.ns = r.input.ns)
    (hnc : r'.input.nc = r.input.nc) (hrho : r'.input.rho = u.density * r.input.rho)
    (ha : r'.areas = r.areas.map (u.length ^ 2 * ·)) (hV : r'.inlet.vAppInfs = r.inlet.vAppInfs.map (big u.speed))
    (ho : r'.out = mapAll r.out (u.length * u.speed * ·) (big u.speed) (big u.force) (u.pressure * ·) id) :
    r'.sectionLift = r.sectionLift ∧ r'.sectionDrag = r.sectionDrag := by
  have key (F : List V3) : getC r.input.panels.length (r.areas.map (u.length ^ 2 * ·)) (F.map (big u.force))
      (r.inlet.vAppInfs.map (big u.speed)) r.input.ns r.input.nc (u.density * r.input.rho) =
      getC r.input.panels.length r.areas F r.inlet.vAppInfs r.input.ns r.input.nc r.input.rho := by
    have h1 := getC_scaled isIsometry_id hu.density hu.speed r.input.panels.length r.areas F r.inlet.vAppInfs
      r.input.ns r.input.nc r.input.rho
    have h2 := getC_size (c := u.length ^ 2) (pow_pos hu.length 2) r.input.panels.length r.areas
      (F.map fun v => (u.density * u.speed ^ 2) • id v) (r.inlet.vAppInfs.map fun v => u.speed • id v)
      r.input.ns r.input.nc (u.density * r.input.rho)
    rw [← h1, ← h2, List.map_map]
    congr 2
    funext v
    simp only [Function.comp, id, smul_smul, big, Units.force]
    congr 1
    ring
  unfold Vlm.sectionLift Vlm.sectionDrag
  rw [hn, hns, hnc, hrho, ha, hV, ho]
  exact ⟨key _, key _⟩

theorem plotCp_units (u : Units) (mesh : List Panel) (cs : List ℝ) :
    plotCp (mesh.map (scalePanel u.length)) cs = (plotCp mesh cs).map (mapInUnits u) := by
  unfold plotCp
  rw [List.length_map]
  split
  · simp only [Except.map, mapInUnits, List.map_map]
    congr 1
    rw [← List.map_id cs, List.zip_map, List.zip_map_left, List.map_id, List.map_map]
    rfl
  · rfl

theorem plotSectionCoeff_units (u : Units) (x y : List (List ℝ)) (name : String) (colors : List String) :
    plotSectionCoeff x (y.map (List.map (u.length * ·))) name colors =
      (plotSectionCoeff x y name colors).map (figureInUnits u) := by
  unfold plotSectionCoeff
  rw [List.length_map]
  split
  · rfl
  simp only [bind, Except.bind]
  have e := mapM_map_rel (fun i => (do
      let xs ← idx x i
      let ys ← idx y i
      let lb ← idx ["jib", "main"] i
      let mk ← idx ["o", "^"] i
      let co ← idx colors i
      if xs.length ≠ ys.length then .error .valueError else .ok (lb, mk, co, xs, ys) :
        Py (String × String × String × List ℝ × List ℝ)))
    (fun i => (do
      let xs ← idx x i
      let ys ← idx (y.map (List.map (u.length * ·))) i
      let lb ← idx ["jib", "main"] i
      let mk ← idx ["o", "^"] i
      let co ← idx colors i
      if xs.length ≠ ys.length then .error .valueError else .ok (lb, mk, co, xs, ys) :
        Py (String × String × String × List ℝ × List ℝ)))
    (fun q => (q.1, q.2.1, q.2.2.1, q.2.2.2.1, q.2.2.2.2.map (u.length * ·))) (List.range y.length) (by
      intro i _
      rw [idx_map]
      cases idx x i with
      | error e => rfl
      | ok xs =>
        cases idx y i with
        | error e => rfl
        | ok ys =>
          cases idx ["jib", "main"] i with
          | error e => rfl
          | ok lb =>
            cases idx ["o", "^"] i with
            | error e => rfl
            | ok mk =>
              cases idx colors i with
              | error e => rfl
              | ok co =>
                simp only [bind, Except.bind, Except.map, List.length_map]
                split <;> rfl)
  simp only [bind, Except.bind] at e
  rw [e]
  generalize List.mapM (m := Py) _ (List.range _) = z
  cases z with
  | error e => rfl
  | ok z => rfl

theorem sectionPlotStep_units (u : Units) {d d' : Py CoeffPlotData} (h : d' = d.map (CoeffPlotData.big u.length))
    (x : CoeffPlotData → List (List ℝ)) (hx : ∀ d : CoeffPlotData, x (d.big u.length) = x d) (name : String)
    (colors : List String) {e : Effect} (he : sectionPlotStep d x name colors = .ok e) :
    ∃ f, e = .sectionPlot name f ∧
      sectionPlotStep d' x name colors = .ok (.sectionPlot name (f.map (figureInUnits u))) := by
  subst h
  unfold sectionPlotStep at he ⊢
  cases d with
  | error err =>
    cases err with
    | nonFinite =>
      simp only [nanAsNone, bind, Except.bind] at he
      injection he with he
      exact ⟨none, he.symm, rfl⟩
    | _ => simp [nanAsNone, bind, Except.bind] at he
  | ok d =>
    simp only [nanAsNone, bind, Except.bind] at he
    cases hf : plotSectionCoeff (x d) d.meanCpZ name colors with
    | error err => rw [hf] at he; cases he
    | ok f =>
      rw [hf] at he
      simp only [Except.map] at he
      injection he with he
      refine ⟨some f, he.symm, ?_⟩
      simp only [Except.map, nanAsNone, bind, Except.bind, hx]
      have : (d.big u.length).meanCpZ = d.meanCpZ.map (List.map (u.length * ·)) := rfl
      rw [this, plotSectionCoeff_units, hf]
      rfl

/-- What the preparation yields for the figures in other units. -/
theorem prepare_units_figures {spline : SplineFn} {c : Config} {u : Units} (hu : u.Positive)
    (hk : c.solver.interpolation = "linear" ∨ spline = fitpackSpline) {p : Prepared} (hp : prepare spline c = .ok p)
    (hg : u.length ≤ 1 ∨ ∃ g, prepareGeometry spline (inUnits u c) = .ok g)
    (hi : u.length = 1 ∨
      SizesIrrelevant u.length (fun i : Fin p.vlm.vars.length => p.vlm.vars[i]) (fun i => p.vlm.areas.getD i 0)) :
    ∃ p', prepare spline (inUnits u c) = .ok p' ∧
      p'.vlm.vars = p.vlm.vars.map (PanelVars.scaled u.length) ∧
      plotCp p'.set.zeroMesh p'.vlm.out.pCoeffs = (plotCp p.set.zeroMesh p.vlm.out.pCoeffs).map (mapInUnits u) ∧
      coeffPlotData p'.vlm c.solver.nc c.solver.ns =
        (coeffPlotData p.vlm c.solver.nc c.solver.ns).map (CoeffPlotData.big u.length) := by
  obtain ⟨p', res, hp', -, hset, hinl, hcp, hout, -, -⟩ := prepare_units hu hk hp hg hi
  obtain ⟨main, jib, base, -, -, -, -, -, -, -, -, hv, -⟩ := prepare_ok hp
  obtain ⟨main', jib', base', -, -, -, -, -, -, -, -, hv', -⟩ := prepare_ok hp'
  obtain ⟨hin, har, hva, -⟩ := (vlm_ok_iff _ _).1 hv
  obtain ⟨hin', har', hva', -⟩ := (vlm_ok_iff _ _).1 hv'
  have ha : p'.vlm.areas = p.vlm.areas.map (u.length ^ 2 * ·) := by
    rw [har, har']
    simp only [Config.vlmInput, hset, SailSet.big, getPanelsArea, List.map_map]
    exact List.map_congr_left fun q _ => panelArea_scaled hu.length q
  have hvars : p'.vlm.vars = p.vlm.vars.map (PanelVars.scaled u.length) := by
    have e := hva'
    simp only [Config.vlmInput, hset, SailSet.big] at e
    have e2 := calculateVlmVariables_scaled hu.length (panels := p.set.panels)
    simp only [Config.vlmInput] at hva
    rw [e2] at e
    have e3 : (inUnits u c).solver = c.solver := rfl
    rw [e3, hva] at e
    exact (Except.ok.inj e).symm
  have hn : p'.vlm.input.panels.length = p.vlm.input.panels.length := by
    rw [hin, hin']
    simp [Config.vlmInput, hset, SailSet.big]
  obtain ⟨hl, hd⟩ := sections_units hu hn (by rw [hin, hin']; rfl) (by rw [hin, hin']; rfl) (by rw [hin, hin']; rfl) ha
    (by rw [hinl]; rfl) hout
  refine ⟨p', hp', hvars, ?_, coeffPlotData_units hu.length hl hd hn ha hcp _ _⟩
  rw [hset, hout, ← plotCp_units]
  simp [mapAll, SailSet.big]

end PySailing
