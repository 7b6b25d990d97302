import Verif.Lemmas.JibMovedRun
import Verif.Props.Heading
import Verif.Props.Sheet

/-!
# C146: a jib alone may stand anywhere along the yacht
-/

namespace PySailing.Props

open Spec

theorem leeway_turned (c : Csys) (v : V3) : c.leeway.mulVec v = turned c.leewayDeg v := by
  rw [Csys.leeway_mulVec]
  rfl

/-- The rows of the sheet `Integrals` of a run with a jib alone. -/
theorem jib_rows {sails : List SailGeom} {m : ℕ} {csys : Csys} {a : FlowArrays} (hs : Shaped sails m a) {g : SailGeom}
    (hg : sails = [g]) (hn : g.name = "jib") {res : FlowResults} (h : inviscidFlow sails csys a = .ok res) (clr : V3) :
    rowVec ((FlowObject.new res).estimateKeel clr).toDfIntegral "F_sails_total_COG" = some res.forceTotal ∧
    rowVec ((FlowObject.new res).estimateKeel clr).toDfIntegral "F_sails_total_COW" = some (turned csys.leewayDeg res.forceTotal) ∧
    rowVec ((FlowObject.new res).estimateKeel clr).toDfIntegral "F_jib_total_COG" = some res.forceTotal ∧
    rowVec ((FlowObject.new res).estimateKeel clr).toDfIntegral "M_sails_total_COG" = some res.momentTotal ∧
    rowVec ((FlowObject.new res).estimateKeel clr).toDfIntegral "M_jib_total_COG" = some res.momentTotal ∧
    rowVec ((FlowObject.new res).estimateKeel clr).toDfIntegral "M_keel_total_COG" = some (V3.cross clr (-res.forceTotal)) ∧
    rowVec ((FlowObject.new res).estimateKeel clr).toDfIntegral "M_total_COG" =
      some (res.momentTotal + V3.cross clr (-res.forceTotal)) ∧
    rowMoment ((FlowObject.new res).estimateKeel clr).toDfIntegral "M_sails_total_COW" = some (turned csys.leewayDeg res.momentTotal) ∧
    rowMoment ((FlowObject.new res).estimateKeel clr).toDfIntegral "M_keel_total_COW" =
      some (turned csys.leewayDeg (V3.cross clr (-res.forceTotal))) ∧
    rowMoment ((FlowObject.new res).estimateKeel clr).toDfIntegral "M_total_COW" =
      some (turned csys.leewayDeg res.momentTotal + turned csys.leewayDeg (V3.cross clr (-res.forceTotal))) := by
  obtain ⟨r0, e0, -, -, hF, -, -, hM, -⟩ := inviscidFlow_ok hs.nonempty csys a hs.force hs.cp
  rw [h] at e0
  obtain rfl := Except.ok.inj e0
  have en : sails.map SailGeom.name = ["jib"] := by rw [hg]; simp [hn]
  obtain ⟨r1, e1, h1⟩ := C45_totals_partial sails m csys a hs (by rw [en]; decide) (by rw [en]; decide)
  rw [h] at e1
  obtain rfl := Except.ok.inj e1
  obtain ⟨r2, e2, h2⟩ := C51_last_estimate sails m csys a hs (by rw [en]; decide) (by rw [en]; decide)
  rw [h] at e2
  obtain rfl := Except.ok.inj e2
  obtain ⟨t1, t2, t3⟩ := h1 ((FlowObject.new res).estimateKeel clr) rfl
  obtain ⟨k1, k2, k3, k4, -, -, k7⟩ := h2 [clr]
  obtain ⟨l1, l2, -, l4, l5, -⟩ := k7 clr rfl
  obtain ⟨a1, a2⟩ := t1 0 (by rw [hg]; simp)
  have hF' : (∑ k ∈ Finset.range (above sails m), row a.force k) = res.forceTotal := hF.symm
  have hM' : (∑ k ∈ Finset.range (above sails m), V3.cross (armFrom csys.vRef (row a.cp k)) (row a.force k)) =
      res.momentTotal := hM.symm
  rw [hF'] at k1 k2 l1 l2 l4 l5
  rw [hM'] at k3 k4 l4 l5
  simp only [leeway_turned] at k2 k4 l2 l5
  have e : sails[0]'(by rw [hg]; simp) = g := by simp [hg]
  rw [e, hn] at a1 a2
  have hl : sails.length = 1 := by rw [hg]; rfl
  rw [hl, Finset.sum_range_one, ← a1] at t2
  rw [hl, Finset.sum_range_one, ← a2] at t3
  exact ⟨k1, k2, t2.symm.trans k1, k3, t3.symm.trans k3, l1, l4, k4, l2, l5⟩

theorem saveResults_along {a : ℝ} {c : Config} {p p' : Prepared} {g g' : SailGeom} {res res' : FlowResults}
    (h : RunAlong a c p p' g g' res res') {t : SavedResults} (ht : saveResults p.vlm p.csys p.flow p.set.sails p.csys = .ok t) :
    ∃ t', saveResults p'.vlm p'.csys p'.flow p'.set.sails p'.csys = .ok t' ∧
      (∀ name line, name ∉ placeColumns → t'.components.cell name line = t.components.cell name line) ∧
      (∀ line, cellVector t'.components "cp_points_COG" line =
        (cellVector t.components "cp_points_COG" line).map (· + jibTravelOverWater a c)) ∧
      (∀ line m f, cellVector t.components "M_sails_COG" line = some m → cellVector t.components "F_sails_COG" line = some f →
        cellVector t'.components "M_sails_COG" line = some (m + V3.cross (jibTravelOverWater a c) f)) ∧
      t'.inlet = t.inlet ∧ t.integrals = p.flow.toDfIntegral ∧ t'.integrals = p'.flow.toDfIntegral := by
  have hR := (inviscidFlow_along (travel_z a c) h.shaped h.shaped' (by rw [h.sails, h.sails']; rfl) h.out h.points h.flow
    (by rw [← h.csys]; exact h.flow')).1
  have hl : turned p.csys.leewayDeg ⟨jibTravel a c, 0, 0⟩ = jibTravelOverWater a c := by rw [h.csys0]; rfl
  unfold saveResults at ht ⊢
  have hw : p'.vlm.inlet.winds = p.vlm.inlet.winds := by rw [h.inlet]
  rw [h.csys, hw, h.points, h.sails', ← hl, cpGirthsAll_along h.tack]
  rw [h.sails] at ht
  cases h1 : windIntegral p.vlm.inlet.winds p.csys with
  | error e => rw [h1] at ht; cases ht
  | ok ic =>
  rw [h1] at ht
  simp only [bind, Except.bind] at ht ⊢
  cases h2 : cpGirthsAll [g] p.csys (p.vlm.vars.map PanelVars.cp) with
  | error e => rw [h2] at ht; cases ht
  | ok gs =>
  rw [h2] at ht
  simp only [Except.map, cpGirthsAbove_name (h.name'.trans h.name.symm)] at ht ⊢
  cases h3 : cpGirthsAbove gs.1 [g] with
  | error e => rw [h3] at ht; cases ht
  | ok ga =>
  rw [h3] at ht
  simp only [List.length_singleton, arraySplit_map] at ht ⊢
  cases h4 : arraySplit gs.2 (2 * 1) with
  | error e => rw [h4] at ht; cases ht
  | ok parts =>
  rw [h4] at ht
  simp only [Except.map] at ht ⊢
  injection ht with ht
  subst ht
  have e1 : p.flow.res = res := by rw [h.keel]; rfl
  have e2 : p'.flow.res = res' := by rw [h.keel']; rfl
  have hz : (everySecond (parts.map (List.map (· + (⟨jibTravel a c, 0, 0⟩ : V3))))).flatten.map V3.z =
      (everySecond parts).flatten.map V3.z := by
    rw [everySecond_map, ← List.map_flatten, List.map_map]
    exact List.map_congr_left fun q _ => by simp
  obtain ⟨s1, s2, s3⟩ := sheetTables_along (i := p.vlm.inlet) p.csys ga.1 ga.2 hR (travel_z a c) h.inlet hz
  rw [hl]
  refine ⟨_, rfl, ?_, ?_, ?_, rfl, rfl, rfl⟩
  · rw [e1, e2]; exact s1
  · rw [e1, e2]; exact s2
  · rw [e1, e2]; exact s3

/-- **C146.**  A jib alone may stand anywhere along the yacht.  Give the mast another distance from the stern: the jib
moves along the yacht by the difference, divided by the sine of the rake, in the direction of the leeway angle.
A run that writes its workbook writes one again.  In the table of the panels only the places of the control points
and the moments change: the places by this distance, each moment by the moment of the force of its line acting at this
distance.  The wind at the reference height, the totals of the forces and the moment of the keel are the same; the
moments of the sails, of the jib and of everything change by the moment of the total force acting at this distance. -/
theorem C146_jib_along (c : Config) (hc : WellFormed c) (hj : c.rig.sailsDef = "jib") (a : ℝ) (t : SavedResults)
    (h : .workbook (some t) ∈ (run fitpackSpline c).1) :
    ∃ t' F, .workbook (some t') ∈ (run fitpackSpline (withMastAt a c)).1 ∧
      (∀ name line, name ∉ placeColumns → t'.components.cell name line = t.components.cell name line) ∧
      (∀ line, cellVector t'.components "cp_points_COG" line =
        (cellVector t.components "cp_points_COG" line).map (· + jibTravelOverWater a c)) ∧
      (∀ line m f, cellVector t.components "M_sails_COG" line = some m → cellVector t.components "F_sails_COG" line = some f →
        cellVector t'.components "M_sails_COG" line = some (m + V3.cross (jibTravelOverWater a c) f)) ∧
      t'.inlet = t.inlet ∧
      (∀ name ∈ ["F_sails_total_COG", "F_sails_total_COW", "F_jib_total_COG", "M_keel_total_COG"],
        rowVec t'.integrals name = rowVec t.integrals name) ∧
      rowMoment t'.integrals "M_keel_total_COW" = rowMoment t.integrals "M_keel_total_COW" ∧
      rowVec t.integrals "F_sails_total_COG" = some F ∧
      (∀ name ∈ ["M_sails_total_COG", "M_jib_total_COG", "M_total_COG"], ∃ m,
        rowVec t.integrals name = some m ∧ rowVec t'.integrals name = some (m + V3.cross (jibTravelOverWater a c) F)) ∧
      ∀ name ∈ ["M_sails_total_COW", "M_total_COW"], ∃ m, rowMoment t.integrals name = some m ∧
        rowMoment t'.integrals name = some (m + turned c.leewayDeg (V3.cross (jibTravelOverWater a c) F)) := by
  obtain ⟨p, hp, hs⟩ := run_workbook h
  obtain ⟨p', g, g', res, res', hr⟩ := prepare_along hc hj a hp
  obtain ⟨t', ht', s1, s2, s3, s4, s5, s6⟩ := saveResults_along hr hs
  have hR := (inviscidFlow_along (travel_z a c) hr.shaped hr.shaped' (by rw [hr.sails, hr.sails']; rfl) hr.out hr.points hr.flow
    (by rw [← hr.csys]; exact hr.flow')).1
  have hl : p.csys.leewayDeg = c.leewayDeg := by rw [hr.csys0]
  obtain ⟨a1, a2, a3, a4, a5, a6, a7, a8, a9, a10⟩ := jib_rows hr.shaped hr.sails hr.name hr.flow p.hull.clr
  obtain ⟨b1, b2, b3, b4, b5, b6, b7, b8, b9, b10⟩ := jib_rows hr.shaped' hr.sails' hr.name' hr.flow' p.hull.clr
  rw [hr.csys, hl] at b2 b8 b9 b10
  rw [hl] at a2 a8 a9 a10
  rw [hR.forceTotal] at b1 b2 b3 b6 b7 b9 b10
  rw [hR.momentTotal] at b4 b5 b7 b8 b10
  have tadd : ∀ u v : V3, turned c.leewayDeg (u + v) = turned c.leewayDeg u + turned c.leewayDeg v := by
    intro u v
    have := leeway_add p.csys u v
    rwa [leeway_turned, leeway_turned, leeway_turned, hl] at this
  refine ⟨t', res.forceTotal, workbook_mem hr.run ht', s1, s2, s3, s4, ?_⟩
  rw [s5, s6, hr.keel, hr.keel', hr.clr]
  refine ⟨?_, b9.trans a9.symm, a1, ?_, ?_⟩
  · intro name hn
    simp only [List.mem_cons, List.not_mem_nil, or_false] at hn
    rcases hn with rfl | rfl | rfl | rfl
    · exact b1.trans a1.symm
    · exact b2.trans a2.symm
    · exact b3.trans a3.symm
    · exact b6.trans a6.symm
  · intro name hn
    simp only [List.mem_cons, List.not_mem_nil, or_false] at hn
    rcases hn with rfl | rfl | rfl
    · exact ⟨_, a4, b4⟩
    · exact ⟨_, a5, b5⟩
    · exact ⟨_, a7, b7.trans (by congr 1; abel)⟩
  · intro name hn
    simp only [List.mem_cons, List.not_mem_nil, or_false] at hn
    rcases hn with rfl | rfl
    · exact ⟨_, a8, b8.trans (by rw [tadd])⟩
    · exact ⟨_, a10, b10.trans (by rw [tadd]; congr 1; abel)⟩

/-! ## Figures -/

theorem coeffPlotSail_along {w : V3} (hw : w.z = 0) (nc ns : ℕ) (A : List ℝ) (P : List V3) (l d : List ℝ) :
    coeffPlotSail nc ns A (P.map (· + w)) l d = coeffPlotSail nc ns A P l d := by
  have ez : (P.map (· + w)).map V3.z = P.map V3.z := by
    rw [List.map_map]
    exact List.map_congr_left fun p _ => by simp [hw]
  unfold coeffPlotSail
  rw [ez]

theorem coeffPlotData_along {w : V3} (hw : w.z = 0) {r r' : Vlm} (hl : r'.sectionLift = r.sectionLift)
    (hd : r'.sectionDrag = r.sectionDrag) (hn : r'.input.panels.length = r.input.panels.length)
    (ha : r'.areas = r.areas) (hc : r'.vars.map PanelVars.cp = (r.vars.map PanelVars.cp).map (· + w)) (nc ns : ℕ) :
    coeffPlotData r' nc ns = coeffPlotData r nc ns := by
  unfold coeffPlotData
  rw [hl, hd, hn, ha, hc]
  cases r.sectionLift with
  | error e => rfl
  | ok cl =>
    cases r.sectionDrag with
    | error e => rfl
    | ok cd =>
      simp only [bind, Except.bind]
      split
      · rfl
      rw [npSplit_map (· + w)]
      cases npSplit r.areas _ with
      | error e => rfl
      | ok As =>
        cases npSplit (r.vars.map PanelVars.cp) _ with
        | error e => rfl
        | ok Ps =>
          simp only [Except.map]
          rw [mapM_map_rel (fun i => (idx As i).bind fun a => (idx Ps i).bind fun p => (idx cl i).bind fun l =>
            (idx cd i).bind fun d => coeffPlotSail nc ns a p l d) _ id]
          · simp only [Except.bind]
            generalize List.mapM (m := Py) _ (List.range _) = z
            cases z with
            | error e => rfl
            | ok rows => simp only [Except.map, List.map_id]
          · intro i _
            rw [idx_map]
            cases idx As i with
            | error e => rfl
            | ok a =>
              cases idx Ps i with
              | error e => rfl
              | ok p =>
                cases idx cl i with
                | error e => rfl
                | ok l =>
                  cases idx cd i with
                  | error e => rfl
                  | ok d =>
                    simp only [Except.map, Except.bind, coeffPlotSail_along hw]
                    cases coeffPlotSail nc ns a p l d <;> rfl

theorem plotCp_along (d : ℝ) (mesh : List Panel) (P : List ℝ) :
    plotCp (mesh.map (movePanel id ⟨d, 0, 0⟩)) P = (plotCp mesh P).map (List.map (outlineRight d)) := by
  have e : (mesh.map (movePanel id ⟨d, 0, 0⟩)).map sideView = (mesh.map sideView).map (List.map fun q => (q.1 + d, q.2)) := by
    rw [List.map_map, List.map_map]
    refine List.map_congr_left fun q _ => ?_
    simp [sideView, movePanel, move]
  unfold plotCp
  rw [e, List.length_map]
  split_ifs
  · simp only [Except.map]
    congr 1
    rw [List.zip_map_left]
    rfl
  · rfl

/-- **C146, figures.**  Where the mast of a jib alone stands does not matter for the plots of the coefficients along
the girth; the map of the pressure coefficients shows the same outlines with the same values, moved along the yacht. -/
theorem C146_figures (c : Config) (hc : WellFormed c) (hj : c.rig.sailsDef = "jib") (a : ℝ)
    (hw : ReferenceAboveWater c.wind) (hr : (run fitpackSpline c).2 = .ok ()) :
    (run fitpackSpline (withMastAt a c)).2 = .ok () ∧
    (∀ m, .cpMap m ∈ (run fitpackSpline c).1 →
      .cpMap (m.map (outlineRight (jibTravel a c))) ∈ (run fitpackSpline (withMastAt a c)).1) ∧
    (∀ name f, .sectionPlot name f ∈ (run fitpackSpline (withMastAt a c)).1 ↔ .sectionPlot name f ∈ (run fitpackSpline c).1) := by
  obtain ⟨p, hp⟩ : ∃ p, prepare fitpackSpline c = .ok p := by
    cases hp : prepare fitpackSpline c with
    | ok p => exact ⟨p, rfl⟩
    | error e => unfold run at hr; rw [hp] at hr; cases hr
  obtain ⟨p', g, g', res, res', h⟩ := prepare_along hc hj a hp
  have hc' := wellFormed_mastAt hc a
  obtain ⟨-, hset', -, hv', -⟩ := prepare_data hc' h.run
  have hr' : (run fitpackSpline (withMastAt a c)).2 = .ok () := by
    obtain ⟨set, hset, h1, -⟩ := C72_wellformed_partial (withMastAt a c) hc' hw
    rw [hset'] at hset
    obtain rfl := Except.ok.inj hset
    exact (h1 ⟨_, hv'⟩).1
  have mem : ∀ {d : Config} {q : Prepared} (_ : prepare fitpackSpline d = .ok q) (_ : (run fitpackSpline d).2 = .ok ()) (e : Effect),
      e ∈ (run fitpackSpline d).1 ↔ .ok e ∈ outputSteps d q := by
    intro d q hq hd e
    constructor
    · intro he
      obtain ⟨q', hq', h⟩ := mem_run he
      rwa [Except.ok.inj (hq.symm.trans hq')]
    · intro he
      unfold run at hd ⊢
      rw [hq] at hd ⊢
      exact mem_emit_of_ok hd he
  have other : ∀ {α : Type} {x : Py α} {g : α → Effect} {e : Effect}, (∀ a, g a ≠ e) → ¬ Except.ok e = x.map g := by
    intro α x g e hne he
    cases x with
    | error e => cases he
    | ok a => exact hne a (Except.ok.inj he).symm
  have hcp : plotCp p'.set.zeroMesh p'.vlm.out.pCoeffs =
      (plotCp p.set.zeroMesh p.vlm.out.pCoeffs).map (List.map (outlineRight (jibTravel a c))) := by
    rw [h.zeroMesh, h.out, plotCp_along]
  have hn : p'.vlm.input.panels.length = p.vlm.input.panels.length := by rw [h.input]; simp
  have hlift : p'.vlm.sectionLift = p.vlm.sectionLift := by
    unfold Vlm.sectionLift
    rw [hn, h.areas, h.out, h.inlet, h.input]
  have hdrag : p'.vlm.sectionDrag = p.vlm.sectionDrag := by
    unfold Vlm.sectionDrag
    rw [hn, h.areas, h.out, h.inlet, h.input]
  have hco := coeffPlotData_along (travel_z a c) hlift hdrag hn h.areas h.points c.solver.nc c.solver.ns
  have hs : (withMastAt a c).solver = c.solver := rfl
  refine ⟨hr', fun m => ?_, fun name f => ?_⟩
  · intro hm
    obtain ⟨q, hq, hm⟩ := run_cpMap hm
    obtain rfl : q = p := Except.ok.inj (hq.symm.trans hp)
    rw [mem h.run hr']
    unfold outputSteps
    rw [hcp, hm]
    simp [Except.map]
  · rw [mem hp hr, mem h.run hr']
    unfold outputSteps
    rw [hcp, hs, hco]
    simp only [List.mem_cons, other (g := Effect.workbook) (e := .sectionPlot name f) fun a => by simp,
      other (g := Effect.picture) (e := .sectionPlot name f) fun a => by simp,
      other (g := Effect.cpMap) (e := .sectionPlot name f) fun a => by simp]

/-! ## A run with a jib alone -/

theorem sin_deg_60_pos : 0 < Real.sin (deg2rad 60) := by
  apply Real.sin_pos_of_pos_of_lt_pi
  · unfold deg2rad; positivity
  · unfold deg2rad; linarith [Real.pi_pos]

theorem cos_deg_60 : Real.cos (deg2rad 60) = 1 / 2 := by
  rw [show deg2rad 60 = Real.pi / 3 by simp [deg2rad]; ring, Real.cos_pi_div_three]

/-- A jib on an upright forestay, at the place of the main sail of the demonstration run. -/
noncomputable def demoJibAlone : Config :=
  { Demo.config with
    rig := ⟨some 1, some 1, some 2, some 1, (Real.sin (deg2rad 60))⁻¹, 1 / 2, 60, -(1 / 2) - Real.sin (deg2rad 60), "jib"⟩ }

theorem jibAlone_wellFormed : WellFormed demoJibAlone where
  mode := by simp [demoJibAlone, Demo.config, twistModes]
  ns_pos := le_rfl
  nc_pos := le_rfl
  heel := by simp [demoJibAlone, Demo.config, deg2rad]
  sails := by simp [demoJibAlone]
  base := by simp [demoJibAlone]
  main_twist := Or.inl (by simp [demoJibAlone, Demo.config, demoConf])
  jib_twist := Or.inl (by simp [demoJibAlone, Demo.config, demoConf])
  jib := fun _ => ⟨⟨⟨1, rfl, one_pos⟩, ⟨1, rfl, one_pos⟩, ⟨2, rfl, two_pos⟩, Or.inl (inv_pos.2 sin_deg_60_pos), sin_deg_60_pos⟩,
    _, _, _, _, _, demo_goodSail⟩
  main := fun h => absurd rfl h
  wind := by simp [WindIncomplete, demoJibAlone, Demo.config]

theorem jibAlone_set : ∃ set, sailSetOf fitpackSpline demoJibAlone.solver demoJibAlone.rig (some demoConf) (some demoConf)
    ⟨0, 0, 0⟩ = .ok set ∧ set.panels = Demo.input2.panels ∧ set.te = Demo.input2.te ∧ set.le = Demo.input2.le := by
  obtain ⟨ss, set, hset, hb, -, hlen, -, -, hD, -, -⟩ := sailSetOf_ok fitpackSpline demoJibAlone.solver demoJibAlone.rig ⟨0, 0, 0⟩
    (Or.inl rfl) (Or.inr (Or.inr rfl)) le_rfl le_rfl (by simp [deg2rad]) demoConf demoConf
    jibAlone_wellFormed.sails (fun _ => jibAlone_wellFormed.jib (by simp [demoJibAlone])) (fun h => absurd rfl h)
  obtain ⟨sm, rfl, luff, base, height, gi, ch, tw, ca, di, hl, hba, hh, hg, hd⟩ := hD rfl
  have hs := sailSetOf_sails hset
  obtain ⟨hp, ht, hle⟩ := sailSet_blocks hb hs
  refine ⟨set, hset, ?_, ht, hle⟩
  have e1 : luff = 1 := by cases hl; rfl
  have e1' : base = 1 := by cases hba; rfl
  have e1'' : height = 2 := by cases hh; rfl
  have e2 := hg.girths_eq; cases e2
  have e3 := hg.chords_eq; cases e3
  have e4 := hg.twist_eq; cases e4
  have e5 := hg.camber_eq; cases e5
  have e6 := hg.distance_eq; cases e6
  have ht0 : ∀ r, r ≤ 1 → sm.2 r = 0 := by
    intro r hr
    have p := Demo.curve_linear (hd.twist r hr)
    have : (r = 0 ∨ r = 1) := by omega
    rcases this with rfl | rfl
    · have := p.left (by simp); simpa using this
    · have := p.right (by simp [demoJibAlone, Demo.config]); simpa using this
  have hc := Demo.sampled_two hd.chords
  have hm := Demo.sampled_two hd.camber
  have hz := Demo.sampled_two hd.distance
  have s0 := sin_deg_60_pos.ne'
  have c0 := cos_deg_60
  have tack : sm.1.tack = ⟨0, 0, 1⟩ := by
    rw [hd.tack_eq, e1']
    ext
    · simp only [jibTack, demoJibAlone, mastDirection, c0, V3.sub_x, V3.smul_x]
      field_simp
      ring
    · simp [jibTack, demoJibAlone, mastDirection]
    · simp [jibTack, demoJibAlone, mastDirection, s0]
  have head : sm.1.head = ⟨0, 0, 2⟩ := by
    have ht := hd.tack_eq
    rw [tack] at ht
    rw [hd.head_eq, e1, e1', e1'']
    unfold jibHead
    rw [e1'] at ht
    rw [← ht]
    have ef : forestay demoJibAlone.rig.rakeDeg 1 2 = ⟨0, 0, 2 * Real.sin (deg2rad 60)⟩ := by
      ext <;> simp [forestay, mastDirection, demoJibAlone, c0]
    have en : (forestay demoJibAlone.rig.rakeDeg 1 2).norm = 2 * Real.sin (deg2rad 60) := by
      rw [ef]
      unfold V3.norm V3.dot
      simp only [mul_zero, zero_add]
      exact Real.sqrt_mul_self (by linarith [sin_deg_60_pos])
    rw [en, ef]
    ext
    · simp
    · simp
    · simp only [V3.add_z, V3.smul_z]
      field_simp
      norm_num
  have hns : sm.1.ns = 1 := hd.ns_eq
  have hnc : sm.1.nc = 1 := hd.nc_eq
  have hab : ∀ r k, r ≤ 1 → abovePoints sm r k = Demo.pts r k := by
    intro r k hr
    unfold abovePoints SailInput.aboveTwisted
    rw [ht0 r hr]
    simp only [deg2rad, zero_mul, rotateAboutLine_zero, SailInput.abovePt, hd.csys_eq]
    rw [demo_upright, hns, hnc, tack, head, hc, hm, hz]
    have : (r = 0 ∨ r = 1) := by omega
    rcases this with rfl | rfl <;> ext <;> simp [sailPoint, lerp, Demo.pts, camberCurve] <;> norm_num
  have hun : ∀ r k, r ≤ 1 → underPoints sm r k = mirrorMesh 1 Demo.pts r k := by
    intro r k hr
    unfold underPoints SailInput.underTwisted
    rw [hns, ht0 (1 - r) (by omega)]
    simp only [deg2rad, zero_mul, rotateAboutLine_zero, SailInput.underPt, hd.csys_eq]
    rw [demo_upright, hns, hnc, tack, head, hc, hm, hz]
    have : (r = 0 ∨ r = 1) := by omega
    rcases this with rfl | rfl <;> ext <;> simp [sailPoint, lerp, Demo.pts, camberCurve, mirrorMesh, mirror] <;> norm_num
  rw [hp]
  show [panelOf (abovePoints sm) 0 0, panelOf (underPoints sm) 0 0] =
    [panelOf Demo.pts 0 0, panelOf (mirrorMesh 1 Demo.pts) 0 0]
  simp only [panelOf, hab, hun, zero_add, le_refl, zero_le]

theorem jibAlone_prepared : ∃ p, prepare fitpackSpline demoJibAlone = .ok p ∧ p.csys = ⟨0, 0, 0⟩ ∧
    vlm Demo.input2 = .ok p.vlm ∧ p.vlm.vars = [Demo.vars (-1), (Demo.vars (-1)).mirrored] ∧ p.vlm.inlet.vAppInfs = [Demo.V, Demo.V] := by
  obtain ⟨set, hset, e1, e2, e3⟩ := jibAlone_set
  obtain ⟨r, hr, hV, hv, -⟩ := Demo.vlm_ok2
  have hin : demoJibAlone.vlmInput set (windGetProfile demoJibAlone.wind) = Demo.input2 := by
    simp only [Config.vlmInput, e1, e2, e3]
    rfl
  obtain ⟨p, hp, hc, -, hpv⟩ := prepare_of (spline := fitpackSpline) (c := demoJibAlone) (main := demoConf) (jib := demoConf)
    (base := 1) (set := set) (r := r) rfl rfl (by simp [windPostInit, demoJibAlone, Demo.config])
    (wellFormed_validation jibAlone_wellFormed) hset rfl (by rw [hin]; exact hr)
  exact ⟨p, hp, hc, by rw [hpv]; exact hr, by rw [hpv]; exact hv, by rw [hpv]; exact hV⟩

theorem jibAlone_workbook : ∃ t, .workbook (some t) ∈ (run fitpackSpline demoJibAlone).1 := by
  obtain ⟨p, hp, hc, hvl', hv, -⟩ := jibAlone_prepared
  obtain ⟨ic, hw⟩ : ∃ ic, windIntegral p.vlm.inlet.winds p.csys = .ok ic := by
    obtain ⟨-, -, -, hinl, -⟩ := (vlm_ok_iff _ _).1 hvl'
    rw [((inletConditions_ok_iff _ _ _ _).1 hinl).2.2]
    exact ⟨_, rfl⟩
  obtain ⟨main, jib, base, -, -, -, -, -, hset, -, -, hvl, res, hres, hflow⟩ := prepare_ok hp
  obtain ⟨g, hg, hsl, -⟩ := (C65_selection fitpackSpline demoJibAlone.solver demoJibAlone.rig (some main) (some jib) p.csys).1 rfl _ hset
  have hss := sailSetOf_sails hset
  obtain ⟨hab, hun, -⟩ := sailJib_lengths hg
  have hab1 : g.panelsAbove.length = 1 := hab
  have hun1 : g.panelsUnder.length = 1 := hun
  rw [hsl] at hss hres
  obtain ⟨t, ht, -⟩ := C49_components _ _ hvl [g] 1 p.set hss rfl
    (by simpa using hab1) (by simpa using hun1) p.csys p.csys res hres p.flow (by rw [hflow]; rfl) ic hw
    (fun _ => 3 / 2)
    (by
      intro b hb
      have hb0 : b = 0 := by simpa using hb
      subst hb0
      rw [hc]
      simp only [demo_reverse, hv]
      refine ⟨⟨0, by norm_num, .inl ?_⟩, ?_⟩
      · simp [row, Demo.vars]
      · rintro z ⟨k, hk, h⟩
        have hk0 : k = 0 := by omega
        subst hk0
        rcases h with rfl | rfl
        · simp [row, Demo.vars]
        · simp [row, Demo.vars, PanelVars.mirrored, mirror]; norm_num)
    (by
      intro b hb
      have hb0 : b = 0 := by simpa using hb
      subst hb0
      show (3 / 2 : ℝ) ≠ g.tackMounting.z
      rw [sailJib_tack hg, show demoJibAlone.rig.sheer * Real.sin (deg2rad demoJibAlone.rig.rakeDeg) = 1 from
        inv_mul_cancel₀ sin_deg_60_pos.ne']
      norm_num)
  exact ⟨t, workbook_mem hp (by rw [hsl]; exact ht)⟩

/-- Non-vacuity of `C146_jib_along` and `C146_figures`: a run with a jib alone, and its mast a metre and a half
further aft. -/
example : WellFormed demoJibAlone ∧ demoJibAlone.rig.sailsDef = "jib" ∧ ReferenceAboveWater demoJibAlone.wind ∧
    (run fitpackSpline demoJibAlone).2 = .ok () ∧ (∃ t, .workbook (some t) ∈ (run fitpackSpline demoJibAlone).1) ∧
    jibTravelOverWater (demoJibAlone.rig.mastLOA - 3 / 2) demoJibAlone ≠ 0 := by
  have hw : ReferenceAboveWater demoJibAlone.wind := by
    intro h
    exact absurd h (by simp [demoJibAlone, Demo.config])
  refine ⟨jibAlone_wellFormed, rfl, hw, ?_, jibAlone_workbook, ?_⟩
  · obtain ⟨p, hp, -⟩ := jibAlone_prepared
    obtain ⟨-, hset', -, hv', -⟩ := prepare_data jibAlone_wellFormed hp
    obtain ⟨set, hset, h1, -⟩ := C72_wellformed_partial demoJibAlone jibAlone_wellFormed hw
    rw [hset'] at hset
    obtain rfl := Except.ok.inj hset
    exact (h1 ⟨_, hv'⟩).1
  · intro h
    have hx := congrArg V3.x h
    have := sin_deg_60_pos.ne'
    simp [jibTravelOverWater, jibTravel, turned, demoJibAlone, Demo.config, deg2rad] at hx
    exact this hx

end PySailing.Props
