import Verif.Lemmas.HeadingPicture
import Verif.Props.Reference
import Verif.Props.Figures

/-!
# C141: the heading of a yacht at rest
-/

namespace PySailing.Props

open Spec

theorem geometry_of {spline : SplineFn} {c : Config} {main jib : SailConf} {base : ℝ} {set : SailSet}
    (h1 : mainSailInit c.main = .ok main) (h2 : jibSailInit c.jib = .ok jib) (h3 : windPostInit c.wind = .ok ())
    (h4 : sailPostInit c.rig (some main) (some jib) = .ok ())
    (h5 : sailSetOf spline c.solver c.rig (some main) (some jib) ⟨c.heelDeg, c.leewayDeg, c.vRef⟩ = .ok set)
    (h6 : c.rig.base = some base) : ∃ g, prepareGeometry spline c = .ok g := by
  obtain ⟨hull, hh, -⟩ := C57_hull c.rig.sheer base ⟨c.heelDeg, c.leewayDeg, c.vRef⟩ c.clrUpright
  unfold prepareGeometry
  simp only [h1, h2, h3, h4, h5, h6, hh, need, C59_csys_constructor_total, bind, Except.bind]
  exact ⟨_, rfl⟩

theorem turned_geometry {c : Config} (h : WellFormed c) (angle : ℝ) :
    ∃ g, prepareGeometry fitpackSpline (turnedScene angle c) = .ok g := by
  have h' : WellFormed (turnedScene angle c) :=
    ⟨h.mode, h.ns_pos, h.nc_pos, h.heel, h.sails, h.base, h.main_twist, h.jib_twist, h.jib, h.main, h.wind⟩
  obtain ⟨ss, set, hset, -⟩ := wellFormed_set h'
  have h1 : mainSailInit (turnedScene angle c).main = .ok (mainData (turnedScene angle c)) := withTwist_default h'.main_twist 12 5
  have h2 : jibSailInit (turnedScene angle c).jib = .ok (jibData (turnedScene angle c)) := withTwist_default h'.jib_twist 15 7
  have h3 := windPostInit_ok h'.wind
  have h4 := wellFormed_validation h'
  obtain ⟨base, hbase⟩ := Option.ne_none_iff_exists'.1 h'.base
  exact geometry_of h1 h2 h3 h4 hset hbase

/-- What happens to the workbook, all at once. -/
theorem workbook_turned {spline : SplineFn} {c : Config} {δ : ℝ} (hrest : c.wind.sog = 0) {t : SavedResults}
    (h : .workbook (some t) ∈ (run spline c).1) (hg : ∃ g, prepareGeometry spline (turnedScene δ c) = .ok g) :
    ∃ t', .workbook (some t') ∈ (run spline (turnedScene δ c)).1 ∧ SheetTurned δ t.components t'.components ∧
      (∀ key, key ≠ "F_sails_total_COW" → rowVec t'.integrals key = (rowVec t.integrals key).map (turned δ)) ∧
      rowVec t'.integrals "F_sails_total_COW" = (rowVec t.integrals "F_sails_total_COW").map (turned (2 * δ)) ∧
      (∀ key, rowMoment t'.integrals key = (rowMoment t.integrals key).map (turned (2 * δ))) ∧
      (∀ key ∈ ["TWS_at_reference_height_COG", "V_app_infs_at_reference_height_COG"],
        rowVec (fun n => t'.inlet.lookup n) key = (rowVec (fun n => t.inlet.lookup n) key).map (turned δ)) ∧
      ∀ name ∈ ["TWS_length_at_reference_height", "V_app_infs_length_at_reference_height_COG",
        "Reference_measurement_height", "Reference_water_level_for_wind_profile", "Not implemented - dummy variable"],
        t'.inlet.lookup name = t.inlet.lookup name := by
  obtain ⟨p, hp, hs⟩ := run_workbook h
  obtain ⟨p', res, res', hp', c1, c2, c3, c4, w0, w1, w2, w3, w4, w5, w6, -, f1, f2, hT, -⟩ := prepare_turn hrest hp hg
  rw [f1] at hs
  obtain ⟨t', ht', k1, k2, k3, k4, k5⟩ := saveResults_turned (δ := δ) hs (by rw [c4]; exact hrest) hT c3 (by rw [w0, c4]) w1 w2 w3
    w4 w5 w6 (prepared_angles hp) (prepared_angles hp')
  obtain ⟨i1, i2, i3⟩ := integrals_turned hT p.hull.clr
  rw [k2]
  refine ⟨t', workbook_mem hp' ?_, k1, ?_, ?_, ?_, k4, k5⟩
  · rw [c1, c2, f2]; exact ht'
  · rw [k3]; exact i1
  · rw [k3]; exact i2
  · rw [k3]; exact i3

/-- **C141 (partial).**  A yacht at rest is a model in the wind: only the angle between yacht and wind matters.  Turn
the yacht (its leeway angle), the wind and the reference point by the same angle.  If the sails can be built in the
new direction, a run that writes its workbook writes one again, in which every vector in the frame of the course is
turned by this angle, line by line and row by row, and every column without direction is the same: circulation,
pressure, speeds, heights and girths.  The angle between the apparent wind and the yacht stays the same up to full
turns, where there is wind.  Missing: what is reported in the frame of the yacht should not change at all,
and for forces and moments it does, see `C141_yacht_frame` and `C141_refuted`. -/
theorem C141_heading_partial (spline : SplineFn) (c : Config) (angle : ℝ) (t : SavedResults) (hrest : c.wind.sog = 0)
    (h : .workbook (some t) ∈ (run spline c).1)
    (hg : ∃ g, prepareGeometry spline (turnedScene angle c) = .ok g) :
    ∃ t', .workbook (some t') ∈ (run spline (turnedScene angle c)).1 ∧
      (∀ name ∈ courseColumns, ∀ line,
        cellVector t'.components name line = (cellVector t.components name line).map (turned angle)) ∧
      (∀ name ∈ plainColumns, ∀ line, t'.components.cell name line = t.components.cell name line) ∧
      (∀ line v x, cellVector t.components "V_app_infs_COG" line = some v → v.x ≠ 0 ∨ v.y ≠ 0 →
        t.components.cell "AWA_infs_COW_deg" line = some (.num x) →
        ∃ n : ℤ, t'.components.cell "AWA_infs_COW_deg" line = some (.num (x + 360 * n))) ∧
      (∀ name ∈ courseTotals, rowVec t'.integrals name = (rowVec t.integrals name).map (turned angle)) ∧
      (∀ name ∈ ["TWS_at_reference_height_COG", "V_app_infs_at_reference_height_COG"],
        rowVec (fun n => t'.inlet.lookup n) name = (rowVec (fun n => t.inlet.lookup n) name).map (turned angle)) ∧
      ∀ name ∈ ["TWS_length_at_reference_height", "V_app_infs_length_at_reference_height_COG"],
        t'.inlet.lookup name = t.inlet.lookup name := by
  obtain ⟨t', h1, h2, h3, -, -, h6, h7⟩ := workbook_turned hrest h hg
  refine ⟨t', h1, h2.course, h2.plain, h2.angle, fun name hn => h3 name ?_, h6, fun name hn => h7 name ?_⟩
  · rintro rfl
    exact absurd hn (by decide)
  · simp only [List.mem_cons, List.not_mem_nil, or_false] at hn ⊢
    tauto

/-- **C141 for every well-formed configuration**: the sails can always be built in the new direction. -/
theorem C141_wellformed_partial (c : Config) (hc : WellFormed c) (angle : ℝ) (t : SavedResults) (hrest : c.wind.sog = 0)
    (h : .workbook (some t) ∈ (run fitpackSpline c).1) :
    ∃ t', .workbook (some t') ∈ (run fitpackSpline (turnedScene angle c)).1 ∧
      (∀ name ∈ courseColumns, ∀ line,
        cellVector t'.components name line = (cellVector t.components name line).map (turned angle)) ∧
      (∀ name ∈ plainColumns, ∀ line, t'.components.cell name line = t.components.cell name line) ∧
      (∀ line v x, cellVector t.components "V_app_infs_COG" line = some v → v.x ≠ 0 ∨ v.y ≠ 0 →
        t.components.cell "AWA_infs_COW_deg" line = some (.num x) →
        ∃ n : ℤ, t'.components.cell "AWA_infs_COW_deg" line = some (.num (x + 360 * n))) ∧
      (∀ name ∈ courseTotals, rowVec t'.integrals name = (rowVec t.integrals name).map (turned angle)) ∧
      (∀ name ∈ ["TWS_at_reference_height_COG", "V_app_infs_at_reference_height_COG"],
        rowVec (fun n => t'.inlet.lookup n) name = (rowVec (fun n => t.inlet.lookup n) name).map (turned angle)) ∧
      ∀ name ∈ ["TWS_length_at_reference_height", "V_app_infs_length_at_reference_height_COG"],
        t'.inlet.lookup name = t.inlet.lookup name :=
  C141_heading_partial fitpackSpline c angle t hrest h (turned_geometry hc angle)

/-- **C141, what happens in the frame of the yacht.**  Forces and moments along and across the yacht do not stay the
same: they are turned by twice the angle. -/
theorem C141_yacht_frame (spline : SplineFn) (c : Config) (angle : ℝ) (t : SavedResults) (hrest : c.wind.sog = 0)
    (h : .workbook (some t) ∈ (run spline c).1)
    (hg : ∃ g, prepareGeometry spline (turnedScene angle c) = .ok g) :
    ∃ t', .workbook (some t') ∈ (run spline (turnedScene angle c)).1 ∧
      (∀ line, cellVector t'.components "F_sails_COW" line =
        (cellVector t.components "F_sails_COW" line).map (turned (2 * angle))) ∧
      rowVec t'.integrals "F_sails_total_COW" = (rowVec t.integrals "F_sails_total_COW").map (turned (2 * angle)) ∧
      ∀ name ∈ yachtMoments, rowMoment t'.integrals name = (rowMoment t.integrals name).map (turned (2 * angle)) := by
  obtain ⟨t', h1, h2, -, h4, h5, -, -⟩ := workbook_turned hrest h hg
  exact ⟨t', h1, h2.yacht, h4, fun name _ => h5 name⟩

/-- **C141, figures.**  The map of the pressure coefficients and the plots of the section coefficients of a yacht at
rest are the same in every direction. -/
theorem C141_figures (spline : SplineFn) (c : Config) (angle : ℝ) (hrest : c.wind.sog = 0) (p : Prepared)
    (hp : prepare spline c = .ok p) (hz : ∃ q ∈ p.vlm.vars, q.leMid.z ≠ 0 ∨ q.teMid.z ≠ 0)
    (hw : ReferenceAboveWater c.wind) (hg : ∃ g, prepareGeometry spline (turnedScene angle c) = .ok g) :
    (run spline c).2 = .ok () ∧ (run spline (turnedScene angle c)).2 = .ok () ∧
    (∀ m, .cpMap m ∈ (run spline c).1 ↔ .cpMap m ∈ (run spline (turnedScene angle c)).1) ∧
    (∀ name f, .sectionPlot name f ∈ (run spline c).1 ↔ .sectionPlot name f ∈ (run spline (turnedScene angle c)).1) := by
  obtain ⟨p', hp', hle, hte, hcp, hco⟩ := prepare_turn_figures hrest hp hg
  have hz' : ∃ q ∈ p'.vlm.vars, q.leMid.z ≠ 0 ∨ q.teMid.z ≠ 0 := by
    obtain ⟨v, hm, h⟩ := hz
    have e1 : (p'.vlm.vars.map PanelVars.leMid).map V3.z = (p.vlm.vars.map PanelVars.leMid).map V3.z := by
      rw [hle, List.map_map]; rfl
    have e2 : (p'.vlm.vars.map PanelVars.teMid).map V3.z = (p.vlm.vars.map PanelVars.teMid).map V3.z := by
      rw [hte, List.map_map]; rfl
    rcases h with h | h
    · have : v.leMid.z ∈ (p'.vlm.vars.map PanelVars.leMid).map V3.z := by
        rw [e1]; exact List.mem_map_of_mem (List.mem_map_of_mem hm)
      obtain ⟨x, hx, hxz⟩ := List.mem_map.1 this
      obtain ⟨q, hq, rfl⟩ := List.mem_map.1 hx
      exact ⟨q, hq, Or.inl (by rw [hxz]; exact h)⟩
    · have : v.teMid.z ∈ (p'.vlm.vars.map PanelVars.teMid).map V3.z := by
        rw [e2]; exact List.mem_map_of_mem (List.mem_map_of_mem hm)
      obtain ⟨x, hx, hxz⟩ := List.mem_map.1 this
      obtain ⟨q, hq, rfl⟩ := List.mem_map.1 hx
      exact ⟨q, hq, Or.inr (by rw [hxz]; exact h)⟩
  have hr := (C72_completes_partial spline c p hp hz hw).1
  have hr' := (C72_completes_partial spline (turnedScene angle c) p' hp' hz' hw).1
  have mem : ∀ {d : Config} {q : Prepared} (_ : prepare spline d = .ok q) (_ : (run spline d).2 = .ok ()) (e : Effect),
      e ∈ (run spline d).1 ↔ .ok e ∈ outputSteps d q := by
    intro d q hq hd e
    constructor
    · intro he
      obtain ⟨q', hq', h⟩ := mem_run he
      rwa [Except.ok.inj (hq.symm.trans hq')]
    · intro he
      unfold run at hd ⊢
      rw [hq] at hd ⊢
      exact mem_emit_of_ok hd he
  have other : ∀ {α : Type} {x : Py α} {g : α → Effect} {e : Effect}, (∀ a, g a ≠ e) → ¬ Except.ok e = x.map g := by
    intro α x g e hne he
    cases x with
    | error e => cases he
    | ok a => exact hne a (Except.ok.inj he).symm
  refine ⟨hr, hr', fun m => ?_, fun name f => ?_⟩
  · rw [mem hp hr, mem hp' hr']
    unfold outputSteps
    have hs : (turnedScene angle c).solver = c.solver := rfl
    rw [hcp, hs, hco]
    simp only [List.mem_cons, other (g := Effect.workbook) (e := .cpMap m) fun a => by simp,
      other (g := Effect.picture) (e := .cpMap m) fun a => by simp]
  · rw [mem hp hr, mem hp' hr']
    unfold outputSteps
    have hs : (turnedScene angle c).solver = c.solver := rfl
    rw [hcp, hs, hco]
    simp only [List.mem_cons, other (g := Effect.workbook) (e := .sectionPlot name f) fun a => by simp,
      other (g := Effect.picture) (e := .sectionPlot name f) fun a => by simp]

/-- **C141, picture.**  The picture of a yacht at rest turns with the yacht and the wind: every corner of every panel
drawn, every point of the lines of the hull, the centre of effort, the centre of lateral resistance and the two arrows
of the force are turned by the angle; the wind arrows point in the turned direction, at the same heights and in the
same order; colours, opacity, scale, axes and the size of the water do not change. -/
theorem C141_picture (spline : SplineFn) (c : Config) (angle : ℝ) (hrest : c.wind.sog = 0) (t : SavedResults) (s : Scene)
    (ht : .workbook (some t) ∈ (run spline c).1) (hs : .picture (some s) ∈ (run spline c).1)
    (hg : ∃ g, prepareGeometry spline (turnedScene angle c) = .ok g) :
    ∃ s', .picture (some s') ∈ (run spline (turnedScene angle c)).1 ∧ s'.title = s.title ∧
      s'.panels.polygons = s.panels.polygons.map (fun q =>
        (⟨turned angle q.1.p1, turned angle q.1.p2, turned angle q.1.p3, turned angle q.1.p4⟩, q.2)) ∧
      s'.panels.vmin = s.panels.vmin ∧ s'.panels.vmax = s.panels.vmax ∧ s'.panels.water = s.panels.water ∧
      s'.panels.xlim = s.panels.xlim ∧ s'.panels.ylim = s.panels.ylim ∧ s'.panels.zlim = s.panels.zlim ∧
      s'.hullLines = s.hullLines.map (fun l => (l.1.map (turned angle), l.2)) ∧
      s'.force.ce = turned angle s.force.ce ∧ s'.force.clr = turned angle s.force.clr ∧
      s'.force.arrows = s.force.arrows.map (fun a => ⟨turned angle a.tail, turned angle a.tip, a.color, a.alpha⟩) ∧
      s'.winds.map (fun a => (a.tip - a.tail, a.tail.z, a.color, a.alpha)) =
        s.winds.map (fun a => (turned angle (a.tip - a.tail), a.tail.z, a.color, a.alpha)) := by
  obtain ⟨p, hp, hd⟩ := run_picture hs
  obtain ⟨p', s', hp', hd', h1, h2, h3, h4, h5⟩ := scene_turned hrest hp hg hd
  obtain ⟨t', ht', -⟩ := workbook_turned hrest ht hg
  obtain ⟨q, hq, hqt⟩ := run_workbook ht'
  rw [hp'] at hq
  injection hq with hq
  subst hq
  have hpan : ∀ q : Panel, turnPanel angle q =
      ⟨turned angle q.p1, turned angle q.p2, turned angle q.p3, turned angle q.p4⟩ := by
    intro q
    unfold turnPanel movePanel move
    simp
  refine ⟨s', (picture_iff hp' _).2 ⟨⟨some t', by rw [hqt]; rfl⟩, by rw [hd']; rfl⟩, h1, ?_, ?_, ?_, ?_, ?_, ?_, ?_, h3, ?_,
    ?_, ?_, h5⟩
  · rw [h2]
    simp only [hpan]
  all_goals first | rw [h2] | rw [h4]; rfl

/-! ## A run at rest -/

theorem sin_deg_45_sqrt : Real.sin (deg2rad 45) * Real.sqrt 2 = 1 := by
  rw [show deg2rad 45 = Real.pi / 4 by simp [deg2rad]; ring, Real.sin_pi_div_four]
  have := Real.mul_self_sqrt (show (0 : ℝ) ≤ 2 by norm_num)
  linarith

theorem cos_deg_45_sqrt : Real.cos (deg2rad 45) * Real.sqrt 2 = 1 := by
  rw [show deg2rad 45 = Real.pi / 4 by simp [deg2rad]; ring, Real.cos_pi_div_four]
  have := Real.mul_self_sqrt (show (0 : ℝ) ≤ 2 by norm_num)
  linarith

/-- The sail of the demonstration run on a yacht at rest, in the wind it feels there. -/
noncomputable def demoAtRest : Config :=
  { Demo.config with wind := ⟨45, Real.sqrt 2, 0, "flat", some 1, some 10, none, none⟩ }

theorem rest_trueWind (h : ℝ) : (windGetProfile demoAtRest.wind).trueWindAt h = .ok Demo.V := by
  have e : (windGetProfile demoAtRest.wind).lengthToXyz (Real.sqrt 2) = Demo.V := by
    have h1 := sin_deg_45_sqrt
    have h2 := cos_deg_45_sqrt
    ext <;> simp [WindObj.lengthToXyz, WindObj.alpha, windGetProfile, demoAtRest, Demo.V] <;> linarith
  rw [← e]
  rfl

theorem rest_prepared (spline : SplineFn) : ∃ p, prepare spline demoAtRest = .ok p ∧ p.csys = ⟨0, 0, 0⟩ ∧
    p.vlm.vars = [Demo.vars (-1), (Demo.vars (-1)).mirrored] ∧ p.vlm.inlet.winds = windGetProfile demoAtRest.wind ∧
    (p.vlm.out.force.getD 0 0).y ≠ 0 := by
  obtain ⟨set, hset, e1, e2, e3, -⟩ := Demo.set_exists spline
  obtain ⟨r, hr, hV, hv, -⟩ := Demo.vlm_ok2
  have hy := Demo.force2_y hr hV hv
  obtain ⟨-, -, g3, -, g5⟩ := (vlm_ok_iff _ _).1 hr
  obtain ⟨w, hw⟩ : ∃ w, w = windGetProfile demoAtRest.wind := ⟨_, rfl⟩
  have hi : ∃ i, inletConditions w 1 (r.vars.map PanelVars.cp) = .ok i ∧ i.vAppInfs = [Demo.V, Demo.V] ∧ i.winds = w := by
    rw [hv, hw]
    unfold inletConditions
    simp only [List.map_cons, List.map_nil, List.mapM_cons, List.mapM_nil, bind, Except.bind, pure,
      Except.pure, rest_trueWind]
    refine ⟨_, by simp; rfl, ?_, rfl⟩
    simp [WindObj.appInfs, windGetProfile, demoAtRest, Demo.V]
  obtain ⟨i, hi, hiV, hiw⟩ := hi
  rw [hV, ← hiV] at g5
  have hvl : vlm (demoAtRest.vlmInput set (windGetProfile demoAtRest.wind)) =
      .ok ⟨{ Demo.input2 with wind := w }, getPanelsArea Demo.input2.panels, r.vars, i, r.sol⟩ := by
    have hin : demoAtRest.vlmInput set (windGetProfile demoAtRest.wind) = { Demo.input2 with wind := w } := by
      rw [hw]
      simp only [Config.vlmInput, e1, e2, e3]
      rfl
    rw [hin]
    exact (vlm_ok_iff _ _).2 ⟨rfl, rfl, g3, hi, g5⟩
  have hs : sailPostInit demoAtRest.rig (some demoConf) (some demoConf) = .ok () :=
    ((C53_validation_partial (demoRig "main")).2.1 rfl (some demoConf) demoConf).1 ⟨⟨_, rfl⟩, demoConf_complete⟩
  obtain ⟨p, hp, hc, -, hpv⟩ := prepare_of (spline := spline) (c := demoAtRest) (main := demoConf) (jib := demoConf)
    (base := 1) (set := set) rfl rfl (by simp [windPostInit, demoAtRest]) hs hset rfl hvl
  exact ⟨p, hp, hc, by rw [hpv]; exact hv, by rw [hpv, ← hw]; exact hiw, by rw [hpv]; exact hy⟩

theorem rest_workbook (spline : SplineFn) : ∃ t, .workbook (some t) ∈ (run spline demoAtRest).1 := by
  obtain ⟨p, hp, hc, hv, hw, -⟩ := rest_prepared spline
  refine demo_prepared_workbook spline hp rfl rfl (by norm_num [demoAtRest, Demo.config, demoRig, deg2rad_90]) hc hv ?_
  rw [hw]
  exact ⟨_, rfl⟩

theorem rest_geometry (spline : SplineFn) (angle : ℝ) : ∃ g, prepareGeometry spline (turnedScene angle demoAtRest) = .ok g := by
  obtain ⟨ss, set, hset, -⟩ := sailSetOf_ok spline demoAtRest.solver demoAtRest.rig
    ⟨0, 0 + angle, turned angle 0⟩ (Or.inl rfl) (Or.inr (Or.inr rfl)) le_rfl le_rfl (by simp [deg2rad]) demoConf demoConf
    (by simp [demoAtRest, Demo.config, demoRig]) (fun h => absurd rfl h)
    (fun _ => ⟨demo_goodMain _, _, _, _, _, _, demo_goodSail⟩)
  have hs : sailPostInit demoAtRest.rig (some demoConf) (some demoConf) = .ok () :=
    ((C53_validation_partial (demoRig "main")).2.1 rfl (some demoConf) demoConf).1 ⟨⟨_, rfl⟩, demoConf_complete⟩
  exact geometry_of (main := demoConf) (jib := demoConf) (base := 1) rfl rfl
    (by simp [windPostInit, demoAtRest, turnedScene]) hs hset rfl

/-- Non-vacuity of `C141_heading_partial` and `C141_yacht_frame`: a run at rest that writes its workbook and can be
turned by any angle. -/
example (spline : SplineFn) : demoAtRest.wind.sog = 0 ∧ (∃ t, .workbook (some t) ∈ (run spline demoAtRest).1) ∧
    ∀ angle, ∃ g, prepareGeometry spline (turnedScene angle demoAtRest) = .ok g :=
  ⟨rfl, rest_workbook spline, rest_geometry spline⟩

/-- Non-vacuity of `C141_figures`. -/
example (spline : SplineFn) : ∃ p, prepare spline demoAtRest = .ok p ∧
    (∃ q ∈ p.vlm.vars, q.leMid.z ≠ 0 ∨ q.teMid.z ≠ 0) ∧ ReferenceAboveWater demoAtRest.wind ∧ demoAtRest.wind.sog = 0 ∧
    ∀ angle, ∃ g, prepareGeometry spline (turnedScene angle demoAtRest) = .ok g := by
  obtain ⟨p, hp, -, hv, -⟩ := rest_prepared spline
  exact ⟨p, hp, by rw [hv]; exact demo_offWater, fun h => by simp [demoAtRest] at h, rfl, rest_geometry spline⟩

theorem rest_picture (spline : SplineFn) : (∃ t, .workbook (some t) ∈ (run spline demoAtRest).1) ∧
    ∃ s, .picture (some s) ∈ (run spline demoAtRest).1 := by
  obtain ⟨p, hp, hc, hv, -, hy⟩ := rest_prepared spline
  obtain ⟨t, ht⟩ := rest_workbook spline
  obtain ⟨p', hp', ht'⟩ := run_workbook ht
  rw [hp] at hp'
  injection hp' with hp'
  subst hp'
  refine ⟨⟨t, ht⟩, picture_drawn hp (by rw [hv]; exact demo_offWater) ⟨some t, by rw [ht']; rfl⟩ ?_⟩
  obtain ⟨hn, -, hlen, -⟩ := prepared_shape hp
  obtain ⟨main, jib, base, -, -, -, -, -, hset, -, -, hv', res, hres, hflow⟩ := prepare_ok hp
  have hne : p.set.sails ≠ [] := by
    intro e; rw [e] at hn; simp at hn
  have hsh := vlm_shaped hv' hne (m := 1) hlen
  obtain ⟨r1, hr1, -, -, hF1, -⟩ := inviscidFlow_ok hsh.nonempty p.csys _ hsh.force hsh.cp
  rw [hres] at hr1
  injection hr1 with hr1
  subst hr1
  obtain ⟨g, -, hsl, -⟩ := (C65_selection spline _ _ _ _ _).2.1 rfl _ hset
  rw [hflow]
  show res.forceTotal ≠ 0
  intro h0
  apply hy
  have := congrArg V3.y h0
  rw [hF1, hsl, List.length_singleton, Finset.sum_range_one] at this
  exact this

/-- Non-vacuity of `C141_picture`: the run at rest also draws its picture. -/
example (spline : SplineFn) : demoAtRest.wind.sog = 0 ∧ (∃ t, .workbook (some t) ∈ (run spline demoAtRest).1) ∧
    (∃ s, .picture (some s) ∈ (run spline demoAtRest).1) ∧
    ∀ angle, ∃ g, prepareGeometry spline (turnedScene angle demoAtRest) = .ok g :=
  ⟨rfl, (rest_picture spline).1, (rest_picture spline).2, rest_geometry spline⟩

/-- Non-vacuity of `C141_wellformed_partial`. -/
example : WellFormed demoAtRest ∧ demoAtRest.wind.sog = 0 ∧ ∃ t, .workbook (some t) ∈ (run fitpackSpline demoAtRest).1 := by
  refine ⟨{ mode := by simp [demoAtRest, Demo.config, twistModes]
            ns_pos := le_rfl
            nc_pos := le_rfl
            heel := by simp [demoAtRest, Demo.config, deg2rad]
            sails := by simp [demoAtRest, Demo.config, demoRig]
            base := by simp [demoAtRest, Demo.config, demoRig]
            main_twist := Or.inl (by simp [demoAtRest, Demo.config, demoConf])
            jib_twist := Or.inl (by simp [demoAtRest, Demo.config, demoConf])
            jib := fun h => absurd rfl h
            main := fun _ => ⟨demo_goodMain _, _, _, _, _, _, demo_goodSail⟩
            wind := by simp [WindIncomplete, demoAtRest, Demo.config] }, rfl, rest_workbook _⟩

/-- **C141 fails in the frame of the yacht.**  The run of `demoAtRest`, turned by 90°, has another force along and
across the yacht. -/
theorem C141_refuted (spline : SplineFn) : ∃ (c : Config) (angle : ℝ) (t t' : SavedResults), c.wind.sog = 0 ∧
    .workbook (some t) ∈ (run spline c).1 ∧ .workbook (some t') ∈ (run spline (turnedScene angle c)).1 ∧
    rowVec t'.integrals "F_sails_total_COW" ≠ rowVec t.integrals "F_sails_total_COW" := by
  obtain ⟨p, hp, hc, hv, -, hy⟩ := rest_prepared spline
  obtain ⟨t, ht⟩ := rest_workbook spline
  obtain ⟨t', ht', -, h2, -⟩ := C141_yacht_frame spline demoAtRest 90 t rfl ht (rest_geometry spline 90)
  refine ⟨_, 90, t, t', rfl, ht, ht', ?_⟩
  rw [h2]
  obtain ⟨q, hq, hs⟩ := run_workbook ht
  rw [hp] at hq
  injection hq with hq
  subst hq
  obtain ⟨hn, -, hlen, -⟩ := prepared_shape hp
  obtain ⟨main, jib, base, -, -, -, -, -, hset, -, -, hv', res, hres, hflow⟩ := prepare_ok hp
  have hne : p.set.sails ≠ [] := by
    intro e; rw [e] at hn; simp at hn
  have hsh := vlm_shaped hv' hne (m := 1) hlen
  obtain ⟨_, _, hT⟩ := inviscidFlow_turned (δ := 0) hres
  obtain ⟨r1, hr1, -, -, hF1, -, -, -, -, -, hcl, -⟩ := inviscidFlow_ok hsh.nonempty p.csys _ hsh.force hsh.cp
  rw [hres] at hr1
  injection hr1 with hr1
  subst hr1
  obtain ⟨g, -, hsl, -⟩ := (C65_selection spline _ _ _ _ _).2.1 rfl _ hset
  have hF : rowVec t.integrals "F_sails_total_COW" = some res.forceTotal := by
    rw [(saveResults_integrals hs).1, hflow, integral_vec _ _ hT.dyn.whole, hT.dyn.cow, hcl, hc]
    simp [Csys.leeway_mulVec, deg2rad]
  have hFy : res.forceTotal.y ≠ 0 := by
    rw [hF1, hsl, List.length_singleton, Finset.sum_range_one]
    exact hy
  rw [hF]
  intro h
  have h3 := congrArg V3.y (Option.some.inj h)
  have e : deg2rad (2 * 90) = Real.pi := by simp [deg2rad]; ring
  simp only [turned, e, Real.sin_pi, Real.cos_pi] at h3
  exact hFy (by linarith)

end PySailing.Props
