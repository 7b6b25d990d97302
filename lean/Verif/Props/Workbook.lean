import Verif.Lemmas.Workbook
import Verif.Props.Main
import Verif.Props.Components

/-!
# Properties of the written files (C73, C74)
-/

namespace PySailing.Props

open Spec

/-! ## A run that writes a workbook -/

theorem sailGeometry_tack {s : SailInput} {g : SailGeom} (h : sailGeometry s = .ok g) :
    g.tackMounting = s.tack := by
  unfold sailGeometry at h
  simp only [bind, Except.bind] at h
  repeat' split at h
  all_goals first
    | (cases h; done)
    | (simp only [pure, Except.pure, Except.ok.injEq] at h; rw [← h])

theorem sailMain_tack {spline : SplineFn} {s : SolverConf} {rig : RigConf} {main : Option SailConf}
    {csys : Csys} {g : SailGeom} (h : sailMain spline s rig main csys = .ok g) :
    g.tackMounting.z = (rig.sheer + rig.boom) * Real.sin (deg2rad rig.rakeDeg) := by
  unfold sailMain SailFactory.makeMainSail at h
  simp only [bind, Except.bind] at h
  repeat' split at h
  all_goals first
    | (cases h; done)
    | (rw [sailGeometry_tack h]; simp [SailFactory.mainMounting, RigConf.factory, SailFactory.sheerXyz, SailFactory.rake]; try ring)

theorem demo_prepared_workbook (spline : SplineFn) {c : Config} {p : Prepared} (hp : prepare spline c = .ok p)
    (hs : c.solver.nc * c.solver.ns = 1) (hd : c.rig.sailsDef = "main") (hz : (c.rig.sheer + c.rig.boom) * Real.sin (deg2rad c.rig.rakeDeg) = 1)
    (hc : p.csys = ⟨0, 0, 0⟩) (hv : p.vlm.vars = [Demo.vars (-1), (Demo.vars (-1)).mirrored])
    (hw : ∃ ic, windIntegral p.vlm.inlet.winds p.csys = .ok ic) :
    ∃ t, .workbook (some t) ∈ (run spline c).1 := by
  obtain ⟨ic, hw⟩ := hw
  obtain ⟨main, jib, base, -, -, -, -, -, hset, -, -, hvl, res, hres, hflow⟩ := prepare_ok hp
  obtain ⟨g, hg, hsl, -⟩ := (C65_selection spline c.solver c.rig (some main) (some jib) p.csys).2.1 hd _ hset
  have hss := sailSetOf_sails hset
  obtain ⟨hab, hun, -⟩ := sailMain_lengths hg
  rw [hs] at hab hun
  rw [hsl] at hss hres
  obtain ⟨t, ht, -⟩ := C49_components _ _ hvl [g] 1 p.set hss rfl
    (by simpa using hab) (by simpa using hun) p.csys p.csys res hres p.flow (by rw [hflow]; rfl) ic hw
    (fun _ => 3 / 2)
    (by
      intro b hb
      have hb0 : b = 0 := by simpa using hb
      subst hb0
      rw [hc]
      simp only [demo_reverse, hv]
      refine ⟨⟨0, by norm_num, .inl ?_⟩, ?_⟩
      · simp [row, Demo.vars]
      · rintro z ⟨k, hk, h⟩
        have hk0 : k = 0 := by omega
        subst hk0
        rcases h with rfl | rfl
        · simp [row, Demo.vars]
        · simp [row, Demo.vars, PanelVars.mirrored, mirror]; norm_num)
    (by
      intro b hb
      have hb0 : b = 0 := by simpa using hb
      subst hb0
      show (3 / 2 : ℝ) ≠ g.tackMounting.z
      rw [sailMain_tack hg, hz]; norm_num)
  exact ⟨t, workbook_mem hp (by rw [hsl]; exact ht)⟩

theorem demo_workbook (spline : SplineFn) : ∃ t, .workbook (some t) ∈ (run spline Demo.config).1 := by
  obtain ⟨p, hp, hc, hvl, hv, -⟩ := Demo.prepared spline
  refine demo_prepared_workbook spline hp rfl rfl (by norm_num [Demo.config, demoRig, deg2rad_90]) hc hv ?_
  obtain ⟨-, -, -, hinl, -⟩ := (vlm_ok_iff _ _).1 hvl
  rw [((inletConditions_ok_iff _ _ _ _).1 hinl).2.2]
  exact ⟨_, rfl⟩

/-! ## C73 -/

theorem prepared_rows {spline : SplineFn} {c : Config} {p : Prepared} (hp : prepare spline c = .ok p) :
    ∃ F M : V3, rowVec p.flow.toDfIntegral "F_sails_total_COG" = some F ∧
      rowVec p.flow.toDfIntegral "M_sails_total_COG" = some M ∧
      rowVec p.flow.toDfIntegral "M_keel_total_COG" = some (V3.cross p.hull.clr (-F)) ∧
      rowVec p.flow.toDfIntegral "M_total_COG" = some (M + V3.cross p.hull.clr (-F)) ∧
      (c.rig.sailsDef = "jib" → rowVec p.flow.toDfIntegral "F_jib_total_COG" = some F ∧
        rowVec p.flow.toDfIntegral "M_jib_total_COG" = some M) ∧
      (c.rig.sailsDef = "main" → rowVec p.flow.toDfIntegral "F_main_sail_total_COG" = some F ∧
        rowVec p.flow.toDfIntegral "M_main_sail_total_COG" = some M) ∧
      (c.rig.sailsDef = "jib_and_main" → ∃ Fj Fm Mj Mm,
        rowVec p.flow.toDfIntegral "F_jib_total_COG" = some Fj ∧
        rowVec p.flow.toDfIntegral "F_main_sail_total_COG" = some Fm ∧
        rowVec p.flow.toDfIntegral "M_jib_total_COG" = some Mj ∧
        rowVec p.flow.toDfIntegral "M_main_sail_total_COG" = some Mm ∧ Fj + Fm = F ∧ Mj + Mm = M) := by
  obtain ⟨hn, -, hlen, -⟩ := prepared_shape hp
  obtain ⟨main, jib, base, -, -, -, -, -, hset, -, -, hv, res, hres, hflow⟩ := prepare_ok hp
  obtain ⟨hnames, -⟩ := sailSetOf_shape hset
  have hne : p.set.sails ≠ [] := by
    intro e; rw [e] at hn; simp at hn
  have hsh := vlm_shaped hv hne (m := c.solver.nc * c.solver.ns) hlen
  have hnd : (p.set.sails.map SailGeom.name).Nodup ∧ "sails" ∉ p.set.sails.map SailGeom.name ∧
      "keel" ∉ p.set.sails.map SailGeom.name := by
    rcases hnames with ⟨-, e⟩ | ⟨-, e⟩ | ⟨-, e⟩ <;> rw [e] <;> decide
  obtain ⟨res1, hr1, h1⟩ := C45_totals_partial _ _ p.csys _ hsh hnd.1 hnd.2.1
  rw [hres] at hr1
  injection hr1 with hr1
  subst hr1
  obtain ⟨res2, hr2, h2⟩ := C51_last_estimate _ _ p.csys _ hsh hnd.2.1 hnd.2.2
  rw [hres] at hr2
  injection hr2 with hr2
  subst hr2
  obtain ⟨t1, t2, t3⟩ := h1 p.flow (by rw [hflow]; rfl)
  obtain ⟨k1, -, k3, -, -, -, k7⟩ := h2 [p.hull.clr]
  obtain ⟨l1, -, -, l4, -⟩ := k7 p.hull.clr rfl
  have hfo : [p.hull.clr].foldl FlowObject.estimateKeel (FlowObject.new res) = p.flow := by rw [hflow]; rfl
  rw [hfo] at k1 k3 l1 l4
  refine ⟨_, _, k1, k3, l1, l4, ?_, ?_, ?_⟩
  · intro hd
    rw [hd] at hnames
    have e : p.set.sails.map SailGeom.name = ["jib"] := by
      rcases hnames with ⟨-, e⟩ | ⟨h, -⟩ | ⟨h, -⟩
      · exact e
      · exact absurd h (by decide)
      · exact absurd h (by decide)
    have hl : p.set.sails.length = 1 := by simpa using congrArg List.length e
    obtain ⟨a1, a2⟩ := t1 0 (by omega)
    have en : p.set.sails[0].name = "jib" := by
      have := congrArg (fun l : List String => l[0]?) e
      simpa [hl] using this
    rw [en] at a1 a2
    rw [hl, Finset.sum_range_one] at t2 t3
    rw [t2] at k1
    rw [t3] at k3
    exact ⟨by rw [← k1, ← a1]; rfl, by rw [← k3, ← a2]; rfl⟩
  · intro hd
    rw [hd] at hnames
    have e : p.set.sails.map SailGeom.name = ["main_sail"] := by
      rcases hnames with ⟨h, -⟩ | ⟨-, e⟩ | ⟨h, -⟩
      · exact absurd h (by decide)
      · exact e
      · exact absurd h (by decide)
    have hl : p.set.sails.length = 1 := by simpa using congrArg List.length e
    obtain ⟨a1, a2⟩ := t1 0 (by omega)
    have en : p.set.sails[0].name = "main_sail" := by
      have := congrArg (fun l : List String => l[0]?) e
      simpa [hl] using this
    rw [en] at a1 a2
    rw [hl, Finset.sum_range_one] at t2 t3
    rw [t2] at k1
    rw [t3] at k3
    exact ⟨by rw [← k1, ← a1]; rfl, by rw [← k3, ← a2]; rfl⟩
  · intro hd
    rw [hd] at hnames
    have e : p.set.sails.map SailGeom.name = ["jib", "main_sail"] := by
      rcases hnames with ⟨h, -⟩ | ⟨h, -⟩ | ⟨-, e⟩
      · exact absurd h (by decide)
      · exact absurd h (by decide)
      · exact e
    have hl : p.set.sails.length = 2 := by simpa using congrArg List.length e
    obtain ⟨a1, a2⟩ := t1 0 (by omega)
    obtain ⟨b1, b2⟩ := t1 1 (by omega)
    have en : p.set.sails[0].name = "jib" := by
      have := congrArg (fun l : List String => l[0]?) e
      simpa [hl] using this
    have en' : p.set.sails[1].name = "main_sail" := by
      have := congrArg (fun l : List String => l[1]?) e
      simpa [hl] using this
    rw [en] at a1 a2
    rw [en'] at b1 b2
    rw [hl, Finset.sum_range_succ, Finset.sum_range_one] at t2 t3
    rw [t2] at k1
    rw [t3] at k3
    injection k1 with k1
    injection k3 with k3
    exact ⟨_, _, _, _, a1, b1, a2, b2, k1, k3⟩

/-- **C73.** In every workbook that a run writes, the forces and moments of the sails add up to the
reported totals: for one sail its rows are the totals, for jib and main sail the totals are the sums; the
moment of the keel is that of the opposite total force at the centre of lateral resistance (of the yacht
heeled and with leeway), and the total moment is the sum of both. -/
theorem C73_totals (spline : SplineFn) (c : Config) (t : SavedResults)
    (h : .workbook (some t) ∈ (run spline c).1) :
    ∃ F M keel : V3, rowVec t.integrals "F_sails_total_COG" = some F ∧
      rowVec t.integrals "M_sails_total_COG" = some M ∧
      rowVec t.integrals "M_keel_total_COG" = some keel ∧
      keel = V3.cross (afloat c.heelDeg c.leewayDeg c.clrUpright) (-F) ∧
      rowVec t.integrals "M_total_COG" = some (M + keel) ∧
      (c.rig.sailsDef = "jib" → rowVec t.integrals "F_jib_total_COG" = some F ∧
        rowVec t.integrals "M_jib_total_COG" = some M) ∧
      (c.rig.sailsDef = "main" → rowVec t.integrals "F_main_sail_total_COG" = some F ∧
        rowVec t.integrals "M_main_sail_total_COG" = some M) ∧
      (c.rig.sailsDef = "jib_and_main" → ∃ Fj Fm Mj Mm,
        rowVec t.integrals "F_jib_total_COG" = some Fj ∧ rowVec t.integrals "F_main_sail_total_COG" = some Fm ∧
        rowVec t.integrals "M_jib_total_COG" = some Mj ∧ rowVec t.integrals "M_main_sail_total_COG" = some Mm ∧
        Fj + Fm = F ∧ Mj + Mm = M) := by
  obtain ⟨p, hp, hs⟩ := run_workbook h
  obtain ⟨hi, -⟩ := saveResults_integrals hs
  obtain ⟨F, M, r1, r2, r3, r4, r5⟩ := prepared_rows hp
  obtain ⟨main, jib, base, -, -, hcs, -, -, -, -, hh, -⟩ := prepare_ok hp
  have hcs' := C59_csys_constructor_total c.heelDeg c.leewayDeg c.vRef
  rw [hcs'] at hcs
  injection hcs with hcs
  obtain ⟨hull, hh', hclr, -⟩ := C57_hull c.rig.sheer base p.csys c.clrUpright
  rw [hh] at hh'
  injection hh' with hh'
  rw [hi]
  refine ⟨F, M, _, r1, r2, r3, ?_, r4, r5⟩
  rw [hh', hclr, ← hcs]
  rfl

/-- Non-vacuity of `C73_totals`: a run that writes a workbook. -/
example (spline : SplineFn) : ∃ t, .workbook (some t) ∈ (run spline Demo.config).1 := demo_workbook spline

/-! ## C74 -/

theorem windIntegral_of_ok {w w' : WindObj} {csys : Csys} {rows : List (String × ℝ)} (hp : w'.profile = w.profile)
    (h : windIntegral w csys = .ok rows) : ∃ rows', windIntegral w' csys = .ok rows' := by
  unfold windIntegral at h ⊢
  rw [hp]
  cases hw : w.profile with
  | flat => exact ⟨_, rfl⟩
  | log a b => exact ⟨_, rfl⟩
  | exp c ref wl =>
    rw [hw] at h
    cases c with
    | none => cases h
    | some c =>
    cases ref with
    | none => cases h
    | some ref =>
    cases wl with
    | none => cases h
    | some wl =>
    simp only [bind, Except.bind] at h ⊢
    cases hf : expFactorFloat c ref wl ref with
    | error e => rw [hf] at h; cases h
    | ok f => exact ⟨_, rfl⟩

/-- **C74**, density: if a run writes a workbook, then with any other density `rho'` (not 0) it writes one
too, every number of the sheet `Integrals` is multiplied by `rho' / rho`, and the sheet with the wind at
the reference height is the same. -/
theorem C74_density (spline : SplineFn) (c : Config) (t : SavedResults)
    (h : .workbook (some t) ∈ (run spline c).1) (rho' : ℝ) (hrho : rho' ≠ 0) :
    c.rho ≠ 0 ∧ ∃ t', .workbook (some t') ∈ (run spline { c with rho := rho' }).1 ∧ t'.inlet = t.inlet ∧
      ∀ key, t'.integrals key = (t.integrals key).map (rho' / c.rho * ·) := by
  obtain ⟨p, hp, hs⟩ := run_workbook h
  obtain ⟨hi, hwi⟩ := saveResults_integrals hs
  obtain ⟨main, jib, base, -, -, -, hw, -, -, -, -, hv, -⟩ := prepare_ok hp
  obtain ⟨h0, r', hr', -, hout, -⟩ := C38_density _ rho' hrho (by simp [Config.vlmInput]) _ hv
  have hf : r'.out.force = p.vlm.out.force.map ((rho' / c.rho) • ·) := by
    have := congrArg VlmArrays.force hout
    exact this
  obtain ⟨p', hp', hpv, hpc, hps, hph, hvars, hd, -⟩ := prepare_change hp rho' c.wind hw hr' hf
  have hwin : r'.inlet.winds = p.vlm.inlet.winds := by
    obtain ⟨e1, -⟩ := vlm_inlet hr'
    obtain ⟨e2, -⟩ := vlm_inlet hv
    rw [((inletConditions_ok_iff _ _ _ _).1 e1).2.2, ((inletConditions_ok_iff _ _ _ _).1 e2).2.2]
  obtain ⟨t', ht', hi', hic⟩ := saveResults_of p'.flow hs hvars (by rw [hwin]; exact hwi)
  refine ⟨h0, t', workbook_mem hp' (by rw [hpv, hpc, hps]; exact ht'), hic, fun key => ?_⟩
  rw [hi', hi, hd]
  rfl

/-- **C74**, wind speed: if a run writes a workbook, then with true wind speed and boat speed multiplied
by `μ > 0` it writes one too, and every number of the sheet `Integrals` is multiplied by `μ ^ 2`. -/
theorem C74_wind_speed (spline : SplineFn) (c : Config) (t : SavedResults)
    (h : .workbook (some t) ∈ (run spline c).1) (μ : ℝ) (hμ : 0 < μ) :
    ∃ t', .workbook (some t') ∈ (run spline { c with wind := { c.wind with
        twsRef := μ * c.wind.twsRef, sog := μ * c.wind.sog } }).1 ∧
      ∀ key, t'.integrals key = (t.integrals key).map (μ ^ 2 * ·) := by
  obtain ⟨p, hp, hs⟩ := run_workbook h
  obtain ⟨hi, hwi⟩ := saveResults_integrals hs
  obtain ⟨main, jib, base, -, -, -, hw, -, -, -, -, hv, -⟩ := prepare_ok hp
  obtain ⟨r', hr', -, hout, -⟩ := C37_wind_speed _ μ hμ (by simp [Config.vlmInput]) _ hv
  have hf : r'.out.force = p.vlm.out.force.map ((μ ^ 2) • ·) := by
    have := congrArg VlmArrays.force hout
    simpa [mapAll] using this
  obtain ⟨p', hp', hpv, hpc, hps, hph, hvars, hd, -⟩ := prepare_change hp c.rho
    { c.wind with twsRef := μ * c.wind.twsRef, sog := μ * c.wind.sog } hw hr' hf
  have hwin : r'.inlet.winds.profile = p.vlm.inlet.winds.profile := by
    obtain ⟨e1, -⟩ := vlm_inlet hr'
    obtain ⟨e2, -⟩ := vlm_inlet hv
    rw [((inletConditions_ok_iff _ _ _ _).1 e1).2.2, ((inletConditions_ok_iff _ _ _ _).1 e2).2.2]
  obtain ⟨ic, hic⟩ := windIntegral_of_ok hwin hwi
  obtain ⟨t', ht', hi', -⟩ := saveResults_of p'.flow hs hvars hic
  refine ⟨t', workbook_mem hp' (by rw [hpv, hpc, hps]; exact ht'), fun key => ?_⟩
  rw [hi', hi, hd]
  rfl

/-- Non-vacuity of `C74_density` and `C74_wind_speed`: a run that writes a workbook, density 1.2 instead of
1, double speed. -/
example (spline : SplineFn) : (∃ t, .workbook (some t) ∈ (run spline Demo.config).1) ∧
    (1.2 : ℝ) ≠ 0 ∧ Demo.config.rho = 1 ∧ (0 : ℝ) < 2 := ⟨demo_workbook spline, by norm_num, rfl, by norm_num⟩

end PySailing.Props
