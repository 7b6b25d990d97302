import Verif.Lemmas.Picture

/-!
# What does not influence a run (C75), and the reference point in the picture (C76)
-/

namespace PySailing.Props

open Spec

/-- **C75**, jib alone: the data of the main sail, as long as they give a twist or girths, the main luff
and the height of the boom have no influence on anything a run does. -/
theorem C75_jib (spline : SplineFn) (c : Config) (hd : c.rig.sailsDef = "jib")
    (hm : c.main.twist ≠ none ∨ c.main.girths ≠ none) (main : SailConf)
    (hm' : main.twist ≠ none ∨ main.girths ≠ none) (luff : Option ℝ) (boom : ℝ) :
    run spline { c with main := main, rig := { c.rig with mainLuff := luff, boom := boom } } = run spline c := by
  refine run_congr rfl ?_
  unfold prepare prepareGeometry
  have e1 : mainSailInit c.main = .ok _ := withTwist_default hm 12 5
  have e2 : mainSailInit main = .ok _ := withTwist_default hm' 12 5
  simp only [e1, e2]
  have e3 : ∀ m m' : SailConf, ∀ j, sailPostInit { c.rig with mainLuff := luff, boom := boom } (some m) (some j) =
      sailPostInit c.rig (some m') (some j) := by
    intro m m' j
    unfold sailPostInit sailChecks
    simp only [hd, if_pos]
    rfl
  have e4 : ∀ m m' : SailConf, ∀ j csys,
      sailSetOf spline c.solver { c.rig with mainLuff := luff, boom := boom } (some m) (some j) csys =
      sailSetOf spline c.solver c.rig (some m') (some j) csys := by
    intro m m' j csys
    have a : selectedMain spline c.solver { c.rig with mainLuff := luff, boom := boom } (some m) csys =
        selectedMain spline c.solver c.rig (some m') csys := by
      unfold selectedMain
      simp [hd]
    unfold sailSetOf
    rw [a]
    rfl
  simp only [bind, Except.bind]
  cases jibSailInit c.jib with
  | error e => rfl
  | ok j =>
  simp only
  cases csysInit c.heelDeg c.leewayDeg c.vRef with
  | error e => rfl
  | ok csys =>
  simp only
  rw [e3 _ (withDefaultTwist 12 5 c.main), e4 _ (withDefaultTwist 12 5 c.main)]
  rfl

/-- **C75**, main sail alone: the data of the jib, as long as they give a twist or girths, the jib luff, the
height of the foretriangle and the mast diameter have no influence on anything a run does. -/
theorem C75_main (spline : SplineFn) (c : Config) (hd : c.rig.sailsDef = "main")
    (hj : c.jib.twist ≠ none ∨ c.jib.girths ≠ none) (jib : SailConf)
    (hj' : jib.twist ≠ none ∨ jib.girths ≠ none) (luff height : Option ℝ) (mastLOA : ℝ) :
    run spline { c with jib := jib, rig := { c.rig with jibLuff := luff, height := height, mastLOA := mastLOA } } =
      run spline c := by
  refine run_congr rfl ?_
  unfold prepare prepareGeometry
  have e1 : jibSailInit c.jib = .ok _ := withTwist_default hj 15 7
  have e2 : jibSailInit jib = .ok _ := withTwist_default hj' 15 7
  simp only [e1, e2]
  have e3 : ∀ m, ∀ j j' : SailConf,
      sailPostInit { c.rig with jibLuff := luff, height := height, mastLOA := mastLOA } (some m) (some j) =
      sailPostInit c.rig (some m) (some j') := by
    intro m j j'
    unfold sailPostInit sailChecks
    simp [hd]
    rfl
  have e4 : ∀ m, ∀ j j' : SailConf, ∀ csys,
      sailSetOf spline c.solver { c.rig with jibLuff := luff, height := height, mastLOA := mastLOA }
        (some m) (some j) csys = sailSetOf spline c.solver c.rig (some m) (some j') csys := by
    intro m j j' csys
    have a : selectedJib spline c.solver { c.rig with jibLuff := luff, height := height, mastLOA := mastLOA }
        (some j) csys = selectedJib spline c.solver c.rig (some j') csys := by
      unfold selectedJib
      simp [hd]
    unfold sailSetOf
    rw [a]
    rfl
  simp only [bind, Except.bind]
  cases mainSailInit c.main with
  | error e => rfl
  | ok m =>
  simp only
  cases csysInit c.heelDeg c.leewayDeg c.vRef with
  | error e => rfl
  | ok csys =>
  simp only
  rw [e3 _ _ (withDefaultTwist 15 7 c.jib), e4 _ _ (withDefaultTwist 15 7 c.jib)]
  rfl

/-- Non-vacuity of `C75_main`: a run of the main sail which completes, with two different jibs. -/
example (spline : SplineFn) : Demo.config.rig.sailsDef = "main" ∧ Demo.config.jib.twist ≠ none ∧
    (run spline Demo.config).2 = .ok () ∧
    run spline { Demo.config with jib := ⟨some [1], some [0, 1], none, none, none⟩, rig :=
      { Demo.config.rig with jibLuff := none, height := none, mastLOA := 7 } } = run spline Demo.config := by
  refine ⟨rfl, by simp [Demo.config, demoConf], ?_, ?_⟩
  · obtain ⟨p, hp, -, -, hv, -⟩ := Demo.prepared spline
    refine (C72_completes_partial spline _ p hp (by rw [hv]; exact demo_offWater) ?_).1
    intro h; simp [Demo.config] at h
  · exact C75_main spline Demo.config rfl (by simp [Demo.config, demoConf]) _ (by simp) _ _ _

/-- Non-vacuity of `C75_jib`: the same boat with its jib. -/
example (spline : SplineFn) :
    run spline { Demo.config with main := ⟨some [1], some [0, 1], none, none, none⟩, rig :=
      { demoRig "jib" with mainLuff := none, boom := 7 } } =
      run spline { Demo.config with rig := demoRig "jib" } :=
  C75_jib spline { Demo.config with rig := demoRig "jib" } rfl (by simp [Demo.config, demoConf]) _ (by simp) _ _

/-- **C76**, except for the centre of effort. The reference point for moments does not move the picture: if all pressure points of the sails
are above the water, the picture drawn with the reference point moved by `w` shows the same coloured
panels, the same hull, the same wind arrows, the same centre of lateral resistance and the same total
force.  The centre of effort, however, is drawn relative to the reference point: it moves by `-w`. -/
theorem C76_picture_partial (spline : SplineFn) (c : Config) (s : Scene) (w : V3)
    (h : .picture (some s) ∈ (run spline c).1) (p : Prepared) (hp : prepare spline c = .ok p)
    (hz : ∀ v ∈ p.vlm.vars.take (p.vlm.vars.length / 2), 0 < v.cp.z) :
    ∃ s', .picture (some s') ∈ (run spline { c with vRef := c.vRef + w }).1 ∧
      s'.title = s.title ∧ s'.panels = s.panels ∧ s'.hullLines = s.hullLines ∧ s'.winds = s.winds ∧
      s'.force.clr = s.force.clr ∧ s'.force.F = s.force.F ∧ s'.force.scale = s.force.scale ∧
      s'.force.ce = s.force.ce - w := by
  obtain ⟨⟨t, ht⟩, hd⟩ := (picture_iff hp _).1 h
  have hd := nanAsNone_some hd
  obtain ⟨hn, -, hlen, -⟩ := prepared_shape hp
  obtain ⟨main, jib, base, a1, a2, hcs, hw, hval, hset, hbase, hh, hv, res, hres, hflow⟩ := prepare_ok hp
  rw [C59_csys_constructor_total c.heelDeg c.leewayDeg c.vRef] at hcs
  injection hcs with hcs
  have hne : p.set.sails ≠ [] := by
    intro e; rw [e] at hn; simp at hn
  have hsh := vlm_shaped hv hne (m := c.solver.nc * c.solver.ns) hlen
  have hvl : p.vlm.vars.length = 2 * (p.set.sails.length * (c.solver.nc * c.solver.ns)) := by
    rw [(vlm_lengths hv).2.1]; exact hlen
  have hz' : ∀ k, k < p.set.sails.length * (c.solver.nc * c.solver.ns) →
      0 < (row p.vlm.flowArrays.cp k).z := by
    intro k hk
    have hkl : k < p.vlm.vars.length := by omega
    have e : row p.vlm.flowArrays.cp k = p.vlm.vars[k].cp := by
      simp [row, Vlm.flowArrays, List.getD_eq_getElem?_getD, List.getElem?_eq_getElem hkl]
    rw [e]
    refine hz _ (List.mem_take_iff_getElem.2 ⟨k, by omega, rfl⟩)
  obtain ⟨r1, hr1, -, -, hF1, -, -, hM1, hc1, -⟩ := inviscidFlow_ok hsh.nonempty p.csys _ hsh.force hsh.cp
  rw [hres] at hr1
  injection hr1 with hr1
  subst hr1
  obtain ⟨res', hr2, -, -, hF2, -, -, hM2, hc2, -⟩ := inviscidFlow_ok hsh.nonempty
    ⟨c.heelDeg, c.leewayDeg, c.vRef + w⟩ _ hsh.force hsh.cp
  have hF : res'.forceTotal = res.forceTotal := by rw [hF1, hF2]
  have hM : res'.momentTotal = res.momentTotal + -V3.cross w res.forceTotal := by
    rw [hM1, hM2, hF1, cross_sum_right, ← Finset.sum_neg_distrib, ← Finset.sum_add_distrib, ← hcs]
    refine Finset.sum_congr rfl fun k hk => ?_
    have := hz' k (Finset.mem_range.1 hk)
    unfold armFrom
    rw [if_pos this, if_pos this]
    ext <;> simp <;> ring
  have hD : ∑ k ∈ Finset.range (p.set.sails.length * (c.solver.nc * c.solver.ns)),
      (armFrom (c.vRef + w) (row p.vlm.flowArrays.cp k)).dot (row p.vlm.flowArrays.force k) =
      ∑ k ∈ Finset.range (p.set.sails.length * (c.solver.nc * c.solver.ns)),
        (armFrom c.vRef (row p.vlm.flowArrays.cp k)).dot (row p.vlm.flowArrays.force k) - w.dot res.forceTotal := by
    rw [hF1, V3.dot_comm w, V3.sum_dot, ← Finset.sum_sub_distrib]
    refine Finset.sum_congr rfl fun k hk => ?_
    have := hz' k (Finset.mem_range.1 hk)
    unfold armFrom
    rw [if_pos this, if_pos this]
    simp only [V3.dot, V3.sub_x, V3.sub_y, V3.sub_z, V3.add_x, V3.add_y, V3.add_z]
    ring
  obtain ⟨f1, f2, f3, f4, f5, f6, -⟩ := inviscidFlow_fields hres
  obtain ⟨g1, g2, g3, g4, g5, g6, -⟩ := inviscidFlow_fields hr2
  have hp' : prepare spline { c with vRef := c.vRef + w } = .ok ⟨⟨c.heelDeg, c.leewayDeg, c.vRef + w⟩, p.set, p.hull,
      p.vlm, (FlowObject.new res').estimateKeel p.hull.clr⟩ := by
    have b1 := C59_csys_constructor_total c.heelDeg c.leewayDeg (c.vRef + w)
    have b2 : sailSetOf spline c.solver c.rig (some main) (some jib) ⟨c.heelDeg, c.leewayDeg, c.vRef + w⟩ =
        .ok p.set := by
      rw [← hset, ← hcs]; exact sailSetOf_vRef _ _ _ _ _ _ _ _ _
    have b3 : hullGeometry c.rig.sheer base ⟨c.heelDeg, c.leewayDeg, c.vRef + w⟩ c.clrUpright = .ok p.hull := by
      rw [← hh, ← hcs]; exact hull_vRef _ _ _ _ _ _ _
    have b4 : vlm (Config.vlmInput { c with vRef := c.vRef + w } p.set (windGetProfile c.wind)) = .ok p.vlm := hv
    unfold prepare prepareGeometry
    simp only [a1, a2, b1, hw, hval, b2, hbase, need, b3, b4, hr2, bind, Except.bind]
  have hr0 : p.flow.res = res := by rw [hflow]; rfl
  rw [hr0] at hd
  unfold displayScene displayCeClr at hd
  simp only [bind, Except.bind] at hd
  split at hd
  · cases hd
  rename_i P hP
  split at hd
  · cases hd
  rename_i W hW
  split at hd
  · cases hd
  rename_i fp hfp
  split at hfp
  · cases hfp
  rename_i mean hmean
  split at hfp
  · cases hfp
  rename_i ce hce
  split at hfp
  · cases hfp
  rename_i u hu
  injection hfp with hfp
  injection hd with hd
  subst hfp
  subst hd
  have hce' : res'.centreOfEffort = .ok (ce - w) := by
    rw [hc2, hM, hF, hD]
    rw [hc1, ← hcs] at hce
    exact determineVector_shift hce
  obtain ⟨s', hs'⟩ : ∃ s', displayScene p.vlm res' p.hull false false = .ok s' ∧
      s' = ⟨"VLM mode: Panels colored by coefficient of pressure", P, displayHull p.hull, W, ⟨0.8 * mean, p.hull.clr, ce - w, (0.8 * mean) • u,
        [plotVector (ce - w) ((0.8 * mean) • u), plotVector p.hull.clr (-((0.8 * mean) • u))]⟩⟩ := by
    refine ⟨_, ?_, rfl⟩
    unfold displayScene displayCeClr
    rw [f3] at hW
    rw [f6] at hmean
    simp only [hP, g3, g6, hW, hmean, hce', hF, hu, bind, Except.bind]
    rfl
  obtain ⟨hs1, hs2⟩ := hs'
  refine ⟨s', (picture_iff hp' _).2 ⟨?_, ?_⟩, ?_⟩
  · rw [← hcs] at ht
    exact saveResults_okShift ht
  · show nanAsNone (displayScene p.vlm res' p.hull false false) = _
    rw [hs1]; rfl
  · rw [hs2]
    exact ⟨rfl, rfl, rfl, rfl, rfl, rfl, rfl, rfl⟩

theorem demo_picture (spline : SplineFn) : ∃ p s, prepare spline Demo.config = .ok p ∧
    .picture (some s) ∈ (run spline Demo.config).1 ∧
    ∀ v ∈ p.vlm.vars.take (p.vlm.vars.length / 2), 0 < v.cp.z := by
  obtain ⟨p, hp, hc, hvl, hv, hV⟩ := Demo.prepared spline
  obtain ⟨t, ht⟩ := demo_workbook spline
  obtain ⟨p', hp', ht'⟩ := run_workbook ht
  rw [hp] at hp'
  injection hp' with hp'
  subst hp'
  obtain ⟨s, hs⟩ := picture_drawn hp (by rw [hv]; exact demo_offWater) ⟨some t, by rw [ht']; rfl⟩ (by
    obtain ⟨hn, -, hlen, -⟩ := prepared_shape hp
    obtain ⟨main, jib, base, -, -, -, -, -, hset, -, -, hv', res, hres, hflow⟩ := prepare_ok hp
    have hne : p.set.sails ≠ [] := by
      intro e; rw [e] at hn; simp at hn
    have hsh := vlm_shaped hv' hne (m := 1) hlen
    obtain ⟨r1, hr1, -, -, hF1, -⟩ := inviscidFlow_ok hsh.nonempty p.csys _ hsh.force hsh.cp
    rw [hres] at hr1
    injection hr1 with hr1
    subst hr1
    obtain ⟨g, -, hsl, -⟩ := (C65_selection spline _ _ _ _ _).2.1 rfl _ hset
    rw [hflow]
    show res.forceTotal ≠ 0
    rw [hF1, hsl, List.length_singleton, Finset.sum_range_one]
    exact Demo.force2_ne hvl hV hv)
  refine ⟨p, s, hp, hs, ?_⟩
  rw [hv]
  simp [Demo.vars]

/-- Non-vacuity of `C76_picture_partial`: the run of a main sail of one panel draws a picture. -/
example (spline : SplineFn) : ∃ p s, prepare spline Demo.config = .ok p ∧
    .picture (some s) ∈ (run spline Demo.config).1 ∧
    ∀ v ∈ p.vlm.vars.take (p.vlm.vars.length / 2), 0 < v.cp.z := demo_picture spline

/-- **C76** fails for the centre of effort: it is drawn relative to the reference point, on axes whose
origin is not the reference point, so the same flow is shown with two different centres of effort. -/
theorem C76_refuted (spline : SplineFn) : ∃ (c c' : Config) (s s' : Scene), c' = { c with vRef := c'.vRef } ∧
    .picture (some s) ∈ (run spline c).1 ∧ .picture (some s') ∈ (run spline c').1 ∧
    s'.panels = s.panels ∧ s'.force.ce ≠ s.force.ce := by
  obtain ⟨p, s, hp, hs, hz⟩ := demo_picture spline
  obtain ⟨s', hs', -, h1, -, -, -, -, -, h2⟩ := C76_picture_partial spline _ s ⟨1, 0, 0⟩ hs p hp hz
  refine ⟨_, _, s, s', rfl, hs, hs', h1, ?_⟩
  rw [h2]
  intro h
  have := congrArg V3.x h
  simp at this

end PySailing.Props
