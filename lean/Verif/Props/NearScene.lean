import Verif.Lemmas.NearScene
import Verif.Props.NearFigures
import Verif.Props.PictureRun

/-!
# C145: nearby `variables.py` give nearby pictures
-/

namespace PySailing.Props

open PySailing PySailing.Spec Filter Topology

variable {T : Type} {l : Filter T}

/-- The largest height found by the program. -/
theorem greatest_height {vars : List PanelVars} {a b : ℝ} (ha : pyMax ((vars.map PanelVars.leMid).map fun p => |p.z|) = .ok a)
    (hb : pyMax ((vars.map PanelVars.teMid).map fun p => |p.z|) = .ok b) :
    IsGreatest {z : ℝ | ∃ v ∈ vars, z = |v.leMid.z| ∨ z = |v.teMid.z|} (max a b) := by
  have gen : ∀ {xs : List ℝ} {m : ℝ}, pyMax xs = .ok m → m ∈ xs ∧ ∀ x ∈ xs, x ≤ m := fun {xs m} h => by
    have hne : xs ≠ [] := by rintro rfl; cases h
    obtain ⟨m', h1, h2, h3⟩ := pyMax_ok hne
    obtain rfl := Except.ok.inj (h.symm.trans h1)
    exact ⟨h2, h3⟩
  obtain ⟨a1, a2⟩ := gen ha
  obtain ⟨b1, b2⟩ := gen hb
  constructor
  · rcases max_choice a b with e | e <;> rw [e]
    · rw [List.map_map] at a1
      obtain ⟨v, hv, rfl⟩ := List.mem_map.1 a1
      exact ⟨v, hv, .inl rfl⟩
    · rw [List.map_map] at b1
      obtain ⟨v, hv, rfl⟩ := List.mem_map.1 b1
      exact ⟨v, hv, .inr rfl⟩
  · rintro z ⟨v, hv, rfl | rfl⟩
    · exact (a2 _ (List.mem_map_of_mem (List.mem_map_of_mem hv))).trans (le_max_left _ _)
    · exact (b2 _ (List.mem_map_of_mem (List.mem_map_of_mem hv))).trans (le_max_right _ _)

/-- Middles of the edges as functions of the panels. -/
theorem edges_of_vlm {a : VlmInput} {r : Vlm} (hv : vlm a = .ok r) :
    r.vars.map PanelVars.leMid = a.panels.map (fun q => (1 / 2 : ℝ) • (q.p2 + q.p3)) ∧
    r.vars.map PanelVars.teMid = a.panels.map fun q => (1 / 2 : ℝ) • (q.p1 + q.p4) := by
  obtain ⟨-, -, hvars, -, -⟩ := (vlm_ok_iff _ _).1 hv
  obtain ⟨hl, -, hk⟩ := calculateVlmVariables_ok hvars
  have key : ∀ k (h1 : k < r.vars.length) (h2 : k < a.panels.length), ∃ A D, r.vars[k] = panelVars a.g a.panels[k] A D := fun k h1 h2 => by
    obtain ⟨A, D, e⟩ := hk k h2
    rw [List.getElem?_eq_getElem h1] at e
    exact ⟨A, D, Option.some.inj e⟩
  constructor <;>
  · apply List.ext_getElem
    · simp [hl]
    · intro k h1 h2
      rw [List.length_map] at h1 h2
      obtain ⟨A, D, e⟩ := key k h1 h2
      simp only [List.getElem_map]
      rw [e]
      rfl

/-- **C145.**  If every number in `variables.py` (but those that define the shape of the wind profile) tends to its number in a
file for which the program draws its three-dimensional picture, and the files are well formed with the same mesh and choice of
sails, then the program draws a picture for all files near enough, with the same title, water surface and axes and with as
many polygons, lines and arrows; and all corners, colours, ends of the colour scale, lines of the hull, ends of the arrows of wind
and force, the centre of effort and the centre of lateral resistance tend to those of the limit.  Excluded are, besides the
limits excluded in C133 and C144, a deck exactly at the water surface, an apparent wind from exactly astern, and a highest edge
at exactly a whole number of metres. -/
theorem C145_picture {c : T → Config} {c0 : Config} (N : NearConfig l c c0) (h : ∀ᶠ t in l, WellFormed (c t)) (h0 : WellFormed c0)
    {p0 : Prepared} (hp0 : prepare fitpackSpline c0 = .ok p0) (hoff : OffSwitches p0.vlm.input p0.vlm.vars)
    (hlevel : ∀ v ∈ p0.vlm.vars, ¬ AtWaterLevel (windGetProfile c0.wind).profile |v.cp.z|)
    (hsurface : ∀ v ∈ p0.vlm.vars, v.cp.z ≠ 0) (hw : ReferenceAboveWater c0.wind) (hsheer : c0.rig.sheer ≠ 0)
    (hastern : ∀ u ∈ p0.vlm.inlet.vAppInfs, ¬ (u.y = 0 ∧ u.x ≤ 0)) (hwhole : ¬ HighestAtWholeMetre p0.vlm.vars)
    {s0 : Scene} (hs0 : .picture (some s0) ∈ (run fitpackSpline c0).1) :
    ∃ s : T → Scene, (∀ᶠ t in l, .picture (some (s t)) ∈ (run fitpackSpline (c t)).1) ∧ NearScene l s s0 := by
  obtain ⟨-, hr, -, -⟩ := C144_figures N h h0 hp0 hoff hlevel hsurface hw
  obtain ⟨p, hp, V, -, hC, hP, htws, C⟩ := near_vlm N h h0 hp0 hoff hlevel
  obtain ⟨p0', hp0', hsc0⟩ := run_picture hs0
  obtain rfl := Except.ok.inj (hp0.symm.trans hp0')
  obtain ⟨hnn, hM, -, -⟩ := prepared_shape hp0
  obtain ⟨hcs0, hset0, hclr0, hv0, res0, hres0, hflow0⟩ := prepare_data h0 hp0
  obtain ⟨hnames0, -, hlen0, -⟩ := sailSetOf_shape hset0
  have hgoodt : ∀ᶠ t in l, WellFormed (c t) ∧ prepare fitpackSpline (c t) = .ok (p t) := h.and hp
  -- coordinate systems and hull
  have hcs : ∀ᶠ t in l, (p t).csys = ⟨(c t).heelDeg, (c t).leewayDeg, (c t).vRef⟩ := hgoodt.mono fun t ht => (prepare_data ht.1 ht.2).1
  have hheel : Tendsto (fun t => (p t).csys.heelDeg) l (𝓝 p0.csys.heelDeg) := by
    rw [hcs0]; exact N.heel.congr' (hcs.mono fun t ht => by beta_reduce; rw [ht])
  have hleeway : Tendsto (fun t => (p t).csys.leewayDeg) l (𝓝 p0.csys.leewayDeg) := by
    rw [hcs0]; exact N.leeway.congr' (hcs.mono fun t ht => by beta_reduce; rw [ht])
  have hvref : Conv l (fun t => (p t).csys.vRef) p0.csys.vRef := by
    rw [hcs0]; exact N.vRef.congr' (hcs.mono fun t ht => by rw [ht])
  obtain ⟨-, -, base0, -, -, -, -, -, -, hbase0, hh0, -, -⟩ := prepare_ok hp0
  have hbase := N.rig.base
  rw [hbase0] at hbase
  obtain ⟨base, hb1, hb2⟩ := hbase
  obtain ⟨hull, hu1, hu2, hclr⟩ := hullGeometry_conv N.rig.sheer hsheer hb2 hleeway hheel N.clr _ hh0
  have hhull : ∀ᶠ t in l, (p t).hull = hull t := by
    filter_upwards [hp, hb1, hu1] with t t1 t2 t3
    obtain ⟨-, -, b, -, -, -, -, -, -, q1, q2, -, -⟩ := prepare_ok t1
    obtain rfl := Option.some.inj (q1.symm.trans t2)
    exact Except.ok.inj (q2.symm.trans t3)
  -- the flow
  have hin : ∀ᶠ t in l, (p t).vlm.input = (c t).vlmInput (p t).set (windGetProfile (c t).wind) ∧
      vlm ((c t).vlmInput (p t).set (windGetProfile (c t).wind)) = .ok (p t).vlm := hgoodt.mono fun t ht => by
    obtain ⟨-, -, -, q, -⟩ := prepare_data ht.1 ht.2
    exact ⟨(vlm_lengths q).1, q⟩
  have hi0 : p0.vlm.input = c0.vlmInput p0.set (windGetProfile c0.wind) := (vlm_lengths hv0).1
  have hvl0 : p0.vlm.vars.length = 2 * (p0.set.sails.length * (c0.solver.nc * c0.solver.ns)) := by
    rw [(vlm_lengths hv0).2.1]; exact hlen0
  have hcp : TendList l (OffConv l) (fun t => (p t).vlm.vars.map PanelVars.cp) (p0.vlm.vars.map PanelVars.cp) :=
    V.cps.with_mem.mono fun a a0 ha => ⟨ha.1, by
      obtain ⟨v, hv, e⟩ := List.mem_map.1 ha.2
      rw [← e]; exact hsurface v hv⟩
  have hcpPoints : ∀ᶠ t in l, (p t).vlm.vars.map PanelVars.cp = (p t).vlm.inlet.cpPoints := hin.mono fun t ht => (vlm_inlet ht.2).2.1.symm
  have hlens : ∀ᶠ t in l, (p t).set.sails.length = p0.set.sails.length := by
    filter_upwards [hgoodt] with t ht
    obtain ⟨-, q, -⟩ := prepare_data ht.1 ht.2
    obtain ⟨q1, -⟩ := sailSetOf_shape q
    rw [N.rig.sailsDef t] at q1
    have : (p t).set.sails.map SailGeom.name = p0.set.sails.map SailGeom.name := by
      rcases q1 with ⟨a1, a2⟩ | ⟨a1, a2⟩ | ⟨a1, a2⟩ <;> rcases hnames0 with ⟨b1, b2⟩ | ⟨b1, b2⟩ | ⟨b1, b2⟩ <;> rw [a2, b2] <;>
        exact absurd (a1.symm.trans b1) (by decide)
    simpa using congrArg List.length this
  have hsh0 : Shaped p0.set.sails (c0.solver.nc * c0.solver.ns) p0.vlm.flowArrays :=
    vlm_shaped hv0 (fun e => by rw [e] at hnn; simp at hnn) hlen0
  have hres : ∀ᶠ t in l, (p t).flow.res.forceTotal = ∑ k ∈ Finset.range (p0.set.sails.length * (c0.solver.nc * c0.solver.ns)),
        row (p t).vlm.out.force k ∧
      (p t).flow.res.centreOfEffort = determineVector (∑ k ∈ Finset.range (p0.set.sails.length * (c0.solver.nc * c0.solver.ns)),
          row (p t).vlm.out.force k)
        (∑ k ∈ Finset.range (p0.set.sails.length * (c0.solver.nc * c0.solver.ns)),
          (armFrom (p t).csys.vRef (row ((p t).vlm.vars.map PanelVars.cp) k)).dot (row (p t).vlm.out.force k))
        (∑ k ∈ Finset.range (p0.set.sails.length * (c0.solver.nc * c0.solver.ns)),
          V3.cross (armFrom (p t).csys.vRef (row ((p t).vlm.vars.map PanelVars.cp) k)) (row (p t).vlm.out.force k)) ∧
      (p t).flow.res.vFsLength = (p t).vlm.out.vFsCp.map V3.norm := by
    filter_upwards [hgoodt, hlens] with t ht hl
    obtain ⟨-, q, -, hv, res, r1, r2⟩ := prepare_data ht.1 ht.2
    obtain ⟨q1, -, q3, -⟩ := sailSetOf_shape q
    have hs := vlm_shaped hv (sails := (p t).set.sails) (m := c0.solver.nc * c0.solver.ns) (fun e => by rw [e] at q1; simp at q1)
      (by rw [← N.solver t]; exact q3)
    obtain ⟨res', e, -, -, g3, -, -, g6, g7, -⟩ := inviscidFlow_ok hs.nonempty (p t).csys _ hs.force hs.cp
    obtain rfl := Except.ok.inj (r1.symm.trans e)
    rw [r2]
    show res.forceTotal = _ ∧ res.centreOfEffort = _ ∧ res.vFsLength = _
    rw [hl] at g3 g6 g7
    rw [g7, g6, g3]
    exact ⟨rfl, rfl, (inviscidFlow_fields r1).2.2.2.2.2.1⟩
  obtain ⟨res', e, -, -, g3, -, -, g6, g7, -⟩ := inviscidFlow_ok hsh0.nonempty p0.csys _ hsh0.force hsh0.cp
  obtain rfl := Except.ok.inj (hres0.symm.trans e)
  have hz0 : ∀ k, k < p0.set.sails.length * (c0.solver.nc * c0.solver.ns) → (row (p0.vlm.vars.map PanelVars.cp) k).z ≠ 0 := fun k hk => by
    obtain ⟨v, hv, e⟩ := row_mem_vars (vs := p0.vlm.vars) (q := k) (by rw [hvl0]; omega)
    rw [e]; exact hsurface v hv
  have hcpk : ∀ k, k < p0.set.sails.length * (c0.solver.nc * c0.solver.ns) →
      Conv l (fun t => row ((p t).vlm.vars.map PanelVars.cp) k) (row (p0.vlm.vars.map PanelVars.cp) k) := fun k hk => by
    obtain ⟨zs, z1, z2, z3⟩ := V.cps
    have hk' : k < zs.length := by
      have := congrArg List.length z1
      simp only [List.length_map] at this
      omega
    have e0 : row (p0.vlm.vars.map PanelVars.cp) k = zs[k].2 := by
      rw [z1, row, List.getD_eq_getElem?_getD, List.getElem?_map, List.getElem?_eq_getElem hk']; rfl
    rw [e0]
    refine (z3 zs[k] (List.getElem_mem hk')).congr' (z2.mono fun t ht => ?_)
    beta_reduce at ht
    rw [ht, row, List.getD_eq_getElem?_getD, List.getElem?_map, List.getElem?_eq_getElem hk']; rfl
  have hF : ∀ k, Conv l (fun t => row (p t).vlm.out.force k) (row p0.vlm.out.force k) := fun k => C.force k
  have hA : ∀ k, k < p0.set.sails.length * (c0.solver.nc * c0.solver.ns) →
      Conv l (fun t => armFrom (p t).csys.vRef (row ((p t).vlm.vars.map PanelVars.cp) k))
        (armFrom p0.csys.vRef (row (p0.vlm.vars.map PanelVars.cp) k)) := fun k hk => arm_conv hvref (hcpk k hk) (hz0 k hk)
  have hforce : Conv l (fun t => (p t).flow.res.forceTotal) p0.flow.res.forceTotal := by
    rw [hflow0]
    show Conv l _ res0.forceTotal
    rw [g3]
    exact (Conv.sum _ fun k _ => hF k).congr' (hres.mono fun t ht => ht.1.symm)
  have hce : PyConv l (Conv l) (fun t => (p t).flow.res.centreOfEffort) p0.flow.res.centreOfEffort := by
    rw [hflow0]
    show PyConv l (Conv l) _ res0.centreOfEffort
    rw [g7, g6, g3]
    exact (determineVector_conv (Conv.sum _ fun k _ => hF k) (tendsto_finsetSum _ fun k hk => (hA k (Finset.mem_range.1 hk)).dot (hF k))
      (Conv.sum _ fun k hk => (hA k (Finset.mem_range.1 hk)).cross (hF k))).congr' (hres.mono fun t ht => ht.2.1.symm)
  have hvfs : TendList l (Tends l) (fun t => (p t).flow.res.vFsLength) p0.flow.res.vFsLength := by
    rw [hflow0]
    show TendList l (Tends l) _ res0.vFsLength
    rw [(inviscidFlow_fields hres0).2.2.2.2.2.1]
    have hlen : ∀ r : Vlm, r.out.vFsCp.length = r.out.gamma.length := fun r => by simp [Vlm.out, VlmSolution.arrays]
    have : TendList l (Conv l) (fun t => (p t).vlm.out.vFsCp) p0.vlm.out.vFsCp :=
      TendList.of_getD 0 (C.lengths.mono fun t ht => by rw [hlen, hlen]; exact ht.1) C.vFsCp
    exact (this.map (f := fun _ => V3.norm) (f0 := V3.norm) fun a a0 ha => ha.norm).congr' (hres.mono fun t ht => ht.2.2.symm)
  -- panels
  have hpan : TendList l (ConvPanel l) (fun t => (p t).vlm.input.panels) p0.vlm.input.panels := by
    rw [hi0]
    exact hP.congr' (hin.mono fun t ht => by rw [ht.1]; rfl)
  have hle : TendList l (Conv l) (fun t => (p t).vlm.vars.map PanelVars.leMid) (p0.vlm.vars.map PanelVars.leMid) := by
    rw [(edges_of_vlm hv0).1]
    refine TendList.congr' (hP.map (f := fun _ q => (1 / 2 : ℝ) • (q.p2 + q.p3)) (f0 := fun q => (1 / 2 : ℝ) • (q.p2 + q.p3))
      fun a a0 ha => Conv.const_smul _ (ha.p2.add ha.p3)) (hin.mono fun t ht => ?_)
    rw [(edges_of_vlm ht.2).1]; rfl
  have hte : TendList l (Conv l) (fun t => (p t).vlm.vars.map PanelVars.teMid) (p0.vlm.vars.map PanelVars.teMid) := by
    rw [(edges_of_vlm hv0).2]
    refine TendList.congr' (hP.map (f := fun _ q => (1 / 2 : ℝ) • (q.p1 + q.p4)) (f0 := fun q => (1 / 2 : ℝ) • (q.p1 + q.p4))
      fun a a0 ha => Conv.const_smul _ (ha.p1.add ha.p4)) (hin.mono fun t ht => ?_)
    rw [(edges_of_vlm ht.2).2]; rfl
  have hPl := displayPanels_conv (r := fun t => (p t).vlm) hpan hC hle hte fun a b ha hb n e => hwhole ⟨n, e ▸ greatest_height ha hb⟩
  -- angles
  have hawa : TendList l (Tends l) (fun t => (p t).vlm.inlet.awaInfsDeg) p0.vlm.inlet.awaInfsDeg := by
    have e : ∀ {a : VlmInput} {r : Vlm}, vlm a = .ok r → r.inlet.awaInfsDeg = r.inlet.vAppInfs.map fun v => rad2deg (arctan2 v.y v.x) := by
      intro a r hv
      obtain ⟨hi, -, -⟩ := vlm_inlet hv
      rw [((inletConditions_ok_iff _ _ _ _).1 hi).2.2]
    rw [e hv0]
    refine (V.app.with_mem.map (f := fun _ v => rad2deg (arctan2 v.y v.x)) (f0 := fun v => rad2deg (arctan2 v.y v.x))
      fun a a0 ha => rad2deg_tendsto (arctan2_tendsto ha.1.y ha.1.x (hastern a0 ha.2))).congr' (hin.mono fun t ht => (e ht.2).symm)
  have hcps : TendList l (OffConv l) (fun t => (p t).vlm.inlet.cpPoints) p0.vlm.inlet.cpPoints := by
    rw [(vlm_inlet hv0).2.1]
    exact hcp.congr' hcpPoints
  -- the scene
  have hscene : PyConv l (NearScene l) (fun t => displayScene (p t).vlm (p t).flow.res (p t).hull false false)
      (displayScene p0.vlm p0.flow.res p0.hull false false) := by
    unfold displayScene
    simp only [Bool.false_eq_true, if_false]
    refine PyConv.bind hPl fun a a0 ha => PyConv.bind (R := TendList l (NearArrow l)) ?_ fun b b0 hb => PyConv.bind (displayCeClr_conv hvfs hce hforce (hclr.congr' (hhull.mono fun t ht => by rw [ht])))
      fun f f0 hf => PyConv.ok ⟨.of_forall fun _ => rfl, ha, hu2.congr' (hhull.mono fun t ht => by rw [ht]), hb, hf⟩
    refine (displayWinds_conv p0.vlm.vars.length a0.water (fun t => (p t).flow.res.vInd) p0.flow.res.vInd hcps htws V.app hawa p0.vlm.input.ns
      p0.vlm.input.nc).congr' ?_
    filter_upwards [ha.water, V.ns, V.nc, hcp.lengths] with t t1 t2 t3 t4
    rw [List.length_map, List.length_map] at t4
    have t1' : (a t).water = a0.water := t1
    rw [t1', t2, t3, t4]
  obtain ⟨s, h1, h2⟩ := hscene s0 hsc0
  refine ⟨s, ?_, h2⟩
  filter_upwards [hp, hr, h1] with t t1 t2 t3
  unfold run at t2 ⊢
  rw [t1] at t2 ⊢
  exact mem_emit_of_ok t2 (by simp [outputSteps, t3, nanAsNone, Except.map])

/-- **C145**, a concrete case: the picture of the one panel sail changes continuously with the camber and the angles of leeway, wind
and twist. -/
theorem C145_demo : ∃ (s0 : Scene) (s : ℝ × ℝ → Scene), .picture (some s0) ∈ (run fitpackSpline Demo.config).1 ∧
    (∀ᶠ x in 𝓝[{x : ℝ × ℝ | 0 ≤ x.1}] (0, 0), .picture (some (s x)) ∈ (run fitpackSpline (demoNear x.1 x.2)).1) ∧
    NearScene (𝓝[{x : ℝ × ℝ | 0 ≤ x.1}] (0, 0)) s s0 := by
  have t1 : Tendsto (fun x : ℝ × ℝ => x.1) (𝓝[{x : ℝ × ℝ | 0 ≤ x.1}] (0, 0)) (𝓝 0) := tendsto_nhdsWithin_of_tendsto_nhds continuous_fst.continuousAt
  have e90 : (90 : ℝ) * (Real.pi / 180) = Real.pi / 2 := by ring
  have hV : (⟨1, 1, 0⟩ : V3) = ⟨Demo.config.wind.twsRef * Real.cos (Demo.config.wind.alphaDeg * (Real.pi / 180)) + Demo.config.wind.sog,
      Demo.config.wind.twsRef * Real.sin (Demo.config.wind.alphaDeg * (Real.pi / 180)), 0⟩ := by
    simp [Demo.config, e90]
  have hne : (⟨1, 1, 0⟩ : V3) ≠ 0 := fun e => by
    have := congrArg V3.x e
    simp at this
  have hn := V3.norm_pos hne
  obtain ⟨p0, -, h1, h2, h3, h4, -⟩ := flat_limit demo_flat (by norm_num [Demo.config]) (by norm_num [Demo.config]) (by norm_num [Demo.config])
    (windAlong_flat (w := Demo.config.wind) rfl hV hne _ _) (by
      simp only [V3.dot, leechDirection, Demo.config, V3.smul_x, V3.smul_y, V3.smul_z]
      norm_num
      exact hn.le) (by
      rintro h - - ⟨a, b, d, e, -⟩
      simp [windGetProfile, Demo.config] at e)
  obtain ⟨p, hp, -, -, hv, hV'⟩ := Demo.prepared fitpackSpline
  obtain rfl := Except.ok.inj (h1.symm.trans hp)
  obtain ⟨_, s0, _, hs, _⟩ := demo_picture fitpackSpline
  obtain ⟨s, s1, s2⟩ := C145_picture demoNear_near (by
      filter_upwards [self_mem_nhdsWithin, t1.eventually_le_const (show (0 : ℝ) < 0.3 by norm_num)] with x x1 x2
      exact demoNear_wellFormed x1 x2) demo_flat.wellFormed h1 h2 h3 h4 demo_flat.reference (by norm_num [Demo.config, demoRig]) (by
      intro u hu
      rw [hV'] at hu
      obtain rfl : u = Demo.V := by simpa using hu
      norm_num [Demo.V]) (by
      rintro ⟨n, hm, hle⟩
      rw [hv] at hm
      obtain ⟨v, hvm, hvz⟩ := hm
      have : (n : ℝ) = 3 / 2 := by
        simp only [List.mem_cons, List.not_mem_nil, or_false] at hvm
        rcases hvm with rfl | rfl <;> rcases hvz with e | e <;> rw [e] <;>
          norm_num [Demo.vars, PanelVars.mirrored, mirror, abs_of_pos, abs_of_neg]
      have h2 : (2 * n : ℤ) = 3 := by
        have : ((2 * n : ℤ) : ℝ) = 3 := by push_cast; rw [this]; norm_num
        exact_mod_cast this
      omega) hs
  exact ⟨s0, s, hs, s1, s2⟩

end PySailing.Props
