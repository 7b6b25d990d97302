import Verif.Lemmas.UnitsRun

/-!
# Lemmas: settings in other units, solution and run
-/

namespace PySailing

open Spec Props

theorem scalePanel_one (q : Panel) : scalePanel 1 q = q := by
  unfold scalePanel; simp

theorem scaleHeights_one (w : WindObj) : scaleHeights 1 w = w := by
  obtain ⟨a, t, v, p⟩ := w
  unfold scaleHeights
  cases p with
  | flat => rfl
  | log r ref => cases r <;> cases ref <;> simp
  | exp c ref wl => cases ref <;> cases wl <;> simp

/-- The lattice and the wind profile enlarged. -/
theorem vlm_enlarged {s : ℝ} (hs : 0 < s) {a : VlmInput} {r : Vlm} (h : vlm a = .ok r)
    (hi : s = 1 ∨ SizesIrrelevant s (fun i : Fin r.vars.length => r.vars[i]) (fun i => r.areas.getD i 0)) :
    ∃ r', vlm { a with panels := a.panels.map (scalePanel s), wind := scaleHeights s a.wind } = .ok r' ∧
      r'.inlet.vAppInfs = r.inlet.vAppInfs ∧ r'.inlet.twsAtCp = r.inlet.twsAtCp ∧
      r'.out = mapAll r.out (s * ·) id ((s ^ 2) • ·) id id := by
  rcases hi with rfl | hi
  · refine ⟨r, ?_, rfl, rfl, ?_⟩
    · have e : a.panels.map (scalePanel 1) = a.panels := by
        conv_rhs => rw [← List.map_id a.panels]
        exact List.map_congr_left fun q _ => scalePanel_one q
      rw [e, scaleHeights_one]
      exact h
    · simp [mapAll]
  · obtain ⟨r', h1, -, h2, h3, h4, -⟩ := C86_size_partial a s hs r h hi
    exact ⟨r', h1, h2, h3, h4⟩

/-- The solution in other units. -/
theorem vlm_units {u : Units} (hu : u.Positive) {a : VlmInput} {r : Vlm} (hg : a.g ≠ 0) (h : vlm a = .ok r)
    (hi : u.length = 1 ∨
      SizesIrrelevant u.length (fun i : Fin r.vars.length => r.vars[i]) (fun i => r.areas.getD i 0)) :
    ∃ r', vlm { a with
        panels := a.panels.map (scalePanel u.length), rho := u.density * a.rho, wind := a.wind.units u } = .ok r' ∧
      r'.inlet = r.inlet.units u ∧ r'.vars.map PanelVars.cp = (r.vars.map PanelVars.cp).map (big u.length) ∧
      r'.out = mapAll r.out (u.length * u.speed * ·) (big u.speed) (big u.force) (u.pressure * ·) id := by
  obtain ⟨r1, h1, hV1, -, ho1⟩ := vlm_enlarged hu.length h hi
  obtain ⟨hin, hcp, -⟩ := vlm_inlet h
  obtain ⟨hin1, hcp1, -⟩ := vlm_inlet h1
  have hvars : ∀ {r' : Vlm} {a' : VlmInput}, vlm a' = .ok r' → a'.panels = a.panels.map (scalePanel u.length) →
      a'.te = a.te → a'.g = a.g → a'.nc = a.nc → a'.ns = a.ns → r'.vars = r.vars.map (PanelVars.scaled u.length) := by
    intro r' a' h' e1 e2 e3 e4 e5
    obtain ⟨-, -, hv, -, -⟩ := (vlm_ok_iff _ _).1 h
    obtain ⟨-, -, hv', -, -⟩ := (vlm_ok_iff _ _).1 h'
    rw [e1, e2, e3, e4, e5, calculateVlmVariables_scaled hu.length, hv] at hv'
    exact (Except.ok.inj hv').symm
  have hcps : ∀ {r' : Vlm}, r'.vars = r.vars.map (PanelVars.scaled u.length) →
      r'.vars.map PanelVars.cp = (r.vars.map PanelVars.cp).map (big u.length) := by
    intro r' e
    rw [e, List.map_map, List.map_map]
    rfl
  have e1 := hcps (hvars h1 rfl rfl rfl rfl rfl)
  have hnew : inletConditions (a.wind.units u) (u.density * a.rho) (r1.inlet.cpPoints.map (move id 0)) =
      .ok (r.inlet.units u) := by
    rw [map_move_id, hcp1, e1, ← hcp]
    exact inletConditions_units hu hin
  obtain ⟨r', hr', hri, -, -, hro⟩ := vlm_moved isIsometry_id 0
    { a with panels := a.panels.map (scalePanel u.length), wind := scaleHeights u.length a.wind } (μ := u.speed) (c := u.density) hu.speed
    hu.density.ne' (g' := a.g) hg hg h1 hnew (by
      rw [hV1]
      rfl)
  simp only [map_movePanel_id] at hr'
  refine ⟨r', hr', hri, hcps (hvars hr' rfl rfl rfl rfl rfl), ?_⟩
  rw [hro, ho1]
  have e2 : a.g / a.g = 1 := div_self hg
  simp only [mapAll, List.map_map, e2]
  have f1 : ((fun x => 1 * u.speed * 1 * x) ∘ fun x => u.length * x) = (u.length * u.speed * ·) := by
    funext x; simp only [Function.comp]; ring
  have f2 : ((fun v : V3 => (u.density * u.speed ^ 2) • id v) ∘ fun x => u.length ^ 2 • x) = big u.force := by
    funext x
    simp only [Function.comp, id, smul_smul]
    rfl
  have f3 : ((fun v : V3 => u.speed • id v) ∘ id) = big u.speed := rfl
  have f4 : ((fun x => 1 * (u.density * u.speed ^ 2) * x) ∘ id) = (u.pressure * ·) := by
    funext x; simp only [Function.comp, id, Units.pressure]; ring
  have f5 : ((fun x : ℝ => 1 * x) ∘ id) = id := by
    funext x; simp
  rw [f1, f2, f3, f4, f5]

/-! ## The run -/

theorem withTwist_units (u : Units) (c : SailConf) (a b : ℝ) :
    (sailInUnits u c).withTwist a b = (c.withTwist a b).map (sailInUnits u) := by
  obtain ⟨tw, gi, ch, ca, di⟩ := c
  unfold SailConf.withTwist sailInUnits
  cases tw with
  | some tw => rfl
  | none => cases gi <;> rfl

theorem checkShapes_units (u : Units) (c : SailConf) : checkShapes (sailInUnits u c).arrays = checkShapes c.arrays := by
  obtain ⟨tw, gi, ch, ca, di⟩ := c
  cases tw <;> cases gi <;> cases ch <;> cases ca <;> cases di <;>
    simp [checkShapes, SailConf.arrays, sailInUnits]

theorem hasNone_units (sc : List (Option ℝ)) (u : Units) (c d : SailConf) :
    hasNone sc (sailInUnits u c).arrays = hasNone sc c.arrays ∧
    hasNone sc ((sailInUnits u c).arrays ++ (sailInUnits u d).arrays) = hasNone sc (c.arrays ++ d.arrays) := by
  simp [hasNone, SailConf.arrays, sailInUnits]

theorem hasNone_scalars (u : Units) (rig : RigConf) (arr : List (Option (List ℝ))) :
    hasNone (jibScalars (rigInUnits u rig)) arr = hasNone (jibScalars rig) arr ∧
    hasNone (mainScalars (rigInUnits u rig)) arr = hasNone (mainScalars rig) arr ∧
    hasNone (jibScalars (rigInUnits u rig) ++ mainScalars (rigInUnits u rig)) arr =
      hasNone (jibScalars rig ++ mainScalars rig) arr := by
  simp [hasNone, jibScalars, mainScalars, rigInUnits]

theorem sailPostInit_units (u : Units) (rig : RigConf) (main jib : SailConf) :
    sailPostInit (rigInUnits u rig) (some (sailInUnits u main)) (some (sailInUnits u jib)) =
      sailPostInit rig (some main) (some jib) := by
  have es : (rigInUnits u rig).sailsDef = rig.sailsDef := rfl
  unfold sailPostInit sailChecks
  simp only [boundLocal, checkShapes_units, (hasNone_units _ u _ main).1, (hasNone_units _ u _ _).2, bind, Except.bind, es,
    (hasNone_scalars u rig _).1, (hasNone_scalars u rig _).2.1, (hasNone_scalars u rig _).2.2]

theorem windPostInit_units (u : Units) (w : WindConditions) : windPostInit (windInUnits u w) = windPostInit w := by
  unfold windPostInit windInUnits
  simp

theorem prepare_units {spline : SplineFn} {c : Config} {u : Units} (hu : u.Positive)
    (hk : c.solver.interpolation = "linear" ∨ spline = fitpackSpline) {p : Prepared} (hp : prepare spline c = .ok p)
    (hg : u.length ≤ 1 ∨ ∃ g, prepareGeometry spline (inUnits u c) = .ok g)
    (hi : u.length = 1 ∨
      SizesIrrelevant u.length (fun i : Fin p.vlm.vars.length => p.vlm.vars[i]) (fun i => p.vlm.areas.getD i 0)) :
    ∃ (p' : Prepared) (res : FlowResults), prepare spline (inUnits u c) = .ok p' ∧
      p'.csys = p.csys.big u.length ∧ p'.set = p.set.big u.length ∧ p'.vlm.inlet = p.vlm.inlet.units u ∧
      p'.vlm.vars.map PanelVars.cp = (p.vlm.vars.map PanelVars.cp).map (big u.length) ∧
      p'.vlm.out = mapAll p.vlm.out (u.length * u.speed * ·) (big u.speed) (big u.force) (u.pressure * ·) id ∧
      p.flow = (FlowObject.new res).estimateKeel p.hull.clr ∧
      p'.flow = (FlowObject.new (res.units u)).estimateKeel (big u.length p.hull.clr) := by
  obtain ⟨main, jib, base, h1, h2, h3, h4, h5, h6, h7, h8, hv, res, hres, hflow⟩ := prepare_ok hp
  have hcs : p.csys = ⟨c.heelDeg, c.leewayDeg, c.vRef⟩ := by
    rw [C59_csys_constructor_total] at h3
    injection h3 with h3
    exact h3.symm
  have i1 : mainSailInit (inUnits u c).main = .ok (sailInUnits u main) := by
    have : mainSailInit (inUnits u c).main = (mainSailInit c.main).map (sailInUnits u) := withTwist_units u c.main _ _
    rw [this, h1]; rfl
  have i2 : jibSailInit (inUnits u c).jib = .ok (sailInUnits u jib) := by
    have : jibSailInit (inUnits u c).jib = (jibSailInit c.jib).map (sailInUnits u) := withTwist_units u c.jib _ _
    rw [this, h2]; rfl
  have i3 : csysInit (inUnits u c).heelDeg (inUnits u c).leewayDeg (inUnits u c).vRef = .ok (p.csys.big u.length) := by
    rw [C59_csys_constructor_total, hcs]; rfl
  have i4 : windPostInit (inUnits u c).wind = .ok () := (windPostInit_units u c.wind).trans h4
  have i5 : sailPostInit (inUnits u c).rig (some (sailInUnits u main)) (some (sailInUnits u jib)) = .ok () :=
    (sailPostInit_units u c.rig main jib).trans h5
  have i6 : sailSetOf spline (inUnits u c).solver (inUnits u c).rig (some (sailInUnits u main)) (some (sailInUnits u jib))
      (p.csys.big u.length) = .ok (p.set.big u.length) := by
    refine sailSetOf_units hu.length hk h6 (hg.imp id ?_)
    rintro ⟨g, hgg⟩
    unfold prepareGeometry at hgg
    simp only [i1, i2, i3, i4, i5, bind, Except.bind] at hgg
    cases h9 : sailSetOf spline (inUnits u c).solver (inUnits u c).rig (some (sailInUnits u main)) (some (sailInUnits u jib))
        (p.csys.big u.length) with
    | error e => rw [h9] at hgg; cases hgg
    | ok w => exact ⟨w, h9⟩
  have i7 : (inUnits u c).rig.base = some (u.length * base) := by simp [inUnits, rigInUnits, h7]
  obtain ⟨hull, hh, -⟩ := C57_hull (inUnits u c).rig.sheer (u.length * base) (p.csys.big u.length) (inUnits u c).clrUpright
  have hclr : hull.clr = big u.length p.hull.clr := by
    have e : ∀ {sh b : ℝ} {cs : Csys} {v : V3} {H : Hull}, hullGeometry sh b cs v = .ok H →
        H.clr = cs.rotatePointWithoutMirror v := by
      intro sh b cs v H hH
      unfold hullGeometry at hH
      simp only [bind, Except.bind] at hH
      split at hH
      · cases hH
      injection hH with hH
      rw [← hH]
    rw [e hh, e h8]
    exact rotatePointWithoutMirror_big u.length p.csys c.clrUpright
  obtain ⟨r', hr', hri, hrv, hro⟩ := vlm_units hu (by simp [Config.vlmInput]) hv hi
  have hr2 : vlm (Config.vlmInput (inUnits u c) (p.set.big u.length) (windGetProfile (inUnits u c).wind)) = .ok r' := by
    rw [← hr']
    have : windGetProfile (inUnits u c).wind = (windGetProfile c.wind).units u := windGetProfile_units u c.wind
    rw [this]
    rfl
  have hnames : ∀ s ∈ p.set.sails, s.name ∈ ["jib", "main_sail"] := by
    obtain ⟨hn, -⟩ := sailSetOf_shape h6
    intro s hs
    have : s.name ∈ p.set.sails.map SailGeom.name := List.mem_map_of_mem hs
    rcases hn with ⟨-, e⟩ | ⟨-, e⟩ | ⟨-, e⟩ <;> rw [e] at this <;> revert this <;> simp +contextual
  have hfa : r'.flowArrays = p.vlm.flowArrays.units u := by
    unfold Vlm.flowArrays FlowArrays.units
    rw [hrv, hro]
    rfl
  have hres' := inviscidFlow_units hu hnames hres
  rw [← hfa] at hres'
  refine ⟨⟨p.csys.big u.length, p.set.big u.length, hull, r', (FlowObject.new (res.units u)).estimateKeel hull.clr⟩, res, ?_,
    rfl, rfl, hri, hrv, hro, hflow, by rw [hclr]⟩
  have i9 : inviscidFlow (p.set.big u.length).sails (p.csys.big u.length) r'.flowArrays = .ok (res.units u) := hres'
  unfold prepare prepareGeometry
  simp only [i1, i2, i3, i4, i5, i6, i7, hh, i9, need, hr2, bind, Except.bind]

/-- Every workbook has its counterpart in other units. -/
theorem workbook_units {spline : SplineFn} {c : Config} {u : Units} (hu : u.Positive)
    (hk : c.solver.interpolation = "linear" ∨ spline = fitpackSpline) {t : SavedResults}
    (h : .workbook (some t) ∈ (run spline c).1)
    (hg : u.length ≤ 1 ∨ ∃ g, prepareGeometry spline (inUnits u c) = .ok g)
    (hi : u.length = 1 ∨ ∀ p, prepare spline c = .ok p →
      SizesIrrelevant u.length (fun i : Fin p.vlm.vars.length => p.vlm.vars[i]) (fun i => p.vlm.areas.getD i 0)) :
    .workbook (some ⟨Frame.units u t.components, t.integrals.units u,
      t.inlet.map fun q => (q.1, unitOf u q.1 * q.2)⟩) ∈ (run spline (inUnits u c)).1 := by
  obtain ⟨p, hp, hs⟩ := run_workbook h
  obtain ⟨p', res, hp', hc', hset, hinl, hcp, -, hf, hf'⟩ := prepare_units hu hk hp hg (hi.imp id fun h => h p hp)
  refine workbook_mem hp' ?_
  rw [hf] at hs
  rw [hf', hc', hset]
  exact saveResults_units hu hs hinl hcp

/-- The lattice of the settings with smaller numbers for lengths, if there is one. -/
theorem prepare_units_areas {spline : SplineFn} {c : Config} {u : Units} (hu : u.Positive) (hl : u.length ≤ 1)
    (hk : c.solver.interpolation = "linear" ∨ spline = fitpackSpline) {p p' : Prepared} (hp : prepare spline c = .ok p)
    (hp' : prepare spline (inUnits u c) = .ok p') : p'.vlm.areas = p.vlm.areas.map (u.length ^ 2 * ·) := by
  obtain ⟨main, jib, base, h1, h2, h3, -, -, h6, -, -, hv, -⟩ := prepare_ok hp
  obtain ⟨main', jib', base', h1', h2', h3', -, -, h6', -, -, hv', -⟩ := prepare_ok hp'
  have i1 : mainSailInit (inUnits u c).main = .ok (sailInUnits u main) := by
    have : mainSailInit (inUnits u c).main = (mainSailInit c.main).map (sailInUnits u) := withTwist_units u c.main _ _
    rw [this, h1]; rfl
  have i2 : jibSailInit (inUnits u c).jib = .ok (sailInUnits u jib) := by
    have : jibSailInit (inUnits u c).jib = (jibSailInit c.jib).map (sailInUnits u) := withTwist_units u c.jib _ _
    rw [this, h2]; rfl
  have i3 : p'.csys = p.csys.big u.length := by
    rw [C59_csys_constructor_total] at h3 h3'
    rw [← Except.ok.inj h3, ← Except.ok.inj h3']
    rfl
  rw [i1] at h1'
  rw [i2] at h2'
  cases h1'
  cases h2'
  have i6 := sailSetOf_units hu.length hk h6 (Or.inl hl)
  rw [i3] at h6'
  have e : p'.set = p.set.big u.length := Except.ok.inj (h6'.symm.trans i6)
  have ha := ((vlm_ok_iff _ _).1 hv).2.1
  have ha' := ((vlm_ok_iff _ _).1 hv').2.1
  rw [ha, ha']
  simp only [Config.vlmInput, e, SailSet.big, getPanelsArea, List.map_map]
  exact List.map_congr_left fun q _ => panelArea_scaled hu.length q

/-- Every panel of a solved lattice has an area above the threshold of the no-flux check. -/
theorem vlm_areas_large {a : VlmInput} {r : Vlm} (h : vlm a = .ok r) {x : ℝ} (hx : x ∈ r.areas) : 1e-14 ≤ x := by
  obtain ⟨hin, har, hv, -, hso⟩ := (vlm_ok_iff a r).1 h
  obtain ⟨hw, -, -⟩ := (vlmCore_ok_iff _ _ _ _ _ _ _ _ _).1 hso
  obtain ⟨k, hk, rfl⟩ := List.mem_iff_getElem.1 hx
  have hl : k < r.vars.length := by
    rw [(calculateVlmVariables_ok hv).1]
    rw [har] at hk
    simpa [getPanelsArea] using hk
  have := hw.areas ⟨k, hl⟩
  simpa [← har, List.getElem?_eq_getElem hk] using this

end PySailing
