import Verif.Props.Main

/-!
# C98: only the wind vector at the heights of the sails matters
-/

namespace PySailing.Props

open PySailing Spec

/-- Two wind objects with the same true wind vector at every height above the water and the same boat speed. -/
structure SameWind (w w' : WindObj) : Prop where
  tws : ∀ h, 0 ≤ h → w.trueWindAt h = w'.trueWindAt h
  boat : w.vYacht = w'.vYacht

/-- The same solver result, with another wind object remembered. -/
def relabel (w : WindObj) (r : Vlm) : Vlm :=
  ⟨{ r.input with wind := w }, r.areas, r.vars, { r.inlet with winds := w }, r.sol⟩

theorem inlet_sameWind {w w' : WindObj} (h : SameWind w w') (rho : ℝ) (cps : List V3) :
    inletConditions w rho cps = (inletConditions w' rho cps).map fun i => { i with winds := w } := by
  have e1 : (fun p : V3 => w.trueWindAt |p.z|) = fun p => w'.trueWindAt |p.z| := funext fun p => h.tws _ (abs_nonneg _)
  have e2 : w.appInfs = w'.appInfs := funext fun p => by simp only [WindObj.appInfs, h.boat]
  unfold inletConditions
  rw [e1, e2]
  cases cps.mapM fun p : V3 => w'.trueWindAt |p.z| with
  | error e => rfl
  | ok tws =>
    by_cases ht : tws = []
    · simp only [bind, Except.bind, ht, if_true]; rfl
    · simp only [bind, Except.bind, ht, if_false]; rfl

theorem nanTrap_map {α β : Type} (f : α → β) (x : Py α) : nanTrap (x.map f) = (nanTrap x).map f := by
  rcases x with (e | a)
  · cases e <;> rfl
  · rfl

theorem vlm_sameWind {w : WindObj} (a : VlmInput) (h : SameWind w a.wind) :
    vlm { a with wind := w } = (vlm a).map (relabel w) := by
  unfold vlm
  simp only [inlet_sameWind h, nanTrap_map]
  cases nanTrap (calculateVlmVariables a.panels a.te a.g a.nc a.ns) with
  | error e => rfl
  | ok vars =>
    simp only [bind, Except.bind]
    cases nanTrap (inletConditions a.wind a.rho (vars.map PanelVars.cp)) with
    | error e => rfl
    | ok i =>
      simp only [Except.map]
      have : vlmSolve { a with wind := w } vars i.vAppInfs = vlmSolve a vars i.vAppInfs := rfl
      rw [this]
      cases vlmSolve a vars i.vAppInfs <;> rfl

/-- The same prepared run, with another wind object remembered. -/
def relabelRun (w : WindObj) (p : Prepared) : Prepared := { p with vlm := relabel w p.vlm }

theorem prepare_sameWind (spline : SplineFn) (c : Config) (w : WindConditions)
    (h : SameWind (windGetProfile w) (windGetProfile c.wind)) (hp : windPostInit w = windPostInit c.wind) :
    prepare spline { c with wind := w } = (prepare spline c).map (relabelRun (windGetProfile w)) := by
  have hg : prepareGeometry spline { c with wind := w } =
      (prepareGeometry spline c).map fun g => (g.1, windGetProfile w, g.2.2) := by
    unfold prepareGeometry
    simp only [hp]
    cases mainSailInit c.main with
    | error e => rfl
    | ok m =>
    cases jibSailInit c.jib with
    | error e => rfl
    | ok j =>
    simp only [bind, Except.bind]
    cases csysInit c.heelDeg c.leewayDeg c.vRef with
    | error e => rfl
    | ok cs =>
    simp only []
    cases windPostInit c.wind with
    | error e => rfl
    | ok _ =>
    simp only []
    cases sailPostInit c.rig (some m) (some j) with
    | error e => rfl
    | ok _ =>
    simp only []
    cases sailSetOf spline c.solver c.rig (some m) (some j) cs with
    | error e => rfl
    | ok set =>
    simp only []
    cases need c.rig.base with
    | error e => rfl
    | ok b =>
    simp only []
    cases hullGeometry c.rig.sheer b cs c.clrUpright <;> rfl
  have hw : ∀ g, prepareGeometry spline c = .ok g → g.2.1 = windGetProfile c.wind := fun g hg' => by
    unfold prepareGeometry at hg'
    simp only [bind, Except.bind] at hg'
    repeat (split at hg'; · exact absurd hg' (by simp))
    cases hg'
    rfl
  unfold prepare
  rw [hg]
  cases hgc : prepareGeometry spline c with
  | error e => rfl
  | ok g =>
    simp only [Except.map, bind, Except.bind]
    have e1 : Config.vlmInput { c with wind := w } g.2.2.1 (windGetProfile w) =
        { c.vlmInput g.2.2.1 g.2.1 with wind := windGetProfile w } := rfl
    rw [e1, vlm_sameWind (c.vlmInput g.2.2.1 g.2.1) (by rw [show (c.vlmInput g.2.2.1 g.2.1).wind = g.2.1 from rfl, hw g hgc]; exact h)]
    cases vlm (c.vlmInput g.2.2.1 g.2.1) with
    | error e => rfl
    | ok r =>
      simp only [Except.map]
      have e2 : (relabel (windGetProfile w) r).flowArrays = r.flowArrays := rfl
      rw [e2]
      cases inviscidFlow g.2.2.1.sails g.1 r.flowArrays <;> rfl

theorem prepare_winds {spline : SplineFn} {c : Config} {p : Prepared} (h : prepare spline c = .ok p) :
    p.vlm.inlet.winds = windGetProfile c.wind := by
  have := prepare_sameWind spline c c.wind ⟨fun _ _ => rfl, rfl⟩ rfl
  rw [show ({ c with wind := c.wind } : Config) = c from rfl, h] at this
  have hp : p = relabelRun (windGetProfile c.wind) p := Except.ok.inj this
  rw [hp]
  rfl

/-- The two tables differ at most in the sheet of the wind at the reference height. -/
def SameButWindSheet (t t' : Option SavedResults) : Prop :=
  t.map (·.components) = t'.map (·.components) ∧ t.map (·.integrals) = t'.map (·.integrals)

/-- The two outputs are the same, but for the sheet of the wind at the reference height. -/
inductive SameOutput : Effect → Effect → Prop
  | workbook {t t'} : SameButWindSheet t t' → SameOutput (.workbook t) (.workbook t')
  | other (e) : SameOutput e e

theorem saveResults_relabel (r : Vlm) (csys : Csys) (o : FlowObject) (sails : List SailGeom) (csys0 : Csys) {w : WindObj}
    (hi : ∃ t, windIntegral w csys0 = .ok t) (hi' : ∃ t, windIntegral r.inlet.winds csys0 = .ok t) :
    (saveResults (relabel w r) csys o sails csys0).map (fun t => (t.components, t.integrals)) =
      (saveResults r csys o sails csys0).map fun t => (t.components, t.integrals) := by
  obtain ⟨t, ht⟩ := hi
  obtain ⟨t', ht'⟩ := hi'
  unfold saveResults
  rw [show (relabel w r).inlet.winds = w from rfl, ht, ht']
  simp only [bind, Except.bind]
  rw [show (relabel w r).vars = r.vars from rfl]
  cases cpGirthsAll sails csys (r.vars.map PanelVars.cp) with
  | error e => rfl
  | ok g =>
    simp only []
    cases cpGirthsAbove g.1 sails with
    | error e => rfl
    | ok ga =>
      simp only []
      cases arraySplit g.2 (2 * sails.length) <;> rfl

theorem emit_same {x y : Py SavedResults}
    (h : x.map (fun t => (t.components, t.integrals)) = y.map fun t => (t.components, t.integrals)) (l : List (Py Effect)) :
    List.Forall₂ SameOutput (emit ((nanAsNone x).map .workbook :: l)).1 (emit ((nanAsNone y).map .workbook :: l)).1 ∧
      (emit ((nanAsNone x).map .workbook :: l)).2 = (emit ((nanAsNone y).map .workbook :: l)).2 := by
  have hrefl : ∀ l : List Effect, List.Forall₂ SameOutput l l := fun l => List.forall₂_same.2 fun e _ => .other e
  rcases x with (e | a) <;> rcases y with (e' | b)
  · cases Except.error.inj h
    exact ⟨hrefl _, rfl⟩
  · cases h
  · cases h
  · have := Except.ok.inj h
    simp only [Prod.mk.injEq] at this
    refine ⟨?_, rfl⟩
    exact .cons (.workbook ⟨congrArg some this.1, congrArg some this.2⟩) (hrefl _)

/-- **C98.** If two descriptions of the wind give the same true wind vector at every height above the water (and the same boat
speed, and pass the check), the program writes the same files and ends in the same way, but for the sheet of the
wind at the reference height. -/
theorem C98_same_wind (spline : SplineFn) (c : Config) (w : WindConditions)
    (h : SameWind (windGetProfile w) (windGetProfile c.wind)) (hp : windPostInit w = windPostInit c.wind)
    (hi : ∀ csys, ∃ t, windIntegral (windGetProfile w) csys = .ok t)
    (hi' : ∀ csys, ∃ t, windIntegral (windGetProfile c.wind) csys = .ok t) :
    List.Forall₂ SameOutput (run spline { c with wind := w }).1 (run spline c).1 ∧
      (run spline { c with wind := w }).2 = (run spline c).2 := by
  unfold run
  rw [prepare_sameWind spline c w h hp]
  cases hpc : prepare spline c with
  | error e => exact ⟨.nil, rfl⟩
  | ok p =>
    simp only [Except.map]
    obtain ⟨t', ht'⟩ := hi' p.csys
    rw [← prepare_winds hpc] at ht'
    have hs := saveResults_relabel p.vlm p.csys p.flow p.set.sails p.csys (hi p.csys) ⟨t', ht'⟩
    have hrest : (outputSteps { c with wind := w } (relabelRun (windGetProfile w) p)).tail = (outputSteps c p).tail := rfl
    have h1 : outputSteps { c with wind := w } (relabelRun (windGetProfile w) p) =
        (nanAsNone (saveResults (relabel (windGetProfile w) p.vlm) p.csys p.flow p.set.sails p.csys)).map .workbook ::
          (outputSteps c p).tail := by rw [← hrest]; rfl
    have h2 : outputSteps c p = (nanAsNone (saveResults p.vlm p.csys p.flow p.set.sails p.csys)).map .workbook ::
          (outputSteps c p).tail := rfl
    rw [h1, h2]
    simp only [List.tail_cons]
    exact emit_same hs _

/-- **C98.** If the wind at the reference height is the same, too, the output is the same. -/
theorem C98_same_run (spline : SplineFn) (c : Config) (w : WindConditions)
    (h : SameWind (windGetProfile w) (windGetProfile c.wind)) (hp : windPostInit w = windPostInit c.wind)
    (hi : ∀ csys, windIntegral (windGetProfile w) csys = windIntegral (windGetProfile c.wind) csys) :
    run spline { c with wind := w } = run spline c := by
  unfold run
  rw [prepare_sameWind spline c w h hp]
  cases hpc : prepare spline c with
  | error e => rfl
  | ok p =>
    simp only [Except.map]
    have hw : p.vlm.inlet.winds = windGetProfile c.wind := prepare_winds hpc
    have e1 : saveResults (relabel (windGetProfile w) p.vlm) p.csys p.flow p.set.sails p.csys =
        saveResults p.vlm p.csys p.flow p.set.sails p.csys := by
      unfold saveResults
      rw [show (relabel (windGetProfile w) p.vlm).inlet.winds = windGetProfile w from rfl, hi, hw]
      rfl
    have e2 : outputSteps { c with wind := w } (relabelRun (windGetProfile w) p) = outputSteps c p := by
      unfold outputSteps relabelRun
      simp only [e1]
      rfl
    rw [e2]

theorem deg2rad_turns (a : ℝ) (k : ℤ) : deg2rad (a + 360 * k) = deg2rad a + k * (2 * Real.pi) := by
  simp only [deg2rad]; ring

theorem lengthToXyz_turns (w : WindObj) (k : ℤ) (s : ℝ) :
    { w with alphaDeg := w.alphaDeg + 360 * k }.lengthToXyz s = w.lengthToXyz s := by
  simp only [WindObj.lengthToXyz, WindObj.alpha, deg2rad_turns, Real.cos_add_int_mul_two_pi, Real.sin_add_int_mul_two_pi]

theorem lengthToXyz_reversed (w : WindObj) (s : ℝ) :
    { w with alphaDeg := w.alphaDeg + 180, twsRef := -w.twsRef }.lengthToXyz (-s) = w.lengthToXyz s := by
  have : deg2rad (w.alphaDeg + 180) = deg2rad w.alphaDeg + Real.pi := by
    simp only [deg2rad]; ring
  simp only [WindObj.lengthToXyz, WindObj.alpha, this, Real.cos_add_pi, Real.sin_add_pi, neg_mul_neg]

/-- **C98.** The wind angle is only used modulo full turns. -/
theorem C98_full_turns (spline : SplineFn) (c : Config) (k : ℤ) :
    run spline { c with wind := { c.wind with alphaDeg := c.wind.alphaDeg + 360 * k } } = run spline c := by
  have e : ∀ s, (windGetProfile { c.wind with alphaDeg := c.wind.alphaDeg + 360 * k }).lengthToXyz s =
    (windGetProfile c.wind).lengthToXyz s := fun s => lengthToXyz_turns (windGetProfile c.wind) k s
  refine C98_same_run spline c _ ⟨fun h _ => ?_, rfl⟩ rfl fun csys => ?_
  · unfold WindObj.trueWindAt
    simp only [e]
    rfl
  · unfold windIntegral
    simp only [e]
    rfl

/-- **C98.** A wind of negative speed is the wind from the opposite direction. -/
theorem C98_reversed (spline : SplineFn) (c : Config) :
    run spline { c with wind := { c.wind with alphaDeg := c.wind.alphaDeg + 180, twsRef := -c.wind.twsRef } } =
      run spline c := by
  have e : ∀ s, (windGetProfile { c.wind with alphaDeg := c.wind.alphaDeg + 180, twsRef := -c.wind.twsRef }).lengthToXyz (-s) =
    (windGetProfile c.wind).lengthToXyz s := fun s => lengthToXyz_reversed (windGetProfile c.wind) s
  have e' : (windGetProfile { c.wind with alphaDeg := c.wind.alphaDeg + 180, twsRef := -c.wind.twsRef }).twsRef =
    -(windGetProfile c.wind).twsRef := rfl
  refine C98_same_run spline c _ ⟨fun h _ => ?_, rfl⟩ rfl fun csys => ?_
  · unfold WindObj.trueWindAt
    simp only [e', neg_mul, e]
    rfl
  · unfold windIntegral
    simp only [e', neg_mul, e]
    rfl

/-- The exponential profile with exponent 0 is the flat profile. -/
theorem sameWind_flat (alphaDeg twsRef sog ref wl : ℝ) (rough : Option ℝ) :
    SameWind (windGetProfile ⟨alphaDeg, twsRef, sog, "flat", some 0, some ref, some wl, rough⟩)
      (windGetProfile ⟨alphaDeg, twsRef, sog, "exponential", some 0, some ref, some wl, rough⟩) := by
  refine ⟨fun h _ => ?_, rfl⟩
  have : WindObj.expFactor 0 ref wl h = .ok 1 := by
    unfold WindObj.expFactor
    split_ifs <;> first | rfl | simp_all
  simp only [windGetProfile, WindObj.trueWindAt, if_true, String.reduceEq, if_false, this, bind, Except.bind, mul_one]
  rfl

/-- **C98.** In particular the exponential profile with exponent 0 gives the same results as the flat profile. -/
theorem C98_flat_profile (spline : SplineFn) (c : Config) (alphaDeg twsRef sog ref wl : ℝ) (rough : Option ℝ) (hr : ref ≠ 0)
    (hc : c.wind = ⟨alphaDeg, twsRef, sog, "exponential", some 0, some ref, some wl, rough⟩) :
    List.Forall₂ SameOutput (run spline { c with wind := { c.wind with profile := "flat" } }).1 (run spline c).1 ∧
      (run spline { c with wind := { c.wind with profile := "flat" } }).2 = (run spline c).2 := by
  rw [hc]
  refine C98_same_wind spline c _ ?_ ?_ ?_ ?_
  · rw [hc]; exact sameWind_flat alphaDeg twsRef sog ref wl rough
  · rw [hc]; simp [windPostInit]
  · exact fun csys => ⟨_, rfl⟩
  · intro csys
    rw [hc]
    have hf : expFactorFloat 0 ref wl ref = .ok 1 := by simp [expFactorFloat, hr]
    simp only [windGetProfile, windIntegral, if_true, hf, bind, Except.bind]
    exact ⟨_, rfl⟩

/-- Non-vacuity: the two descriptions of a wind of 5 m/s, whatever the height. -/
example : SameWind (windGetProfile ⟨50, 5, 3, "flat", some 0, some 10, some 0, none⟩)
      (windGetProfile ⟨50, 5, 3, "exponential", some 0, some 10, some 0, none⟩) ∧
    WellFormed { wellFormedConfig with wind := ⟨50, 5, 3, "exponential", some 0, some 10, some 0, none⟩ } :=
  ⟨sameWind_flat _ _ _ _ _ _, { wellFormed_demo with wind := by simp [WindIncomplete] }⟩

/-- Without wind the profile does not matter. -/
theorem sameWind_calm {k ref wl : ℝ} (alphaDeg sog : ℝ) (rough : Option ℝ) (hk : 0 ≤ k) (hr : 0 < ref) (hw : wl ≤ 0) :
    SameWind (windGetProfile ⟨alphaDeg, 0, sog, "flat", some k, some ref, some wl, rough⟩)
      (windGetProfile ⟨alphaDeg, 0, sog, "exponential", some k, some ref, some wl, rough⟩) := by
  refine ⟨fun h h0 => ?_, rfl⟩
  have hb : 0 ≤ (h - wl) / ref := div_nonneg (by linarith) hr.le
  have : ∃ f, WindObj.expFactor k ref wl h = .ok f := by
    unfold WindObj.expFactor
    rw [if_neg hr.ne']
    by_cases h0 : k = 0
    · exact ⟨1, by simp only [h0, if_true]⟩
    · exact ⟨((h - wl) / ref) ^ k, by simp only [h0, if_false, hb.not_gt, false_and, hk.not_gt, and_false]⟩
  obtain ⟨f, hf⟩ := this
  simp only [windGetProfile, WindObj.trueWindAt, if_true, String.reduceEq, if_false, hf, bind, Except.bind, zero_mul]
  rfl

/-- **C98.** A yacht that moves in a calm: the exponential profile gives the same results as the flat profile. -/
theorem C98_calm (spline : SplineFn) (c : Config) {k ref wl : ℝ} {alphaDeg sog : ℝ} {rough : Option ℝ} (hk : 0 ≤ k)
    (hr : 0 < ref) (hw : wl ≤ 0)
    (hc : c.wind = ⟨alphaDeg, 0, sog, "exponential", some k, some ref, some wl, rough⟩) :
    List.Forall₂ SameOutput (run spline { c with wind := { c.wind with profile := "flat" } }).1 (run spline c).1 ∧
      (run spline { c with wind := { c.wind with profile := "flat" } }).2 = (run spline c).2 := by
  rw [hc]
  refine C98_same_wind spline c _ ?_ ?_ ?_ ?_
  · rw [hc]; exact sameWind_calm alphaDeg sog rough hk hr hw
  · rw [hc]; simp [windPostInit]
  · exact fun csys => ⟨_, rfl⟩
  · intro csys
    rw [hc]
    have hb : 0 < (ref - wl) / ref := div_pos (by linarith) hr
    have hf : ∃ f, expFactorFloat k ref wl ref = .ok f := by
      unfold expFactorFloat
      rw [if_neg hr.ne']
      by_cases h0 : k = 0
      · exact ⟨1, by simp only [h0, if_true]⟩
      · exact ⟨((ref - wl) / ref) ^ k, by simp only [h0, if_false, hb.not_gt, false_and, hb.ne']⟩
    obtain ⟨f, hf⟩ := hf
    simp only [windGetProfile, windIntegral, if_true, hf, bind, Except.bind]
    exact ⟨_, rfl⟩

/-- Non-vacuity: a yacht with a speed of 3 m/s in a calm. -/
example : WellFormed { wellFormedConfig with wind := ⟨50, 0, 3, "exponential", some (1 / 7), some 10, some 0, none⟩ } ∧
    (0 : ℝ) ≤ 1 / 7 ∧ (0 : ℝ) < 10 ∧ (0 : ℝ) ≤ 0 :=
  ⟨{ wellFormed_demo with wind := by simp [WindIncomplete] }, by norm_num, by norm_num, le_refl _⟩

end PySailing.Props
