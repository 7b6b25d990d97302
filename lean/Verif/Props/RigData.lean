import Verif.Spec.RigData
import Verif.Props.JibMoved

/-!
# C147: data of the rig that describe the same sails
-/

namespace PySailing.Props

open Spec

theorem emit_sameButHull {xs ys : List (Py Effect)}
    (h : List.Forall₂ (fun x y : Py Effect => x.map withoutHull = y.map withoutHull) xs ys) : SameButHull (emit xs) (emit ys) := by
  induction h with
  | nil => exact ⟨rfl, rfl⟩
  | @cons x y xs ys hxy _ ih =>
    cases x with
    | error e =>
      cases y with
      | error e' =>
        obtain rfl : e = e' := by simpa [Except.map] using hxy
        exact ⟨rfl, rfl⟩
      | ok b => cases hxy
    | ok a =>
      cases y with
      | error e' => cases hxy
      | ok b =>
        have hab : withoutHull a = withoutHull b := by simpa [Except.map] using hxy
        refine ⟨?_, ih.2⟩
        simp only [emit, List.map_cons]
        rw [hab, ih.1]

theorem scene_sameButHull (r : Vlm) (res : FlowResults) {hull hull' : Hull} (h : hull'.clr = hull.clr) :
    ((nanAsNone (displayScene r res hull' false false)).map Effect.picture).map withoutHull =
      ((nanAsNone (displayScene r res hull false false)).map Effect.picture).map withoutHull := by
  have hf : displayCeClr res hull' = displayCeClr res hull := by
    unfold displayCeClr
    rw [h]
  unfold displayScene
  rw [hf]
  simp only [bind, Except.bind]
  repeat' split
  all_goals first
    | rfl
    | simp_all
  all_goals rfl

/-- Rig data that give the same sails and pass the same checks give the same run, apart from the hull. -/
theorem run_sameSails (spline : SplineFn) (c : Config) (rig : RigConf) {b b' : ℝ} (hb : c.rig.base = some b)
    (hb' : rig.base = some b') (hpost : ∀ m j, sailPostInit rig m j = sailPostInit c.rig m j)
    (hset : ∀ m j csys, sailSetOf spline c.solver rig m j csys = sailSetOf spline c.solver c.rig m j csys) :
    SameButHull (run spline { c with rig := rig }) (run spline c) := by
  have key : (∃ e, prepare spline c = .error e ∧ prepare spline { c with rig := rig } = .error e) ∨
      ∃ p hull, prepare spline c = .ok p ∧ prepare spline { c with rig := rig } = .ok { p with hull := hull } ∧ hull.clr = p.hull.clr := by
    obtain ⟨h1, e1, r1, -⟩ := C57_hull c.rig.sheer b ⟨c.heelDeg, c.leewayDeg, c.vRef⟩ c.clrUpright
    obtain ⟨h2, e2, r2, -⟩ := C57_hull rig.sheer b' ⟨c.heelDeg, c.leewayDeg, c.vRef⟩ c.clrUpright
    unfold prepare prepareGeometry
    simp only [hpost, hset, hb, hb', need, C59_csys_constructor_total, e1, e2, bind, Except.bind]
    cases mainSailInit c.main with
    | error e => exact Or.inl ⟨e, rfl, rfl⟩
    | ok main =>
    cases jibSailInit c.jib with
    | error e => exact Or.inl ⟨e, rfl, rfl⟩
    | ok jib =>
    cases windPostInit c.wind with
    | error e => exact Or.inl ⟨e, rfl, rfl⟩
    | ok _ =>
    simp only
    cases sailPostInit c.rig (some main) (some jib) with
    | error e => exact Or.inl ⟨e, rfl, rfl⟩
    | ok _ =>
    simp only
    cases sailSetOf spline c.solver c.rig (some main) (some jib) ⟨c.heelDeg, c.leewayDeg, c.vRef⟩ with
    | error e => exact Or.inl ⟨e, rfl, rfl⟩
    | ok set =>
    simp only
    have hv : Config.vlmInput { c with rig := rig } set (windGetProfile c.wind) = c.vlmInput set (windGetProfile c.wind) := rfl
    rw [hv]
    cases vlm (c.vlmInput set (windGetProfile c.wind)) with
    | error e => exact Or.inl ⟨e, rfl, rfl⟩
    | ok r =>
    simp only
    cases inviscidFlow set.sails ⟨c.heelDeg, c.leewayDeg, c.vRef⟩ r.flowArrays with
    | error e => exact Or.inl ⟨e, rfl, rfl⟩
    | ok res =>
    simp only
    refine Or.inr ⟨_, h2, rfl, ?_, r2.trans r1.symm⟩
    rw [r1, r2]
  unfold run
  rcases key with ⟨e, k1, k2⟩ | ⟨p, hull, k1, k2, k3⟩
  · rw [k1, k2]
    exact ⟨rfl, rfl⟩
  · rw [k1, k2]
    refine emit_sameButHull ?_
    unfold outputSteps
    exact .cons rfl (.cons rfl (.cons (scene_sameButHull _ _ k3) (.cons rfl (.cons rfl (.cons rfl .nil)))))

/-- **C147, main sail alone.**  What matters for a main sail alone is the height of its tack: a higher deck with an
equally lower boom, and any base of the foretriangle, give the same workbook, the same figures and the same picture
apart from the lines of the hull. -/
theorem C147_main (spline : SplineFn) (c : Config) (hd : c.rig.sailsDef = "main") (b : ℝ) (hb : c.rig.base = some b)
    (sheer boom base : ℝ) (hs : sheer + boom = c.rig.sheer + c.rig.boom) :
    SameButHull (run spline (withDeckAt sheer boom base c)) (run spline c) := by
  refine run_sameSails spline c _ hb rfl (fun m j => ?_) fun m j csys => ?_
  · unfold sailPostInit sailChecks
    simp [hd]
    rfl
  · show sailSetOf spline c.solver (withDeckAt sheer boom base c).rig m j csys = _
    unfold sailSetOf selectedJib selectedMain
    have hm : sailMain spline c.solver (withDeckAt sheer boom base c).rig m csys =
        sailMain spline c.solver c.rig m csys := by
      have e : ∀ luff, SailFactory.mainMounting ⟨csys, c.solver.ns, c.solver.nc, c.rig.rakeDeg, sheer⟩ luff boom =
          SailFactory.mainMounting ⟨csys, c.solver.ns, c.solver.nc, c.rig.rakeDeg, c.rig.sheer⟩ luff c.rig.boom := by
        intro luff
        have h1 : ∀ x : ℝ, -sheer * x + -boom * x = -c.rig.sheer * x + -c.rig.boom * x := by
          intro x; linear_combination (-x) * hs
        have h2 : ∀ x : ℝ, sheer * x + boom * x = c.rig.sheer * x + c.rig.boom * x := by
          intro x; linear_combination x * hs
        simp only [SailFactory.mainMounting, SailFactory.sheerXyz, SailFactory.rake, h1, h2]
      unfold sailMain SailFactory.makeMainSail RigConf.factory withDeckAt
      simp only [e]
    have n : ¬ (c.rig.sailsDef = "jib" ∨ c.rig.sailsDef = "jib_and_main") := by rw [hd]; decide
    have hs : (withDeckAt sheer boom base c).rig.sailsDef = c.rig.sailsDef := rfl
    rw [hs, hm, if_neg n, if_neg n]

/-- Non-vacuity of `C147_main`: the demonstration run with its deck lowered to a quarter of a metre and its boom raised
accordingly; a workbook is written by both runs. -/
example (spline : SplineFn) : SameButHull (run spline (withDeckAt (1 / 4) (3 / 4) 2 Demo.config)) (run spline Demo.config) ∧
    (∃ t, .workbook (some t) ∈ (run spline Demo.config).1) ∧ (withDeckAt (1 / 4) (3 / 4) 2 Demo.config).rig.sheer ≠ Demo.config.rig.sheer :=
  ⟨C147_main spline _ rfl 1 rfl _ _ _ (by norm_num [Demo.config, demoRig]), demo_workbook spline,
    by norm_num [withDeckAt, Demo.config, demoRig]⟩

/-- **C147, foretriangle.**  For every choice of sails, of the foretriangle only the shape and the place of its foremost
point matter: a foretriangle of the same shape and another size, with the mast moved such that the foremost point stays,
gives the same workbook, the same figures and the same picture apart from the lines of the hull. -/
theorem C147_foretriangle (spline : SplineFn) (c : Config) (k base height : ℝ) (hk : 0 < k) (hb : c.rig.base = some base)
    (hh : c.rig.height = some height) : SameButHull (run spline (withForetriangle k base height c)) (run spline c) := by
  refine run_sameSails spline c _ hb rfl (fun m j => ?_) fun m j csys => ?_
  · unfold sailPostInit sailChecks
    simp [jibScalars, mainScalars, hb, hh, hasNone]
  · have e : ∀ f : SailFactory, f.rakeDeg = c.rig.rakeDeg → ∀ luff,
        f.jibMounting luff (k * base) (k * height) (c.rig.mastLOA - (k - 1) * base * Real.sin (deg2rad c.rig.rakeDeg)) =
          f.jibMounting luff base height c.rig.mastLOA := by
      intro f hf luff
      have hr : f.rake = deg2rad c.rig.rakeDeg := by unfold SailFactory.rake; rw [hf]
      have hq : Real.sqrt (k * base * (k * base) + k * height * (k * height) - 2 * (k * base) * (k * height) * Real.cos f.rake) =
          k * Real.sqrt (base * base + height * height - 2 * base * height * Real.cos f.rake) := by
        rw [show k * base * (k * base) + k * height * (k * height) - 2 * (k * base) * (k * height) * Real.cos f.rake =
          k ^ 2 * (base * base + height * height - 2 * base * height * Real.cos f.rake) by ring,
          Real.sqrt_mul (sq_nonneg k), Real.sqrt_sq hk.le]
      unfold SailFactory.jibMounting
      simp only [hq, mul_eq_zero, hk.ne', false_or, ← hr]
      split_ifs with h1 h2
      · rfl
      · rfl
      · have ea : k * height * Real.sin f.rake / (k * Real.sqrt (base * base + height * height - 2 * base * height * Real.cos f.rake)) =
            height * Real.sin f.rake / Real.sqrt (base * base + height * height - 2 * base * height * Real.cos f.rake) := by
          rw [mul_assoc, mul_div_mul_left _ _ hk.ne']
        have et : -(k * base) + f.sheerXyz.x - (c.rig.mastLOA - (k - 1) * base * Real.sin f.rake) / Real.sin f.rake =
            -base + f.sheerXyz.x - c.rig.mastLOA / Real.sin f.rake := by
          field_simp
          ring
        rw [ea, et]
    have hj : sailJib spline c.solver (withForetriangle k base height c).rig j csys = sailJib spline c.solver c.rig j csys := by
      unfold sailJib SailFactory.makeJib RigConf.factory withForetriangle
      simp only [hb, hh, need, bind, Except.bind]
      simp only [e ⟨csys, c.solver.ns, c.solver.nc, c.rig.rakeDeg, c.rig.sheer⟩ rfl]
    have hm : sailMain spline c.solver (withForetriangle k base height c).rig m csys = sailMain spline c.solver c.rig m csys := rfl
    have hs : (withForetriangle k base height c).rig.sailsDef = c.rig.sailsDef := rfl
    show sailSetOf spline c.solver (withForetriangle k base height c).rig m j csys = _
    unfold sailSetOf selectedJib selectedMain
    simp only [hj, hm, hs]

/-- Non-vacuity of `C147_foretriangle`: a jib alone on a foretriangle twice as large; a workbook is written by both
runs. -/
example : SameButHull (run fitpackSpline (withForetriangle 2 1 2 demoJibAlone)) (run fitpackSpline demoJibAlone) ∧
    (∃ t, .workbook (some t) ∈ (run fitpackSpline demoJibAlone).1) ∧
    (withForetriangle 2 1 2 demoJibAlone).rig.base = some 2 ∧ demoJibAlone.rig.base = some 1 :=
  ⟨C147_foretriangle fitpackSpline _ 2 1 2 two_pos rfl rfl, jibAlone_workbook, by simp [withForetriangle], rfl⟩

end PySailing.Props
