import Verif.Model.ArithRun
import Verif.Lemmas.ArithSailExact
import Verif.Lemmas.Csys
import Verif.Props.NearRun

/-!
# With exact operations the program of `Model/ArithRun.lean` is that of `Model/Main.lean`
-/

namespace PySailing

open Spec

namespace ExactRun

theorem map_bind {α β γ : Type} (x : Py α) (f : α → Py β) (g : β → γ) : (x >>= f).map g = x >>= fun a => (f a).map g := by
  cases x <;> rfl

theorem withTwist (c : SailConf) (a b : ℝ) : exactRun.withTwist c a b = c.withTwist a b := rfl

theorem interp1 (x : ℝ) : ∀ ps : List (ℝ × ℝ), exactRun.interp1 x ps = .ok (PySailing.interp1 x ps)
  | [] => rfl
  | [(_, _)] => rfl
  | (a, fa) :: (b, fb) :: rest => by
    unfold RunArith.interp1 PySailing.interp1
    by_cases h1 : x < b
    · by_cases h2 : x ≤ a
      · simp only [if_pos h1, if_pos h2]
      · have : exactRun.sub b a ≠ 0 := by
          show b - a ≠ 0
          have := not_le.1 h2
          linarith
        simp only [if_pos h1, if_neg h2, if_neg this]
        rfl
    · simp only [if_neg h1]
      exact interp1 x _

theorem npInterp (xn xs ys : List ℝ) : exactRun.npInterp xn xs ys = PySailing.npInterp xn xs ys := by
  unfold RunArith.npInterp PySailing.npInterp
  split_ifs
  · rfl
  · rfl
  · exact mapM_ok fun x _ => interp1 x _

theorem interpolateGirths (kind : String) (x y : List ℝ) (n : ℕ) :
    exactRun.interpolateGirths kind x y n = PySailing.interpolateGirths fitpackSpline kind x y n := by
  unfold RunArith.interpolateGirths PySailing.interpolateGirths
  simp only [npInterp]
  rw [show exactRun.linspace01 n = PySailing.linspace01 n from ExactSail.linspace01 n]
  rfl

theorem interpolatedSail (s : SolverConf) (c : SailConf) :
    exactRun.interpolatedSail s c = PySailing.interpolatedSail fitpackSpline s c := by
  unfold RunArith.interpolatedSail PySailing.interpolatedSail
  simp only [interpolateGirths]

theorem mainMounting (f : SailFactory) (luff boom : ℝ) : exactRun.mainMounting f luff boom = f.mainMounting luff boom := rfl

/-- The sine theorem never gives more than one. -/
theorem sine_le {b h r : ℝ} (hf : Real.sqrt (b * b + h * h - 2 * b * h * Real.cos r) ≠ 0) :
    |h * Real.sin r / Real.sqrt (b * b + h * h - 2 * b * h * Real.cos r)| ≤ 1 := by
  have hpos : 0 < Real.sqrt (b * b + h * h - 2 * b * h * Real.cos r) := lt_of_le_of_ne (Real.sqrt_nonneg _) hf.symm
  rw [abs_div, abs_of_pos hpos, div_le_one hpos]
  refine Real.abs_le_sqrt ?_
  nlinarith [Real.sin_sq_add_cos_sq r, sq_nonneg (b - h * Real.cos r)]

theorem square_nonneg (b h r : ℝ) : 0 ≤ b * b + h * h - 2 * b * h * Real.cos r := by
  nlinarith [Real.sin_sq_add_cos_sq r, sq_nonneg (b - h * Real.cos r), sq_nonneg (h * Real.sin r)]

theorem jibMounting (f : SailFactory) (luff base height mastLOA : ℝ) :
    exactRun.jibMounting f luff base height mastLOA = f.jibMounting luff base height mastLOA := by
  classical
  unfold RunArith.jibMounting SailFactory.jibMounting
  have e : exactRun.forestaySquare f base height = base * base + height * height - 2 * base * height * Real.cos f.rake := rfl
  have e2 : exactRun.sqrt = Real.sqrt := rfl
  have e3 : exactRun.sin (exactRun.rake f) = Real.sin f.rake := rfl
  have h0 : ¬ base * base + height * height - 2 * base * height * Real.cos f.rake < 0 := not_lt.2 (square_nonneg _ _ _)
  simp only [e, e2, e3, h0, false_or]
  by_cases h1 : Real.sqrt (base * base + height * height - 2 * base * height * Real.cos f.rake) = 0
  · simp only [if_pos h1]
  · simp only [if_neg h1]
    by_cases h2 : Real.sin f.rake = 0
    · simp only [if_pos h2]
    · have h3 : ¬ 1 < |exactRun.div (exactRun.mul height (Real.sin f.rake))
          (Real.sqrt (base * base + height * height - 2 * base * height * Real.cos f.rake))| := not_lt.2 (sine_le h1)
      simp only [if_neg h2, if_neg h3]
      rfl

theorem jibInput (s : SolverConf) (rig : RigConf) (jib : SailConf) (csys : Csys) :
    (exactRun.jibInput s rig jib csys >>= exactRun.sailGeometry) = sailJib fitpackSpline s rig (some jib) csys := by
  unfold RunArith.jibInput sailJib SailFactory.makeJib
  simp only [interpolatedSail, jibMounting]
  rw [show exactRun.sailGeometry = PySailing.sailGeometry from funext ExactSail.sailGeometry]
  simp only [Bind.bind, Except.bind, attr]
  cases PySailing.interpolatedSail fitpackSpline s jib with
  | error e => rfl
  | ok x =>
    simp only
    cases need rig.jibLuff with
    | error e => rfl
    | ok luff =>
      simp only
      cases need rig.base with
      | error e => rfl
      | ok base =>
        simp only
        cases need rig.height with
        | error e => rfl
        | ok height =>
          simp only
          cases (rig.factory s csys).jibMounting luff base height rig.mastLOA <;> rfl

theorem mainInput (s : SolverConf) (rig : RigConf) (main : SailConf) (csys : Csys) :
    (exactRun.mainInput s rig main csys >>= exactRun.sailGeometry) = sailMain fitpackSpline s rig (some main) csys := by
  unfold RunArith.mainInput sailMain SailFactory.makeMainSail
  simp only [interpolatedSail, mainMounting]
  rw [show exactRun.sailGeometry = PySailing.sailGeometry from funext ExactSail.sailGeometry]
  simp only [Bind.bind, Except.bind, attr]
  cases PySailing.interpolatedSail fitpackSpline s main with
  | error e => rfl
  | ok x =>
    simp only
    cases need rig.mainLuff <;> rfl

theorem sailSetOf (s : SolverConf) (rig : RigConf) (main jib : SailConf) (csys : Csys) :
    exactRun.sailSetOf s rig main jib csys = PySailing.sailSetOf fitpackSpline s rig (some main) (some jib) csys := by
  unfold RunArith.sailSetOf PySailing.sailSetOf selectedJib selectedMain
  simp only [jibInput, mainInput]
  split_ifs <;> rfl

theorem csysInit (c : Csys) : exactRun.csysInit c = .ok (c.heeling, c.reverseHeeling, c.leeway) := by
  classical
  unfold RunArith.csysInit
  have e : exactRun.csysMatrices c = .ok (c.heeling, c.reverseHeeling, c.leeway) := ExactSail.csysMatrices c
  have e1 : exactRun.rotationMatrix Csys.ez (exactRun.deg2rad (-c.leewayDeg)) = .ok c.reverseLeeway := by
    rw [show exactRun.rotationMatrix Csys.ez (exactRun.deg2rad (-c.leewayDeg)) = _ from ExactFull.rotationMatrix _ _]
    unfold PySailing.rotationMatrix
    rw [if_neg ExactSail.ez_ne]
    rfl
  rw [e, e1]
  have hrefl : ∀ m : M3, exactRun.matAlmostEq m m := fun m => by
    have : ∀ x, exactRun.almostEq x x := fun x => by
      show |x - x| < 1.5 * 1e-7
      norm_num
    exact ⟨⟨this _, this _, this _⟩, ⟨this _, this _, this _⟩, ⟨this _, this _, this _⟩⟩
  have hx : Csys.ex.dot Csys.ex = 1 := by simp [Csys.ex, V3.dot]
  have hz : Csys.ez.dot Csys.ez = 1 := by simp [Csys.ez, V3.dot]
  have r : ∀ k θ, k.dot k = 1 → exactRun.rotvec k θ = rotationMatrixCore k θ := fun k θ hk => scipyMatrix_eq k hk θ
  simp only [Bind.bind, Except.bind]
  rw [r _ _ hx, r _ _ hx, r _ _ hz, r _ _ hz]
  exact if_pos ⟨hrefl _, hrefl _, hrefl _, hrefl _⟩

theorem momentArm (v p : V3) : exactRun.momentArm v p = PySailing.momentArm v p := rfl

theorem calcMoments (r F : List V3) : exactRun.calcMoments r F = PySailing.calcMoments r F := rfl

theorem vsum (F : List V3) : exactRun.vsum F = F.sum := ExactFull.vsum F

theorem flowSails : ∀ (ss : List SailGeom) (Fs rs : List (List V3)) (d : PyDict),
    exactRun.flowSails ss Fs rs d = PySailing.flowSails ss Fs rs d
  | [], _, _, _ => rfl
  | s :: ss, F :: Fs, r :: rs, d => by
    unfold RunArith.flowSails PySailing.flowSails flowSail
    rw [calcMoments]
    cases PySailing.calcMoments r F with
    | error e => rfl
    | ok M =>
      simp only [Bind.bind, Except.bind, vsum]
      exact flowSails ss Fs rs _
  | _ :: _, [], _, _ => rfl
  | _ :: _, _ :: _, [], _ => rfl

theorem integrals (sails : List SailGeom) (csys : Csys) (clr : V3) (a : FlowArrays) :
    exactRun.integrals sails csys.leeway csys.vRef clr a.cp a.force =
      (inviscidFlow sails csys a).map fun res => ((FlowObject.new res).estimateKeel clr).toDfIntegral := by
  unfold RunArith.integrals inviscidFlow calcMomentArm
  rw [show exactRun.momentArm csys.vRef = PySailing.momentArm csys.vRef from rfl]
  simp only [flowSails, calcMoments, vsum]
  simp only [Bind.bind, Except.bind]
  cases arraySplit (a.force.take (a.force.length / 2)) sails.length with
  | error e => rfl
  | ok Fs =>
    simp only
    cases arraySplit ((a.cp.map (PySailing.momentArm csys.vRef)).take (a.force.length / 2)) sails.length with
    | error e => rfl
    | ok rs =>
      simp only
      cases PySailing.flowSails sails Fs rs PyDict.empty with
      | error e => rfl
      | ok d =>
        simp only
        cases PySailing.calcMoments (a.cp.map (PySailing.momentArm csys.vRef)) a.force with
        | error e => rfl
        | ok M =>
          simp only [Except.map]
          unfold FlowObject.toDfIntegral FlowObject.estimateKeel FlowObject.new extractAboveWater Csys.fromXyzToCenterline
          simp only [List.length_map]
          rfl

theorem prepareGeometry (c : Config) : exactRun.prepareGeometry c = (PySailing.prepareGeometry fitpackSpline c).map
    fun g => ((g.1.heeling, g.1.reverseHeeling, g.1.leeway), g.2.2.1, g.2.2.2.clr) := by
  unfold RunArith.prepareGeometry PySailing.prepareGeometry mainSailInit jibSailInit
  simp only [withTwist, csysInit, sailSetOf, Props.C59_csys_constructor_total]
  cases c.main.withTwist 12 5 with
  | error e => rfl
  | ok main =>
  cases c.jib.withTwist 15 7 with
  | error e => rfl
  | ok jib =>
  simp only [Bind.bind, Except.bind]
  cases windPostInit c.wind with
  | error e => rfl
  | ok _ =>
  simp only
  cases sailPostInit c.rig (some main) (some jib) with
  | error e => rfl
  | ok _ =>
  simp only
  cases PySailing.sailSetOf fitpackSpline c.solver c.rig (some main) (some jib) ⟨c.heelDeg, c.leewayDeg, c.vRef⟩ with
  | error e => rfl
  | ok set =>
  simp only
  cases need c.rig.base with
  | error e => rfl
  | ok base =>
  simp only
  obtain ⟨hull, hh, -⟩ := Props.C57_hull c.rig.sheer base ⟨c.heelDeg, c.leewayDeg, c.vRef⟩ c.clrUpright
  rw [hh]
  simp only [Except.map]
  rw [Props.hull_clr hh]
  rfl

theorem prepare (c : Config) : exactRun.prepare c = (PySailing.prepare fitpackSpline c).map
    fun p => (p.vlm.inlet.vAppInfs, p.vlm.out, p.flow.toDfIntegral) := by
  unfold RunArith.prepare PySailing.prepare
  rw [prepareGeometry]
  cases hg : PySailing.prepareGeometry fitpackSpline c with
  | error e => rfl
  | ok g =>
  have hv : g.1.vRef = c.vRef := by
    unfold PySailing.prepareGeometry at hg
    rw [Props.C59_csys_constructor_total] at hg
    simp only [Bind.bind, Except.bind] at hg
    repeat' split at hg
    all_goals first
      | (cases hg; done)
      | (cases hg; rfl)
  simp only [Bind.bind, Except.bind, Except.map]
  have e1 : ∀ p te g nc ns, exactRun.calculateVlmVariables p te g nc ns = PySailing.calculateVlmVariables p te g nc ns :=
    ExactArith.calculateVlmVariables
  have e2 : ∀ a, exactRun.vlm a = (PySailing.vlm a).map fun r => (r.inlet.vAppInfs, r.out) := ExactSail.vlm
  rw [e1, e2]
  unfold PySailing.vlm
  simp only [Bind.bind, Except.bind]
  have hwind : g.2.1 = windGetProfile c.wind := by
    unfold PySailing.prepareGeometry at hg
    rw [Props.C59_csys_constructor_total] at hg
    simp only [Bind.bind, Except.bind] at hg
    repeat' split at hg
    all_goals first
      | (cases hg; done)
      | (cases hg; rfl)
  rw [← hwind]
  have ein : nanTrap (PySailing.calculateVlmVariables (c.vlmInput g.2.2.1 g.2.1).panels (c.vlmInput g.2.2.1 g.2.1).te
    (c.vlmInput g.2.2.1 g.2.1).g (c.vlmInput g.2.2.1 g.2.1).nc (c.vlmInput g.2.2.1 g.2.1).ns) =
      nanTrap (PySailing.calculateVlmVariables g.2.2.1.panels g.2.2.1.te (-1) c.solver.nc c.solver.ns) := rfl
  rw [ein]
  cases nanTrap (PySailing.calculateVlmVariables g.2.2.1.panels g.2.2.1.te (-1) c.solver.nc c.solver.ns) with
  | error e => rfl
  | ok vars =>
  simp only
  cases nanTrap (inletConditions (c.vlmInput g.2.2.1 g.2.1).wind (c.vlmInput g.2.2.1 g.2.1).rho (vars.map PanelVars.cp)) with
  | error e => rfl
  | ok inl =>
  simp only
  cases vlmSolve (c.vlmInput g.2.2.1 g.2.1) vars inl.vAppInfs with
  | error e => rfl
  | ok sol =>
  simp only [Except.map]
  rw [← hv]
  set R : Vlm := ⟨c.vlmInput g.2.2.1 g.2.1, getPanelsArea (c.vlmInput g.2.2.1 g.2.1).panels, vars, inl, sol⟩ with hR
  have := integrals g.2.2.1.sails g.1 g.2.2.2.clr R.flowArrays
  have e3 : R.flowArrays.cp = vars.map PanelVars.cp := rfl
  have e4 : R.flowArrays.force = R.out.force := rfl
  rw [e3, e4] at this
  rw [this]
  cases inviscidFlow g.2.2.1.sails g.1 R.flowArrays <;> rfl

end ExactRun

end PySailing
