import Verif.Spec.Turns
import Verif.Props.SameWind
import Verif.Props.Main
import Verif.Props.Workbook
import Verif.Lemmas.Picture

/-!
# C149: heel, leeway and rake are only used modulo full turns
-/

namespace PySailing.Props

open Spec

theorem rotationCore_turns (axis : V3) (t : ℝ) (k : ℤ) :
    rotationMatrixCore axis (t + k * (2 * Real.pi)) = rotationMatrixCore axis t := by
  have e : (t + k * (2 * Real.pi)) / 2 = t / 2 + k * Real.pi := by ring
  unfold rotationMatrixCore
  rw [e, Real.cos_add_int_mul_pi, Real.sin_add_int_mul_pi]
  rcases Int.even_or_odd k with h | h
  · rw [h.neg_one_zpow, one_mul, one_mul]
  · rw [h.neg_one_zpow]
    simp [quatMatrix]

/-- The coordinate systems of a yacht turned over and around some times. -/
noncomputable def turnedCsys (k n : ℤ) (c : Csys) : Csys := ⟨c.heelDeg + 360 * k, c.leewayDeg + 360 * n, c.vRef⟩

variable (k n : ℤ)

theorem turned_heeling (c : Csys) : (turnedCsys k n c).heeling = c.heeling := by
  have e : -(c.heelDeg + 360 * (k : ℝ)) = -c.heelDeg + 360 * ((-k : ℤ) : ℝ) := by push_cast; ring
  simp only [Csys.heeling, turnedCsys, e, deg2rad_turns, rotationCore_turns]

theorem turned_reverseHeeling (c : Csys) : (turnedCsys k n c).reverseHeeling = c.reverseHeeling := by
  simp only [Csys.reverseHeeling, turnedCsys, deg2rad_turns, rotationCore_turns]

theorem turned_leeway (c : Csys) : (turnedCsys k n c).leeway = c.leeway := by
  simp only [Csys.leeway, turnedCsys, deg2rad_turns, rotationCore_turns]

theorem turned_reverseLeeway (c : Csys) : (turnedCsys k n c).reverseLeeway = c.reverseLeeway := by
  have e : -(c.leewayDeg + 360 * (n : ℝ)) = -c.leewayDeg + 360 * ((-n : ℤ) : ℝ) := by push_cast; ring
  simp only [Csys.reverseLeeway, turnedCsys, e, deg2rad_turns, rotationCore_turns]

theorem turned_mirror (c : Csys) : (turnedCsys k n c).rotatePointWithMirror = c.rotatePointWithMirror := by
  funext p
  simp only [Csys.rotatePointWithMirror, turned_heeling, turned_reverseHeeling, turned_leeway]

theorem turned_reverse (c : Csys) : (turnedCsys k n c).reverseRotationsWithMirror = c.reverseRotationsWithMirror := by
  funext p
  simp only [Csys.reverseRotationsWithMirror, turned_heeling, turned_reverseHeeling, turned_reverseLeeway]

theorem turned_without (c : Csys) : (turnedCsys k n c).rotatePointWithoutMirror = c.rotatePointWithoutMirror := by
  funext p
  simp only [Csys.rotatePointWithoutMirror, turned_heeling, turned_leeway]

theorem turned_centerline (c : Csys) : (turnedCsys k n c).fromXyzToCenterline = c.fromXyzToCenterline := by
  funext p
  simp only [Csys.fromXyzToCenterline, turned_leeway]

theorem turned_sail (s : SailInput) : sailGeometry { s with csys := turnedCsys k n s.csys } = sailGeometry s := by
  unfold sailGeometry twistBlock
  simp only [turned_mirror]

theorem turned_set (spline : SplineFn) (s : SolverConf) (rig : RigConf) (m j : Option SailConf) (c : Csys) :
    sailSetOf spline s rig m j (turnedCsys k n c) = sailSetOf spline s rig m j c := by
  have h1 : sailMain spline s rig m (turnedCsys k n c) = sailMain spline s rig m c := by
    unfold sailMain SailFactory.makeMainSail
    refine bind_congr fun a => bind_congr fun b => bind_congr fun l => ?_
    exact turned_sail k n { head := _, tack := _, csys := c, ns := _, nc := _, chords := _, twist := _, mode := _, camber := _,
                            distance := _, name := _ }
  have h2 : sailJib spline s rig j (turnedCsys k n c) = sailJib spline s rig j c := by
    unfold sailJib SailFactory.makeJib
    refine bind_congr fun a => bind_congr fun b => bind_congr fun l => bind_congr fun l2 => bind_congr fun l3 =>
      bind_congr fun l4 => ?_
    exact turned_sail k n { head := _, tack := _, csys := c, ns := _, nc := _, chords := _, twist := _, mode := _, camber := _,
                            distance := _, name := _ }
  unfold sailSetOf selectedJib selectedMain
  rw [h1, h2]

theorem turned_hull (s b : ℝ) (c : Csys) (p : V3) : hullGeometry s b (turnedCsys k n c) p = hullGeometry s b c p := by
  unfold hullGeometry
  simp only [turned_mirror, turned_without]

/-- The results of a flow with the coordinate systems turned. -/
noncomputable def turnedFlow (r : FlowResults) : FlowResults := { r with csys := turnedCsys k n r.csys }

theorem turned_flow (sails : List SailGeom) (c : Csys) (a : FlowArrays) :
    inviscidFlow sails (turnedCsys k n c) a = (inviscidFlow sails c a).map (turnedFlow k n) := by
  unfold inviscidFlow
  simp only [turned_centerline, show (turnedCsys k n c).vRef = c.vRef from rfl]
  cases arraySplit (a.force.take (a.force.length / 2)) sails.length with
  | error e => rfl
  | ok Fs =>
  cases arraySplit ((calcMomentArm a.cp c.vRef).take (a.force.length / 2)) sails.length with
  | error e => rfl
  | ok rs =>
  simp only [bind, Except.bind]
  cases flowSails sails Fs rs PyDict.empty with
  | error e => rfl
  | ok d =>
  cases calcMoments (calcMomentArm a.cp c.vRef) a.force <;> rfl

/-- Everything prepared for the output with the coordinate systems turned. -/
noncomputable def turnedRun (p : Prepared) : Prepared :=
  { p with csys := turnedCsys k n p.csys, flow := { p.flow with res := turnedFlow k n p.flow.res } }

/-- The configuration with the angles of heel and leeway changed by full turns. -/
noncomputable def turnedConf (c : Config) : Config :=
  { c with heelDeg := c.heelDeg + 360 * k, leewayDeg := c.leewayDeg + 360 * n }

theorem turned_prepare (spline : SplineFn) (c : Config) :
    prepare spline (turnedConf k n c) = (prepare spline c).map (turnedRun k n) := by
  have hg : prepareGeometry spline (turnedConf k n c) =
      (prepareGeometry spline c).map fun g => (turnedCsys k n g.1, g.2) := by
    unfold prepareGeometry turnedConf
    simp only [C59_csys_constructor_total]
    rw [show (⟨c.heelDeg + 360 * k, c.leewayDeg + 360 * n, c.vRef⟩ : Csys) = turnedCsys k n ⟨c.heelDeg, c.leewayDeg, c.vRef⟩ from rfl]
    cases mainSailInit c.main with
    | error e => rfl
    | ok m =>
    cases jibSailInit c.jib with
    | error e => rfl
    | ok j =>
    simp only [bind, Except.bind, turned_set, turned_hull]
    cases windPostInit c.wind with
    | error e => rfl
    | ok _ =>
    simp only []
    cases sailPostInit c.rig (some m) (some j) with
    | error e => rfl
    | ok _ =>
    simp only []
    cases sailSetOf spline c.solver c.rig (some m) (some j) ⟨c.heelDeg, c.leewayDeg, c.vRef⟩ with
    | error e => rfl
    | ok set =>
    simp only []
    cases need c.rig.base with
    | error e => rfl
    | ok b =>
    simp only []
    cases hullGeometry c.rig.sheer b ⟨c.heelDeg, c.leewayDeg, c.vRef⟩ c.clrUpright <;> rfl
  unfold prepare
  rw [hg]
  cases prepareGeometry spline c with
  | error e => rfl
  | ok g =>
    simp only [Except.map, bind, Except.bind]
    rw [show Config.vlmInput (turnedConf k n c) = Config.vlmInput c from rfl]
    cases vlm (c.vlmInput g.2.2.1 g.2.1) with
    | error e => rfl
    | ok r =>
      simp only []
      rw [turned_flow]
      cases inviscidFlow g.2.2.1.sails g.1 r.flowArrays with
      | error e => rfl
      | ok res =>
        simp only [Except.map, FlowObject.new, FlowObject.estimateKeel, turnedFlow, turned_leeway]
        rfl

theorem firstHalf_lowered (x : ℝ) (t : Frame) : Frame.firstHalf (t.map (columnLowered x)) = t.firstHalf.map (columnLowered x) := by
  unfold Frame.firstHalf
  rw [List.map_map, List.map_map]
  refine List.map_congr_left fun c _ => ?_
  by_cases h : c.1 = "AWA_fs_COW_deg" ∨ c.1 = "AWA_infs_COW_deg" <;>
    simp [Function.comp, columnLowered, h, List.map_take]

theorem length_lowered (x : ℝ) (c : String × List Cell) : (columnLowered x c).2.length = c.2.length := by
  unfold columnLowered
  split_ifs <;> simp

theorem concat_lowered (x : ℝ) (ts : List Frame) :
    concatFrames (ts.map fun t => t.map (columnLowered x)) = (concatFrames ts).map (columnLowered x) := by
  unfold concatFrames
  simp only [← List.map_flatten, List.map_map, Function.comp_def, length_lowered]
  refine List.map_congr_left fun c _ => ?_
  by_cases h : c.1 = "AWA_fs_COW_deg" ∨ c.1 = "AWA_infs_COW_deg" <;>
    simp [columnLowered, h, lowered]

theorem flow_lowered (r : FlowResults) : (turnedFlow k n r).toDfFull = r.toDfFull.map (columnLowered (360 * n)) := by
  have h : ∀ x : Py ℝ, Cell.ofPy (x.map fun y => rad2deg y - (r.csys.leewayDeg + 360 * n)) =
      lowered (360 * n) (Cell.ofPy (x.map fun y => rad2deg y - r.csys.leewayDeg)) := by
    rintro (e | y)
    · rfl
    · simp only [Except.map, Cell.ofPy, lowered, sub_sub]
  simp [FlowResults.toDfFull, turnedFlow, turnedCsys, vecColumns, columnLowered, h, Function.comp_def]

theorem inlet_lowered (i : Inlet) (c : Csys) :
    i.toDfFull (turnedCsys k n c) = (i.toDfFull c).map (columnLowered (360 * n)) := by
  simp [Inlet.toDfFull, turnedCsys, vecColumns, columnLowered, lowered, Function.comp_def, sub_sub]

theorem integral_lowered (w : WindObj) (c : Csys) :
    windIntegral w (turnedCsys k n c) = (windIntegral w c).map fun t => t.map (rowLowered (360 * n)) := by
  unfold windIntegral
  rcases w.profile with _ | _ | ⟨c', ref, wl⟩
  · simp [Except.map, rowLowered]
  · simp [Except.map, rowLowered]
  · rcases c' with _ | c' <;> rcases ref with _ | ref <;> rcases wl with _ | wl <;> try rfl
    simp only []
    cases expFactorFloat c' ref wl ref with
    | error e => rfl
    | ok f => simp [bind, Except.bind, Except.map, rowLowered, turnedCsys, sub_sub]

theorem turned_save (r : Vlm) (c : Csys) (o : FlowObject) (sails : List SailGeom) :
    saveResults r (turnedCsys k n c) { o with res := turnedFlow k n o.res } sails (turnedCsys k n c) =
      (saveResults r c o sails c).map (workbookLowered (360 * n)) := by
  unfold saveResults
  rw [integral_lowered]
  cases windIntegral r.inlet.winds c with
  | error e => rfl
  | ok ic =>
  have hg : cpGirthsAll sails (turnedCsys k n c) (r.vars.map PanelVars.cp) = cpGirthsAll sails c (r.vars.map PanelVars.cp) := by
    unfold cpGirthsAll cpStraightYacht
    simp only [turned_reverse]
  simp only [Except.map, bind, Except.bind, hg]
  cases cpGirthsAll sails c (r.vars.map PanelVars.cp) with
  | error e => rfl
  | ok g =>
  simp only []
  cases cpGirthsAbove g.1 sails with
  | error e => rfl
  | ok ga =>
  simp only []
  cases arraySplit g.2 (2 * sails.length) with
  | error e => rfl
  | ok parts =>
  simp only [workbookLowered, ← concat_lowered]
  rw [flow_lowered, inlet_lowered, firstHalf_lowered, firstHalf_lowered]
  simp [columnLowered]
  rfl

/-- **C149, heel and leeway.**  Changing the heel or the leeway by full turns changes nothing but the angles measured from
the centre line, and these by the full turns of the leeway. -/
theorem C149_heel_leeway (spline : SplineFn) (c : Config) (k n : ℤ) :
    run spline { c with heelDeg := c.heelDeg + 360 * k, leewayDeg := c.leewayDeg + 360 * n } =
      ((run spline c).1.map (outputLowered (360 * n)), (run spline c).2) := by
  show run spline (turnedConf k n c) = _
  unfold run
  rw [turned_prepare]
  cases prepare spline c with
  | error e => rfl
  | ok p =>
    simp only [Except.map]
    have hs := turned_save k n p.vlm p.csys p.flow p.set.sails
    have key : ∀ (x : Py SavedResults) (l : List (Py Effect)), (∀ e ∈ l, e.map (outputLowered (360 * n)) = e) →
        emit ((nanAsNone (x.map (workbookLowered (360 * n)))).map .workbook :: l) =
          ((emit ((nanAsNone x).map .workbook :: l)).1.map (outputLowered (360 * n)),
            (emit ((nanAsNone x).map .workbook :: l)).2) := by
      intro x l hl
      have hrest : (emit l).1.map (outputLowered (360 * n)) = (emit l).1 := by
        induction l with
        | nil => rfl
        | cons a l ih =>
          have h0 := hl a (by simp)
          have ih' := ih fun e he => hl e (by simp [he])
          cases a with
          | error e => rfl
          | ok e =>
            have : outputLowered (360 * n) e = e := Except.ok.inj h0
            simp only [emit, List.map_cons, this, ih']
      rcases x with e | t
      · cases e <;> simp [Except.map, nanAsNone, emit, outputLowered, hrest]
      · simp [Except.map, nanAsNone, emit, outputLowered, hrest]
    have hout : outputSteps (turnedConf k n c) (turnedRun k n p) =
        (nanAsNone ((saveResults p.vlm p.csys p.flow p.set.sails p.csys).map (workbookLowered (360 * n)))).map .workbook ::
          (outputSteps c p).tail := by
      rw [← hs]
      rfl
    rw [hout]
    refine key _ _ ?_
    have hm : ∀ {α : Type} (f : α → Effect) (_ : ∀ a, outputLowered (360 * n) (f a) = f a) (x : Py α),
        (x.map f).map (outputLowered (360 * n)) = x.map f := by
      rintro α f hf (e | a)
      · rfl
      · simp [Except.map, hf]
    have hp : ∀ d x name colors, (sectionPlotStep d x name colors).map (outputLowered (360 * n)) =
        sectionPlotStep d x name colors := by
      intro d x name colors
      unfold sectionPlotStep
      cases nanAsNone d with
      | error e => rfl
      | ok d' =>
        cases d' with
        | none => rfl
        | some d => exact hm _ (fun _ => rfl) _
    intro e he
    simp only [outputSteps, List.tail_cons, List.mem_cons, List.not_mem_nil, or_false] at he
    rcases he with rfl | rfl | rfl | rfl | rfl
    · rfl
    · exact hm _ (fun _ => rfl) _
    · exact hm _ (fun _ => rfl) _
    · exact hp _ _ _ _
    · exact hp _ _ _ _

/-- **C149, heel.**  The heel is only used modulo full turns. -/
theorem C149_heel (spline : SplineFn) (c : Config) (k : ℤ) :
    run spline { c with heelDeg := c.heelDeg + 360 * k } = run spline c := by
  have h := C149_heel_leeway spline c k 0
  have hl : ∀ x, lowered 0 x = x := by rintro (x | _ | s) <;> simp [lowered]
  have hc : columnLowered 0 = id := by
    funext c
    simp [columnLowered, show lowered 0 = id from funext hl]
  have hr : rowLowered 0 = id := by
    funext r
    simp [rowLowered]
  have hw : workbookLowered 0 = id := by
    funext t
    simp [workbookLowered, hc, hr]
  have ho : outputLowered 0 = id := by
    funext e
    cases e <;> simp [outputLowered, hw]
  simpa [ho] using h

/-- **C149, rake.**  The rake of the mast is only used modulo full turns. -/
theorem C149_rake (spline : SplineFn) (c : Config) (k : ℤ) :
    run spline { c with rig := { c.rig with rakeDeg := c.rig.rakeDeg + 360 * k } } = run spline c := by
  refine run_congr rfl ?_
  have hset : ∀ m j csys, sailSetOf spline c.solver { c.rig with rakeDeg := c.rig.rakeDeg + 360 * k } m j csys =
      sailSetOf spline c.solver c.rig m j csys := by
    intro m j csys
    unfold sailSetOf selectedJib selectedMain sailJib sailMain SailFactory.makeJib SailFactory.makeMainSail
      SailFactory.jibMounting SailFactory.mainMounting SailFactory.sheerXyz SailFactory.rake RigConf.factory
    simp only [deg2rad_turns, Real.cos_add_int_mul_two_pi, Real.sin_add_int_mul_two_pi]
  unfold prepare prepareGeometry
  simp only [hset]
  rfl

/-- Non-vacuity: the demonstration run writes a workbook, and so does the run with other angles. -/
example (spline : SplineFn) : ∃ t, .workbook (some t) ∈ (run spline { Demo.config with
    heelDeg := Demo.config.heelDeg + 360 * (1 : ℤ), leewayDeg := Demo.config.leewayDeg + 360 * (-2 : ℤ) }).1 := by
  rw [C149_heel_leeway]
  obtain ⟨t, ht⟩ := demo_workbook spline
  exact ⟨_, List.mem_map.2 ⟨_, ht, rfl⟩⟩

end PySailing.Props
