import Verif.Spec.MomentPoint
import Verif.Props.Apparent

/-!
# C153: the reference point for moments influences the moments only
-/

namespace PySailing.Props

open PySailing Spec

theorem arraySplit_map {α β : Type} (f : α → β) (xs : List α) (n : ℕ) :
    arraySplit (xs.map f) n = (arraySplit xs n).map (List.map (List.map f)) := by
  unfold arraySplit
  rw [List.length_map]
  split_ifs
  · rfl
  · simp only [chunksOf_map]; rfl

/-- Two dictionaries that differ in the moments of the sails only. -/
def SameRows (d d' : PyDict) : Prop := ∀ key, key ∉ sailMomentRows → d key = d' key

theorem sameRows_force {d d' : PyDict} (h : SameRows d d') (name : String) (F : V3) :
    SameRows (d.setVec name F) (d'.setVec name F) := by
  intro key hk
  simp only [PyDict.setVec, PyDict.set, Function.update_apply]
  split_ifs <;> first | rfl | exact h key hk

theorem sameRows_moment {d d' : PyDict} (h : SameRows d d') {name : String} (hn : name = "jib" ∨ name = "main_sail") (M M' : V3) :
    SameRows (d.setVec ("M_" ++ name ++ "_total_COG") M) (d'.setVec ("M_" ++ name ++ "_total_COG") M') := by
  intro key hk
  have hk' := hk
  simp only [sailMomentRows, List.mem_cons, List.not_mem_nil, or_false, not_or] at hk'
  rcases hn with rfl | rfl
  all_goals
    simp [PyDict.setVec, PyDict.set, Function.update_apply, hk', h key hk]

theorem flowSails_ref (f g : V3 → V3) (sails : List SailGeom) (hn : ∀ s ∈ sails, s.name = "jib" ∨ s.name = "main_sail")
    (Fs qs : List (List V3)) {d d' : PyDict} (h : SameRows d d') :
    (∃ e, flowSails sails Fs (qs.map (List.map f)) d = .error e ∧ flowSails sails Fs (qs.map (List.map g)) d' = .error e) ∨
    ∃ x y, flowSails sails Fs (qs.map (List.map f)) d = .ok x ∧ flowSails sails Fs (qs.map (List.map g)) d' = .ok y ∧
      SameRows x y := by
  induction sails generalizing Fs qs d d' with
  | nil => exact .inr ⟨d, d', by simp [flowSails], by simp [flowSails], h⟩
  | cons s ss ih =>
    cases Fs with
    | nil => exact .inl ⟨.indexError, by simp [flowSails], by simp [flowSails]⟩
    | cons F Fs =>
      cases qs with
      | nil => exact .inl ⟨.indexError, by simp [flowSails], by simp [flowSails]⟩
      | cons q qs =>
        simp only [List.map_cons, flowSails, flowSail, calcMoments, List.length_map, bind, Except.bind]
        split_ifs
        · exact ih (fun s hs => hn s (List.mem_cons_of_mem _ hs)) Fs qs
            (sameRows_moment (sameRows_force h _ _) (hn s List.mem_cons_self) _ _)
        · exact .inl ⟨_, rfl, rfl⟩

/-- Two results that differ in the moments (and the centre of effort) only. -/
structure SameFlow (r r' : FlowResults) : Prop where
  heel : r'.csys.heelDeg = r.csys.heelDeg
  leeway : r'.csys.leewayDeg = r.csys.leewayDeg
  gamma : r'.gamma = r.gamma
  pressure : r'.pressure = r.pressure
  vInd : r'.vInd = r.vInd
  vIndLength : r'.vIndLength = r.vIndLength
  vFs : r'.vFs = r.vFs
  vFsLength : r'.vFsLength = r.vFsLength
  awa : r'.awa = r.awa
  force : r'.force = r.force
  forceTotal : r'.forceTotal = r.forceTotal
  forceCl : r'.forceCl = r.forceCl
  forceClTotal : r'.forceClTotal = r.forceClTotal
  moment : r'.moment.length = r.moment.length
  dyn : SameRows r'.dyn r.dyn
  centre : (∃ e, r'.centreOfEffort = .error e ∧ r.centreOfEffort = .error e) ∨
    ∃ x y, r'.centreOfEffort = .ok x ∧ r.centreOfEffort = .ok y

theorem determine_alike (F : V3) (s s' : ℝ) (M M' : V3) :
    (∃ e, determineVector F s M = .error e ∧ determineVector F s' M' = .error e) ∨
      ∃ x y, determineVector F s M = .ok x ∧ determineVector F s' M' = .ok y := by
  unfold determineVector
  split_ifs
  · exact .inl ⟨_, rfl, rfl⟩
  · exact .inr ⟨_, _, rfl, rfl⟩

theorem inviscid_ref (sails : List SailGeom) (hn : ∀ s ∈ sails, s.name = "jib" ∨ s.name = "main_sail") (h l : ℝ) (v v' : V3)
    (a : FlowArrays) :
    (∃ e, inviscidFlow sails ⟨h, l, v'⟩ a = .error e ∧ inviscidFlow sails ⟨h, l, v⟩ a = .error e) ∨
      ∃ r r', inviscidFlow sails ⟨h, l, v'⟩ a = .ok r' ∧ inviscidFlow sails ⟨h, l, v⟩ a = .ok r ∧ SameFlow r r' := by
  unfold inviscidFlow
  simp only [calcMomentArm, ← List.map_take, arraySplit_map]
  cases arraySplit (a.force.take (a.force.length / 2)) sails.length with
  | error e => exact .inl ⟨e, rfl, rfl⟩
  | ok Fs =>
  simp only [bind, Except.bind]
  cases arraySplit (a.cp.take (a.force.length / 2)) sails.length with
  | error e => exact .inl ⟨e, rfl, rfl⟩
  | ok qs =>
  simp only [Except.map]
  rcases flowSails_ref (momentArm v') (momentArm v) sails hn Fs qs (d := PyDict.empty) (d' := PyDict.empty) (fun _ _ => rfl) with
    ⟨e, e1, e2⟩ | ⟨x, y, e1, e2, e3⟩
  · rw [e1, e2]; exact .inl ⟨e, rfl, rfl⟩
  · rw [e1, e2]
    simp only [calcMoments, List.length_map]
    split_ifs
    · refine .inr ⟨_, _, rfl, rfl, ⟨rfl, rfl, rfl, rfl, rfl, rfl, rfl, rfl, rfl, rfl, rfl, rfl, rfl, ?_, e3, determine_alike _ _ _ _ _⟩⟩
      simp
    · exact .inl ⟨_, rfl, rfl⟩

theorem integral_ref {r r' : FlowResults} (h : SameFlow r r') (q : V3) :
    SameRows ((FlowObject.new r').estimateKeel q).toDfIntegral ((FlowObject.new r).estimateKeel q).toDfIntegral := by
  intro key hk
  have hd := h.dyn key hk
  have hm : r'.csys.leeway = r.csys.leeway := by
    unfold Csys.leeway
    rw [h.leeway]
  simp only [sailMomentRows, List.mem_cons, List.not_mem_nil, or_false, not_or] at hk
  obtain ⟨h1, h2, h3, h4, h5, h6, h7, h8, h9, h10, h11, h12, h13, h14, -⟩ := hk
  simp [FlowObject.toDfIntegral, FlowObject.estimateKeel, FlowObject.new, PyDict.update, PyDict.setVec, PyDict.setMomentCow, PyDict.set,
    PyDict.empty, Function.update, h1, h2, h3, h4, h5, h6, h7, h8, h9, h10, h11, h12, h13, h14, hd, hm, h.forceTotal, h.forceClTotal]

/-- A table without the columns of the moments. -/
def noMoments (t : Frame) : Frame := t.filter fun c => c.1 ∉ momentColumns

theorem concat_first (B C D E : Frame) {A A' : Frame} (h1 : columnSizes A = columnSizes A') (h2 : noMoments A = noMoments A') :
    noMoments (concatFrames [A, B, C, D, E]) = noMoments (concatFrames [A', B, C, D, E]) := by
  have hn : (A.map fun c => c.2.length) = A'.map fun c => c.2.length := by
    have := congrArg (List.map Prod.snd) h1
    simpa only [columnSizes, List.map_map, Function.comp_def] using this
  unfold concatFrames noMoments at *
  simp only [List.flatten_cons, List.map_append, hn, List.filter_append, List.filter_map, Function.comp_def]
  rw [h2]

theorem flow_columns {r r' : FlowResults} (h : SameFlow r r') :
    columnSizes r'.toDfFull.firstHalf = columnSizes r.toDfFull.firstHalf ∧
      noMoments r'.toDfFull.firstHalf = noMoments r.toDfFull.firstHalf := by
  constructor
  · simp [columnSizes, Frame.firstHalf, FlowResults.toDfFull, vecColumns, h.gamma, h.vInd, h.vIndLength, h.vFs, h.vFsLength, h.awa,
      h.pressure, h.force, h.moment, h.forceCl]
  · simp [noMoments, Frame.firstHalf, FlowResults.toDfFull, vecColumns, momentColumns, h.gamma, h.vInd, h.vIndLength, h.vFs,
      h.vFsLength, h.awa, h.pressure, h.force, h.forceCl, h.leeway]

theorem prepare_ref (spline : SplineFn) (c : Config) (v : V3) :
    (∃ e, prepare spline { c with vRef := v } = .error e ∧ prepare spline c = .error e) ∨
    ∃ p r', prepare spline c = .ok p ∧
      prepare spline { c with vRef := v } = .ok { p with
        csys := ⟨c.heelDeg, c.leewayDeg, v⟩, flow := (FlowObject.new r').estimateKeel p.hull.clr } ∧
      p.csys = ⟨c.heelDeg, c.leewayDeg, c.vRef⟩ ∧
      p.flow = (FlowObject.new p.flow.res).estimateKeel p.hull.clr ∧ SameFlow p.flow.res r' := by
  unfold prepare prepareGeometry
  simp only [C59_csys_constructor_total]
  cases mainSailInit c.main with
  | error e => exact .inl ⟨e, rfl, rfl⟩
  | ok m =>
  cases jibSailInit c.jib with
  | error e => exact .inl ⟨e, rfl, rfl⟩
  | ok j =>
  simp only [bind, Except.bind]
  cases windPostInit c.wind with
  | error e => exact .inl ⟨e, rfl, rfl⟩
  | ok _ =>
  simp only []
  cases sailPostInit c.rig (some m) (some j) with
  | error e => exact .inl ⟨e, rfl, rfl⟩
  | ok _ =>
  simp only []
  rw [sailSetOf_vRef spline c.solver c.rig (some m) (some j) c.heelDeg c.leewayDeg v c.vRef]
  cases hset : sailSetOf spline c.solver c.rig (some m) (some j) ⟨c.heelDeg, c.leewayDeg, c.vRef⟩ with
  | error e => exact .inl ⟨e, rfl, rfl⟩
  | ok set =>
  simp only []
  cases need c.rig.base with
  | error e => exact .inl ⟨e, rfl, rfl⟩
  | ok b =>
  simp only []
  rw [hull_vRef c.rig.sheer b c.heelDeg c.leewayDeg v c.vRef c.clrUpright]
  cases hullGeometry c.rig.sheer b ⟨c.heelDeg, c.leewayDeg, c.vRef⟩ c.clrUpright with
  | error e => exact .inl ⟨e, rfl, rfl⟩
  | ok hull =>
  simp only []
  rw [show Config.vlmInput { c with vRef := v } = Config.vlmInput c from rfl]
  cases vlm (c.vlmInput set (windGetProfile c.wind)) with
  | error e => exact .inl ⟨e, rfl, rfl⟩
  | ok r =>
  simp only []
  have hn : ∀ s ∈ set.sails, s.name = "jib" ∨ s.name = "main_sail" := by
    intro s hs
    have hm : s.name ∈ set.sails.map SailGeom.name := List.mem_map_of_mem hs
    rcases (sailSetOf_shape hset).1 with ⟨-, e⟩ | ⟨-, e⟩ | ⟨-, e⟩ <;> rw [e] at hm <;> simp at hm <;> tauto
  rcases inviscid_ref set.sails hn c.heelDeg c.leewayDeg c.vRef v r.flowArrays with ⟨e, e1, e2⟩ | ⟨x, y, e1, e2, e3⟩
  · rw [e1, e2]; exact .inl ⟨e, rfl, rfl⟩
  · rw [e1, e2]
    exact .inr ⟨_, y, rfl, rfl, rfl, rfl, e3⟩

theorem save_ref (vlm : Vlm) (h l : ℝ) (v v' q : V3) (sails : List SailGeom) {r r' : FlowResults} (hr : SameFlow r r') :
    ((nanAsNone (saveResults vlm ⟨h, l, v'⟩ ((FlowObject.new r').estimateKeel q) sails ⟨h, l, v'⟩)).map Effect.workbook).map
        withoutMoments =
      ((nanAsNone (saveResults vlm ⟨h, l, v⟩ ((FlowObject.new r).estimateKeel q) sails ⟨h, l, v⟩)).map Effect.workbook).map
        withoutMoments := by
  unfold saveResults
  rw [show windIntegral vlm.inlet.winds ⟨h, l, v'⟩ = windIntegral vlm.inlet.winds ⟨h, l, v⟩ from rfl,
    show cpGirthsAll sails ⟨h, l, v'⟩ (vlm.vars.map PanelVars.cp) = cpGirthsAll sails ⟨h, l, v⟩ (vlm.vars.map PanelVars.cp) from rfl,
    show vlm.inlet.toDfFull ⟨h, l, v'⟩ = vlm.inlet.toDfFull ⟨h, l, v⟩ from rfl]
  simp only [bind, Except.bind]
  cases windIntegral vlm.inlet.winds ⟨h, l, v⟩ with
  | error e => cases e <;> rfl
  | ok ic =>
  simp only []
  cases cpGirthsAll sails ⟨h, l, v⟩ (vlm.vars.map PanelVars.cp) with
  | error e => cases e <;> rfl
  | ok g =>
  simp only []
  cases cpGirthsAbove g.1 sails with
  | error e => cases e <;> rfl
  | ok ga =>
  simp only []
  cases arraySplit g.2 (2 * sails.length) with
  | error e => cases e <;> rfl
  | ok parts =>
  simp only [nanAsNone, Except.map, withoutMoments]
  obtain ⟨k1, k2⟩ := flow_columns hr
  have key := concat_first (vlm.inlet.toDfFull ⟨h, l, v⟩).firstHalf
    [("cp_points_upright.z", (everySecond parts).flatten.map fun q => .num q.z)]
    [("girths", ga.1.map .num)] [("sail_name", ga.2.map .text)] k1 k2
  unfold noMoments at key
  have hi : (fun key => if key ∈ sailMomentRows then none else ((FlowObject.new r').estimateKeel q).toDfIntegral key) =
      fun key => if key ∈ sailMomentRows then none else ((FlowObject.new r).estimateKeel q).toDfIntegral key := by
    funext key
    split_ifs with hk
    · rfl
    · exact integral_ref hr q key hk
  rw [show ∀ r : FlowResults, ((FlowObject.new r).estimateKeel q).res = r from fun _ => rfl, hi, key]
  rfl

/-- **C153.**  Two runs whose reference points for moments differ produce the same in the same order and end alike, apart from
the moments of the sails (rows, columns and the total) and the centre of effort in the picture. -/
theorem C153_reference (spline : SplineFn) (c : Config) (v : V3) :
    (run spline { c with vRef := v }).1.map withoutMoments = (run spline c).1.map withoutMoments ∧
      (run spline { c with vRef := v }).2 = (run spline c).2 := by
  unfold run
  rcases prepare_ref spline c v with ⟨e, e1, e2⟩ | ⟨p, r', e1, e2, hcs, hflow, hr⟩
  · rw [e1, e2]; exact ⟨rfl, rfl⟩
  rw [e1, e2]
  refine emit_without ?_
  unfold outputSteps
  refine .cons ?_ (.cons rfl (.cons ?_ (.cons rfl (.cons rfl (.cons rfl .nil)))))
  · have := save_ref p.vlm c.heelDeg c.leewayDeg c.vRef v p.hull.clr p.set.sails hr
    rw [← hflow, ← hcs] at this
    exact this
  · unfold displayScene
    rw [show ((FlowObject.new r').estimateKeel p.hull.clr).res = r' from rfl, hr.vInd]
    simp only [Bool.false_eq_true, if_false]
    cases displayPanels p.vlm "p_coeffs" with
    | error e => cases e <;> rfl
    | ok P =>
    simp only [bind, Except.bind]
    cases displayWinds p.vlm.vars.length P.water p.vlm.inlet p.flow.res.vInd p.vlm.input.ns p.vlm.input.nc false with
    | error e => cases e <;> rfl
    | ok W =>
    simp only [displayCeClr, bind, Except.bind, hr.vFsLength, hr.forceTotal]
    cases npMean p.flow.res.vFsLength with
    | error e => cases e <;> rfl
    | ok mean =>
    simp only []
    rcases hr.centre with ⟨e, c1, c2⟩ | ⟨x, y, c1, c2⟩
    · rw [c1, c2]
    · rw [c1, c2]
      simp only []
      cases normalize p.flow.res.forceTotal with
      | error e => cases e <;> rfl
      | ok u => rfl

/-- Non-vacuity: the demonstration run writes a workbook and draws a picture, whatever the reference point. -/
example (spline : SplineFn) : (∃ t, .workbook (some t) ∈ (run spline Demo.config).1) ∧
    (run spline { Demo.config with vRef := ⟨0, 0, -1⟩ }).1.map withoutMoments = (run spline Demo.config).1.map withoutMoments :=
  ⟨demo_workbook spline, (C153_reference spline Demo.config _).1⟩

end PySailing.Props
