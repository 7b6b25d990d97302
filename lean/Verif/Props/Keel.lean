import Verif.Spec.Keel
import Verif.Props.Turns

/-!
# C150: the place of the centre of lateral resistance influences the moments of the keel only
-/

namespace PySailing.Props

open Spec

theorem hull_keel (s b : ℝ) (c : Csys) (q p : V3) :
    hullGeometry s b c q = (hullGeometry s b c p).map fun h => { h with clr := c.rotatePointWithoutMirror q } := by
  unfold hullGeometry
  cases vlmAirfoil 0.01 0.0 0.28 51 <;> rfl

/-- Everything prepared for the output with another centre of lateral resistance. -/
noncomputable def keelMoved (q : V3) (p : Prepared) : Prepared :=
  { p with
    hull := { p.hull with clr := p.csys.rotatePointWithoutMirror q }
    flow := (FlowObject.new p.flow.res).estimateKeel (p.csys.rotatePointWithoutMirror q) }

theorem prepare_keel (spline : SplineFn) (c : Config) (q : V3) :
    prepare spline { c with clrUpright := q } = (prepare spline c).map (keelMoved q) := by
  unfold prepare prepareGeometry
  simp only [C59_csys_constructor_total]
  cases mainSailInit c.main with
  | error e => rfl
  | ok m =>
  cases jibSailInit c.jib with
  | error e => rfl
  | ok j =>
  simp only [bind, Except.bind]
  cases windPostInit c.wind with
  | error e => rfl
  | ok _ =>
  simp only []
  cases sailPostInit c.rig (some m) (some j) with
  | error e => rfl
  | ok _ =>
  simp only []
  cases sailSetOf spline c.solver c.rig (some m) (some j) ⟨c.heelDeg, c.leewayDeg, c.vRef⟩ with
  | error e => rfl
  | ok set =>
  simp only []
  cases need c.rig.base with
  | error e => rfl
  | ok b =>
  simp only []
  rw [hull_keel _ _ _ q c.clrUpright]
  cases hullGeometry c.rig.sheer b ⟨c.heelDeg, c.leewayDeg, c.vRef⟩ c.clrUpright with
  | error e => rfl
  | ok hull =>
  simp only [Except.map]
  rw [show Config.vlmInput { c with clrUpright := q } = Config.vlmInput c from rfl]
  cases vlm (c.vlmInput set (windGetProfile c.wind)) with
  | error e => rfl
  | ok r =>
  simp only []
  cases inviscidFlow set.sails ⟨c.heelDeg, c.leewayDeg, c.vRef⟩ r.flowArrays <;> rfl

theorem prepared_clr {spline : SplineFn} {c : Config} {p : Prepared} (hp : prepare spline c = .ok p) :
    p.csys = ⟨c.heelDeg, c.leewayDeg, c.vRef⟩ ∧ p = keelMoved c.clrUpright p := by
  constructor
  · obtain ⟨main, jib, base, -, -, hcs, -⟩ := prepare_ok hp
    rw [C59_csys_constructor_total] at hcs
    exact (Except.ok.inj hcs).symm
  · have h := prepare_keel spline c c.clrUpright
    rw [show ({ c with clrUpright := c.clrUpright } : Config) = c from rfl, hp] at h
    exact Except.ok.inj h

theorem integral_keel (res : FlowResults) (q q' : V3) {key : String} (h : key ∉ keelRows) :
    ((FlowObject.new res).estimateKeel q').toDfIntegral key = ((FlowObject.new res).estimateKeel q).toDfIntegral key := by
  simp only [keelRows, List.mem_cons, List.not_mem_nil, or_false, not_or] at h
  obtain ⟨h1, h2, h3, h4, h5, h6, h7, h8, h9, h10, h11, h12, h13, h14⟩ := h
  simp [FlowObject.toDfIntegral, FlowObject.estimateKeel, FlowObject.new, PyDict.update, PyDict.setVec, PyDict.setMomentCow, PyDict.set,
    PyDict.empty, Function.update, h1, h2, h3, h4, h5, h6, h7, h8, h9, h10, h11, h12, h13, h14]

theorem emit_without {f : Effect → Effect} {xs ys : List (Py Effect)}
    (h : List.Forall₂ (fun x y : Py Effect => x.map f = y.map f) xs ys) :
    (emit xs).1.map f = (emit ys).1.map f ∧ (emit xs).2 = (emit ys).2 := by
  induction h with
  | nil => exact ⟨rfl, rfl⟩
  | @cons x y xs ys hxy _ ih =>
    cases x with
    | error e =>
      cases y with
      | error e' =>
        obtain rfl : e = e' := by simpa [Except.map] using hxy
        exact ⟨rfl, rfl⟩
      | ok b => cases hxy
    | ok a =>
      cases y with
      | error e' => cases hxy
      | ok b =>
        have hab : f a = f b := by simpa [Except.map] using hxy
        refine ⟨?_, ih.2⟩
        simp only [emit, List.map_cons]
        rw [hab, ih.1]

/-- **C150.**  Two runs whose centres of lateral resistance differ produce the same in the same order and end alike, apart
from the rows of the moments of the keel and in total, and from the place where the keel's force is drawn. -/
theorem C150_keel (spline : SplineFn) (c : Config) (q : V3) :
    (run spline { c with clrUpright := q }).1.map withoutKeel = (run spline c).1.map withoutKeel ∧
      (run spline { c with clrUpright := q }).2 = (run spline c).2 := by
  unfold run
  rw [prepare_keel]
  cases hp : prepare spline c with
  | error e => exact ⟨rfl, rfl⟩
  | ok p =>
    simp only [Except.map]
    obtain ⟨-, hk⟩ := prepared_clr hp
    refine emit_without ?_
    unfold outputSteps
    refine .cons ?_ (.cons rfl (.cons ?_ (.cons rfl (.cons rfl (.cons rfl .nil)))))
    · have hflow : p.flow = (FlowObject.new p.flow.res).estimateKeel (p.csys.rotatePointWithoutMirror c.clrUpright) :=
        congrArg Prepared.flow hk
      rw [show (keelMoved q p).vlm = p.vlm from rfl, show (keelMoved q p).csys = p.csys from rfl,
        show (keelMoved q p).set = p.set from rfl,
        show (keelMoved q p).flow = (FlowObject.new p.flow.res).estimateKeel (p.csys.rotatePointWithoutMirror q) from rfl]
      have hi := fun key => integral_keel p.flow.res (p.csys.rotatePointWithoutMirror c.clrUpright) (p.csys.rotatePointWithoutMirror q)
        (key := key)
      rw [← hflow] at hi
      unfold saveResults
      rw [show ((FlowObject.new p.flow.res).estimateKeel (p.csys.rotatePointWithoutMirror q)).res = p.flow.res from rfl]
      cases windIntegral p.vlm.inlet.winds p.csys with
      | error e => rfl
      | ok ic =>
      simp only [bind, Except.bind]
      cases cpGirthsAll p.set.sails p.csys (p.vlm.vars.map PanelVars.cp) with
      | error e => rfl
      | ok g =>
      simp only []
      cases cpGirthsAbove g.1 p.set.sails with
      | error e => rfl
      | ok ga =>
      simp only []
      cases arraySplit g.2 (2 * p.set.sails.length) with
      | error e => rfl
      | ok parts =>
      simp only [nanAsNone, Except.map, withoutKeel]
      congr 4
      funext key
      by_cases hkey : key ∈ keelRows
      · rw [if_pos hkey, if_pos hkey]
      · rw [if_neg hkey, if_neg hkey, hi key hkey]
    · unfold displayScene
      rw [show (keelMoved q p).vlm = p.vlm from rfl, show (keelMoved q p).flow.res = p.flow.res from rfl]
      simp only [Bool.false_eq_true, if_false]
      cases displayPanels p.vlm "p_coeffs" with
      | error e => cases e <;> rfl
      | ok P =>
      simp only [bind, Except.bind]
      cases displayWinds p.vlm.vars.length P.water p.vlm.inlet p.flow.res.vInd p.vlm.input.ns p.vlm.input.nc false with
      | error e => cases e <;> rfl
      | ok W =>
      simp only [displayCeClr, bind, Except.bind]
      cases npMean p.flow.res.vFsLength with
      | error e => cases e <;> rfl
      | ok mean =>
      simp only []
      cases p.flow.res.centreOfEffort with
      | error e => cases e <;> rfl
      | ok ce =>
      simp only []
      cases normalize p.flow.res.forceTotal with
      | error e => cases e <;> rfl
      | ok u => rfl

theorem prepared_force_row {spline : SplineFn} {c : Config} {p : Prepared} (hp : prepare spline c = .ok p) :
    rowVec p.flow.toDfIntegral "F_sails_total_COG" = some p.flow.res.forceTotal := by
  obtain ⟨hn, -, hlen, -⟩ := prepared_shape hp
  obtain ⟨main, jib, base, -, -, -, -, -, hset, -, -, hv, res, hres, hflow⟩ := prepare_ok hp
  obtain ⟨hnames, -⟩ := sailSetOf_shape hset
  have hne : p.set.sails ≠ [] := by
    intro e; rw [e] at hn; simp at hn
  have hsh := vlm_shaped hv hne (m := c.solver.nc * c.solver.ns) hlen
  have hnd : (p.set.sails.map SailGeom.name).Nodup ∧ "sails" ∉ p.set.sails.map SailGeom.name ∧
      "keel" ∉ p.set.sails.map SailGeom.name := by
    rcases hnames with ⟨-, e⟩ | ⟨-, e⟩ | ⟨-, e⟩ <;> rw [e] <;> decide
  obtain ⟨res2, hr2, h2⟩ := C51_last_estimate _ _ p.csys _ hsh hnd.2.1 hnd.2.2
  rw [hres] at hr2
  injection hr2 with hr2
  subst hr2
  obtain ⟨k1, -⟩ := h2 [p.hull.clr]
  have hfo : [p.hull.clr].foldl FlowObject.estimateKeel (FlowObject.new res) = p.flow := by rw [hflow]; rfl
  rw [hfo] at k1
  obtain ⟨r0, e0, -, -, hF, -⟩ := inviscidFlow_ok hsh.nonempty p.csys p.vlm.flowArrays hsh.force hsh.cp
  rw [hres] at e0
  obtain rfl := Except.ok.inj e0
  rw [k1, hflow]
  exact congrArg some hF.symm

/-- **C150, line of action.**  The workbook stays as it is exactly if the centre of lateral resistance is moved along the
direction of the total force. -/
theorem C150_line (spline : SplineFn) (c : Config) (t : SavedResults) (h : .workbook (some t) ∈ (run spline c).1) (F : V3)
    (hF : rowVec t.integrals "F_sails_total_COG" = some F) (q : V3) :
    .workbook (some t) ∈ (run spline { c with clrUpright := q }).1 ↔
      V3.cross (afloat c.heelDeg c.leewayDeg q - afloat c.heelDeg c.leewayDeg c.clrUpright) F = 0 := by
  constructor
  · intro h'
    obtain ⟨F1, M1, k1, a1, a2, a3, a4, -⟩ := C73_totals spline c t h
    obtain ⟨F2, M2, k2, b1, b2, b3, b4, -⟩ := C73_totals spline _ t h'
    obtain rfl : F1 = F := Option.some.inj (a1.symm.trans hF)
    obtain rfl : F2 = F1 := Option.some.inj (b1.symm.trans hF)
    obtain rfl : k2 = k1 := Option.some.inj (b3.symm.trans a3)
    rw [a4] at b4
    have e := fun f : V3 → ℝ => congrArg f b4
    have ex := e V3.x
    have ey := e V3.y
    have ez := e V3.z
    simp only [V3.cross, V3.neg_x, V3.neg_y, V3.neg_z] at ex ey ez
    ext
    · simp only [V3.cross, V3.sub_x, V3.sub_y, V3.sub_z, V3.zero_x]; linarith
    · simp only [V3.cross, V3.sub_x, V3.sub_y, V3.sub_z, V3.zero_y]; linarith
    · simp only [V3.cross, V3.sub_x, V3.sub_y, V3.sub_z, V3.zero_z]; linarith
  intro hq
  obtain ⟨p, hp, hs⟩ := run_workbook h
  obtain ⟨hi, -⟩ := saveResults_integrals hs
  obtain ⟨hcs, hk⟩ := prepared_clr hp
  rw [hi, prepared_force_row hp] at hF
  have hF := Option.some.inj hF
  have hrot : ∀ v, p.csys.rotatePointWithoutMirror v = afloat c.heelDeg c.leewayDeg v := by
    intro v
    obtain ⟨hull, e1, e2, -⟩ := C57_hull 0 0 p.csys v
    have e3 := hull_keel 0 0 p.csys v v
    rw [e1] at e3
    have e4 := congrArg Hull.clr (Except.ok.inj e3)
    rw [show p.csys.rotatePointWithoutMirror v = hull.clr from e4.symm, e2, hcs]
    rfl
  have hflow : (keelMoved q p).flow = p.flow := by
    rw [congrArg Prepared.flow hk]
    simp only [keelMoved, FlowObject.estimateKeel, FlowObject.new, hrot]
    have e : V3.cross (afloat c.heelDeg c.leewayDeg q) (-p.flow.res.forceTotal) =
        V3.cross (afloat c.heelDeg c.leewayDeg c.clrUpright) (-p.flow.res.forceTotal) := by
      rw [← hF] at hq
      have ex := congrArg V3.x hq
      have ey := congrArg V3.y hq
      have ez := congrArg V3.z hq
      simp only [V3.cross, V3.sub_x, V3.sub_y, V3.sub_z, V3.zero_x, V3.zero_y, V3.zero_z] at ex ey ez
      ext
      · simp only [V3.cross, V3.neg_x, V3.neg_y, V3.neg_z]; linarith
      · simp only [V3.cross, V3.neg_x, V3.neg_y, V3.neg_z]; linarith
      · simp only [V3.cross, V3.neg_x, V3.neg_y, V3.neg_z]; linarith
    rw [e]
  refine workbook_mem (p := keelMoved q p) (by rw [prepare_keel, hp]; rfl) ?_
  rw [hflow]
  exact hs

/-- Non-vacuity: the demonstration run with its keel moved in any way writes a workbook; moved along the force, the same. -/
example (spline : SplineFn) : ∃ t F, .workbook (some t) ∈ (run spline Demo.config).1 ∧
    rowVec t.integrals "F_sails_total_COG" = some F ∧
    .workbook (some t) ∈ (run spline { Demo.config with clrUpright := Demo.config.clrUpright + (2 : ℝ) • F }).1 := by
  obtain ⟨t, ht⟩ := demo_workbook spline
  obtain ⟨F, -, -, hF, -⟩ := C73_totals spline Demo.config t ht
  refine ⟨t, F, ht, hF, (C150_line spline Demo.config t ht F hF _).2 ?_⟩
  have e : ∀ v, afloat Demo.config.heelDeg Demo.config.leewayDeg v = v := by
    intro v
    have h1 : Demo.config.heelDeg = 0 := rfl
    have h2 : Demo.config.leewayDeg = 0 := rfl
    rw [h1, h2]
    ext <;> simp [afloat, deg2rad, rodrigues, V3.cross]
  rw [e, e]
  ext <;> simp [V3.cross] <;> ring

end PySailing.Props
