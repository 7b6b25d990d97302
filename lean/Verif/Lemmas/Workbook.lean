import Verif.Lemmas.Outputs
import Verif.Props.Similarity
import Mathlib.Algebra.BigOperators.Group.List.Basic
import Mathlib.Algebra.BigOperators.GroupWithZero.Action

/-!
# Lemmas: how the result sheets depend on the forces
-/

namespace PySailing

open Spec Props

namespace PyDict

/-- All values multiplied by `k`. -/
def scale (k : ℝ) (d : PyDict) : PyDict := fun key => (d key).map (k * ·)

theorem scale_set (k : ℝ) (d : PyDict) (key : String) (v : ℝ) :
    (d.set key v).scale k = (d.scale k).set key (k * v) := by
  funext s
  unfold scale set
  by_cases h : s = key
  · subst h; simp
  · simp [Function.update_of_ne h]

theorem scale_setVec (k : ℝ) (d : PyDict) (key : String) (v : V3) :
    (d.setVec key v).scale k = (d.scale k).setVec key (k • v) := by
  unfold setVec
  rw [scale_set, scale_set, scale_set]; rfl

theorem scale_setMomentCow (k : ℝ) (d : PyDict) (key : String) (v : V3) :
    (d.setMomentCow key v).scale k = (d.scale k).setMomentCow key (k • v) := by
  unfold setMomentCow
  rw [scale_set, scale_set, scale_set, scale_set]
  simp

theorem scale_update (k : ℝ) (d e : PyDict) : (d.update e).scale k = (d.scale k).update (e.scale k) := by
  funext s
  unfold scale update
  cases h : e s <;> simp [h]

theorem scale_empty (k : ℝ) : (empty).scale k = empty := by
  funext s; rfl

end PyDict

theorem sum_map_smul (k : ℝ) (l : List V3) : (l.map (k • ·)).sum = k • l.sum := by
  induction l with
  | nil => simp
  | cons a l ih => simp [ih]

theorem sum_map_mul (k : ℝ) (l : List ℝ) : (l.map (k * ·)).sum = k * l.sum := by
  induction l with
  | nil => simp
  | cons a l ih => simp [ih, mul_add]

theorem cross_smul_right' (k : ℝ) (a b : V3) : V3.cross a (k • b) = k • V3.cross a b := by
  ext <;> simp <;> ring

theorem calcMoments_smul (k : ℝ) (r F : List V3) :
    calcMoments r (F.map (k • ·)) = (calcMoments r F).map (List.map (k • ·)) := by
  unfold calcMoments
  by_cases h : r.length = F.length
  · simp only [List.length_map, h, if_true, Except.map, List.map_zipWith, List.zipWith_map_right, cross_smul_right']
  · simp [h, Except.map]

theorem flowSail_smul (k : ℝ) (name : String) (F r : List V3) (d : PyDict) :
    flowSail name (F.map (k • ·)) r (d.scale k) = (flowSail name F r d).map (PyDict.scale k) := by
  unfold flowSail
  rw [calcMoments_smul]
  cases calcMoments r F with
  | error e => rfl
  | ok M =>
    simp only [Except.map, bind, Except.bind, sum_map_smul, PyDict.scale_setVec]

theorem flowSails_smul (k : ℝ) (ss : List SailGeom) (Fs rs : List (List V3)) (d : PyDict) :
    flowSails ss (Fs.map (List.map (k • ·))) rs (d.scale k) = (flowSails ss Fs rs d).map (PyDict.scale k) := by
  induction ss generalizing Fs rs d with
  | nil => rfl
  | cons s ss ih =>
    cases Fs with
    | nil => cases rs <;> rfl
    | cons F Fs =>
      cases rs with
      | nil => rfl
      | cons r rs =>
        simp only [List.map_cons, flowSails, flowSail_smul]
        cases flowSail s.name F r d with
        | error e => rfl
        | ok d' => simp only [Except.map, bind, Except.bind, ih]

theorem extract_smul (k : ℝ) (l : List V3) :
    (extractAboveWater (l.map (k • ·))).2 = k • (extractAboveWater l).2 := by
  simp only [extractAboveWater, List.length_map, ← List.map_take, sum_map_smul]

theorem extract_mul (k : ℝ) (l : List ℝ) :
    (extractAboveWater (l.map (k * ·))).2 = k * (extractAboveWater l).2 := by
  simp only [extractAboveWater, List.length_map, ← List.map_take, sum_map_mul]

theorem centerline_smul (c : Csys) (k : ℝ) (l : List V3) :
    c.fromXyzToCenterline (l.map (k • ·)) = (c.fromXyzToCenterline l).map (k • ·) := by
  simp only [Csys.fromXyzToCenterline, List.map_map]
  refine List.map_congr_left fun v _ => ?_
  simp only [Function.comp, M3.mulVec_smul]

theorem determineVector_smul {k : ℝ} (hk : k ≠ 0) (F : V3) (s : ℝ) (M : V3) :
    determineVector (k • F) (k * s) (k • M) = determineVector F s M := by
  unfold determineVector
  have h : (k • F).dot (k • F) = k * k * F.dot F := by simp [V3.dot]; ring
  rw [h]
  by_cases h0 : F.dot F = 0
  · simp [h0]
  · rw [if_neg (mul_ne_zero (mul_ne_zero hk hk) h0), if_neg h0]
    congr 1
    ext <;> simp <;> field_simp

/-- Forces multiplied by `k`: all totals and all rows of the sails are multiplied by `k`, the centre of
effort stays. -/
theorem inviscidFlow_smul {sails : List SailGeom} {csys : Csys} {a a' : FlowArrays} {res : FlowResults} {k : ℝ}
    (h : inviscidFlow sails csys a = .ok res) (hf : a'.force = a.force.map (k • ·)) (hc : a'.cp = a.cp) :
    ∃ res', inviscidFlow sails csys a' = .ok res' ∧ res'.csys = res.csys ∧
      res'.forceTotal = k • res.forceTotal ∧ res'.momentTotal = k • res.momentTotal ∧
      res'.forceClTotal = k • res.forceClTotal ∧ res'.momentClTotal = k • res.momentClTotal ∧
      res'.dyn = res.dyn.scale k ∧ (k ≠ 0 → res'.centreOfEffort = res.centreOfEffort) := by
  unfold inviscidFlow at h ⊢
  rw [hf, hc]
  simp only [List.length_map, ← List.map_take, arraySplit_map, calcMoments_smul] at h ⊢
  cases h1 : arraySplit (a.force.take (a.force.length / 2)) sails.length with
  | error e => rw [h1] at h; cases h
  | ok Fs =>
  rw [h1] at h
  simp only [bind, Except.bind, Except.map] at h ⊢
  cases h2 : arraySplit ((calcMomentArm a.cp csys.vRef).take (a.force.length / 2)) sails.length with
  | error e => rw [h2] at h; cases h
  | ok rs =>
  rw [h2] at h
  simp only at h ⊢
  have hd := flowSails_smul k sails Fs rs PyDict.empty
  rw [PyDict.scale_empty] at hd
  rw [hd]
  cases h3 : flowSails sails Fs rs PyDict.empty with
  | error e => rw [h3] at h; cases h
  | ok dyn =>
  rw [h3] at h
  simp only [Except.map] at h ⊢
  cases h4 : calcMoments (calcMomentArm a.cp csys.vRef) a.force with
  | error e => rw [h4] at h; cases h
  | ok M =>
  rw [h4] at h
  simp only at h ⊢
  injection h with h
  subst h
  refine ⟨_, rfl, rfl, extract_smul _ _, extract_smul _ _, ?_, ?_, rfl, fun hk => ?_⟩
  · simp only [centerline_smul, extract_smul]
  · simp only [centerline_smul, extract_smul]
  · simp only [extract_smul]
    have : List.zipWith V3.dot (calcMomentArm a.cp csys.vRef) (a.force.map (k • ·)) =
        (List.zipWith V3.dot (calcMomentArm a.cp csys.vRef) a.force).map (k * ·) := by
      rw [List.map_zipWith, List.zipWith_map_right]
      congr 1
      funext x y
      simp [V3.dot]; ring
    rw [this, extract_mul, determineVector_smul hk]

/-- … and so is every row of the sheet `Integrals`. -/
theorem toDfIntegral_smul {res res' : FlowResults} {k : ℝ} (h0 : res'.csys = res.csys)
    (h1 : res'.forceTotal = k • res.forceTotal) (h2 : res'.momentTotal = k • res.momentTotal)
    (h3 : res'.forceClTotal = k • res.forceClTotal) (h4 : res'.momentClTotal = k • res.momentClTotal)
    (h5 : res'.dyn = res.dyn.scale k) (clr : V3) :
    ((FlowObject.new res').estimateKeel clr).toDfIntegral =
      (((FlowObject.new res).estimateKeel clr).toDfIntegral).scale k := by
  have hk : V3.cross clr (-(k • res.forceTotal)) = k • V3.cross clr (-res.forceTotal) := by
    ext <;> simp <;> ring
  unfold FlowObject.toDfIntegral FlowObject.estimateKeel FlowObject.new
  simp only [h0, h1, h2, h3, h4, h5, hk, PyDict.scale_update, PyDict.scale_setMomentCow, PyDict.scale_setVec,
    PyDict.scale_empty, M3.mulVec_smul, smul_add]

/-- The workbook is written first. -/
theorem workbook_mem {spline : SplineFn} {c : Config} {p : Prepared} {t : SavedResults}
    (hp : prepare spline c = .ok p) (ht : saveResults p.vlm p.csys p.flow p.set.sails p.csys = .ok t) :
    .workbook (some t) ∈ (run spline c).1 := by
  unfold run
  rw [hp]
  unfold outputSteps
  simp only [ht]
  simp [nanAsNone, Except.map, emit]

theorem saveResults_integrals {r : Vlm} {csys csys0 : Csys} {o : FlowObject} {sails : List SailGeom}
    {t : SavedResults} (h : saveResults r csys o sails csys0 = .ok t) :
    t.integrals = o.toDfIntegral ∧ windIntegral r.inlet.winds csys0 = .ok t.inlet := by
  unfold saveResults at h
  cases h1 : windIntegral r.inlet.winds csys0 with
  | error e => rw [h1] at h; cases h
  | ok ic =>
  rw [h1] at h
  simp only [bind, Except.bind] at h
  split at h
  · cases h
  split at h
  · cases h
  split at h
  · cases h
  injection h with h
  subst h
  exact ⟨rfl, rfl⟩

/-- A workbook can be written for any other solution on the same lattice. -/
theorem saveResults_of {r r' : Vlm} {csys csys0 : Csys} {o : FlowObject} (o' : FlowObject)
    {sails : List SailGeom} {t : SavedResults} (h : saveResults r csys o sails csys0 = .ok t)
    (hv : r'.vars = r.vars) {ic : List (String × ℝ)} (hw : windIntegral r'.inlet.winds csys0 = .ok ic) :
    ∃ t', saveResults r' csys o' sails csys0 = .ok t' ∧ t'.integrals = o'.toDfIntegral ∧ t'.inlet = ic := by
  unfold saveResults at h ⊢
  rw [hw, hv]
  cases h1 : windIntegral r.inlet.winds csys0 with
  | error e => rw [h1] at h; cases h
  | ok ic =>
  rw [h1] at h
  simp only [bind, Except.bind] at h ⊢
  split at h
  · cases h
  split at h
  · cases h
  split at h
  · cases h
  exact ⟨_, rfl, rfl, rfl⟩

/-- The pieces of a prepared run with another density or another wind. -/
theorem prepare_change {spline : SplineFn} {c : Config} {p : Prepared} (hp : prepare spline c = .ok p)
    (rho : ℝ) (w : WindConditions) (hw : windPostInit w = .ok ()) {r' : Vlm} {k : ℝ}
    (hr : vlm { c.vlmInput p.set (windGetProfile c.wind) with rho := rho, wind := windGetProfile w } = .ok r')
    (hf : r'.out.force = p.vlm.out.force.map (k • ·)) :
    ∃ p', prepare spline { c with rho := rho, wind := w } = .ok p' ∧ p'.vlm = r' ∧ p'.csys = p.csys ∧
      p'.set = p.set ∧ p'.hull = p.hull ∧ r'.vars = p.vlm.vars ∧
      p'.flow.toDfIntegral = p.flow.toDfIntegral.scale k ∧
      (k ≠ 0 → p'.flow.res.centreOfEffort = p.flow.res.centreOfEffort) ∧
      p'.flow.res.forceTotal = k • p.flow.res.forceTotal := by
  obtain ⟨main, jib, base, h1, h2, h3, -, h5, h6, h7, h8, hv, res, hres, hflow⟩ := prepare_ok hp
  have hvars : r'.vars = p.vlm.vars := by
    obtain ⟨-, -, a3, -⟩ := (vlm_ok_iff _ _).1 hr
    obtain ⟨-, -, b3, -⟩ := (vlm_ok_iff _ _).1 hv
    have e : (Except.ok r'.vars : Py _) = .ok p.vlm.vars := by rw [← a3, ← b3]
    injection e
  obtain ⟨res', hres', e0, e1, e2, e3, e4, e5, e6⟩ := inviscidFlow_smul (a' := r'.flowArrays) (k := k) hres hf
    (by simp [Vlm.flowArrays, hvars])
  refine ⟨⟨p.csys, p.set, p.hull, r', (FlowObject.new res').estimateKeel p.hull.clr⟩, ?_, rfl, rfl, rfl, rfl, hvars,
    ?_, ?_, ?_⟩
  · have hr2 : vlm (Config.vlmInput { c with rho := rho, wind := w } p.set (windGetProfile w)) = .ok r' := hr
    unfold prepare prepareGeometry
    simp only [h1, h2, h3, hw, h5, h6, h7, h8, need, hr2, hres', bind, Except.bind]
  · rw [hflow]; exact toDfIntegral_smul e0 e1 e2 e3 e4 e5 _
  · intro hk; rw [hflow]; exact e6 hk
  · rw [hflow]; exact e1

end PySailing
