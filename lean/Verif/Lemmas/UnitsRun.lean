import Verif.Lemmas.UnitsGeometry
import Verif.Lemmas.TackRun
import Verif.Props.Scaling

/-!
# Lemmas: settings in other units, results
-/

namespace PySailing

open Spec Props

/-! ## Names of rows and columns -/

/-- Vectors of lengths. -/
def lengthKeys : List String := ["cp_points_COG"]

/-- Vectors of speeds. -/
def speedKeys : List String := ["V_induced_COG", "V_app_fs_COG", "TWS_COG", "V_app_infs_COG"]

/-- Vectors of forces. -/
def forceKeys : List String :=
  ["F_sails_COG", "F_sails_COW", "F_sails_total_COG", "F_sails_total_COW", "F_jib_total_COG", "F_main_sail_total_COG"]

theorem lengthKeys_names : ∀ key ∈ lengthKeys, ∀ n ∈ [key ++ ".x", key ++ ".y", key ++ ".z"], n ∈ lengthNames := by decide

theorem speedKeys_names : ∀ key ∈ speedKeys, ∀ n ∈ [key ++ ".x", key ++ ".y", key ++ ".z"],
    n ∉ lengthNames ∧ n ∈ speedNames := by decide

/-- A name of a force. -/
def IsForce (n : String) : Prop :=
  n ∉ lengthNames ∧ n ∉ speedNames ∧ n ≠ "Circulation_magnitude" ∧ n ≠ "Pressure" ∧ n ∈ forceNames

/-- A name of a moment. -/
def IsMoment (n : String) : Prop :=
  n ∉ lengthNames ∧ n ∉ speedNames ∧ n ≠ "Circulation_magnitude" ∧ n ≠ "Pressure" ∧ n ∉ forceNames ∧ n ∈ momentNames

/-- A name of a pure number. -/
def IsNumber (n : String) : Prop :=
  n ∉ lengthNames ∧ n ∉ speedNames ∧ n ≠ "Circulation_magnitude" ∧ n ≠ "Pressure" ∧ n ∉ forceNames ∧ n ∉ momentNames

theorem forceKeys_names : ∀ key ∈ forceKeys, ∀ n ∈ [key ++ ".x", key ++ ".y", key ++ ".z"], IsForce n := by
  unfold IsForce; decide

theorem axialKeys_moment : ∀ key ∈ axialKeys, ∀ n ∈ [key ++ ".x", key ++ ".y", key ++ ".z"], IsMoment n := by
  unfold IsMoment; decide

theorem cowKeys_moment : ∀ key ∈ cowKeys,
    ∀ n ∈ [key ++ ".x (heel)", key ++ ".y (pitch)", key ++ ".z (yaw)", key ++ ".z (yaw - JG sign)"], IsMoment n := by
  unfold IsMoment; decide

namespace Spec.Units

/-- Unit of force. -/
noncomputable def force (u : Units) : ℝ := u.density * u.speed ^ 2 * u.length ^ 2

/-- Unit of moment. -/
noncomputable def moment (u : Units) : ℝ := u.density * u.speed ^ 2 * u.length ^ 3

/-- Unit of pressure. -/
noncomputable def pressure (u : Units) : ℝ := u.density * u.speed ^ 2

theorem moment_eq (u : Units) : u.moment = u.length * u.force := by unfold moment force; ring

theorem force_pos {u : Units} (h : u.Positive) : 0 < u.force := by
  have := h.length; have := h.speed; have := h.density
  unfold force; positivity

end Spec.Units

theorem unitOf_length (u : Units) {n : String} (h : n ∈ lengthNames) : unitOf u n = u.length := by
  unfold unitOf; rw [if_pos h]

theorem unitOf_speed (u : Units) {n : String} (h : n ∉ lengthNames ∧ n ∈ speedNames) : unitOf u n = u.speed := by
  unfold unitOf; rw [if_neg h.1, if_pos h.2]

theorem unitOf_force (u : Units) {n : String} (h : IsForce n) : unitOf u n = u.force := by
  obtain ⟨h1, h2, h3, h4, h5⟩ := h
  unfold unitOf; rw [if_neg h1, if_neg h2, if_neg h3, if_neg h4, if_pos h5]; rfl

theorem unitOf_moment (u : Units) {n : String} (h : IsMoment n) : unitOf u n = u.moment := by
  obtain ⟨h1, h2, h3, h4, h5, h6⟩ := h
  unfold unitOf; rw [if_neg h1, if_neg h2, if_neg h3, if_neg h4, if_neg h5, if_pos h6]; rfl

theorem unitOf_number (u : Units) {n : String} (h : IsNumber n) : unitOf u n = 1 := by
  obtain ⟨h1, h2, h3, h4, h5, h6⟩ := h
  unfold unitOf; rw [if_neg h1, if_neg h2, if_neg h3, if_neg h4, if_neg h5, if_neg h6]

theorem unitOf_circulation (u : Units) : unitOf u "Circulation_magnitude" = u.length * u.speed := by
  unfold unitOf; rw [if_neg (by decide), if_neg (by decide), if_pos rfl]

theorem unitOf_pressure (u : Units) : unitOf u "Pressure" = u.pressure := by
  unfold unitOf; rw [if_neg (by decide), if_neg (by decide), if_neg (by decide), if_pos rfl]; rfl

/-! ## Dictionaries -/

namespace PyDict

/-- All values in other units. -/
noncomputable def units (u : Units) (d : PyDict) : PyDict := fun key => (d key).map (unitOf u key * ·)

theorem units_set (u : Units) (d : PyDict) (key : String) (v : ℝ) :
    (d.set key v).units u = (d.units u).set key (unitOf u key * v) := by
  funext s
  unfold units set
  by_cases h : s = key
  · subst h; simp
  · simp [Function.update_of_ne h]

theorem units_setVec_force (u : Units) (d : PyDict) {key : String} (h : key ∈ forceKeys) (v : V3) :
    (d.setVec key v).units u = (d.units u).setVec key (big u.force v) := by
  have hn := forceKeys_names key h
  unfold setVec
  rw [units_set, units_set, units_set, unitOf_force u (hn _ (by simp)), unitOf_force u (hn _ (by simp)),
    unitOf_force u (hn _ (by simp))]; rfl

theorem units_setVec_moment (u : Units) (d : PyDict) {key : String} (h : key ∈ axialKeys) (v : V3) :
    (d.setVec key v).units u = (d.units u).setVec key (big u.moment v) := by
  have hn := axialKeys_moment key h
  unfold setVec
  rw [units_set, units_set, units_set, unitOf_moment u (hn _ (by simp)), unitOf_moment u (hn _ (by simp)),
    unitOf_moment u (hn _ (by simp))]; rfl

theorem units_setMomentCow (u : Units) (d : PyDict) {key : String} (h : key ∈ cowKeys) (v : V3) :
    (d.setMomentCow key v).units u = (d.units u).setMomentCow key (big u.moment v) := by
  have hn := cowKeys_moment key h
  unfold setMomentCow
  rw [units_set, units_set, units_set, units_set, unitOf_moment u (hn _ (by simp)), unitOf_moment u (hn _ (by simp)),
    unitOf_moment u (hn _ (by simp)), unitOf_moment u (hn _ (by simp)), mul_neg]; rfl

theorem units_update (u : Units) (d e : PyDict) : (d.update e).units u = (d.units u).update (e.units u) := by
  funext s
  unfold units update
  cases h : e s <;> simp [h]

theorem units_empty (u : Units) : (empty).units u = empty := by
  funext s; rfl

end PyDict

/-! ## `InviscidFlowResults` -/

theorem momentArm_big {s : ℝ} (hs : 0 < s) (v p : V3) : momentArm (big s v) (big s p) = big s (momentArm v p) := by
  unfold momentArm
  simp only [z_big_pos hs]
  by_cases h : p.z > 0
  · ext <;> simp [h, big] <;> ring
  · ext <;> simp [h, big] <;> ring

theorem calcMomentArm_big {s : ℝ} (hs : 0 < s) (cps : List V3) (v : V3) :
    calcMomentArm (cps.map (big s)) (big s v) = (calcMomentArm cps v).map (big s) := by
  simp only [calcMomentArm, List.map_map]
  exact List.map_congr_left fun p _ => momentArm_big hs v p

theorem cross_big (s f : ℝ) (a b : V3) : V3.cross (big s a) (big f b) = big (s * f) (V3.cross a b) := by
  unfold big
  rw [V3.cross_smul_left, V3.cross_smul_right, smul_smul]

theorem dot_big (s f : ℝ) (a b : V3) : V3.dot (big s a) (big f b) = s * f * V3.dot a b := by
  unfold big
  rw [V3.dot_smul_left, V3.dot_smul_right, mul_assoc]

theorem calcMoments_big (s f : ℝ) (r F : List V3) :
    calcMoments (r.map (big s)) (F.map (big f)) = (calcMoments r F).map (List.map (big (s * f))) := by
  unfold calcMoments
  by_cases h : r.length = F.length
  · simp only [List.length_map, h, if_true, Except.map, List.map_zipWith, List.zipWith_map, cross_big]
  · simp [h, Except.map]

theorem sailUnitKeys {name : String} (h : name ∈ ["jib", "main_sail"]) :
    "F_" ++ name ++ "_total_COG" ∈ forceKeys ∧ "M_" ++ name ++ "_total_COG" ∈ axialKeys := by
  revert name; decide

theorem flowSail_units (u : Units) {name : String} (h : name ∈ ["jib", "main_sail"]) (F r : List V3) (d : PyDict) :
    flowSail name (F.map (big u.force)) (r.map (big u.length)) (d.units u) = (flowSail name F r d).map (PyDict.units u) := by
  obtain ⟨h1, h2⟩ := sailUnitKeys h
  unfold flowSail
  rw [calcMoments_big, ← u.moment_eq]
  cases calcMoments r F with
  | error e => rfl
  | ok M =>
    simp only [Except.map, bind, Except.bind, big_sum, PyDict.units_setVec_force _ _ h1, PyDict.units_setVec_moment _ _ h2]

theorem flowSails_units (u : Units) (ss : List SailGeom) (hn : ∀ s ∈ ss, s.name ∈ ["jib", "main_sail"])
    (Fs rs : List (List V3)) (d : PyDict) :
    flowSails (ss.map (SailGeom.big u.length)) (Fs.map (List.map (big u.force))) (rs.map (List.map (big u.length))) (d.units u) =
      (flowSails ss Fs rs d).map (PyDict.units u) := by
  induction ss generalizing Fs rs d with
  | nil => rfl
  | cons s ss ih =>
    cases Fs with
    | nil => cases rs <;> rfl
    | cons F Fs =>
      cases rs with
      | nil => rfl
      | cons r rs =>
        have e : (s.big u.length).name = s.name := rfl
        simp only [List.map_cons, flowSails, e, flowSail_units u (hn s List.mem_cons_self)]
        cases flowSail s.name F r d with
        | error e => rfl
        | ok d' => simp only [Except.map, bind, Except.bind, ih fun s hs => hn s (List.mem_cons_of_mem _ hs)]

theorem extract_big (s : ℝ) (l : List V3) :
    extractAboveWater (l.map (big s)) = ((extractAboveWater l).1.map (big s), big s (extractAboveWater l).2) := by
  simp only [extractAboveWater, List.length_map, ← List.map_take, big_sum]

theorem centerline_big (s f : ℝ) (c : Csys) (l : List V3) :
    (c.big s).fromXyzToCenterline (l.map (big f)) = (c.fromXyzToCenterline l).map (big f) := by
  simp only [Csys.fromXyzToCenterline, List.map_map]
  exact List.map_congr_left fun v _ => mulVec_big f c.leeway v

theorem determineVector_big {f : ℝ} (hf : f ≠ 0) (s : ℝ) (F : V3) (x : ℝ) (M : V3) :
    determineVector (big f F) (s * f * x) (big (s * f) M) = (determineVector F x M).map (big s) := by
  unfold determineVector
  rw [dot_big]
  by_cases h : F.dot F = 0
  · rw [if_pos (by rw [h, mul_zero]), if_pos h]; rfl
  · rw [if_neg (mul_ne_zero (mul_ne_zero hf hf) h), if_neg h]
    simp only [Except.map]
    congr 1
    rw [cross_big]
    unfold big
    rw [smul_smul, show s * f * x * f = f * (s * f) * x by ring, ← smul_smul (f * (s * f)) x F, ← smul_add, smul_smul, smul_smul]
    congr 1
    field_simp

theorem arctanRatio_mul {f : ℝ} (hf : 0 < f) (y x : ℝ) : arctanRatio (f * y) (f * x) = arctanRatio y x := by
  unfold arctanRatio
  have e1 : f * x = 0 ↔ x = 0 := by simp [hf.ne']
  have e2 : f * y = 0 ↔ y = 0 := by simp [hf.ne']
  have e3 : 0 < f * y ↔ 0 < y := mul_pos_iff_of_pos_left hf
  simp only [e1, e2, e3, mul_div_mul_left _ _ hf.ne']

theorem arctan2_mul {f : ℝ} (hf : 0 < f) (y x : ℝ) : arctan2 (f * y) (f * x) = arctan2 y x := by
  unfold arctan2
  have : (⟨f * x, f * y⟩ : ℂ) = (f : ℂ) * ⟨x, y⟩ := by
    apply Complex.ext <;> simp
  rw [this, Complex.arg_real_mul _ hf]

theorem norm_big {f : ℝ} (hf : 0 < f) (v : V3) : (big f v).norm = f * v.norm := by
  unfold big; rw [V3.norm_smul, abs_of_pos hf]

/-- The arrays of the solution in other units. -/
noncomputable def FlowArrays.units (u : Units) (a : FlowArrays) : FlowArrays where
  gamma := a.gamma.map (u.length * u.speed * ·)
  pressure := a.pressure.map (u.pressure * ·)
  vIndCp := a.vIndCp.map (big u.speed)
  vFsCp := a.vFsCp.map (big u.speed)
  force := a.force.map (big u.force)
  cp := a.cp.map (big u.length)

/-- The results in other units. -/
noncomputable def FlowResults.units (u : Units) (r : FlowResults) : FlowResults where
  csys := r.csys.big u.length
  gamma := r.gamma.map (u.length * u.speed * ·)
  pressure := r.pressure.map (u.pressure * ·)
  vInd := r.vInd.map (big u.speed)
  vIndLength := r.vIndLength.map (u.speed * ·)
  vFs := r.vFs.map (big u.speed)
  vFsLength := r.vFsLength.map (u.speed * ·)
  awa := r.awa
  force := r.force.map (big u.force)
  forceAbove := r.forceAbove.map (big u.force)
  forceTotal := big u.force r.forceTotal
  dyn := r.dyn.units u
  moment := r.moment.map (big u.moment)
  momentTotal := big u.moment r.momentTotal
  centreOfEffort := r.centreOfEffort.map (big u.length)
  forceCl := r.forceCl.map (big u.force)
  forceClTotal := big u.force r.forceClTotal
  momentCl := r.momentCl.map (big u.moment)
  momentClTotal := big u.moment r.momentClTotal

theorem inviscidFlow_units {u : Units} (hu : u.Positive) {sails : List SailGeom}
    (hn : ∀ s ∈ sails, s.name ∈ ["jib", "main_sail"]) {csys : Csys}
    {a : FlowArrays} {res : FlowResults} (h : inviscidFlow sails csys a = .ok res) :
    inviscidFlow (sails.map (SailGeom.big u.length)) (csys.big u.length) (a.units u) = .ok (res.units u) := by
  unfold inviscidFlow at h ⊢
  have e0 : (csys.big u.length).vRef = big u.length csys.vRef := rfl
  have e1 : (a.units u).cp = a.cp.map (big u.length) := rfl
  have e2 : (a.units u).force = a.force.map (big u.force) := rfl
  simp only [e0, e1, e2, List.length_map, calcMomentArm_big hu.length, ← List.map_take, arraySplit_map,
    calcMoments_big, ← u.moment_eq] at h ⊢
  cases h1 : arraySplit (a.force.take (a.force.length / 2)) sails.length with
  | error e => rw [h1] at h; cases h
  | ok Fs =>
  rw [h1] at h
  simp only [bind, Except.bind, Except.map] at h ⊢
  cases h2 : arraySplit ((calcMomentArm a.cp csys.vRef).take (a.force.length / 2)) sails.length with
  | error e => rw [h2] at h; cases h
  | ok rs =>
  rw [h2] at h
  simp only at h ⊢
  have hd := flowSails_units u sails hn Fs rs PyDict.empty
  rw [PyDict.units_empty] at hd
  rw [hd]
  cases h3 : flowSails sails Fs rs PyDict.empty with
  | error e => rw [h3] at h; cases h
  | ok dyn =>
  rw [h3] at h
  simp only [Except.map] at h ⊢
  cases h4 : calcMoments (calcMomentArm a.cp csys.vRef) a.force with
  | error e => rw [h4] at h; cases h
  | ok M =>
  rw [h4] at h
  simp only at h ⊢
  injection h with h
  subst h
  have hdot : List.zipWith V3.dot ((calcMomentArm a.cp csys.vRef).map (big u.length)) (a.force.map (big u.force)) =
      (List.zipWith V3.dot (calcMomentArm a.cp csys.vRef) a.force).map (u.length * u.force * ·) := by
    rw [List.zipWith_map, List.map_zipWith]
    congr 1
    funext x y
    exact dot_big _ _ x y
  have hnorm : ∀ l : List V3, (l.map (big u.speed)).map V3.norm = (l.map V3.norm).map (u.speed * ·) := by
    intro l
    rw [List.map_map, List.map_map]
    exact List.map_congr_left fun v _ => norm_big hu.speed v
  have hawa : ((a.vFsCp.map (big u.speed)).map fun v => arctanRatio v.y v.x) =
      (a.vFsCp.map fun v => arctanRatio v.y v.x) := by
    rw [List.map_map]
    exact List.map_congr_left fun v _ => arctanRatio_mul hu.speed v.y v.x
  congr 1
  simp only [FlowResults.units, FlowArrays.units, extract_big, extract_mul, centerline_big, hdot, hnorm, hawa]
  congr 1
  rw [u.moment_eq]
  exact determineVector_big (Spec.Units.force_pos hu).ne' _ _ _ _

theorem neg_big (s : ℝ) (v : V3) : -big s v = big s (-v) := (smul_neg s v).symm

theorem toDfIntegral_units (u : Units) (res : FlowResults) (clr : V3) :
    ((FlowObject.new (res.units u)).estimateKeel (big u.length clr)).toDfIntegral =
      (((FlowObject.new res).estimateKeel clr).toDfIntegral).units u := by
  have hk : V3.cross (big u.length clr) (-big u.force res.forceTotal) = big u.moment (V3.cross clr (-res.forceTotal)) := by
    rw [neg_big, cross_big, ← u.moment_eq]
  have p1 : "F_sails_total_COG" ∈ forceKeys := by decide
  have p2 : "F_sails_total_COW" ∈ forceKeys := by decide
  have a1 : "M_sails_total_COG" ∈ axialKeys := by decide
  have a2 : "M_keel_total_COG" ∈ axialKeys := by decide
  have a3 : "M_total_COG" ∈ axialKeys := by decide
  have c1 : "M_sails_total_COW" ∈ cowKeys := by decide
  have c2 : "M_keel_total_COW" ∈ cowKeys := by decide
  have c3 : "M_total_COW" ∈ cowKeys := by decide
  have hl : (res.csys.big u.length).leeway = res.csys.leeway := rfl
  unfold FlowObject.toDfIntegral FlowObject.estimateKeel FlowObject.new
  simp only [FlowResults.units, hk, hl, mulVec_big, PyDict.units_update, PyDict.units_setMomentCow _ _ c1,
    PyDict.units_setMomentCow _ _ c2, PyDict.units_setMomentCow _ _ c3, PyDict.units_setVec_force _ _ p1,
    PyDict.units_setVec_force _ _ p2, PyDict.units_setVec_moment _ _ a1, PyDict.units_setVec_moment _ _ a2,
    PyDict.units_setVec_moment _ _ a3, PyDict.units_empty, ← big_add]

/-! ## Tables -/

/-- A table in other units. -/
noncomputable def Frame.units (u : Units) (t : Frame) : Frame := t.map fun c => (c.1, c.2.map (cellInUnits u c.1))

theorem Frame.units_append (u : Units) (t v : Frame) : Frame.units u (t ++ v) = Frame.units u t ++ Frame.units u v :=
  List.map_append

theorem Frame.units_firstHalf (u : Units) (t : Frame) : (Frame.units u t).firstHalf = Frame.units u t.firstHalf := by
  simp only [Frame.units, Frame.firstHalf, List.map_map]
  refine List.map_congr_left fun c _ => ?_
  simp [Function.comp, List.map_take]

theorem concatFrames_units (u : Units) (ts : List Frame) :
    concatFrames (ts.map (Frame.units u)) = Frame.units u (concatFrames ts) := by
  unfold concatFrames
  have e : (ts.map (Frame.units u)).flatten = Frame.units u ts.flatten := by
    unfold Frame.units; rw [List.map_flatten]
  have e2 : (Frame.units u ts.flatten).map (fun c => c.2.length) = ts.flatten.map fun c => c.2.length := by
    unfold Frame.units
    rw [List.map_map]
    exact List.map_congr_left fun c _ => by simp [Function.comp]
  simp only [e, e2]
  unfold Frame.units
  rw [List.map_map, List.map_map]
  refine List.map_congr_left fun c _ => ?_
  simp [Function.comp, cellInUnits]

theorem vecColumns_units (u : Units) {key : String} {f : ℝ}
    (h : ∀ n ∈ [key ++ ".x", key ++ ".y", key ++ ".z"], unitOf u n = f) (vs : List V3) :
    vecColumns key (vs.map (big f)) = Frame.units u (vecColumns key vs) := by
  have h1 := h (key ++ ".x") (by simp)
  have h2 := h (key ++ ".y") (by simp)
  have h3 := h (key ++ ".z") (by simp)
  simp only [vecColumns, Frame.units, List.map_cons, List.map_nil, List.map_map]
  congr 1
  · congr 1
    exact List.map_congr_left fun v _ => by simp [cellInUnits, h1, big]
  congr 1
  · congr 1
    exact List.map_congr_left fun v _ => by simp [cellInUnits, h2, big]
  congr 1
  · congr 1
    exact List.map_congr_left fun v _ => by simp [cellInUnits, h3, big]

theorem numColumn_units (u : Units) {key : String} {f : ℝ} (h : unitOf u key = f) (xs : List ℝ) :
    [(key, (xs.map (f * ·)).map Cell.num)] = Frame.units u [(key, xs.map Cell.num)] := by
  simp only [Frame.units, List.map_cons, List.map_nil, List.map_map]
  congr 2
  exact List.map_congr_left fun v _ => by simp [cellInUnits, h]

theorem numColumn_number (u : Units) {key : String} (h : IsNumber key) (xs : List ℝ) :
    [(key, xs.map Cell.num)] = Frame.units u [(key, xs.map Cell.num)] := by
  have := numColumn_units u (unitOf_number u h) xs
  simpa using this

theorem cellColumn_number (u : Units) {key : String} (h : IsNumber key) (xs : List Cell) :
    [(key, xs)] = Frame.units u [(key, xs)] := by
  simp only [Frame.units, List.map_cons, List.map_nil]
  congr 2
  conv_lhs => rw [← List.map_id xs]
  refine List.map_congr_left fun c _ => ?_
  cases c <;> simp [cellInUnits, unitOf_number u h]

theorem toDfFull_units (u : Units) (r : FlowResults) : (r.units u).toDfFull = Frame.units u r.toDfFull := by
  have p1 : ∀ n ∈ ["V_induced_COG" ++ ".x", "V_induced_COG" ++ ".y", "V_induced_COG" ++ ".z"], unitOf u n = u.speed :=
    fun n hn => unitOf_speed u (speedKeys_names "V_induced_COG" (by decide) n hn)
  have p2 : ∀ n ∈ ["V_app_fs_COG" ++ ".x", "V_app_fs_COG" ++ ".y", "V_app_fs_COG" ++ ".z"], unitOf u n = u.speed :=
    fun n hn => unitOf_speed u (speedKeys_names "V_app_fs_COG" (by decide) n hn)
  have p3 : ∀ n ∈ ["F_sails_COG" ++ ".x", "F_sails_COG" ++ ".y", "F_sails_COG" ++ ".z"], unitOf u n = u.force :=
    fun n hn => unitOf_force u (forceKeys_names "F_sails_COG" (by decide) n hn)
  have p4 : ∀ n ∈ ["F_sails_COW" ++ ".x", "F_sails_COW" ++ ".y", "F_sails_COW" ++ ".z"], unitOf u n = u.force :=
    fun n hn => unitOf_force u (forceKeys_names "F_sails_COW" (by decide) n hn)
  have p5 : ∀ n ∈ ["M_sails_COG" ++ ".x", "M_sails_COG" ++ ".y", "M_sails_COG" ++ ".z"], unitOf u n = u.moment :=
    fun n hn => unitOf_moment u (axialKeys_moment "M_sails_COG" (by decide) n hn)
  have s1 : unitOf u "V_induced_length" = u.speed := unitOf_speed u (by decide)
  have s2 : unitOf u "V_app_fs_length" = u.speed := unitOf_speed u (by decide)
  have n3 : IsNumber "AWA_fs_COG_deg" := by unfold IsNumber; decide
  have n4 : IsNumber "AWA_fs_COW_deg" := by unfold IsNumber; decide
  unfold FlowResults.toDfFull
  have e : ∀ a b c d : String × List Cell, [a, b, c, d] = [a] ++ [b] ++ [c] ++ [d] := fun _ _ _ _ => rfl
  rw [e, e]
  simp only [Frame.units_append, ← vecColumns_units u p1, ← vecColumns_units u p2, ← vecColumns_units u p3,
    ← vecColumns_units u p4, ← vecColumns_units u p5, ← numColumn_units u (unitOf_circulation u),
    ← numColumn_units u (unitOf_pressure u), ← numColumn_units u s1, ← numColumn_units u s2,
    ← cellColumn_number u n3, ← cellColumn_number u n4]
  rfl

/-! ## Wind -/

/-- The wind in other units. -/
noncomputable def WindObj.units (u : Units) (w : WindObj) : WindObj :=
  scaleHeights u.length { w with twsRef := u.speed * w.twsRef, vYacht := u.speed * w.vYacht }

theorem windGetProfile_units (u : Units) (w : WindConditions) :
    windGetProfile (windInUnits u w) = (windGetProfile w).units u := by
  unfold windGetProfile windInUnits WindObj.units scaleHeights
  simp only
  split_ifs <;> rfl

theorem lengthToXyz_units (u : Units) (w : WindObj) (x : ℝ) :
    (w.units u).lengthToXyz (u.speed * x) = big u.speed (w.lengthToXyz x) := by
  have e : (w.units u).alpha = w.alpha := rfl
  ext <;> simp [WindObj.lengthToXyz, e, big] <;> ring

theorem appInfs_units (u : Units) (w : WindObj) (v : V3) :
    (w.units u).appInfs (big u.speed v) = big u.speed (w.appInfs v) := by
  have e : (w.units u).vYacht = u.speed * w.vYacht := rfl
  ext <;> simp [WindObj.appInfs, e, big]
  ring

/-- The inlet conditions in other units. -/
noncomputable def Inlet.units (u : Units) (i : Inlet) : Inlet where
  rho := u.density * i.rho
  winds := i.winds.units u
  cpPoints := i.cpPoints.map (big u.length)
  twsAtCp := i.twsAtCp.map (big u.speed)
  twsLength := i.twsLength.map (u.speed * ·)
  vAppInfs := i.vAppInfs.map (big u.speed)
  vAppInfsLength := i.vAppInfsLength.map (u.speed * ·)
  awaInfsDeg := i.awaInfsDeg

theorem inletConditions_units {u : Units} (hu : u.Positive) {w : WindObj} {rho : ℝ} {cps : List V3} {i : Inlet}
    (h : inletConditions w rho cps = .ok i) :
    inletConditions (w.units u) (u.density * rho) (cps.map (big u.length)) = .ok (i.units u) := by
  obtain ⟨h0, h1, h2⟩ := (inletConditions_ok_iff _ _ _ _).1 h
  have hm : ((cps.map (big u.length)).mapM fun p => (w.units u).trueWindAt |p.z|) = .ok (i.twsAtCp.map (big u.speed)) := by
    rw [mapM_comp]
    have : (cps.mapM fun p => (w.units u).trueWindAt |(big u.length p).z|) =
        (cps.mapM fun p => w.trueWindAt |p.z|).map (List.map (big u.speed)) := by
      refine mapM_map_congr (γ := V3) _ _ _ _ fun p _ => ?_
      have e : |(big u.length p).z| = u.length * |p.z| := by
        have : (big u.length p).z = u.length * p.z := rfl
        rw [this, abs_mul, abs_of_pos hu.length]
      rw [e]
      unfold WindObj.units
      rw [trueWindAt_heights hu.length]
      exact trueWindAt_scaled w u.speed |p.z|
    rw [this, h1]
    rfl
  rw [inletConditions_of _ (by simpa using h0) hm]
  congr 1
  rw [h2]
  have hn : ∀ l : List V3, (l.map (big u.speed)).map V3.norm = (l.map V3.norm).map (u.speed * ·) := by
    intro l
    rw [List.map_map, List.map_map]
    exact List.map_congr_left fun v _ => norm_big hu.speed v
  have ha : ∀ l : List V3, (l.map (big u.speed)).map (w.units u).appInfs = (l.map w.appInfs).map (big u.speed) := by
    intro l
    rw [List.map_map, List.map_map]
    exact List.map_congr_left fun v _ => appInfs_units u w v
  simp only [inletOf, Inlet.units, hn, ha]
  congr 1
  rw [List.map_map]
  exact List.map_congr_left fun v _ => congrArg rad2deg (arctan2_mul hu.speed v.y v.x)

theorem inletTable_units (u : Units) (i : Inlet) (c : Csys) :
    (i.units u).toDfFull (c.big u.length) = Frame.units u (i.toDfFull c) := by
  have p1 : ∀ n ∈ ["cp_points_COG" ++ ".x", "cp_points_COG" ++ ".y", "cp_points_COG" ++ ".z"], unitOf u n = u.length :=
    fun n hn => unitOf_length u (lengthKeys_names "cp_points_COG" (by decide) n hn)
  have p2 : ∀ n ∈ ["TWS_COG" ++ ".x", "TWS_COG" ++ ".y", "TWS_COG" ++ ".z"], unitOf u n = u.speed :=
    fun n hn => unitOf_speed u (speedKeys_names "TWS_COG" (by decide) n hn)
  have p3 : ∀ n ∈ ["V_app_infs_COG" ++ ".x", "V_app_infs_COG" ++ ".y", "V_app_infs_COG" ++ ".z"], unitOf u n = u.speed :=
    fun n hn => unitOf_speed u (speedKeys_names "V_app_infs_COG" (by decide) n hn)
  have s1 : unitOf u "TWS_length" = u.speed := unitOf_speed u (by decide)
  have s2 : unitOf u "V_app_infs_length" = u.speed := unitOf_speed u (by decide)
  have n3 : IsNumber "AWA_infs_COG_deg" := by unfold IsNumber; decide
  have n4 : IsNumber "AWA_infs_COW_deg" := by unfold IsNumber; decide
  unfold Inlet.toDfFull
  have e : ∀ a b d : String × List Cell, [a, b, d] = [a] ++ [b] ++ [d] := fun _ _ _ => rfl
  rw [e, e]
  simp only [Frame.units_append, ← vecColumns_units u p1, ← vecColumns_units u p2, ← vecColumns_units u p3,
    ← numColumn_units u s1, ← numColumn_units u s2, ← cellColumn_number u n3, ← cellColumn_number u n4]
  rfl

theorem expFactorFloat_units {s : ℝ} (hs : 0 < s) (c ref wl h : ℝ) :
    expFactorFloat c (s * ref) (s * wl) (s * h) = expFactorFloat c ref wl h := by
  unfold expFactorFloat
  have e : (s * h - s * wl) / (s * ref) = (h - wl) / ref := by rw [← mul_sub, mul_div_mul_left _ _ hs.ne']
  have e0 : s * ref = 0 ↔ ref = 0 := by simp [hs.ne']
  simp only [e0]
  rw [e]

theorem windIntegral_units {u : Units} (hu : u.Positive) (w : WindObj) (c : Csys) :
    windIntegral (w.units u) (c.big u.length) = (windIntegral w c).map (List.map fun r => (r.1, unitOf u r.1 * r.2)) := by
  have s0 : IsNumber "Not implemented - dummy variable" := by unfold IsNumber; decide
  have ep : (w.units u).profile = (scaleHeights u.length w).profile := rfl
  unfold windIntegral
  rw [ep]
  unfold scaleHeights
  simp only
  cases hp : w.profile with
  | flat => simp [unitOf_number u s0, Except.map]
  | log a b => simp [unitOf_number u s0, Except.map]
  | exp a b d =>
    cases a with
    | none => rfl
    | some a =>
    cases b with
    | none => rfl
    | some b =>
    cases d with
    | none => rfl
    | some d =>
    simp only [bind, Except.bind, Option.map_some, expFactorFloat_units hu.length]
    cases hf : expFactorFloat a b d b with
    | error e => rfl
    | ok f =>
    have e1 : (w.units u).twsRef * f = u.speed * (w.twsRef * f) := mul_assoc _ _ _
    have sp : ∀ n, n ∉ lengthNames ∧ n ∈ speedNames → unitOf u n = u.speed := fun n h => unitOf_speed u h
    have n1 : IsNumber "AWA_infs_at_reference_height_COG_deg" := by unfold IsNumber; decide
    have n2 : IsNumber "AWA_infs_at_reference_height_COW_deg" := by unfold IsNumber; decide
    simp only [e1, lengthToXyz_units, appInfs_units, norm_big hu.speed, Except.map, List.map_cons, List.map_nil,
      unitOf_length u (n := "Reference_measurement_height") (by decide),
      unitOf_length u (n := "Reference_water_level_for_wind_profile") (by decide),
      sp "TWS_at_reference_height_COG.x" (by decide), sp "TWS_at_reference_height_COG.y" (by decide),
      sp "TWS_at_reference_height_COG.z" (by decide), sp "TWS_length_at_reference_height" (by decide),
      sp "V_app_infs_at_reference_height_COG.x" (by decide), sp "V_app_infs_at_reference_height_COG.y" (by decide),
      sp "V_app_infs_at_reference_height_COG.z" (by decide), sp "V_app_infs_length_at_reference_height_COG" (by decide),
      unitOf_number u n1, unitOf_number u n2, one_mul]
    have ea : arctan2 (big u.speed (w.appInfs (w.lengthToXyz (w.twsRef * f)))).y
        (big u.speed (w.appInfs (w.lengthToXyz (w.twsRef * f)))).x =
        arctan2 (w.appInfs (w.lengthToXyz (w.twsRef * f))).y (w.appInfs (w.lengthToXyz (w.twsRef * f))).x :=
      arctan2_mul hu.speed _ _
    rw [ea]
    rfl

/-! ## Girths and the workbook -/

theorem cpStraight_big {s : ℝ} (hs : 0 < s) (cps : List V3) (c : Csys) :
    cpStraightYacht (cps.map (big s)) (c.big s) = (cpStraightYacht cps c).map (big s) := by
  simp only [cpStraightYacht, List.map_map]
  exact List.map_congr_left fun p _ => reverseRotations_big hs c p

theorem foldl_max_mul {s : ℝ} (hs : 0 < s) (x : ℝ) (l : List ℝ) :
    (l.map (s * ·)).foldl max (s * x) = s * l.foldl max x := by
  induction l generalizing x with
  | nil => rfl
  | cons a l ih =>
    simp only [List.map_cons, List.foldl_cons]
    rw [← mul_max_of_nonneg _ _ hs.le, ih]

theorem cpToGirths_big {s : ℝ} (hs : 0 < s) (cps : List V3) (t : V3) :
    cpToGirths (cps.map (big s)) (big s t) = cpToGirths cps t := by
  have e : (cps.map (big s)).map V3.z = (cps.map V3.z).map (s * ·) := by rw [List.map_map, List.map_map]; rfl
  have hm : pyMax ((cps.map V3.z).map (s * ·)) = (pyMax (cps.map V3.z)).map (s * ·) := by
    cases cps.map V3.z with
    | nil => rfl
    | cons x l => simp only [List.map_cons, pyMax, foldl_max_mul hs, Except.map]
  unfold cpToGirths
  rw [e, hm]
  cases pyMax (cps.map V3.z) with
  | error e => rfl
  | ok m =>
    have ez : (big s t).z = s * t.z := rfl
    have e0 : s * m - s * t.z = 0 ↔ m - t.z = 0 := by rw [← mul_sub]; simp [hs.ne']
    simp only [Except.map, bind, Except.bind, List.map_map, ez, e0]
    split_ifs
    · rfl
    · congr 1
      refine List.map_congr_left fun p _ => ?_
      have : (big s p).z = s * p.z := rfl
      simp only [Function.comp, this, ← mul_sub, mul_div_mul_left _ _ hs.ne']

theorem girthRow_big {s : ℝ} (hs : 0 < s) (chunks : List (List V3)) (sails : List SailGeom) (c : Csys) (i : ℕ) :
    girthRow (chunks.map (List.map (big s))) (sails.map (SailGeom.big s)) (c.big s) i =
      (girthRow chunks sails c i).map fun g => (g.1, g.2.map (big s)) := by
  unfold girthRow
  simp only [idx_map, List.length_map]
  cases idx chunks i with
  | error e => rfl
  | ok a =>
  cases idx chunks (i + sails.length) with
  | error e => rfl
  | ok b =>
  cases idx sails i with
  | error e => rfl
  | ok g =>
  have et : (g.big s).tackMounting = big s g.tackMounting := rfl
  simp only [Except.map, bind, Except.bind, ← List.map_append, cpStraight_big hs, et, cpToGirths_big hs]
  cases cpToGirths (cpStraightYacht (a ++ b) c) g.tackMounting <;> rfl

theorem cpGirthsAll_big {s : ℝ} (hs : 0 < s) (sails : List SailGeom) (c : Csys) (cps : List V3) :
    cpGirthsAll (sails.map (SailGeom.big s)) (c.big s) (cps.map (big s)) =
      (cpGirthsAll sails c cps).map fun g => (g.1, g.2.map (big s)) := by
  rw [cpGirthsAll_eq, cpGirthsAll_eq]
  simp only [List.length_map, arraySplit_map]
  cases arraySplit cps (2 * sails.length) with
  | error e => rfl
  | ok chunks =>
    simp only [Except.map, bind, Except.bind]
    rw [mapM_map_congr (γ := V3) _ _ _ _ fun i _ => girthRow_big hs chunks sails c i]
    cases (List.range sails.length).mapM (girthRow chunks sails c) with
    | error e => rfl
    | ok rows =>
      simp only [Except.map, List.map_map, List.map_flatten]
      rfl

theorem cpGirthsAbove_big (s : ℝ) (g : List ℝ) (sails : List SailGeom) :
    cpGirthsAbove g (sails.map (SailGeom.big s)) = cpGirthsAbove g sails := by
  unfold cpGirthsAbove
  simp only [List.length_map, List.map_map]
  rfl

theorem saveResults_units {u : Units} (hu : u.Positive) {r r' : Vlm} {csys : Csys} {res : FlowResults} {clr : V3}
    {sails : List SailGeom} {t : SavedResults}
    (h : saveResults r csys ((FlowObject.new res).estimateKeel clr) sails csys = .ok t)
    (hinl : r'.inlet = r.inlet.units u)
    (hv : r'.vars.map PanelVars.cp = (r.vars.map PanelVars.cp).map (big u.length)) :
    saveResults r' (csys.big u.length) ((FlowObject.new (res.units u)).estimateKeel (big u.length clr))
        (sails.map (SailGeom.big u.length)) (csys.big u.length) =
      .ok ⟨Frame.units u t.components, t.integrals.units u, t.inlet.map fun q => (q.1, unitOf u q.1 * q.2)⟩ := by
  unfold saveResults at h ⊢
  rw [hv, hinl]
  have ew : (r.inlet.units u).winds = r.inlet.winds.units u := rfl
  rw [ew, windIntegral_units hu, cpGirthsAll_big hu.length]
  cases h1 : windIntegral r.inlet.winds csys with
  | error e => rw [h1] at h; cases h
  | ok ic =>
  rw [h1] at h
  simp only [bind, Except.bind, Except.map] at h ⊢
  cases h2 : cpGirthsAll sails csys (r.vars.map PanelVars.cp) with
  | error e => rw [h2] at h; cases h
  | ok g =>
  rw [h2] at h
  simp only [cpGirthsAbove_big, List.length_map, arraySplit_map] at h ⊢
  cases h3 : cpGirthsAbove g.1 sails with
  | error e => rw [h3] at h; cases h
  | ok ga =>
  rw [h3] at h
  simp only at h ⊢
  cases h4 : arraySplit g.2 (2 * sails.length) with
  | error e => rw [h4] at h; cases h
  | ok parts =>
  rw [h4] at h
  simp only [Except.map] at h ⊢
  injection h with h
  have s1 : unitOf u "cp_points_upright.z" = u.length := unitOf_length u (by decide)
  have s2 : IsNumber "girths" := by unfold IsNumber; decide
  have s3 : IsNumber "sail_name" := by unfold IsNumber; decide
  have hf : ((FlowObject.new (res.units u)).estimateKeel (big u.length clr)).res.toDfFull =
      Frame.units u ((FlowObject.new res).estimateKeel clr).res.toDfFull := toDfFull_units u res
  have hq : [("cp_points_upright.z", (everySecond (parts.map (List.map (big u.length)))).flatten.map fun p => Cell.num p.z)] =
      Frame.units u [("cp_points_upright.z", (everySecond parts).flatten.map fun p => Cell.num p.z)] := by
    have e : (fun p : V3 => Cell.num p.z) = Cell.num ∘ V3.z := rfl
    rw [e, ← List.map_map, ← List.map_map, ← numColumn_units u s1, everySecond_map, ← List.map_flatten,
      List.map_map (g := V3.z), List.map_map (f := V3.z)]
    rfl
  rw [← h, toDfIntegral_units u res clr, hf, Frame.units_firstHalf, inletTable_units, Frame.units_firstHalf, hq]
  simp only [← concatFrames_units, List.map_cons, List.map_nil, ← cellColumn_number u s2, ← cellColumn_number u s3]

end PySailing
