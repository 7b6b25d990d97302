import Verif.Lemmas.Tack
import Verif.Props.Main

/-!
# Lemmas: mirror image in the centre plane, results
-/

namespace PySailing

open Spec Props

/-! ## Names of rows and columns -/

/-- Columns and rows with the angle of the undisturbed apparent wind. -/
def awaNames : List String :=
  ["AWA_infs_COG_deg", "AWA_infs_at_reference_height_COG_deg", "AWA_infs_COW_deg",
    "AWA_infs_at_reference_height_COW_deg"]

theorem onOtherTack_of {name : String} (h : name ∉ awaNames) (l x : ℝ) :
    onOtherTack l name x = if name ∈ lateralNames then -x else x := by
  simp only [awaNames, List.mem_cons, List.not_mem_nil, or_false, not_or] at h
  obtain ⟨h1, h2, h3, h4⟩ := h
  unfold onOtherTack
  rw [if_neg (by tauto), if_neg (by tauto)]

theorem onOtherTack_neg {name : String} (h : name ∉ awaNames ∧ name ∈ lateralNames) (l x : ℝ) :
    onOtherTack l name x = -x := by rw [onOtherTack_of h.1, if_pos h.2]

theorem onOtherTack_same {name : String} (h : name ∉ awaNames ∧ name ∉ lateralNames) (l x : ℝ) :
    onOtherTack l name x = x := by rw [onOtherTack_of h.1, if_neg h.2]

/-- Vectors that are mirrored. -/
def polarKeys : List String :=
  ["V_induced_COG", "V_app_fs_COG", "F_sails_COG", "F_sails_COW", "cp_points_COG", "TWS_COG", "V_app_infs_COG",
    "F_sails_total_COG", "F_sails_total_COW", "F_jib_total_COG", "F_main_sail_total_COG"]

/-- Moments. -/
def axialKeys : List String :=
  ["M_sails_COG", "M_sails_total_COG", "M_keel_total_COG", "M_total_COG", "M_jib_total_COG", "M_main_sail_total_COG"]

/-- Moments in the system of the yacht. -/
def cowKeys : List String := ["M_sails_total_COW", "M_keel_total_COW", "M_total_COW"]

theorem polarKeys_names : ∀ key ∈ polarKeys,
    ((key ++ ".x") ∉ awaNames ∧ (key ++ ".x") ∉ lateralNames) ∧
    ((key ++ ".y") ∉ awaNames ∧ (key ++ ".y") ∈ lateralNames) ∧
    ((key ++ ".z") ∉ awaNames ∧ (key ++ ".z") ∉ lateralNames) := by decide

theorem axialKeys_names : ∀ key ∈ axialKeys,
    ((key ++ ".x") ∉ awaNames ∧ (key ++ ".x") ∈ lateralNames) ∧
    ((key ++ ".y") ∉ awaNames ∧ (key ++ ".y") ∉ lateralNames) ∧
    ((key ++ ".z") ∉ awaNames ∧ (key ++ ".z") ∈ lateralNames) := by decide

theorem cowKeys_names : ∀ key ∈ cowKeys,
    ((key ++ ".x (heel)") ∉ awaNames ∧ (key ++ ".x (heel)") ∈ lateralNames) ∧
    ((key ++ ".y (pitch)") ∉ awaNames ∧ (key ++ ".y (pitch)") ∉ lateralNames) ∧
    ((key ++ ".z (yaw)") ∉ awaNames ∧ (key ++ ".z (yaw)") ∈ lateralNames) ∧
    ((key ++ ".z (yaw - JG sign)") ∉ awaNames ∧ (key ++ ".z (yaw - JG sign)") ∈ lateralNames) := by decide

/-- A moment vector on the other tack. -/
def axialAcross (m : V3) : V3 := -acrossCentre m

theorem axial_cross (a b : V3) : V3.cross (acrossCentre a) (acrossCentre b) = axialAcross (V3.cross a b) := by
  rw [isIsometry_across.cross, axialAcross, neg_one_smul]

theorem axial_add (a b : V3) : axialAcross (a + b) = axialAcross a + axialAcross b := by
  unfold axialAcross; rw [isIsometry_across.map_add]; abel

theorem axial_sum (l : List V3) : (l.map axialAcross).sum = axialAcross l.sum := by
  induction l with
  | nil => simp [axialAcross, isIsometry_across.map_zero]
  | cons a l ih => simp [ih, axial_add]

theorem leeway_axial (c : Csys) (m : V3) : c.across.leeway.mulVec (axialAcross m) = axialAcross (c.leeway.mulVec m) := by
  have h : ∀ (M : M3) (v : V3), M.mulVec (-v) = -M.mulVec v := by
    intro M v
    have := M3.mulVec_smul M (-1) v
    simpa using this
  unfold axialAcross
  rw [h, c.leeway_across]

/-! ## Dictionaries -/

namespace PyDict

/-- All values as on the other tack. -/
noncomputable def across (l : ℝ) (d : PyDict) : PyDict := fun key => (d key).map (onOtherTack l key)

theorem across_set (l : ℝ) (d : PyDict) (key : String) (v : ℝ) :
    (d.set key v).across l = (d.across l).set key (onOtherTack l key v) := by
  funext s
  unfold across set
  by_cases h : s = key
  · subst h; simp
  · simp [Function.update_of_ne h]

theorem across_setVec_polar (l : ℝ) (d : PyDict) {key : String} (h : key ∈ polarKeys) (v : V3) :
    (d.setVec key v).across l = (d.across l).setVec key (acrossCentre v) := by
  obtain ⟨h1, h2, h3⟩ := polarKeys_names key h
  unfold setVec
  rw [across_set, across_set, across_set, onOtherTack_same h1, onOtherTack_neg h2, onOtherTack_same h3]; rfl

theorem across_setVec_axial (l : ℝ) (d : PyDict) {key : String} (h : key ∈ axialKeys) (v : V3) :
    (d.setVec key v).across l = (d.across l).setVec key (axialAcross v) := by
  obtain ⟨h1, h2, h3⟩ := axialKeys_names key h
  unfold setVec
  rw [across_set, across_set, across_set, onOtherTack_neg h1, onOtherTack_same h2, onOtherTack_neg h3]
  simp [axialAcross, acrossCentre]

theorem across_setMomentCow (l : ℝ) (d : PyDict) {key : String} (h : key ∈ cowKeys) (v : V3) :
    (d.setMomentCow key v).across l = (d.across l).setMomentCow key (axialAcross v) := by
  obtain ⟨h1, h2, h3, h4⟩ := cowKeys_names key h
  unfold setMomentCow
  rw [across_set, across_set, across_set, across_set, onOtherTack_neg h1, onOtherTack_same h2, onOtherTack_neg h3,
    onOtherTack_neg h4]
  simp [axialAcross, acrossCentre]

theorem across_update (l : ℝ) (d e : PyDict) : (d.update e).across l = (d.across l).update (e.across l) := by
  funext s
  unfold across update
  cases h : e s <;> simp [h]

theorem across_empty (l : ℝ) : (empty).across l = empty := by
  funext s; rfl

end PyDict

/-! ## `InviscidFlowResults` -/

theorem momentArm_across (v p : V3) : momentArm (acrossCentre v) (acrossCentre p) = acrossCentre (momentArm v p) := by
  unfold momentArm acrossCentre
  ext <;> simp
  ring

theorem calcMomentArm_across (cps : List V3) (v : V3) :
    calcMomentArm (cps.map acrossCentre) (acrossCentre v) = (calcMomentArm cps v).map acrossCentre := by
  simp only [calcMomentArm, List.map_map]
  exact List.map_congr_left fun p _ => momentArm_across v p

theorem calcMoments_across (r F : List V3) :
    calcMoments (r.map acrossCentre) (F.map acrossCentre) = (calcMoments r F).map (List.map axialAcross) := by
  unfold calcMoments
  by_cases h : r.length = F.length
  · simp only [List.length_map, h, if_true, Except.map, List.map_zipWith, List.zipWith_map_right,
      List.zipWith_map_left, axial_cross]
  · simp [h, Except.map]

theorem sum_across (l : List V3) : (l.map acrossCentre).sum = acrossCentre l.sum := isIsometry_across.map_sum l

theorem tackKeys {name : String} (h : name ∈ ["jib", "main_sail"]) :
    "F_" ++ name ++ "_total_COG" ∈ polarKeys ∧ "M_" ++ name ++ "_total_COG" ∈ axialKeys := by
  revert name; decide

theorem flowSail_across (l : ℝ) {name : String} (h : name ∈ ["jib", "main_sail"]) (F r : List V3) (d : PyDict) :
    flowSail name (F.map acrossCentre) (r.map acrossCentre) (d.across l) = (flowSail name F r d).map (PyDict.across l) := by
  obtain ⟨h1, h2⟩ := tackKeys h
  unfold flowSail
  rw [calcMoments_across]
  cases calcMoments r F with
  | error e => rfl
  | ok M =>
    simp only [Except.map, bind, Except.bind, sum_across, axial_sum, PyDict.across_setVec_polar _ _ h1,
      PyDict.across_setVec_axial _ _ h2]

theorem flowSails_across (l : ℝ) (ss : List SailGeom) (hn : ∀ s ∈ ss, s.name ∈ ["jib", "main_sail"])
    (Fs rs : List (List V3)) (d : PyDict) :
    flowSails (ss.map SailGeom.across) (Fs.map (List.map acrossCentre)) (rs.map (List.map acrossCentre)) (d.across l) =
      (flowSails ss Fs rs d).map (PyDict.across l) := by
  induction ss generalizing Fs rs d with
  | nil => rfl
  | cons s ss ih =>
    cases Fs with
    | nil => cases rs <;> rfl
    | cons F Fs =>
      cases rs with
      | nil => rfl
      | cons r rs =>
        have e : s.across.name = s.name := rfl
        simp only [List.map_cons, flowSails, e, flowSail_across l (hn s List.mem_cons_self)]
        cases flowSail s.name F r d with
        | error e => rfl
        | ok d' => simp only [Except.map, bind, Except.bind, ih fun s hs => hn s (List.mem_cons_of_mem _ hs)]

theorem extract_across (l : List V3) :
    extractAboveWater (l.map acrossCentre) = ((extractAboveWater l).1.map acrossCentre, acrossCentre (extractAboveWater l).2) := by
  simp only [extractAboveWater, List.length_map, ← List.map_take, sum_across]

theorem extract_axial (l : List V3) :
    extractAboveWater (l.map axialAcross) = ((extractAboveWater l).1.map axialAcross, axialAcross (extractAboveWater l).2) := by
  simp only [extractAboveWater, List.length_map, ← List.map_take, axial_sum]

theorem centerline_across (c : Csys) (l : List V3) :
    c.across.fromXyzToCenterline (l.map acrossCentre) = (c.fromXyzToCenterline l).map acrossCentre := by
  simp only [Csys.fromXyzToCenterline, List.map_map]
  exact List.map_congr_left fun v _ => c.leeway_across v

theorem centerline_axial (c : Csys) (l : List V3) :
    c.across.fromXyzToCenterline (l.map axialAcross) = (c.fromXyzToCenterline l).map axialAcross := by
  simp only [Csys.fromXyzToCenterline, List.map_map]
  exact List.map_congr_left fun v _ => leeway_axial c v

theorem determineVector_across (F : V3) (s : ℝ) (M : V3) :
    determineVector (acrossCentre F) s (axialAcross M) = (determineVector F s M).map acrossCentre := by
  unfold determineVector
  rw [isIsometry_across.dot]
  split_ifs
  · rfl
  · simp only [Except.map]
    congr 1
    ext <;> simp [axialAcross, acrossCentre] <;> ring

theorem arctanRatio_neg (y x : ℝ) : arctanRatio (-y) x = (arctanRatio y x).map Neg.neg := by
  unfold arctanRatio
  by_cases hx : x = 0
  · rw [if_pos hx, if_pos hx]
    by_cases hy : y = 0
    · simp [hy, Except.map]
    · rw [if_neg hy, if_neg (by simpa using hy)]
      rcases lt_or_gt_of_ne hy with h | h
      · rw [if_pos (by linarith), if_neg (by linarith)]; simp [Except.map]
      · rw [if_neg (by linarith), if_pos h]; simp [Except.map]
  · rw [if_neg hx, if_neg hx]
    simp only [Except.map, neg_div, Real.arctan_neg]

/-- The arrays of the solution on the other tack. -/
def FlowArrays.across (a : FlowArrays) : FlowArrays where
  gamma := a.gamma.map Neg.neg
  pressure := a.pressure.map Neg.neg
  vIndCp := a.vIndCp.map acrossCentre
  vFsCp := a.vFsCp.map acrossCentre
  force := a.force.map acrossCentre
  cp := a.cp.map acrossCentre

/-- The results on the other tack. -/
noncomputable def FlowResults.across (r : FlowResults) : FlowResults where
  csys := r.csys.across
  gamma := r.gamma.map Neg.neg
  pressure := r.pressure.map Neg.neg
  vInd := r.vInd.map acrossCentre
  vIndLength := r.vIndLength
  vFs := r.vFs.map acrossCentre
  vFsLength := r.vFsLength
  awa := r.awa.map fun x => x.map Neg.neg
  force := r.force.map acrossCentre
  forceAbove := r.forceAbove.map acrossCentre
  forceTotal := acrossCentre r.forceTotal
  dyn := r.dyn.across r.csys.leewayDeg
  moment := r.moment.map axialAcross
  momentTotal := axialAcross r.momentTotal
  centreOfEffort := r.centreOfEffort.map acrossCentre
  forceCl := r.forceCl.map acrossCentre
  forceClTotal := acrossCentre r.forceClTotal
  momentCl := r.momentCl.map axialAcross
  momentClTotal := axialAcross r.momentClTotal

theorem inviscidFlow_across {sails : List SailGeom} (hn : ∀ s ∈ sails, s.name ∈ ["jib", "main_sail"]) {csys : Csys}
    {a : FlowArrays} {res : FlowResults} (h : inviscidFlow sails csys a = .ok res) :
    inviscidFlow (sails.map SailGeom.across) csys.across a.across = .ok res.across := by
  unfold inviscidFlow at h ⊢
  have e0 : csys.across.vRef = acrossCentre csys.vRef := rfl
  have e1 : a.across.cp = a.cp.map acrossCentre := rfl
  have e2 : a.across.force = a.force.map acrossCentre := rfl
  simp only [e0, e1, e2, List.length_map, calcMomentArm_across, ← List.map_take, arraySplit_map,
    calcMoments_across] at h ⊢
  cases h1 : arraySplit (a.force.take (a.force.length / 2)) sails.length with
  | error e => rw [h1] at h; cases h
  | ok Fs =>
  rw [h1] at h
  simp only [bind, Except.bind, Except.map] at h ⊢
  cases h2 : arraySplit ((calcMomentArm a.cp csys.vRef).take (a.force.length / 2)) sails.length with
  | error e => rw [h2] at h; cases h
  | ok rs =>
  rw [h2] at h
  simp only at h ⊢
  have hd := flowSails_across csys.leewayDeg sails hn Fs rs PyDict.empty
  rw [PyDict.across_empty] at hd
  rw [hd]
  cases h3 : flowSails sails Fs rs PyDict.empty with
  | error e => rw [h3] at h; cases h
  | ok dyn =>
  rw [h3] at h
  simp only [Except.map] at h ⊢
  cases h4 : calcMoments (calcMomentArm a.cp csys.vRef) a.force with
  | error e => rw [h4] at h; cases h
  | ok M =>
  rw [h4] at h
  simp only at h ⊢
  injection h with h
  subst h
  have hdot : List.zipWith V3.dot ((calcMomentArm a.cp csys.vRef).map acrossCentre) (a.force.map acrossCentre) =
      List.zipWith V3.dot (calcMomentArm a.cp csys.vRef) a.force := by
    rw [List.zipWith_map]
    congr 1
    funext x y
    exact isIsometry_across.dot x y
  have hnorm : ∀ l : List V3, (l.map acrossCentre).map V3.norm = l.map V3.norm := by
    intro l
    rw [List.map_map]
    exact List.map_congr_left fun v _ => isIsometry_across.norm v
  have hawa : ((a.vFsCp.map acrossCentre).map fun v => arctanRatio v.y v.x) =
      (a.vFsCp.map fun v => arctanRatio v.y v.x).map fun x => x.map Neg.neg := by
    rw [List.map_map, List.map_map]
    exact List.map_congr_left fun v _ => arctanRatio_neg v.y v.x
  congr 1
  simp only [FlowResults.across, FlowArrays.across, extract_across, extract_axial, centerline_across,
    centerline_axial, hdot, determineVector_across, hnorm, hawa]

theorem toDfIntegral_across (res : FlowResults) (clr : V3) :
    ((FlowObject.new res.across).estimateKeel (acrossCentre clr)).toDfIntegral =
      (((FlowObject.new res).estimateKeel clr).toDfIntegral).across res.csys.leewayDeg := by
  have hk : V3.cross (acrossCentre clr) (-acrossCentre res.forceTotal) = axialAcross (V3.cross clr (-res.forceTotal)) := by
    rw [← isIsometry_across.map_neg, axial_cross]
  have p1 : "F_sails_total_COG" ∈ polarKeys := by decide
  have p2 : "F_sails_total_COW" ∈ polarKeys := by decide
  have a1 : "M_sails_total_COG" ∈ axialKeys := by decide
  have a2 : "M_keel_total_COG" ∈ axialKeys := by decide
  have a3 : "M_total_COG" ∈ axialKeys := by decide
  have c1 : "M_sails_total_COW" ∈ cowKeys := by decide
  have c2 : "M_keel_total_COW" ∈ cowKeys := by decide
  have c3 : "M_total_COW" ∈ cowKeys := by decide
  unfold FlowObject.toDfIntegral FlowObject.estimateKeel FlowObject.new
  simp only [FlowResults.across, hk, PyDict.across_update, PyDict.across_setMomentCow _ _ c1,
    PyDict.across_setMomentCow _ _ c2, PyDict.across_setMomentCow _ _ c3, PyDict.across_setVec_polar _ _ p1,
    PyDict.across_setVec_polar _ _ p2, PyDict.across_setVec_axial _ _ a1, PyDict.across_setVec_axial _ _ a2,
    PyDict.across_setVec_axial _ _ a3, PyDict.across_empty, leeway_axial, axial_add]

/-! ## Tables -/

/-- A table as on the other tack. -/
noncomputable def Frame.across (l : ℝ) (t : Frame) : Frame := t.map fun c => (c.1, c.2.map (cellOnOtherTack l c.1))

theorem Frame.across_append (l : ℝ) (t u : Frame) : Frame.across l (t ++ u) = Frame.across l t ++ Frame.across l u :=
  List.map_append

theorem Frame.across_firstHalf (l : ℝ) (t : Frame) : (Frame.across l t).firstHalf = Frame.across l t.firstHalf := by
  simp only [Frame.across, Frame.firstHalf, List.map_map]
  refine List.map_congr_left fun c _ => ?_
  simp [Function.comp, List.map_take]

theorem concatFrames_across (l : ℝ) (ts : List Frame) :
    concatFrames (ts.map (Frame.across l)) = Frame.across l (concatFrames ts) := by
  unfold concatFrames
  have e : (ts.map (Frame.across l)).flatten = Frame.across l ts.flatten := by
    unfold Frame.across; rw [List.map_flatten]
  have e2 : (Frame.across l ts.flatten).map (fun c => c.2.length) = ts.flatten.map fun c => c.2.length := by
    unfold Frame.across
    rw [List.map_map]
    exact List.map_congr_left fun c _ => by simp [Function.comp]
  simp only [e, e2]
  unfold Frame.across
  rw [List.map_map, List.map_map]
  refine List.map_congr_left fun c _ => ?_
  simp [Function.comp, cellOnOtherTack]

theorem vecColumns_polar (l : ℝ) {key : String} (h : key ∈ polarKeys) (vs : List V3) :
    vecColumns key (vs.map acrossCentre) = Frame.across l (vecColumns key vs) := by
  obtain ⟨h1, h2, h3⟩ := polarKeys_names key h
  simp only [vecColumns, Frame.across, List.map_cons, List.map_nil, List.map_map]
  congr 1
  · congr 1
    exact List.map_congr_left fun v _ => by simp [cellOnOtherTack, onOtherTack_same h1, acrossCentre]
  congr 1
  · congr 1
    exact List.map_congr_left fun v _ => by simp [cellOnOtherTack, onOtherTack_neg h2, acrossCentre]
  congr 1
  · congr 1
    exact List.map_congr_left fun v _ => by simp [cellOnOtherTack, onOtherTack_same h3, acrossCentre]

theorem vecColumns_axial (l : ℝ) {key : String} (h : key ∈ axialKeys) (vs : List V3) :
    vecColumns key (vs.map axialAcross) = Frame.across l (vecColumns key vs) := by
  obtain ⟨h1, h2, h3⟩ := axialKeys_names key h
  simp only [vecColumns, Frame.across, List.map_cons, List.map_nil, List.map_map]
  congr 1
  · congr 1
    exact List.map_congr_left fun v _ => by simp [cellOnOtherTack, onOtherTack_neg h1, acrossCentre, axialAcross]
  congr 1
  · congr 1
    exact List.map_congr_left fun v _ => by simp [cellOnOtherTack, onOtherTack_same h2, acrossCentre, axialAcross]
  congr 1
  · congr 1
    exact List.map_congr_left fun v _ => by simp [cellOnOtherTack, onOtherTack_neg h3, acrossCentre, axialAcross]

theorem numColumn_neg (l : ℝ) {key : String} (h : key ∉ awaNames ∧ key ∈ lateralNames) (xs : List ℝ) :
    [(key, (xs.map Neg.neg).map Cell.num)] = Frame.across l [(key, xs.map Cell.num)] := by
  simp only [Frame.across, List.map_cons, List.map_nil, List.map_map]
  congr 2
  exact List.map_congr_left fun v _ => by simp [cellOnOtherTack, onOtherTack_neg h]

theorem numColumn_same (l : ℝ) {key : String} (h : key ∉ awaNames ∧ key ∉ lateralNames) (xs : List ℝ) :
    [(key, xs.map Cell.num)] = Frame.across l [(key, xs.map Cell.num)] := by
  simp only [Frame.across, List.map_cons, List.map_nil, List.map_map]
  congr 2
  exact List.map_congr_left fun v _ => by simp [cellOnOtherTack, onOtherTack_same h]

theorem textColumn_same (l : ℝ) (key : String) (xs : List String) :
    [(key, xs.map Cell.text)] = Frame.across l [(key, xs.map Cell.text)] := by
  simp only [Frame.across, List.map_cons, List.map_nil, List.map_map]
  rfl

theorem rad2deg_neg (x : ℝ) : rad2deg (-x) = -rad2deg x := by unfold rad2deg; ring

theorem toDfFull_across (r : FlowResults) : r.across.toDfFull = Frame.across r.csys.leewayDeg r.toDfFull := by
  have p1 : "V_induced_COG" ∈ polarKeys := by decide
  have p2 : "V_app_fs_COG" ∈ polarKeys := by decide
  have p3 : "F_sails_COG" ∈ polarKeys := by decide
  have p4 : "F_sails_COW" ∈ polarKeys := by decide
  have a1 : "M_sails_COG" ∈ axialKeys := by decide
  have n1 : "Circulation_magnitude" ∉ awaNames ∧ "Circulation_magnitude" ∈ lateralNames := by decide
  have n2 : "Pressure" ∉ awaNames ∧ "Pressure" ∈ lateralNames := by decide
  have n3 : "AWA_fs_COG_deg" ∉ awaNames ∧ "AWA_fs_COG_deg" ∈ lateralNames := by decide
  have n4 : "AWA_fs_COW_deg" ∉ awaNames ∧ "AWA_fs_COW_deg" ∈ lateralNames := by decide
  have s1 : "V_induced_length" ∉ awaNames ∧ "V_induced_length" ∉ lateralNames := by decide
  have s2 : "V_app_fs_length" ∉ awaNames ∧ "V_app_fs_length" ∉ lateralNames := by decide
  unfold FlowResults.toDfFull
  have e : ∀ a b c d : String × List Cell, [a, b, c, d] = [a] ++ [b] ++ [c] ++ [d] := fun _ _ _ _ => rfl
  rw [e, e]
  simp only [Frame.across_append, ← vecColumns_polar _ p1, ← vecColumns_polar _ p2, ← vecColumns_polar _ p3,
    ← vecColumns_polar _ p4, ← vecColumns_axial _ a1, ← numColumn_neg _ n1, ← numColumn_neg _ n2,
    ← numColumn_same _ s1, ← numColumn_same _ s2]
  have h3 : [("AWA_fs_COG_deg", r.across.awa.map fun x => Cell.ofPy (x.map rad2deg))] =
      Frame.across r.csys.leewayDeg [("AWA_fs_COG_deg", r.awa.map fun x => Cell.ofPy (x.map rad2deg))] := by
    simp only [Frame.across, FlowResults.across, List.map_cons, List.map_nil, List.map_map]
    congr 2
    refine List.map_congr_left fun x _ => ?_
    cases x <;> simp [Function.comp, Except.map, Cell.ofPy, cellOnOtherTack, onOtherTack_neg n3, rad2deg_neg]
  have h4 : [("AWA_fs_COW_deg", r.across.awa.map fun x => Cell.ofPy (x.map fun y => rad2deg y - r.across.csys.leewayDeg))] =
      Frame.across r.csys.leewayDeg [("AWA_fs_COW_deg", r.awa.map fun x => Cell.ofPy (x.map fun y => rad2deg y - r.csys.leewayDeg))] := by
    simp only [Frame.across, FlowResults.across, List.map_cons, List.map_nil, List.map_map]
    congr 2
    refine List.map_congr_left fun x _ => ?_
    cases x with
    | error e => simp [Function.comp, Except.map, Cell.ofPy, cellOnOtherTack]
    | ok y =>
      simp [Function.comp, Except.map, Cell.ofPy, cellOnOtherTack, onOtherTack_neg n4, rad2deg_neg, Csys.across]
      ring
  rw [h3, h4]
  rfl

/-! ## Wind -/

/-- The wind on the other tack. -/
def WindObj.across (w : WindObj) : WindObj := { w with alphaDeg := -w.alphaDeg }

theorem lengthToXyz_across (w : WindObj) (s : ℝ) : w.across.lengthToXyz s = acrossCentre (w.lengthToXyz s) := by
  have e : w.across.alpha = -w.alpha := deg2rad_neg _
  ext <;> simp [WindObj.lengthToXyz, e, acrossCentre]

theorem trueWindAt_across (w : WindObj) (h : ℝ) : w.across.trueWindAt h = (w.trueWindAt h).map acrossCentre := by
  have e1 : w.across.twsRef = w.twsRef := rfl
  have e2 : w.across.profile = w.profile := rfl
  unfold WindObj.trueWindAt
  rw [e1, e2]
  cases w.profile with
  | flat => simp only [lengthToXyz_across]; rfl
  | log a b =>
    cases a <;> cases b <;> try rfl
    simp only [bind, Except.bind]
    cases WindObj.logFactor _ _ h with
    | error e => rfl
    | ok f => simp only [lengthToXyz_across]; rfl
  | exp a b c =>
    cases a <;> cases b <;> cases c <;> try rfl
    simp only [bind, Except.bind]
    cases WindObj.expFactor _ _ _ h with
    | error e => rfl
    | ok f => simp only [lengthToXyz_across]; rfl

theorem appInfs_across (w : WindObj) (v : V3) : w.across.appInfs (acrossCentre v) = acrossCentre (w.appInfs v) := rfl

/-- The inlet conditions on the other tack. -/
noncomputable def Inlet.across (i : Inlet) : Inlet where
  rho := i.rho
  winds := i.winds.across
  cpPoints := i.cpPoints.map acrossCentre
  twsAtCp := i.twsAtCp.map acrossCentre
  twsLength := i.twsLength
  vAppInfs := i.vAppInfs.map acrossCentre
  vAppInfsLength := i.vAppInfsLength
  awaInfsDeg := i.vAppInfs.map fun v => rad2deg (arctan2 (-v.y) v.x)

theorem inletConditions_across {w : WindObj} {rho : ℝ} {cps : List V3} {i : Inlet}
    (h : inletConditions w rho cps = .ok i) :
    inletConditions w.across rho (cps.map acrossCentre) = .ok i.across := by
  obtain ⟨h0, h1, h2⟩ := (inletConditions_ok_iff _ _ _ _).1 h
  have hm : ((cps.map acrossCentre).mapM fun p => w.across.trueWindAt |p.z|) = .ok (i.twsAtCp.map acrossCentre) := by
    rw [List.mapM_map]
    have : (cps.mapM ((fun p : V3 => w.across.trueWindAt |p.z|) ∘ acrossCentre)) =
        (cps.mapM fun p => w.trueWindAt |p.z|).map (List.map acrossCentre) :=
      mapM_map_congr (γ := V3) _ _ _ _ fun p _ => trueWindAt_across w |p.z|
    rw [this, h1]
    rfl
  rw [inletConditions_of rho (by simpa using h0) hm]
  congr 1
  rw [h2]
  have hn : ∀ l : List V3, (l.map acrossCentre).map V3.norm = l.map V3.norm := by
    intro l
    rw [List.map_map]
    exact List.map_congr_left fun v _ => isIsometry_across.norm v
  have ha : ∀ l : List V3, (l.map acrossCentre).map w.across.appInfs = (l.map w.appInfs).map acrossCentre := by
    intro l
    rw [List.map_map, List.map_map]
    rfl
  simp only [inletOf, Inlet.across, hn, ha]
  congr 1
  rw [List.map_map]
  rfl

theorem arctan2_neg (y x : ℝ) : arctan2 (-y) x = if arctan2 y x = Real.pi then Real.pi else -arctan2 y x := by
  unfold arctan2
  exact Complex.arg_conj ⟨x, y⟩

theorem rad2deg_eq_180 (x : ℝ) : rad2deg x = 180 ↔ x = Real.pi := by
  unfold rad2deg
  have := Real.pi_ne_zero
  constructor
  · intro h
    field_simp at h
    linarith
  · rintro rfl
    field_simp

theorem awa_cog {name : String} (h : name = "AWA_infs_COG_deg" ∨ name = "AWA_infs_at_reference_height_COG_deg") (l y x : ℝ) :
    rad2deg (arctan2 (-y) x) = onOtherTack l name (rad2deg (arctan2 y x)) := by
  have hl : name ∈ lateralNames := by rcases h with rfl | rfl <;> decide
  have h' : ¬ (name = "AWA_infs_COW_deg" ∨ name = "AWA_infs_at_reference_height_COW_deg") := by
    rcases h with rfl | rfl <;> decide
  unfold onOtherTack
  rw [arctan2_neg]
  by_cases hp : arctan2 y x = Real.pi
  · rw [if_pos hp, if_pos ⟨h, (rad2deg_eq_180 _).2 hp⟩, (rad2deg_eq_180 _).2 rfl]
  · rw [if_neg hp, if_neg (fun h => hp ((rad2deg_eq_180 _).1 h.2)), if_neg (fun h => h' h.1), if_pos hl, rad2deg_neg]

theorem awa_cow {name : String} (h : name = "AWA_infs_COW_deg" ∨ name = "AWA_infs_at_reference_height_COW_deg") (l y x : ℝ) :
    rad2deg (arctan2 (-y) x) - -l = onOtherTack l name (rad2deg (arctan2 y x) - l) := by
  have hl : name ∈ lateralNames := by rcases h with rfl | rfl <;> decide
  have h' : ¬ (name = "AWA_infs_COG_deg" ∨ name = "AWA_infs_at_reference_height_COG_deg") := by
    rcases h with rfl | rfl <;> decide
  unfold onOtherTack
  rw [arctan2_neg]
  by_cases hp : arctan2 y x = Real.pi
  · rw [if_pos hp, if_neg (fun h => h' h.1), if_pos ⟨h, by rw [(rad2deg_eq_180 _).2 hp]⟩, (rad2deg_eq_180 _).2 rfl]; ring
  · have hp' : rad2deg (arctan2 y x) ≠ 180 := fun h => hp ((rad2deg_eq_180 _).1 h)
    rw [if_neg hp, if_neg (fun h => h' h.1), if_neg (fun h => hp' (by linarith [h.2])), if_pos hl, rad2deg_neg]; ring

theorem inletTable_across {i : Inlet} (hi : i.awaInfsDeg = i.vAppInfs.map fun v => rad2deg (arctan2 v.y v.x)) (c : Csys) :
    i.across.toDfFull c.across = Frame.across c.leewayDeg (i.toDfFull c) := by
  have p1 : "cp_points_COG" ∈ polarKeys := by decide
  have p2 : "TWS_COG" ∈ polarKeys := by decide
  have p3 : "V_app_infs_COG" ∈ polarKeys := by decide
  have s1 : "TWS_length" ∉ awaNames ∧ "TWS_length" ∉ lateralNames := by decide
  have s2 : "V_app_infs_length" ∉ awaNames ∧ "V_app_infs_length" ∉ lateralNames := by decide
  unfold Inlet.toDfFull
  have e : ∀ a b d : String × List Cell, [a, b, d] = [a] ++ [b] ++ [d] := fun _ _ _ => rfl
  rw [e, e]
  simp only [Frame.across_append, ← vecColumns_polar _ p1, ← vecColumns_polar _ p2, ← vecColumns_polar _ p3,
    ← numColumn_same _ s1, ← numColumn_same _ s2]
  have h3 : [("AWA_infs_COG_deg", i.across.awaInfsDeg.map Cell.num)] =
      Frame.across c.leewayDeg [("AWA_infs_COG_deg", i.awaInfsDeg.map Cell.num)] := by
    simp only [Frame.across, Inlet.across, List.map_cons, List.map_nil, List.map_map, hi]
    congr 2
    refine List.map_congr_left fun v _ => ?_
    simp only [Function.comp, cellOnOtherTack, ← awa_cog (.inl rfl)]
  have h4 : [("AWA_infs_COW_deg", i.across.awaInfsDeg.map fun x => Cell.num (x - c.across.leewayDeg))] =
      Frame.across c.leewayDeg [("AWA_infs_COW_deg", i.awaInfsDeg.map fun x => Cell.num (x - c.leewayDeg))] := by
    simp only [Frame.across, Inlet.across, Csys.across, List.map_cons, List.map_nil, List.map_map, hi]
    congr 2
    refine List.map_congr_left fun v _ => ?_
    simp only [Function.comp, cellOnOtherTack, ← awa_cow (.inl rfl)]
  rw [h3, h4]
  rfl

theorem windIntegral_across {w : WindObj} {c : Csys} {rows : List (String × ℝ)} (h : windIntegral w c = .ok rows) :
    windIntegral w.across c.across = .ok (rows.map fun r => (r.1, onOtherTack c.leewayDeg r.1 r.2)) := by
  have e2 : w.across.profile = w.profile := rfl
  have s0 : "Not implemented - dummy variable" ∉ awaNames ∧ "Not implemented - dummy variable" ∉ lateralNames := by decide
  unfold windIntegral at h ⊢
  rw [e2]
  cases hp : w.profile with
  | flat => rw [hp] at h; cases h; simp [onOtherTack_same s0]
  | log a b => rw [hp] at h; cases h; simp [onOtherTack_same s0]
  | exp a b d =>
    rw [hp] at h
    cases a with
    | none => cases h
    | some a =>
    cases b with
    | none => cases h
    | some b =>
    cases d with
    | none => cases h
    | some d =>
    simp only [bind, Except.bind] at h ⊢
    cases hf : expFactorFloat a b d b with
    | error e => rw [hf] at h; cases h
    | ok f =>
    rw [hf] at h
    cases h
    have e1 : w.across.twsRef = w.twsRef := rfl
    have s1 : "Reference_measurement_height" ∉ awaNames ∧ "Reference_measurement_height" ∉ lateralNames := by decide
    have s2 : "Reference_water_level_for_wind_profile" ∉ awaNames ∧ "Reference_water_level_for_wind_profile" ∉ lateralNames := by decide
    have s3 : "TWS_at_reference_height_COG.x" ∉ awaNames ∧ "TWS_at_reference_height_COG.x" ∉ lateralNames := by decide
    have s4 : "TWS_at_reference_height_COG.y" ∉ awaNames ∧ "TWS_at_reference_height_COG.y" ∈ lateralNames := by decide
    have s5 : "TWS_at_reference_height_COG.z" ∉ awaNames ∧ "TWS_at_reference_height_COG.z" ∉ lateralNames := by decide
    have s6 : "TWS_length_at_reference_height" ∉ awaNames ∧ "TWS_length_at_reference_height" ∉ lateralNames := by decide
    have s7 : "V_app_infs_at_reference_height_COG.x" ∉ awaNames ∧ "V_app_infs_at_reference_height_COG.x" ∉ lateralNames := by decide
    have s8 : "V_app_infs_at_reference_height_COG.y" ∉ awaNames ∧ "V_app_infs_at_reference_height_COG.y" ∈ lateralNames := by decide
    have s9 : "V_app_infs_at_reference_height_COG.z" ∉ awaNames ∧ "V_app_infs_at_reference_height_COG.z" ∉ lateralNames := by decide
    have s10 : "V_app_infs_length_at_reference_height_COG" ∉ awaNames ∧ "V_app_infs_length_at_reference_height_COG" ∉ lateralNames := by decide
    simp only [e1, lengthToXyz_across, appInfs_across, List.map_cons, List.map_nil, onOtherTack_same s1,
      onOtherTack_same s2, onOtherTack_same s3, onOtherTack_neg s4, onOtherTack_same s5, onOtherTack_same s6,
      onOtherTack_same s7, onOtherTack_neg s8, onOtherTack_same s9, onOtherTack_same s10,
      ← awa_cog (.inr rfl), ← awa_cow (.inr rfl), isIsometry_across.norm]
    rfl

/-! ## Girths and the workbook -/

theorem cpStraight_across (cps : List V3) (c : Csys) :
    cpStraightYacht (cps.map acrossCentre) c.across = (cpStraightYacht cps c).map acrossCentre := by
  simp only [cpStraightYacht, List.map_map]
  exact List.map_congr_left fun p _ => c.reverseRotations_across p

theorem cpToGirths_across (cps : List V3) (t : V3) : cpToGirths (cps.map acrossCentre) t = cpToGirths cps t := by
  have e : (cps.map acrossCentre).map V3.z = cps.map V3.z := by rw [List.map_map]; rfl
  unfold cpToGirths
  rw [e]
  cases pyMax (cps.map V3.z) with
  | error e => rfl
  | ok m =>
    simp only [bind, Except.bind, List.map_map]
    rfl

/-- One sail of `cpGirthsAll`. -/
noncomputable def girthRow (chunks : List (List V3)) (sails : List SailGeom) (c : Csys) (i : ℕ) : Py (List ℝ × List V3) := do
  let a ← idx chunks i
  let b ← idx chunks (i + sails.length)
  let s ← idx sails i
  let g ← cpToGirths (cpStraightYacht (a ++ b) c) s.tackMounting
  .ok (g, cpStraightYacht (a ++ b) c)

theorem cpGirthsAll_eq (sails : List SailGeom) (c : Csys) (cps : List V3) :
    cpGirthsAll sails c cps = (arraySplit cps (2 * sails.length) >>= fun chunks =>
      ((List.range sails.length).mapM (girthRow chunks sails c)) >>= fun rows =>
      .ok ((rows.map (·.1)).flatten, (rows.map (·.2)).flatten)) := rfl

theorem girthRow_across (chunks : List (List V3)) (sails : List SailGeom) (c : Csys) (i : ℕ) :
    girthRow (chunks.map (List.map acrossCentre)) (sails.map SailGeom.across) c.across i =
      (girthRow chunks sails c i).map fun g => (g.1, g.2.map acrossCentre) := by
  unfold girthRow
  simp only [idx_map, List.length_map]
  cases idx chunks i with
  | error e => rfl
  | ok a =>
  cases idx chunks (i + sails.length) with
  | error e => rfl
  | ok b =>
  cases idx sails i with
  | error e => rfl
  | ok s =>
  have et : s.across.tackMounting = s.tackMounting := rfl
  simp only [Except.map, bind, Except.bind, ← List.map_append, cpStraight_across, cpToGirths_across, et]
  cases cpToGirths (cpStraightYacht (a ++ b) c) s.tackMounting <;> rfl

theorem cpGirthsAll_across (sails : List SailGeom) (c : Csys) (cps : List V3) :
    cpGirthsAll (sails.map SailGeom.across) c.across (cps.map acrossCentre) =
      (cpGirthsAll sails c cps).map fun g => (g.1, g.2.map acrossCentre) := by
  rw [cpGirthsAll_eq, cpGirthsAll_eq]
  simp only [List.length_map, arraySplit_map]
  cases arraySplit cps (2 * sails.length) with
  | error e => rfl
  | ok chunks =>
    simp only [Except.map, bind, Except.bind]
    rw [mapM_map_congr (γ := V3) _ _ _ _ fun i _ => girthRow_across chunks sails c i]
    cases (List.range sails.length).mapM (girthRow chunks sails c) with
    | error e => rfl
    | ok rows =>
      simp only [Except.map, List.map_map, List.map_flatten]
      rfl

theorem cpGirthsAbove_across (g : List ℝ) (sails : List SailGeom) :
    cpGirthsAbove g (sails.map SailGeom.across) = cpGirthsAbove g sails := by
  unfold cpGirthsAbove
  simp only [List.length_map, List.map_map]
  rfl

theorem everySecond_map {α β : Type} (f : α → β) : ∀ l : List α, everySecond (l.map f) = (everySecond l).map f
  | [] => rfl
  | [_] => rfl
  | _ :: _ :: l => by simp [everySecond, everySecond_map f l]

theorem saveResults_across {r r' : Vlm} {csys : Csys} {res : FlowResults} {clr : V3} {sails : List SailGeom}
    {t : SavedResults}
    (h : saveResults r csys ((FlowObject.new res).estimateKeel clr) sails csys = .ok t) (hc : res.csys = csys)
    (hi : r.inlet.awaInfsDeg = r.inlet.vAppInfs.map fun v => rad2deg (arctan2 v.y v.x))
    (hinl : r'.inlet = r.inlet.across)
    (hv : r'.vars.map PanelVars.cp = (r.vars.map PanelVars.cp).map acrossCentre) :
    saveResults r' csys.across ((FlowObject.new res.across).estimateKeel (acrossCentre clr))
        (sails.map SailGeom.across) csys.across =
      .ok ⟨Frame.across csys.leewayDeg t.components, t.integrals.across csys.leewayDeg,
        t.inlet.map fun q => (q.1, onOtherTack csys.leewayDeg q.1 q.2)⟩ := by
  unfold saveResults at h ⊢
  rw [hv, hinl]
  have ew : r.inlet.across.winds = r.inlet.winds.across := rfl
  rw [ew]
  cases h1 : windIntegral r.inlet.winds csys with
  | error e => rw [h1] at h; cases h
  | ok ic =>
  rw [h1] at h
  rw [windIntegral_across h1, cpGirthsAll_across]
  simp only [bind, Except.bind] at h ⊢
  cases h2 : cpGirthsAll sails csys (r.vars.map PanelVars.cp) with
  | error e => rw [h2] at h; cases h
  | ok g =>
  rw [h2] at h
  simp only [Except.map, cpGirthsAbove_across, List.length_map, arraySplit_map] at h ⊢
  cases h3 : cpGirthsAbove g.1 sails with
  | error e => rw [h3] at h; cases h
  | ok ga =>
  rw [h3] at h
  simp only at h ⊢
  cases h4 : arraySplit g.2 (2 * sails.length) with
  | error e => rw [h4] at h; cases h
  | ok parts =>
  rw [h4] at h
  simp only at h ⊢
  injection h with h
  have s1 : "cp_points_upright.z" ∉ awaNames ∧ "cp_points_upright.z" ∉ lateralNames := by decide
  have s2 : "girths" ∉ awaNames ∧ "girths" ∉ lateralNames := by decide
  have hf : ((FlowObject.new res.across).estimateKeel (acrossCentre clr)).res.toDfFull =
      Frame.across csys.leewayDeg ((FlowObject.new res).estimateKeel clr).res.toDfFull := by
    rw [← hc]; exact toDfFull_across res
  have hu : [("cp_points_upright.z", (everySecond (parts.map (List.map acrossCentre))).flatten.map fun p => Cell.num p.z)] =
      Frame.across csys.leewayDeg [("cp_points_upright.z", (everySecond parts).flatten.map fun p => Cell.num p.z)] := by
    have e : (fun p : V3 => Cell.num p.z) = Cell.num ∘ V3.z := rfl
    rw [e, ← List.map_map, ← List.map_map, ← numColumn_same _ s1, everySecond_map, ← List.map_flatten,
      List.map_map (g := V3.z)]
    rfl
  have hI := toDfIntegral_across res clr
  rw [hc] at hI
  rw [← h, hI, hf, Frame.across_firstHalf, inletTable_across hi, Frame.across_firstHalf, hu]
  simp only [← concatFrames_across, List.map_cons, List.map_nil, ← numColumn_same csys.leewayDeg s2 ga.1,
    ← textColumn_same csys.leewayDeg "sail_name" ga.2]

/-! ## The run -/

theorem checkShapes_other (c : SailConf) : checkShapes (otherSide c).arrays = checkShapes c.arrays := by
  obtain ⟨tw, gi, ch, ca, di⟩ := c
  cases tw <;> cases gi <;> cases ca <;> cases di <;>
    simp [checkShapes, SailConf.arrays, otherSide]

theorem hasNone_other (sc : List (Option ℝ)) (c d : SailConf) :
    hasNone sc (otherSide c).arrays = hasNone sc c.arrays ∧
    hasNone sc ((otherSide c).arrays ++ (otherSide d).arrays) = hasNone sc (c.arrays ++ d.arrays) := by
  simp [hasNone, SailConf.arrays, otherSide]

theorem sailPostInit_other (rig : RigConf) (main jib : SailConf) :
    sailPostInit rig (some (otherSide main)) (some (otherSide jib)) = sailPostInit rig (some main) (some jib) := by
  unfold sailPostInit sailChecks
  simp only [boundLocal, checkShapes_other, (hasNone_other _ _ main).1, (hasNone_other _ _ _).2, bind, Except.bind]

theorem withTwist_ok {c m : SailConf} {a b : ℝ} (h : c.withTwist a b = .ok m) :
    m = withDefaultTwist a b c ∧ ∃ tw, m.twist = some tw := by
  unfold SailConf.withTwist at h
  unfold withDefaultTwist
  obtain ⟨tw, gi, ch, ca, di⟩ := c
  cases tw with
  | some tw => cases h; exact ⟨rfl, tw, rfl⟩
  | none =>
    cases gi with
    | none => cases h
    | some gi => cases h; exact ⟨rfl, _, rfl⟩

theorem withTwist_other {m : SailConf} (h : ∃ tw, m.twist = some tw) (a b : ℝ) :
    (otherSide m).withTwist a b = .ok (otherSide m) := by
  obtain ⟨tw, h⟩ := h
  unfold SailConf.withTwist otherSide
  simp [h]

theorem prepare_other {spline : SplineFn} {c : Config} (hk : c.solver.interpolation = "linear" ∨ spline = fitpackSpline)
    (hm : c.rig.sailsDef ≠ "jib" → NoCamber spline c.solver c.main) (hj : c.rig.sailsDef ≠ "main" → NoCamber spline c.solver c.jib) {p : Prepared}
    (hp : prepare spline c = .ok p) :
    ∃ (p' : Prepared) (res : FlowResults), prepare spline (otherTack c) = .ok p' ∧
      p.csys = ⟨c.heelDeg, c.leewayDeg, c.vRef⟩ ∧ p'.csys = p.csys.across ∧
      p'.set = p.set.across ∧ p'.hull.clr = acrossCentre p.hull.clr ∧
      p'.vlm.inlet = p.vlm.inlet.across ∧
      p'.vlm.vars.map PanelVars.cp = (p.vlm.vars.map PanelVars.cp).map acrossCentre ∧
      p'.vlm.out = mapAll p.vlm.out Neg.neg acrossCentre acrossCentre Neg.neg Neg.neg ∧
      p.flow = (FlowObject.new res).estimateKeel p.hull.clr ∧ res.csys = p.csys ∧
      p'.flow = (FlowObject.new res.across).estimateKeel (acrossCentre p.hull.clr) := by
  obtain ⟨main, jib, base, h1, h2, h3, h4, h5, h6, h7, h8, hv, res, hres, hflow⟩ := prepare_ok hp
  obtain ⟨em, tm⟩ := withTwist_ok h1
  obtain ⟨ej, tj⟩ := withTwist_ok h2
  have hcs : p.csys = ⟨c.heelDeg, c.leewayDeg, c.vRef⟩ := by
    rw [C59_csys_constructor_total] at h3
    injection h3 with h3
    exact h3.symm
  have hfm : c.rig.sailsDef ≠ "jib" → NoCamber spline c.solver main := by intro hd; rw [em]; exact hm hd
  have hfj : c.rig.sailsDef ≠ "main" → NoCamber spline c.solver jib := by intro hd; rw [ej]; exact hj hd
  have hset := sailSetOf_other hk hfm hfj h6
  obtain ⟨hull, hh, -⟩ := C57_hull c.rig.sheer base p.csys.across (acrossCentre c.clrUpright)
  have hclr : hull.clr = acrossCentre p.hull.clr := by
    have e : ∀ {cs : Csys} {v : V3} {H : Hull}, hullGeometry c.rig.sheer base cs v = .ok H →
        H.clr = cs.rotatePointWithoutMirror v := by
      intro cs v H hH
      unfold hullGeometry at hH
      simp only [bind, Except.bind] at hH
      split at hH
      · cases hH
      injection hH with hH
      rw [← hH]
    rw [e hh, e h8, Csys.rotatePointWithoutMirror_across]
  obtain ⟨hinl, hcp⟩ := vlm_inlet hv
  have hinl' := inletConditions_across hinl
  obtain ⟨r', hr', hri, -, hrv, hro⟩ := vlm_moved isIsometry_across 0 (c.vlmInput p.set (windGetProfile c.wind))
    (r := p.vlm) (μ := 1) (c := 1) (g' := -1) one_pos one_ne_zero (by simp [Config.vlmInput]) (by norm_num) hv
    (w := (windGetProfile c.wind).across) (inlet := p.vlm.inlet.across)
    (by
      have e : p.vlm.inlet.cpPoints.map (move acrossCentre 0) = p.vlm.inlet.cpPoints.map acrossCentre :=
        List.map_congr_left fun q _ => move_across q
      rw [one_mul, e]
      exact hinl')
    (by simp [Inlet.across])
  have hvars : r'.vars.map PanelVars.cp = (p.vlm.vars.map PanelVars.cp).map acrossCentre := by
    rw [hrv, List.map_map, List.map_map]
    exact List.map_congr_left fun v _ => move_across v.cp
  have hout : r'.out = mapAll p.vlm.out Neg.neg acrossCentre acrossCentre Neg.neg Neg.neg := by
    rw [hro]
    simp [mapAll, Config.vlmInput]
  have hr2 : vlm (Config.vlmInput (otherTack c) p.set.across (windGetProfile (otherTack c).wind)) = .ok r' := by
    rw [← hr']
    simp only [one_mul]
    rfl
  have hnames : ∀ s ∈ p.set.sails, s.name ∈ ["jib", "main_sail"] := by
    obtain ⟨hn, -⟩ := sailSetOf_shape h6
    intro s hs
    have : s.name ∈ p.set.sails.map SailGeom.name := List.mem_map_of_mem hs
    rcases hn with ⟨-, e⟩ | ⟨-, e⟩ | ⟨-, e⟩ <;> rw [e] at this <;> revert this <;> simp +contextual
  have hfa : r'.flowArrays = p.vlm.flowArrays.across := by
    unfold Vlm.flowArrays FlowArrays.across
    rw [hvars, hout]
    rfl
  have hres' := inviscidFlow_across hnames hres
  rw [← hfa] at hres'
  have hrc : res.csys = p.csys := by
    unfold inviscidFlow at hres
    simp only [bind, Except.bind] at hres
    repeat' split at hres
    all_goals first
      | (cases hres; done)
      | (injection hres with hres; rw [← hres])
  refine ⟨⟨p.csys.across, p.set.across, hull, r', (FlowObject.new res.across).estimateKeel hull.clr⟩, res, ?_, hcs,
    rfl, rfl, hclr, hri, hvars, hout, hflow, hrc, by rw [hclr]⟩
  have i1 : mainSailInit (otherTack c).main = .ok (otherSide main) := by
    have : (otherTack c).main = otherSide main := by rw [em]; rfl
    rw [this]
    exact withTwist_other tm _ _
  have i2 : jibSailInit (otherTack c).jib = .ok (otherSide jib) := by
    have : (otherTack c).jib = otherSide jib := by rw [ej]; rfl
    rw [this]
    exact withTwist_other tj _ _
  have i3 : csysInit (otherTack c).heelDeg (otherTack c).leewayDeg (otherTack c).vRef = .ok p.csys.across := by
    rw [C59_csys_constructor_total, hcs]; rfl
  have i4 : windPostInit (otherTack c).wind = .ok () := h4
  have i5 : sailPostInit (otherTack c).rig (some (otherSide main)) (some (otherSide jib)) = .ok () := by
    rw [sailPostInit_other]; exact h5
  have i6 : sailSetOf spline (otherTack c).solver (otherTack c).rig (some (otherSide main)) (some (otherSide jib))
    p.csys.across = .ok p.set.across := hset
  have i7 : (otherTack c).rig.base = some base := h7
  have i8 : hullGeometry (otherTack c).rig.sheer base p.csys.across (otherTack c).clrUpright = .ok hull := hh
  have i9 : inviscidFlow p.set.across.sails p.csys.across r'.flowArrays = .ok res.across := hres'
  unfold prepare prepareGeometry
  simp only [i1, i2, i3, i4, i5, i6, i7, i8, i9, need, hr2, bind, Except.bind]

/-- Every workbook has its counterpart on the other tack. -/
theorem workbook_other {spline : SplineFn} {c : Config} (hk : c.solver.interpolation = "linear" ∨ spline = fitpackSpline)
    (hm : c.rig.sailsDef ≠ "jib" → NoCamber spline c.solver c.main) (hj : c.rig.sailsDef ≠ "main" → NoCamber spline c.solver c.jib) {t : SavedResults}
    (h : .workbook (some t) ∈ (run spline c).1) :
    .workbook (some ⟨Frame.across c.leewayDeg t.components, t.integrals.across c.leewayDeg,
      t.inlet.map fun q => (q.1, onOtherTack c.leewayDeg q.1 q.2)⟩) ∈ (run spline (otherTack c)).1 := by
  obtain ⟨p, hp, hs⟩ := run_workbook h
  obtain ⟨p', res, hp', hc, hc', hset, -, hinl, hcp, -, hf, hrc, hf'⟩ := prepare_other hk hm hj hp
  obtain ⟨main, jib, base, -, -, -, -, -, -, -, -, hv, -⟩ := prepare_ok hp
  refine workbook_mem hp' ?_
  rw [hf] at hs
  have e : c.leewayDeg = p.csys.leewayDeg := by rw [hc]
  rw [hf', hc', hset, e]
  refine saveResults_across hs hrc ?_ hinl hcp
  obtain ⟨hi, -⟩ := vlm_inlet hv
  obtain ⟨-, -, h2⟩ := (inletConditions_ok_iff _ _ _ _).1 hi
  rw [h2]

end PySailing
