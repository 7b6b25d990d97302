import Verif.Lemmas.Heading
import Verif.Lemmas.Components
import Verif.Lemmas.Results

/-!
# Lemmas: the yacht and the wind turned together, results
-/

namespace PySailing

open Spec Props

/-! ## Forces and moments -/

theorem momentArm_turned (δ : ℝ) (v p : V3) : momentArm (turned δ v) (turned δ p) = turned δ (momentArm v p) := by
  unfold momentArm
  rw [turned_z, turned_z]
  unfold turned
  ext <;> simp <;> ring

theorem calcMomentArm_turned (δ : ℝ) (cps : List V3) (v : V3) :
    calcMomentArm (cps.map (turned δ)) (turned δ v) = (calcMomentArm cps v).map (turned δ) := by
  simp only [calcMomentArm, List.map_map]
  exact List.map_congr_left fun p _ => momentArm_turned δ v p

theorem calcMoments_turned (δ : ℝ) (r F : List V3) :
    calcMoments (r.map (turned δ)) (F.map (turned δ)) = (calcMoments r F).map (List.map (turned δ)) := by
  unfold calcMoments
  by_cases h : r.length = F.length
  · simp only [List.length_map, h, if_true, Except.map, List.map_zipWith, List.zipWith_map, turned_cross]
  · simp [h, Except.map]

/-- A table of vectors and the table with all vectors turned. -/
structure DictTurned (δ : ℝ) (d d' : PyDict) : Prop where
  vec : ∀ key, rowVec d' key = (rowVec d key).map (turned δ)
  moment : ∀ key, ∀ s ∈ [".x (heel)", ".y (pitch)", ".z (yaw)", ".z (yaw - JG sign)"], d (key ++ s) = none ∧ d' (key ++ s) = none
  whole : Whole d
  whole' : Whole d'
  cow : rowVec d "F_sails_total_COW" = none

theorem DictTurned.setVec {δ : ℝ} {d d' : PyDict} (h : DictTurned δ d d') {key : String}
    (hk : key ≠ "F_sails_total_COW") (v : V3) :
    DictTurned δ (d.setVec key v) (d'.setVec key (turned δ v)) where
  vec k := by
    rw [rowVec_setVec, rowVec_setVec, h.vec]
    split_ifs <;> rfl
  moment k s hs := by
    rw [PyDict.setVec_moment _ _ _ _ hs, PyDict.setVec_moment _ _ _ _ hs]
    exact h.moment k s hs
  whole := h.whole.setVec key v
  whole' := h.whole'.setVec key _
  cow := by rw [rowVec_setVec, if_neg hk.symm, h.cow]

theorem sailKey_ne_cow (a name : String) : a ++ name ++ "_total_COG" ≠ "F_sails_total_COW" := by
  intro h
  have := congrArg (fun s : String => s.toList.getLast?) h
  simp at this

theorem flowSails_turned (δ : ℝ) (ss : List SailGeom) (Fs rs : List (List V3)) {d d' e : PyDict} (hd : DictTurned δ d d')
    (h : flowSails ss Fs rs d = .ok e) :
    ∃ e', flowSails (ss.map (SailGeom.turn δ)) (Fs.map (List.map (turned δ))) (rs.map (List.map (turned δ))) d' = .ok e' ∧
      DictTurned δ e e' := by
  induction ss generalizing Fs rs d d' with
  | nil => cases h; exact ⟨d', rfl, hd⟩
  | cons s ss ih =>
    cases Fs with
    | nil => cases rs <;> cases h
    | cons F Fs =>
      cases rs with
      | nil => cases h
      | cons r rs =>
        have en : (s.turn δ).name = s.name := rfl
        simp only [List.map_cons, flowSails, en, flowSail, calcMoments_turned, turned_sum, bind, Except.bind] at h ⊢
        cases hm : calcMoments r F with
        | error x => rw [hm] at h; cases h
        | ok M =>
        rw [hm] at h
        simp only [Except.map, turned_sum] at h ⊢
        exact ih Fs rs ((hd.setVec (sailKey_ne_cow _ _) _).setVec (sailKey_ne_cow _ _) _) h

theorem extract_turned (δ : ℝ) (l : List V3) :
    extractAboveWater (l.map (turned δ)) = ((extractAboveWater l).1.map (turned δ), turned δ (extractAboveWater l).2) := by
  simp only [extractAboveWater, List.length_map, ← List.map_take, turned_sum]

theorem centerline_turned (δ : ℝ) (c : Csys) (l : List V3) :
    (c.turn δ).fromXyzToCenterline (l.map (turned δ)) = (c.fromXyzToCenterline l).map (turned (2 * δ)) := by
  simp only [Csys.fromXyzToCenterline, List.map_map]
  exact List.map_congr_left fun v _ => leeway_turn_turned δ c v

/-- The arrays of the solution turned. -/
noncomputable def FlowArrays.turn (δ : ℝ) (a : FlowArrays) : FlowArrays where
  gamma := a.gamma
  pressure := a.pressure
  vIndCp := a.vIndCp.map (turned δ)
  vFsCp := a.vFsCp.map (turned δ)
  force := a.force.map (turned δ)
  cp := a.cp.map (turned δ)

/-- Results and the results of the turned scene. -/
structure ResultsTurned (δ : ℝ) (r r' : FlowResults) : Prop where
  csys : r'.csys = r.csys.turn δ
  gamma : r'.gamma = r.gamma
  pressure : r'.pressure = r.pressure
  vInd : r'.vInd = r.vInd.map (turned δ)
  vIndLength : r'.vIndLength = r.vIndLength
  vFs : r'.vFs = r.vFs.map (turned δ)
  vFsLength : r'.vFsLength = r.vFsLength
  awa : r'.awa.length = r.awa.length
  force : r'.force = r.force.map (turned δ)
  forceTotal : r'.forceTotal = turned δ r.forceTotal
  dyn : DictTurned δ r.dyn r'.dyn
  moment : r'.moment = r.moment.map (turned δ)
  momentTotal : r'.momentTotal = turned δ r.momentTotal
  forceCl : r'.forceCl = r.forceCl.map (turned (2 * δ))
  forceClTotal : r'.forceClTotal = turned (2 * δ) r.forceClTotal
  momentClTotal : r'.momentClTotal = turned (2 * δ) r.momentClTotal
  ce : r'.centreOfEffort = r.centreOfEffort.map (turned δ)

theorem turned_dot (δ : ℝ) (a b : V3) : (turned δ a).dot (turned δ b) = a.dot b := by
  unfold turned V3.dot
  have := Real.sin_sq_add_cos_sq (deg2rad δ)
  simp only
  linear_combination (a.x * b.x + a.y * b.y) * this

theorem turned_smul (δ k : ℝ) (a : V3) : turned δ (k • a) = k • turned δ a := by
  unfold turned
  ext <;> simp <;> ring

theorem determineVector_turned (δ : ℝ) (F : V3) (x : ℝ) (M : V3) :
    determineVector (turned δ F) x (turned δ M) = (determineVector F x M).map (turned δ) := by
  unfold determineVector
  simp only [turned_dot, turned_cross]
  split_ifs
  · rfl
  · simp only [Except.map, turned_smul, turned_add]

theorem inviscidFlow_turned {δ : ℝ} {sails : List SailGeom} {csys : Csys} {a : FlowArrays} {res : FlowResults}
    (h : inviscidFlow sails csys a = .ok res) :
    ∃ res', inviscidFlow (sails.map (SailGeom.turn δ)) (csys.turn δ) (a.turn δ) = .ok res' ∧ ResultsTurned δ res res' := by
  unfold inviscidFlow at h ⊢
  have e0 : (csys.turn δ).vRef = turned δ csys.vRef := rfl
  have e1 : (a.turn δ).cp = a.cp.map (turned δ) := rfl
  have e2 : (a.turn δ).force = a.force.map (turned δ) := rfl
  have e3 : (a.turn δ).vIndCp = a.vIndCp.map (turned δ) := rfl
  have e4 : (a.turn δ).vFsCp = a.vFsCp.map (turned δ) := rfl
  simp only [e0, e1, e2, e3, e4, List.length_map, calcMomentArm_turned, ← List.map_take, arraySplit_map,
    calcMoments_turned] at h ⊢
  cases h1 : arraySplit (a.force.take (a.force.length / 2)) sails.length with
  | error e => rw [h1] at h; cases h
  | ok Fs =>
  rw [h1] at h
  simp only [bind, Except.bind, Except.map] at h ⊢
  cases h2 : arraySplit ((calcMomentArm a.cp csys.vRef).take (a.force.length / 2)) sails.length with
  | error e => rw [h2] at h; cases h
  | ok rs =>
  rw [h2] at h
  simp only at h ⊢
  have hd : DictTurned δ PyDict.empty PyDict.empty :=
    ⟨fun _ => rfl, fun _ _ _ => ⟨rfl, rfl⟩, Whole.empty, Whole.empty, rfl⟩
  cases h3 : flowSails sails Fs rs PyDict.empty with
  | error e => rw [h3] at h; cases h
  | ok dyn =>
  obtain ⟨dyn', h3', hdyn⟩ := flowSails_turned δ sails Fs rs hd h3
  rw [h3] at h
  rw [h3']
  simp only at h ⊢
  cases h4 : calcMoments (calcMomentArm a.cp csys.vRef) a.force with
  | error e => rw [h4] at h; cases h
  | ok M =>
  rw [h4] at h
  simp only at h ⊢
  injection h with h
  subst h
  refine ⟨_, rfl, ?_⟩
  constructor <;> simp only [extract_turned, centerline_turned, map_turned_norm, List.length_map, List.zipWith_map,
    turned_dot, determineVector_turned]
  · rfl
  · rfl
  · exact hdyn

theorem integral_vec (x : FlowResults) (clr : V3) (hd : Whole x.dyn) (key : String) :
    rowVec ((FlowObject.new x).estimateKeel clr).toDfIntegral key =
      (rowVec x.dyn key).or
        ((if key = "M_total_COG" then some (x.momentTotal + V3.cross clr (-x.forceTotal))
          else if key = "M_keel_total_COG" then some (V3.cross clr (-x.forceTotal)) else none).or
        (if key = "M_sails_total_COG" then some x.momentTotal else if key = "F_sails_total_COW" then some x.forceClTotal
          else if key = "F_sails_total_COG" then some x.forceTotal else none)) := by
  unfold FlowObject.toDfIntegral FlowObject.estimateKeel FlowObject.new
  simp only
  rw [rowVec_update hd, rowVec_update ((((Whole.empty.setVec _ _).setMomentCow _ _).setVec _ _).setMomentCow _ _)]
  simp only [rowVec_setMomentCow, rowVec_setVec, rowVec_empty]

theorem integrals_turned {δ : ℝ} {r r' : FlowResults} (h : ResultsTurned δ r r') (clr : V3) :
    (∀ key, key ≠ "F_sails_total_COW" →
      rowVec ((FlowObject.new r').estimateKeel (turned δ clr)).toDfIntegral key =
        (rowVec ((FlowObject.new r).estimateKeel clr).toDfIntegral key).map (turned δ)) ∧
    rowVec ((FlowObject.new r').estimateKeel (turned δ clr)).toDfIntegral "F_sails_total_COW" =
      (rowVec ((FlowObject.new r).estimateKeel clr).toDfIntegral "F_sails_total_COW").map (turned (2 * δ)) ∧
    ∀ key, rowMoment ((FlowObject.new r').estimateKeel (turned δ clr)).toDfIntegral key =
      (rowMoment ((FlowObject.new r).estimateKeel clr).toDfIntegral key).map (turned (2 * δ)) := by
  have hk : V3.cross (turned δ clr) (-r'.forceTotal) = turned δ (V3.cross clr (-r.forceTotal)) := by
    rw [h.forceTotal, turned_neg, turned_cross]
  refine ⟨fun key hkey => ?_, ?_, fun key => ?_⟩
  · rw [integral_vec _ _ h.dyn.whole, integral_vec _ _ h.dyn.whole', h.dyn.vec, hk, h.momentTotal, h.forceTotal, ← turned_add]
    cases rowVec r.dyn key with
    | some v => rfl
    | none =>
      simp only [if_neg hkey]
      split_ifs <;> rfl
  · rw [integral_vec _ _ h.dyn.whole, integral_vec _ _ h.dyn.whole', h.dyn.vec, h.dyn.cow, h.forceClTotal]
    simp
  · have hm : ∀ t ∈ [".x (heel)", ".y (pitch)", ".z (yaw)"], t ∈ [".x (heel)", ".y (pitch)", ".z (yaw)", ".z (yaw - JG sign)"] := by
      decide
    rw [sheet_moment ((FlowObject.new r').estimateKeel (turned δ clr)) fun t ht => (h.dyn.moment key t (hm t ht)).2,
      sheet_moment ((FlowObject.new r).estimateKeel clr) fun t ht => (h.dyn.moment key t (hm t ht)).1]
    unfold FlowObject.estimateKeel FlowObject.new
    simp only [hk, h.csys, leeway_turn_turned, h.momentClTotal, ← turned_add, Option.bind_some]
    split_ifs <;> rfl

/-! ## Wind -/

/-- The wind turned. -/
noncomputable def WindObj.turn (δ : ℝ) (w : WindObj) : WindObj := { w with alphaDeg := w.alphaDeg + δ }

theorem windGetProfile_turn (δ : ℝ) (w : WindConditions) :
    windGetProfile { w with alphaDeg := w.alphaDeg + δ } = (windGetProfile w).turn δ := rfl

theorem lengthToXyz_turn (δ : ℝ) (w : WindObj) (x : ℝ) : (w.turn δ).lengthToXyz x = turned δ (w.lengthToXyz x) := by
  have e : (w.turn δ).alpha = w.alpha + deg2rad δ := deg2rad_add _ _
  unfold WindObj.lengthToXyz turned
  rw [e, Real.cos_add, Real.sin_add]
  ext <;> simp <;> ring

theorem trueWindAt_turn (δ : ℝ) (w : WindObj) (x : ℝ) : (w.turn δ).trueWindAt x = (w.trueWindAt x).map (turned δ) := by
  have e1 : (w.turn δ).profile = w.profile := rfl
  have e2 : (w.turn δ).twsRef = w.twsRef := rfl
  unfold WindObj.trueWindAt
  rw [e1, e2]
  cases w.profile with
  | flat => simp only [lengthToXyz_turn, Except.map]
  | log r ref =>
    cases r with
    | none => rfl
    | some r =>
      cases ref with
      | none => rfl
      | some ref =>
        simp only [bind, Except.bind]
        cases WindObj.logFactor r ref x with
        | error e => rfl
        | ok f => simp only [lengthToXyz_turn, Except.map]
  | exp c ref wl =>
    cases c with
    | none => rfl
    | some c =>
      cases ref with
      | none => rfl
      | some ref =>
        cases wl with
        | none => rfl
        | some wl =>
          simp only [bind, Except.bind]
          cases WindObj.expFactor c ref wl x with
          | error e => rfl
          | ok f => simp only [lengthToXyz_turn, Except.map]

theorem appInfs_rest {w : WindObj} (h : w.vYacht = 0) (v : V3) : w.appInfs v = v := by
  unfold WindObj.appInfs
  rw [h]
  ext <;> simp

theorem inletConditions_turn {δ : ℝ} {w : WindObj} (hw : w.vYacht = 0) {rho : ℝ} {cps : List V3} {i : Inlet}
    (h : inletConditions w rho cps = .ok i) :
    ∃ i', inletConditions (w.turn δ) rho (cps.map (turned δ)) = .ok i' ∧ i'.winds = w.turn δ ∧
      i'.cpPoints = cps.map (turned δ) ∧ i'.twsAtCp = i.twsAtCp.map (turned δ) ∧ i'.twsLength = i.twsLength ∧
      i'.vAppInfs = i.vAppInfs.map (turned δ) ∧ i'.vAppInfsLength = i.vAppInfsLength ∧
      i'.awaInfsDeg.length = i.awaInfsDeg.length := by
  obtain ⟨h0, h1, h2⟩ := (inletConditions_ok_iff _ _ _ _).1 h
  have hm : ((cps.map (turned δ)).mapM fun p => (w.turn δ).trueWindAt |p.z|) = .ok (i.twsAtCp.map (turned δ)) := by
    rw [mapM_comp]
    have : (cps.mapM fun p => (w.turn δ).trueWindAt |(turned δ p).z|) =
        (cps.mapM fun p => w.trueWindAt |p.z|).map (List.map (turned δ)) :=
      mapM_map_congr (γ := V3) _ _ _ _ fun p _ => trueWindAt_turn δ w |p.z|
    rw [this, h1]
    rfl
  refine ⟨_, inletConditions_of rho (by simpa using h0) hm, rfl, rfl, rfl, ?_, ?_, ?_, ?_⟩
  all_goals
    rw [h2]
    have e1 : ∀ l : List V3, l.map (w.turn δ).appInfs = l := fun l => by
      conv_rhs => rw [← List.map_id l]
      exact List.map_congr_left fun v _ => appInfs_rest (w := w.turn δ) hw v
    have e2 : ∀ l : List V3, l.map w.appInfs = l := fun l => by
      conv_rhs => rw [← List.map_id l]
      exact List.map_congr_left fun v _ => appInfs_rest hw v
    simp only [inletOf, e1, e2, map_turned_norm, List.length_map]

theorem vlm_turn {δ : ℝ} {a : VlmInput} (hw : a.wind.vYacht = 0) (hg : a.g ≠ 0) {r : Vlm} (h : vlm a = .ok r) :
    ∃ r', vlm { a with panels := a.panels.map (turnPanel δ), wind := a.wind.turn δ } = .ok r' ∧
      r'.areas = r.areas ∧ r'.vars.map PanelVars.cp = (r.vars.map PanelVars.cp).map (turned δ) ∧
      r'.inlet.winds = a.wind.turn δ ∧ r'.inlet.cpPoints = r.inlet.cpPoints.map (turned δ) ∧
      r'.inlet.twsAtCp = r.inlet.twsAtCp.map (turned δ) ∧ r'.inlet.twsLength = r.inlet.twsLength ∧
      r'.inlet.vAppInfs = r.inlet.vAppInfs.map (turned δ) ∧ r'.inlet.vAppInfsLength = r.inlet.vAppInfsLength ∧
      r'.inlet.awaInfsDeg.length = r.inlet.awaInfsDeg.length ∧
      r'.out = mapAll r.out id (turned δ) (turned δ) id id ∧
      r'.vars.map PanelVars.leMid = (r.vars.map PanelVars.leMid).map (turned δ) ∧
      r'.vars.map PanelVars.teMid = (r.vars.map PanelVars.teMid).map (turned δ) := by
  obtain ⟨hin, hcp, -⟩ := vlm_inlet h
  have em : ∀ p : V3, move (turned δ) 0 p = turned δ p := fun p => add_zero _
  obtain ⟨i', hi', w1, w2, w3, w4, w5, w6, w7⟩ := inletConditions_turn (δ := δ) hw hin
  obtain ⟨r', hr', hri, har, hv, ho⟩ := vlm_moved (isIsometry_turned δ) 0 a (μ := 1) (c := 1) (g' := a.g) one_pos one_ne_zero
    hg hg h (w := a.wind.turn δ) (inlet := i') (by
      rw [one_mul, List.map_congr_left fun p _ => em p]
      exact hi') (by
      rw [w5]
      exact List.map_congr_left fun v _ => (one_smul _ _).symm)
  rw [one_mul] at hr'
  refine ⟨r', hr', har, ?_, by rw [hri, w1], by rw [hri, w2], by rw [hri, w3], by rw [hri, w4], by rw [hri, w5],
    by rw [hri, w6], by rw [hri, w7], ?_, ?_, ?_⟩
  · rw [hv, List.map_map, List.map_map]
    exact List.map_congr_left fun v _ => em v.cp
  · rw [ho]
    simp only [mapAll, div_self hg, one_pow, mul_one, one_mul, one_smul]
    rfl
  · rw [hv, List.map_map, List.map_map]
    exact List.map_congr_left fun v _ => em v.leMid
  · rw [hv, List.map_map, List.map_map]
    exact List.map_congr_left fun v _ => em v.teMid

/-! ## Girths and the workbook -/

theorem cpStraight_turned (δ : ℝ) (cps : List V3) (c : Csys) :
    cpStraightYacht (cps.map (turned δ)) (c.turn δ) = cpStraightYacht cps c := by
  simp only [cpStraightYacht, List.map_map]
  exact List.map_congr_left fun p _ => reverseRotations_turn δ c p

theorem girthRow_turned (δ : ℝ) (chunks : List (List V3)) (sails : List SailGeom) (c : Csys) (i : ℕ) :
    girthRow (chunks.map (List.map (turned δ))) (sails.map (SailGeom.turn δ)) (c.turn δ) i = girthRow chunks sails c i := by
  unfold girthRow
  simp only [idx_map, List.length_map]
  cases idx chunks i with
  | error e => rfl
  | ok a =>
  cases idx chunks (i + sails.length) with
  | error e => rfl
  | ok b =>
  cases idx sails i with
  | error e => rfl
  | ok g =>
  have et : (g.turn δ).tackMounting = g.tackMounting := rfl
  simp only [Except.map, bind, Except.bind, ← List.map_append, cpStraight_turned, et]

theorem cpGirthsAll_turned (δ : ℝ) (sails : List SailGeom) (c : Csys) (cps : List V3) :
    cpGirthsAll (sails.map (SailGeom.turn δ)) (c.turn δ) (cps.map (turned δ)) = cpGirthsAll sails c cps := by
  rw [cpGirthsAll_eq, cpGirthsAll_eq]
  simp only [List.length_map, arraySplit_map]
  cases arraySplit cps (2 * sails.length) with
  | error e => rfl
  | ok chunks =>
    have e : girthRow (chunks.map (List.map (turned δ))) (sails.map (SailGeom.turn δ)) (c.turn δ) = girthRow chunks sails c :=
      funext fun i => girthRow_turned δ chunks sails c i
    simp only [Except.map, bind, Except.bind, e]

theorem cpGirthsAbove_turned (δ : ℝ) (g : List ℝ) (sails : List SailGeom) :
    cpGirthsAbove g (sails.map (SailGeom.turn δ)) = cpGirthsAbove g sails := by
  unfold cpGirthsAbove
  simp only [List.length_map, List.map_map]
  rfl

theorem cell_concat {ts : List Frame} (hnd : (ts.flatten.map Prod.fst).Nodup) {name : String} {l : List Cell}
    (h : (name, l) ∈ ts.flatten) (q : ℕ) :
    (concatFrames ts).cell name q =
      (l ++ List.replicate ((ts.flatten.map fun c => c.2.length).foldl max 0 - l.length) Cell.nan)[q]? := by
  refine cell_of_mem ?_ ?_ q
  · unfold concatFrames
    simp only [List.map_map]
    exact hnd
  · unfold concatFrames
    exact List.mem_map.2 ⟨(name, l), h, rfl⟩

theorem cellVector_concat {ts : List Frame} (hnd : (ts.flatten.map Prod.fst).Nodup) {key : String} {vs : List V3}
    (h : ∀ c ∈ Frame.firstHalf (vecColumns key vs), c ∈ ts.flatten) (q : ℕ) :
    cellVector (concatFrames ts) key q = (vs.take ((vs.length + 1) / 2))[q]? := by
  have h1 := cell_concat hnd (h (key ++ ".x", (vs.map fun v => Cell.num v.x).take ((vs.length + 1) / 2))
    (by simp [Frame.firstHalf, vecColumns])) q
  have h2 := cell_concat hnd (h (key ++ ".y", (vs.map fun v => Cell.num v.y).take ((vs.length + 1) / 2))
    (by simp [Frame.firstHalf, vecColumns])) q
  have h3 := cell_concat hnd (h (key ++ ".z", (vs.map fun v => Cell.num v.z).take ((vs.length + 1) / 2))
    (by simp [Frame.firstHalf, vecColumns])) q
  unfold cellVector
  rw [h1, h2, h3]
  by_cases hq : q < (vs.take ((vs.length + 1) / 2)).length
  · have hq' : q < (vs.length + 1) / 2 ∧ q < vs.length := by simpa using hq
    simp [List.getElem?_append_left, hq']
  · have hq' : ∀ f : V3 → Cell, ((vs.map f).take ((vs.length + 1) / 2)).length ≤ q := by
      intro f; simp at hq ⊢; omega
    have hn : (vs.take ((vs.length + 1) / 2))[q]? = none := List.getElem?_eq_none (by omega)
    rw [List.getElem?_append_right (hq' _), List.getElem?_append_right (hq' _), List.getElem?_append_right (hq' _), hn]
    simp only [List.getElem?_replicate]
    split
    · rename_i x y z e1 e2 e3
      split_ifs at e1 with h0
      cases e1
    · rfl

end PySailing
