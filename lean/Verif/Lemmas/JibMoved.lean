import Verif.Spec.JibMoved
import Verif.Lemmas.HeadingFigures
import Verif.Lemmas.Runner
import Verif.Lemmas.TackRun
import Verif.Props.Similarity

/-!
# Lemmas: the jib at another place along the yacht
-/

namespace PySailing

open Spec Props

/-- The arguments of a sail moved along the yacht. -/
def SailInput.along (d : ℝ) (s : SailInput) : SailInput := { s with tack := s.tack + ⟨d, 0, 0⟩, head := s.head + ⟨d, 0, 0⟩ }

theorem sailPoint_along (d : ℝ) (a b : V3) (nc ns : ℕ) (ch di ca : List ℝ) (r k : ℕ) :
    sailPoint (a + ⟨d, 0, 0⟩) (b + ⟨d, 0, 0⟩) nc ns ch di ca r k = sailPoint a b nc ns ch di ca r k + ⟨d, 0, 0⟩ := by
  unfold sailPoint
  ext <;> simp [lerp] <;> ring

theorem rotatePointWithMirror_along (c : Csys) (d : ℝ) (p : V3) :
    c.rotatePointWithMirror (p + ⟨d, 0, 0⟩) = c.rotatePointWithMirror p + turned c.leewayDeg ⟨d, 0, 0⟩ := by
  unfold Csys.rotatePointWithMirror
  have hz : (p + ⟨d, 0, 0⟩ : V3).z = p.z := by simp
  rw [hz]
  split_ifs
  · simp only [Csys.heeling_mulVec, Csys.leeway_mulVec, turned]
    ext <;> simp <;> ring
  · simp only [Csys.reverseHeeling_mulVec, Csys.leeway_mulVec, turned]
    ext <;> simp <;> ring

theorem rotateAboutLine_along (p1 p2 p w : V3) (θ : ℝ) :
    rotateAboutLine (p1 + w) (p2 + w) θ (p + w) = rotateAboutLine p1 p2 θ p + w := by
  unfold rotateAboutLine
  rw [add_sub_add_right_eq_sub, add_sub_add_right_eq_sub]
  abel

theorem mirror_along (d : ℝ) (p : V3) : mirror (p + ⟨d, 0, 0⟩) = mirror p + ⟨d, 0, 0⟩ := by
  ext <;> simp [mirror]

theorem above_along (d : ℝ) (s : SailInput) (θ : ℕ → ℝ) (r k : ℕ) :
    (s.along d).aboveTwisted θ r k = s.aboveTwisted θ r k + turned s.csys.leewayDeg ⟨d, 0, 0⟩ := by
  have h : ∀ r k, (s.along d).abovePt r k = s.abovePt r k + turned s.csys.leewayDeg ⟨d, 0, 0⟩ := fun r k => by
    unfold SailInput.abovePt
    rw [← rotatePointWithMirror_along, ← sailPoint_along]
    rfl
  unfold SailInput.aboveTwisted
  rw [h, h, h, ← rotateAboutLine_along]
  rfl

theorem under_along (d : ℝ) (s : SailInput) (θ : ℕ → ℝ) (r k : ℕ) :
    (s.along d).underTwisted θ r k = s.underTwisted θ r k + turned s.csys.leewayDeg ⟨d, 0, 0⟩ := by
  have h : ∀ r k, (s.along d).underPt r k = s.underPt r k + turned s.csys.leewayDeg ⟨d, 0, 0⟩ := fun r k => by
    unfold SailInput.underPt
    rw [← rotatePointWithMirror_along, ← sailPoint_along, ← mirror_along, ← mirror_along]
    rfl
  unfold SailInput.underTwisted
  rw [h, h, h, ← rotateAboutLine_along]
  rfl

theorem panelGrid_move (nc ns : ℕ) (f : ℕ → ℕ → V3) (w : V3) :
    panelGrid nc ns (fun r k => f r k + w) = (panelGrid nc ns f).map (movePanel id w) := by
  unfold panelGrid
  rw [List.map_flatMap]
  congr 1
  funext i
  rw [List.map_map]
  rfl

theorem sailOk_along (d : ℝ) {s : SailInput} {θ : ℕ → ℝ} (h : SailOk s θ) : SailOk (s.along d) θ where
  ns_pos := h.ns_pos
  nc_pos := h.nc_pos
  valid := h.valid
  camber_len := h.camber_len
  pos := h.pos
  twist := h.twist
  tack_y := by simpa [SailInput.along] using h.tack_y
  head_y := by simpa [SailInput.along] using h.head_y
  tack_z := by simpa [SailInput.along] using h.tack_z
  head_z := by simpa [SailInput.along] using h.head_z
  sloped := by simpa [SailInput.along] using h.sloped
  heel := h.heel
  foot := by simpa [SailInput.along] using h.foot

/-- The jib of a rig and of the same rig with the mast at another place. -/
theorem sailJib_along (spline : SplineFn) (s : SolverConf) (hk : s.interpolation = "linear" ∨ spline = fitpackSpline)
    (hmode : s.lltTwist = "sheeting_angle_const" ∨ s.lltTwist = "average_const" ∨ s.lltTwist = "real_twist")
    (hns : 1 ≤ s.ns) (hnc : 1 ≤ s.nc) (rig : RigConf) (csys : Csys)
    (hheel : Real.cos (deg2rad csys.heelDeg) ≠ 0) (hr : GoodJibRig csys.heelDeg rig) {c : SailConf}
    {gi ch tw ca di : List ℝ} (h : GoodSail s.interpolation c gi ch tw ca di) (a : ℝ) :
    ∃ si θ g g', sailJib spline s rig (some c) csys = .ok g ∧ sailJib spline s { rig with mastLOA := a } (some c) csys = .ok g' ∧
      BuiltFrom s.nc s.ns (si, θ) g ∧
      BuiltFrom s.nc s.ns (si.along ((rig.mastLOA - a) / Real.sin (deg2rad rig.rakeDeg)), θ) g' ∧
      si.csys = csys ∧ g.name = "jib" ∧ g'.name = "jib" := by
  obtain ⟨ch', tw', ca', di', hi, l1, l2, l3, l4, r3, r4, s1, s2, s3, s4⟩ :=
    interpolatedSail_ok spline s hk hns h
  obtain ⟨luff, hl, hl0⟩ := hr.luff
  obtain ⟨base, hb, hb0⟩ := hr.base
  obtain ⟨height, hh, hh0⟩ := hr.height
  have hsh := hr.sheer
  have hs := hr.rake
  have fz : (forestay rig.rakeDeg base height).z = height * Real.sin (deg2rad rig.rakeDeg) := by
    simp [forestay, mastDirection]
  have hfz : 0 < (forestay rig.rakeDeg base height).z := by rw [fz]; positivity
  have hf : forestay rig.rakeDeg base height ≠ 0 := by
    intro h0; rw [h0] at hfz; simp at hfz
  have hn := V3.norm_pos hf
  obtain ⟨D, hD⟩ : ∃ D, D = luff / (forestay rig.rakeDeg base height).norm := ⟨_, rfl⟩
  have hD0 : 0 < D := by rw [hD]; positivity
  have hm := jibMounting_eq (rig.factory s csys) luff base height rig.mastLOA hs hf
  have hm' := jibMounting_eq (rig.factory s csys) luff base height a hs hf
  have hok := sailOk_interpolated (tack := rig.sheer • mastDirection rig.rakeDeg -
      ⟨base + rig.mastLOA / Real.sin (rig.factory s csys).rake, 0, 0⟩)
    (head := rig.sheer • mastDirection rig.rakeDeg -
      ⟨base + rig.mastLOA / Real.sin (rig.factory s csys).rake, 0, 0⟩ +
      (luff / (forestay rig.rakeDeg base height).norm) •
          (⟨|(forestay rig.rakeDeg base height).x|, 0, (forestay rig.rakeDeg base height).z⟩ : V3))
    (csys := csys) (mode := s.lltTwist) (name := "jib") hns hnc l1 l2 l3 l4 r3 r4 hmode
    (by simp [mastDirection]) (by simp [mastDirection])
    (by
      rcases hsh with hsh | ⟨hsh, h0⟩
      · left; simp [mastDirection]; positivity
      · right; exact ⟨by rw [hsh]; simp, h0⟩)
    (by rw [← hD]
        have h1 : 0 ≤ rig.sheer * Real.sin (deg2rad rig.rakeDeg) := by
          rcases hsh with hsh | ⟨hsh, -⟩
          · positivity
          · rw [hsh, zero_mul]
        have h2 := mul_pos hD0 hfz
        simp [mastDirection]; linarith)
    (by rw [← hD]
        have h2 := mul_pos hD0 hfz
        simp [mastDirection]; exact ⟨hD0.ne', hfz.ne'⟩) hheel
  obtain ⟨g, hg, -, -, hn, -⟩ := sailGeometry_ok hok
  have hok' := sailOk_along ((rig.mastLOA - a) / Real.sin (deg2rad rig.rakeDeg)) hok
  obtain ⟨g', hg', -, -, hn', -⟩ := sailGeometry_ok hok'
  refine ⟨_, _, g, g', ?_, ?_, ⟨hok, rfl, rfl, hg⟩, ⟨hok', rfl, rfl, hg'⟩, rfl, hn, hn'⟩
  · unfold sailJib
    simp only [attr, need, bind, Except.bind, SailFactory.makeJib, hi, hl, hb, hh]
    rw [hm]
    exact hg
  · obtain ⟨rig', er'⟩ : ∃ r, r = ({ rig with mastLOA := a } : RigConf) := ⟨_, rfl⟩
    have k1 : rig'.jibLuff = some luff := by rw [er']; exact hl
    have k2 : rig'.base = some base := by rw [er']; exact hb
    have k3 : rig'.height = some height := by rw [er']; exact hh
    have k4 : rig'.factory s csys = rig.factory s csys := by rw [er']; rfl
    have k5 : rig'.mastLOA = a := by rw [er']
    rw [← er']
    unfold sailJib
    simp only [attr, need, bind, Except.bind, SailFactory.makeJib, hi, k1, k2, k3, k4, k5]
    rw [hm']
    rw [← hg']
    have er : (rig.factory s csys).rake = deg2rad rig.rakeDeg := rfl
    have e1 : rig.sheer • mastDirection rig.rakeDeg - (⟨base + a / Real.sin (rig.factory s csys).rake, 0, 0⟩ : V3) =
        rig.sheer • mastDirection rig.rakeDeg - ⟨base + rig.mastLOA / Real.sin (rig.factory s csys).rake, 0, 0⟩ +
          ⟨(rig.mastLOA - a) / Real.sin (deg2rad rig.rakeDeg), 0, 0⟩ := by
      rw [er]
      ext <;> simp
      field_simp
      ring
    have e2 : rig.sheer • mastDirection rig.rakeDeg - (⟨base + a / Real.sin (rig.factory s csys).rake, 0, 0⟩ : V3) +
        (luff / (forestay rig.rakeDeg base height).norm) •
          (⟨|(forestay rig.rakeDeg base height).x|, 0, (forestay rig.rakeDeg base height).z⟩ : V3) =
        rig.sheer • mastDirection rig.rakeDeg - ⟨base + rig.mastLOA / Real.sin (rig.factory s csys).rake, 0, 0⟩ +
        (luff / (forestay rig.rakeDeg base height).norm) •
          (⟨|(forestay rig.rakeDeg base height).x|, 0, (forestay rig.rakeDeg base height).z⟩ : V3) +
          ⟨(rig.mastLOA - a) / Real.sin (deg2rad rig.rakeDeg), 0, 0⟩ := by
      rw [e1, add_right_comm]
    refine congrArg sailGeometry ?_
    exact congrArg₂ (fun h t => (⟨h, t, csys, s.ns, s.nc, ch', some tw', some s.lltTwist, ca', di', "jib"⟩ : SailInput)) e2 e1

/-! ## Solution -/

theorem vlm_along (a : VlmInput) (w : V3) (hw : w.z = 0) (hg : a.g ≠ 0) {r : Vlm} (h : vlm a = .ok r) :
    ∃ r', vlm { a with panels := a.panels.map (movePanel id w) } = .ok r' ∧ r'.out = r.out ∧
      r'.areas = r.areas ∧ r'.inlet = { r.inlet with cpPoints := r.inlet.cpPoints.map (· + w) } ∧
      r'.vars.map PanelVars.cp = (r.vars.map PanelVars.cp).map (· + w) := by
  obtain ⟨h1, hcp, -⟩ := vlm_inlet h
  obtain ⟨h2, h3, h4⟩ := (inletConditions_ok_iff _ _ _ _).1 h1
  have hin : inletConditions a.wind a.rho (r.inlet.cpPoints.map (move id w)) =
      .ok { r.inlet with cpPoints := r.inlet.cpPoints.map (move id w) } := by
    refine (inletConditions_ok_iff _ _ _ _).2 ⟨by simpa using h2, ?_, by rw [h4]⟩
    rw [mapM_comp]
    simp only [move, id, V3.add_z, hw, add_zero]
    exact h3
  obtain ⟨r', hr', hi, ha, -, ho⟩ := vlm_moved isIsometry_id w a (μ := 1) (c := 1) one_pos one_ne_zero
    hg hg h (w := a.wind) (by rw [one_mul]; exact hin) (by simp)
  rw [one_mul] at hr'
  refine ⟨r', hr', ?_, ha, by rw [hi]; rfl, ?_⟩
  · rw [ho]
    simp [mapAll, hg]
  · obtain ⟨-, hcp', -⟩ := vlm_inlet hr'
    rw [← hcp', hi, ← hcp]
    rfl

/-! ## Girths -/

theorem reverseRotations_along (c : Csys) (d : ℝ) (p : V3) :
    c.reverseRotationsWithMirror (p + turned c.leewayDeg ⟨d, 0, 0⟩) = c.reverseRotationsWithMirror p + ⟨d, 0, 0⟩ := by
  have h : c.reverseLeeway.mulVec (p + turned c.leewayDeg ⟨d, 0, 0⟩) = c.reverseLeeway.mulVec p + ⟨d, 0, 0⟩ := by
    have e := Real.sin_sq_add_cos_sq (deg2rad c.leewayDeg)
    simp only [Csys.reverseLeeway_mulVec, turned]
    ext
    · simp; linear_combination d * e
    · simp; ring
    · simp
  unfold Csys.reverseRotationsWithMirror
  simp only [h, V3.add_z, add_zero]
  split_ifs
  · simp only [Csys.reverseHeeling_mulVec]
    ext <;> simp
  · simp only [Csys.heeling_mulVec]
    ext <;> simp

theorem cpStraight_along (cps : List V3) (c : Csys) (d : ℝ) :
    cpStraightYacht (cps.map (· + turned c.leewayDeg ⟨d, 0, 0⟩)) c = (cpStraightYacht cps c).map (· + ⟨d, 0, 0⟩) := by
  simp only [cpStraightYacht, List.map_map]
  exact List.map_congr_left fun p _ => reverseRotations_along c d p

theorem cpToGirths_along (cps : List V3) (d : ℝ) {tack tack' : V3} (h : tack'.z = tack.z) :
    cpToGirths (cps.map (· + ⟨d, 0, 0⟩)) tack' = cpToGirths cps tack := by
  have ez : (cps.map (· + (⟨d, 0, 0⟩ : V3))).map V3.z = cps.map V3.z := by
    rw [List.map_map]
    exact List.map_congr_left fun p _ => by simp
  have eq : ∀ f : ℝ → ℝ, ((cps.map (· + (⟨d, 0, 0⟩ : V3))).map fun p => f p.z) = cps.map fun p => f p.z := fun f => by
    rw [List.map_map]
    exact List.map_congr_left fun p _ => by simp
  unfold cpToGirths
  rw [ez, h]
  cases hm : pyMax (cps.map V3.z) with
  | error e => rfl
  | ok m => simp only [bind, Except.bind, eq fun z => (z - tack.z) / (m - tack.z)]

theorem girthRow_along (chunks : List (List V3)) {g g' : SailGeom} (h : g'.tackMounting.z = g.tackMounting.z) (c : Csys) (d : ℝ)
    (i : ℕ) : girthRow (chunks.map (List.map (· + turned c.leewayDeg ⟨d, 0, 0⟩))) [g'] c i =
      (girthRow chunks [g] c i).map fun x => (x.1, x.2.map (· + ⟨d, 0, 0⟩)) := by
  unfold girthRow
  simp only [idx_map, List.length_singleton]
  cases idx chunks i with
  | error e => rfl
  | ok a =>
  cases idx chunks (i + 1) with
  | error e => rfl
  | ok b =>
  cases i with
  | succ i => rfl
  | zero =>
    have e1 : idx [g] 0 = .ok g := rfl
    have e2 : idx [g'] 0 = .ok g' := rfl
    rw [e1, e2]
    simp only [Except.map, bind, Except.bind, ← List.map_append, cpStraight_along, cpToGirths_along _ _ h]
    cases cpToGirths (cpStraightYacht (a ++ b) c) g.tackMounting <;> rfl

theorem cpGirthsAll_along {g g' : SailGeom} (h : g'.tackMounting.z = g.tackMounting.z) (c : Csys) (d : ℝ) (cps : List V3) :
    cpGirthsAll [g'] c (cps.map (· + turned c.leewayDeg ⟨d, 0, 0⟩)) =
      (cpGirthsAll [g] c cps).map fun x => (x.1, x.2.map (· + ⟨d, 0, 0⟩)) := by
  rw [cpGirthsAll_eq, cpGirthsAll_eq]
  simp only [List.length_singleton, arraySplit_map]
  cases arraySplit cps (2 * 1) with
  | error e => rfl
  | ok chunks =>
    simp only [Except.map, bind, Except.bind]
    rw [mapM_map_rel (girthRow chunks [g] c) _ (fun x => (x.1, x.2.map (· + ⟨d, 0, 0⟩))) _
      fun i _ => girthRow_along chunks h c d i]
    generalize List.mapM (m := Py) _ (List.range _) = z
    cases z with
    | error e => rfl
    | ok rows => simp [Except.map, List.map_flatten, Function.comp_def]

theorem cpGirthsAbove_name {g g' : SailGeom} (h : g'.name = g.name) (l : List ℝ) : cpGirthsAbove l [g'] = cpGirthsAbove l [g] := by
  unfold cpGirthsAbove
  simp only [List.length_singleton, List.map_cons, List.map_nil, h]

/-! ## The table of the panels -/

theorem cell_of_same {names : List String} {f f' : Frame}
    (h : List.Forall₂ (fun a b : String × List Cell => a.1 = b.1 ∧ a.2.length = b.2.length ∧ (a.1 ∉ names → a.2 = b.2)) f f')
    {name : String} (hn : name ∉ names) (line : ℕ) : f'.cell name line = f.cell name line := by
  unfold Frame.cell
  induction h with
  | nil => rfl
  | @cons a b l l' hab _ ih =>
    obtain ⟨h1, -, h3⟩ := hab
    rw [List.find?_cons, List.find?_cons, ← h1]
    by_cases e : a.1 = name
    · simp only [e, decide_true]
      rw [Option.bind_some, Option.bind_some, h3 (by rw [e]; exact hn)]
    · simp only [e, decide_false]
      exact ih

theorem concat_same {names : List String} {ts ts' : List Frame}
    (h : List.Forall₂ (fun a b : String × List Cell => a.1 = b.1 ∧ a.2.length = b.2.length ∧ (a.1 ∉ names → a.2 = b.2))
      ts.flatten ts'.flatten) :
    List.Forall₂ (fun a b : String × List Cell => a.1 = b.1 ∧ a.2.length = b.2.length ∧ (a.1 ∉ names → a.2 = b.2))
      (concatFrames ts) (concatFrames ts') := by
  have hl : (ts'.flatten.map fun c => c.2.length) = ts.flatten.map fun c => c.2.length := by
    generalize ts.flatten = l at h ⊢
    generalize ts'.flatten = l' at h ⊢
    induction h with
    | nil => rfl
    | cons hab _ ih => simp only [List.map_cons, ih, hab.2.1]
  unfold concatFrames
  simp only [hl]
  rw [List.forall₂_map_left_iff, List.forall₂_map_right_iff]
  refine h.imp fun a b hab => ⟨hab.1, by simp [hab.2.1], fun hn => ?_⟩
  rw [hab.2.2 hn]

/-- Results of the flow around a sail and around the same sail moved along the water. -/
structure ResultsAlong (w : V3) (res res' : FlowResults) : Prop where
  csys : res'.csys = res.csys
  gamma : res'.gamma = res.gamma
  pressure : res'.pressure = res.pressure
  vInd : res'.vInd = res.vInd
  vIndLength : res'.vIndLength = res.vIndLength
  vFs : res'.vFs = res.vFs
  vFsLength : res'.vFsLength = res.vFsLength
  awa : res'.awa = res.awa
  force : res'.force = res.force
  forceCl : res'.forceCl = res.forceCl
  forceTotal : res'.forceTotal = res.forceTotal
  forceClTotal : res'.forceClTotal = res.forceClTotal
  moment : res'.moment = List.zipWith (fun m f => m + V3.cross w f) res.moment res.force
  momentTotal : res'.momentTotal = res.momentTotal + V3.cross w res.forceTotal
  momentClTotal : res'.momentClTotal = res.momentClTotal + res.csys.leeway.mulVec (V3.cross w res.forceTotal)
  lengths : res.moment.length = res.force.length

theorem sheetTables_along {w : V3} {res res' : FlowResults} {i i' : Inlet} (csys : Csys) {above above' : List V3}
    (g : List ℝ) (names : List String) (h : ResultsAlong w res res') (hw : w.z = 0)
    (hi : i' = { i with cpPoints := i.cpPoints.map (· + w) }) (ha : above'.map V3.z = above.map V3.z) :
    (∀ name line, name ∉ placeColumns → (concatFrames (sheetTables res' i' csys above' g names)).cell name line =
      (concatFrames (sheetTables res i csys above g names)).cell name line) ∧
    (∀ line, cellVector (concatFrames (sheetTables res' i' csys above' g names)) "cp_points_COG" line =
      (cellVector (concatFrames (sheetTables res i csys above g names)) "cp_points_COG" line).map (· + w)) ∧
    ∀ line m f, cellVector (concatFrames (sheetTables res i csys above g names)) "M_sails_COG" line = some m →
      cellVector (concatFrames (sheetTables res i csys above g names)) "F_sails_COG" line = some f →
      cellVector (concatFrames (sheetTables res' i' csys above' g names)) "M_sails_COG" line = some (m + V3.cross w f) := by
  have n := sheetTables_nodup res i csys above g names
  have n' := sheetTables_nodup res' i' csys above' g names
  have hl : res'.moment.length = res.moment.length := by rw [h.moment]; simp [h.lengths]
  refine ⟨fun name line hn => ?_, fun line => ?_, fun line m f hm hf => ?_⟩
  · refine cell_of_same (names := placeColumns) (concat_same ?_) hn line
    have hz : (i.cpPoints.map (· + w)).map (fun v => Cell.num v.z) = i.cpPoints.map fun v => Cell.num v.z := by
      rw [List.map_map]
      exact List.map_congr_left fun p _ => by simp [hw]
    have ha' : (above'.map fun p => Cell.num p.z) = above.map fun p => Cell.num p.z := by
      have := congrArg (List.map Cell.num) ha
      rw [List.map_map, List.map_map] at this
      exact this
    subst hi
    unfold sheetTables FlowResults.toDfFull Inlet.toDfFull
    rw [h.csys, h.gamma, h.pressure, h.vInd, h.vIndLength, h.vFs, h.vFsLength, h.awa, h.force, h.forceCl, ha']
    simp only [vecColumns, Frame.firstHalf, List.map_cons, List.map_nil, List.flatten_cons, List.flatten_nil,
      List.cons_append, List.nil_append, hz]
    repeat' (first
      | exact List.Forall₂.nil
      | refine List.Forall₂.cons ⟨rfl, by first | rfl | simp [hl], ?_⟩ ?_)
    all_goals first
      | exact fun _ => rfl
      | exact fun h => absurd h (by simp [placeColumns])
  · have e : i'.cpPoints = i.cpPoints.map (· + w) := by rw [hi]
    rw [cellVector_concat n (vs := i.cpPoints) (mem_inlet fun c hc => by simp [Inlet.toDfFull, hc]),
      cellVector_concat n' (vs := i'.cpPoints) (mem_inlet fun c hc => by simp [Inlet.toDfFull, hc]), e, List.length_map,
      ← List.map_take, List.getElem?_map]
  · rw [cellVector_concat n (vs := res.moment) (mem_flow fun c hc => by simp [FlowResults.toDfFull, hc])] at hm
    rw [cellVector_concat n (vs := res.force) (mem_flow fun c hc => by simp [FlowResults.toDfFull, hc])] at hf
    rw [cellVector_concat n' (vs := res'.moment) (mem_flow fun c hc => by simp [FlowResults.toDfFull, hc]), hl]
    rw [List.getElem?_take] at hm hf ⊢
    split_ifs at hm hf ⊢ with h1 h2
    · rw [h.moment, List.getElem?_zipWith, hm, hf]

end PySailing
