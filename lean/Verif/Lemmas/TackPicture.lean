import Verif.Lemmas.TackRun
import Verif.Lemmas.HeadingPicture

/-!
# Lemmas: mirror image in the centre plane, figures and picture
-/

namespace PySailing

open Spec Props

/-! ## Figures -/

theorem coeffPlotSail_across (nc ns : ℕ) (A : List ℝ) (P : List V3) (l d : List ℝ) :
    coeffPlotSail nc ns A (P.map acrossCentre) l d = coeffPlotSail nc ns A P l d := by
  have ez : (P.map acrossCentre).map V3.z = P.map V3.z := by
    simp only [List.map_map]
    rfl
  unfold coeffPlotSail
  rw [ez]

theorem coeffPlotData_across {r r' : Vlm} (hl : r'.sectionLift = r.sectionLift)
    (hd : r'.sectionDrag = r.sectionDrag) (hn : r'.input.panels.length = r.input.panels.length)
    (ha : r'.areas = r.areas) (hc : r'.vars.map PanelVars.cp = (r.vars.map PanelVars.cp).map acrossCentre) (nc ns : ℕ) :
    coeffPlotData r' nc ns = coeffPlotData r nc ns := by
  unfold coeffPlotData
  rw [hl, hd, hn, ha, hc]
  cases r.sectionLift with
  | error e => rfl
  | ok cl =>
    cases r.sectionDrag with
    | error e => rfl
    | ok cd =>
      simp only [bind, Except.bind]
      split
      · rfl
      rw [npSplit_map acrossCentre]
      cases npSplit r.areas _ with
      | error e => rfl
      | ok As =>
        cases npSplit (r.vars.map PanelVars.cp) _ with
        | error e => rfl
        | ok Ps =>
          simp only [Except.map]
          rw [mapM_map_rel (fun i => (idx As i).bind fun a => (idx Ps i).bind fun p => (idx cl i).bind fun l =>
            (idx cd i).bind fun d => coeffPlotSail nc ns a p l d) _ id]
          · simp only [Except.bind]
            generalize List.mapM (m := Py) _ (List.range _) = z
            cases z with
            | error e => rfl
            | ok rows => simp only [Except.map, List.map_id]
          · intro i _
            rw [idx_map]
            cases idx As i with
            | error e => rfl
            | ok a =>
              cases idx Ps i with
              | error e => rfl
              | ok p =>
                cases idx cl i with
                | error e => rfl
                | ok l =>
                  cases idx cd i with
                  | error e => rfl
                  | ok d =>
                    simp only [Except.map, Except.bind, coeffPlotSail_across]
                    cases coeffPlotSail nc ns a p l d <;> rfl

theorem sections_across {r r' : Vlm}
    (hn : r'.input.panels.length = r.input.panels.length) (hns : r'.input.ns = r.input.ns)
    (hnc : r'.input.nc = r.input.nc) (hrho : r'.input.rho = r.input.rho)
    (ha : r'.areas = r.areas) (hV : r'.inlet.vAppInfs = r.inlet.vAppInfs.map acrossCentre)
    (ho : r'.out = mapAll r.out Neg.neg acrossCentre acrossCentre Neg.neg Neg.neg) :
    r'.sectionLift = r.sectionLift ∧ r'.sectionDrag = r.sectionDrag := by
  have key (F : List V3) : getC r.input.panels.length r.areas (F.map acrossCentre)
      (r.inlet.vAppInfs.map acrossCentre) r.input.ns r.input.nc r.input.rho =
      getC r.input.panels.length r.areas F r.inlet.vAppInfs r.input.ns r.input.nc r.input.rho := by
    have h1 := getC_scaled isIsometry_across one_pos one_pos r.input.panels.length r.areas F r.inlet.vAppInfs
      r.input.ns r.input.nc r.input.rho
    simpa only [one_pow, one_mul, one_smul, Function.comp_def] using h1
  unfold Vlm.sectionLift Vlm.sectionDrag
  rw [hn, hns, hnc, hrho, ha, hV, ho]
  exact ⟨key _, key _⟩

/-- What else the preparation yields on the other tack. -/
theorem prepare_other_vlm {spline : SplineFn} {c : Config} {p p' : Prepared} (hp : prepare spline c = .ok p)
    (hp' : prepare spline (otherTack c) = .ok p') (hset : p'.set = p.set.across) :
    p'.vlm.areas = p.vlm.areas ∧ p'.vlm.input.panels = p.vlm.input.panels.map panelAcross ∧
      p'.vlm.input.ns = p.vlm.input.ns ∧ p'.vlm.input.nc = p.vlm.input.nc ∧ p'.vlm.input.rho = p.vlm.input.rho ∧
      p'.vlm.vars.map PanelVars.leMid = (p.vlm.vars.map PanelVars.leMid).map acrossCentre ∧
      p'.vlm.vars.map PanelVars.teMid = (p.vlm.vars.map PanelVars.teMid).map acrossCentre := by
  obtain ⟨main, jib, base, -, -, -, -, -, -, -, -, hv, -⟩ := prepare_ok hp
  obtain ⟨main', jib', base', -, -, -, -, -, -, -, -, hv', -⟩ := prepare_ok hp'
  obtain ⟨hinl, hcp⟩ := vlm_inlet hv
  have hinl' := inletConditions_across hinl
  obtain ⟨r', hr', hri, hra, hrv, hro⟩ := vlm_moved isIsometry_across 0 (c.vlmInput p.set (windGetProfile c.wind))
    (r := p.vlm) (μ := 1) (c := 1) (g' := -1) one_pos one_ne_zero (by simp [Config.vlmInput]) (by norm_num) hv
    (w := (windGetProfile c.wind).across) (inlet := p.vlm.inlet.across)
    (by
      have e : p.vlm.inlet.cpPoints.map (move acrossCentre 0) = p.vlm.inlet.cpPoints.map acrossCentre :=
        List.map_congr_left fun q _ => move_across q
      rw [one_mul, e]
      exact hinl')
    (by simp [Inlet.across])
  have hr2 : vlm (Config.vlmInput (otherTack c) p.set.across (windGetProfile (otherTack c).wind)) = .ok r' := by
    rw [← hr']
    simp only [one_mul]
    rfl
  rw [hset, hr2] at hv'
  have e : p'.vlm = r' := (Except.ok.inj hv').symm
  have hi := ((vlm_ok_iff _ _).1 hv).1
  have hi' := ((vlm_ok_iff _ _).1 hr2).1
  rw [e]
  refine ⟨hra, by rw [hi, hi']; rfl, by rw [hi, hi']; rfl, by rw [hi, hi']; rfl, by rw [hi, hi']; rfl, ?_, ?_⟩
  · rw [hrv, List.map_map, List.map_map]
    exact List.map_congr_left fun v _ => move_across v.leMid
  · rw [hrv, List.map_map, List.map_map]
    exact List.map_congr_left fun v _ => move_across v.teMid

theorem plotCp_neg (mesh : List Panel) (ps : List ℝ) :
    plotCp mesh (ps.map Neg.neg) = (plotCp mesh ps).map (List.map fun q => (q.1, -q.2)) := by
  unfold plotCp
  rw [List.length_map]
  split_ifs
  · simp only [Except.map, List.zip_map_right]
    rfl
  · rfl

/-! ## Picture -/

theorem foldl_min_neg (l : List ℝ) (x : ℝ) : (l.map Neg.neg).foldl min (-x) = -l.foldl max x := by
  induction l generalizing x with
  | nil => rfl
  | cons a l ih =>
    simp only [List.map_cons, List.foldl_cons]
    rw [min_neg_neg, ih]

theorem foldl_max_neg (l : List ℝ) (x : ℝ) : (l.map Neg.neg).foldl max (-x) = -l.foldl min x := by
  induction l generalizing x with
  | nil => rfl
  | cons a l ih =>
    simp only [List.map_cons, List.foldl_cons]
    rw [max_neg_neg, ih]

theorem pyMin_neg (l : List ℝ) : pyMin (l.map Neg.neg) = (pyMax l).map Neg.neg := by
  cases l with
  | nil => rfl
  | cons a l => simp only [List.map_cons, pyMin, pyMax, Except.map, foldl_min_neg]

theorem pyMax_neg (l : List ℝ) : pyMax (l.map Neg.neg) = (pyMin l).map Neg.neg := by
  cases l with
  | nil => rfl
  | cons a l => simp only [List.map_cons, pyMin, pyMax, Except.map, foldl_max_neg]

/-- The coloured panels on the other tack. -/
def PanelPlot.across (P : PanelPlot) : PanelPlot :=
  { P with polygons := P.polygons.map fun q => (panelAcross q.1, -q.2), vmin := -P.vmax, vmax := -P.vmin }

theorem displayPanels_across {r r' : Vlm} (ho : r'.out = mapAll r.out Neg.neg acrossCentre acrossCentre Neg.neg Neg.neg)
    (hle : r'.vars.map PanelVars.leMid = (r.vars.map PanelVars.leMid).map acrossCentre)
    (hte : r'.vars.map PanelVars.teMid = (r.vars.map PanelVars.teMid).map acrossCentre)
    (hp : r'.input.panels = r.input.panels.map panelAcross) (mode : String) {P : PanelPlot}
    (h : displayPanels r mode = .ok P) : displayPanels r' mode = .ok P.across := by
  have hc : colourData r' mode = (colourData r mode).map Neg.neg := by
    unfold colourData
    rw [ho]
    split_ifs <;> simp [mapAll]
  have hw : waterSize (r'.vars.map PanelVars.leMid) (r'.vars.map PanelVars.teMid) =
      waterSize (r.vars.map PanelVars.leMid) (r.vars.map PanelVars.teMid) := by
    have ez : ∀ l : List V3, (l.map acrossCentre).map (fun p => |p.z|) = l.map fun p => |p.z| := by
      intro l; rw [List.map_map]; rfl
    unfold waterSize
    rw [hle, hte, ez, ez]
  unfold displayPanels at h ⊢
  rw [hc, hw, hp]
  simp only [bind, Except.bind, pyMin_neg, pyMax_neg] at h ⊢
  cases h1 : pyMin (colourData r mode) with
  | error e => rw [h1] at h; cases h
  | ok lo =>
  cases h2 : pyMax (colourData r mode) with
  | error e => rw [h1, h2] at h; cases h
  | ok hi =>
  cases h3 : waterSize (r.vars.map PanelVars.leMid) (r.vars.map PanelVars.teMid) with
  | error e => rw [h1, h2, h3] at h; cases h
  | ok w =>
  rw [h1, h2, h3] at h
  simp only [Except.map] at h ⊢
  cases h4 : axisLimits w with
  | error e => rw [h4] at h; cases h
  | ok l =>
  rw [h4] at h
  simp only at h ⊢
  injection h with h
  rw [← h]
  simp only [PanelPlot.across, List.zip_map]
  rfl

/-- The arrow on the other tack. -/
def Arrow.across (a : Arrow) : Arrow := { a with tail := acrossCentre a.tail, tip := acrossCentre a.tip }

/-- The force in the picture on the other tack. -/
def ForcePlot.across (f : ForcePlot) : ForcePlot where
  scale := f.scale
  clr := acrossCentre f.clr
  ce := acrossCentre f.ce
  F := acrossCentre f.F
  arrows := f.arrows.map Arrow.across

theorem displayCeClr_across {res : FlowResults} {hull hull' : Hull} (hh : hull'.clr = acrossCentre hull.clr) :
    displayCeClr res.across hull' = (displayCeClr res hull).map ForcePlot.across := by
  have hI := isIsometry_across
  have hn : normalize (acrossCentre res.forceTotal) = (normalize res.forceTotal).map acrossCentre := by
    unfold normalize
    rw [hI.norm]
    split_ifs
    · rfl
    · simp only [Except.map, hI.map_smul]
  unfold displayCeClr
  rw [show res.across.vFsLength = res.vFsLength from rfl, show res.across.forceTotal = acrossCentre res.forceTotal from rfl,
    show res.across.centreOfEffort = res.centreOfEffort.map acrossCentre from rfl, hn, hh]
  simp only [bind, Except.bind]
  cases npMean res.vFsLength with
  | error e => rfl
  | ok m =>
  cases res.centreOfEffort with
  | error e => rfl
  | ok ce =>
  cases normalize res.forceTotal with
  | error e => rfl
  | ok u =>
  simp only [Except.map, ForcePlot.across, Arrow.across, plotVector, List.map_cons, List.map_nil, hI.map_smul, hI.map_add,
    hI.map_neg]

theorem windArrow_across (x y : ℝ) (v p : V3) (color : String) :
    windArrow x (-y) (acrossCentre v) (acrossCentre p) color = (windArrow x y v p color).across := by
  unfold windArrow Arrow.across acrossCentre
  simp
  ring

theorem windArrow_across_shown (x y x' y' : ℝ) (v p : V3) (color : String) :
    (windArrow x' y' (acrossCentre v) (acrossCentre p) color).shown =
      (acrossCentre ((windArrow x y v p color).tip - (windArrow x y v p color).tail), p.z, color,
        (windArrow x y v p color).alpha) := by
  unfold windArrow Arrow.shown acrossCentre
  simp
  ext <;> simp

theorem row_across (l : List V3) (k : ℕ) : row (l.map acrossCentre) k = acrossCentre (row l k) := getD_across l k

theorem firstRow_across_shown (nc ns l : ℕ) (x y x' y' : ℝ) (vs ps : List V3) (color : String) :
    (firstRowArrows nc ns l fun _ k => windArrow x' y' (row (vs.map acrossCentre) k) (row (ps.map acrossCentre) k) color).map
        Arrow.shown =
      (firstRowArrows nc ns l fun _ k => windArrow x y (row vs k) (row ps k) color).map
        fun a => (acrossCentre (a.tip - a.tail), a.tail.z, a.color, a.alpha) := by
  unfold firstRowArrows gridArray
  simp only [List.map_flatMap, List.map_map, row_across]
  congr 1
  funext b
  apply List.map_congr_left
  intro j _
  simp only [Function.comp_apply]
  rw [windArrow_across_shown x y]
  rfl

theorem firstRow_across (nc ns l : ℕ) (x y : ℝ) (vs ps : List V3) (color : String) :
    (firstRowArrows nc ns l fun _ k => windArrow x (-y) (row (vs.map acrossCentre) k) (row (ps.map acrossCentre) k) color) =
      (firstRowArrows nc ns l fun _ k => windArrow x y (row vs k) (row ps k) color).map Arrow.across := by
  unfold firstRowArrows gridArray
  simp only [List.map_flatMap, List.map_map, row_across, windArrow_across]
  rfl

/-- The origin of the wind arrows on the other tack, no wind coming from dead astern. -/
theorem windOrigin_across {i : Inlet} (hi : i.awaInfsDeg = i.vAppInfs.map fun v => rad2deg (arctan2 v.y v.x))
    (h : ∀ a ∈ i.awaInfsDeg, a ≠ 180) (water : ℤ) :
    windOrigin water i.across.awaInfsDeg = ((windOrigin water i.awaInfsDeg).1, -(windOrigin water i.awaInfsDeg).2) := by
  have e : i.across.awaInfsDeg = i.awaInfsDeg.map Neg.neg := by
    rw [hi] at h ⊢
    simp only [Inlet.across, List.map_map]
    refine List.map_congr_left fun v hv => ?_
    have := h _ (List.mem_map_of_mem hv)
    rw [arctan2_neg, if_neg fun hp => this ((rad2deg_eq_180 _).2 hp), rad2deg_neg]
    rfl
  have es : (i.awaInfsDeg.map Neg.neg).sum = -i.awaInfsDeg.sum := by
    induction i.awaInfsDeg with
    | nil => simp
    | cons a l ih => simp only [List.map_cons, List.sum_cons, ih]; ring
  rw [e]
  unfold windOrigin
  simp only [es, List.length_map, neg_div, neg_mul, Real.cos_neg, Real.sin_neg, mul_neg]

/-- The picture on the other tack. -/
theorem scene_other {spline : SplineFn} {c : Config} (hk : c.solver.interpolation = "linear" ∨ spline = fitpackSpline)
    (hm : c.rig.sailsDef ≠ "jib" → NoCamber spline c.solver c.main)
    (hj : c.rig.sailsDef ≠ "main" → NoCamber spline c.solver c.jib) {p : Prepared}
    (hp : prepare spline c = .ok p) {s : Scene} (hs : displayScene p.vlm p.flow.res p.hull false false = .ok s) :
    ∃ p' s', prepare spline (otherTack c) = .ok p' ∧
      displayScene p'.vlm p'.flow.res p'.hull false false = .ok s' ∧ s'.title = s.title ∧
      s'.panels = s.panels.across ∧ s'.force = s.force.across ∧
      s'.hullLines.head? = s.hullLines.head?.map (fun l => (l.1.map acrossCentre, l.2)) ∧
      s'.winds.map Arrow.shown = (s.winds.map fun a => (acrossCentre (a.tip - a.tail), a.tail.z, a.color, a.alpha)) ∧
      ((∀ a ∈ p.vlm.inlet.awaInfsDeg, a ≠ 180) → s'.winds = s.winds.map Arrow.across) := by
  obtain ⟨p', res, hp', hc, hc', hset, hclr, hinl, hcp', ho, hf, hrc, hf'⟩ := prepare_other hk hm hj hp
  obtain ⟨ha, hpan, ens, enc, -, hle, hte⟩ := prepare_other_vlm hp hp' hset
  obtain ⟨main, jib, base, -, -, -, -, -, -, b1, hh, hv, res0, hres0, hflow0⟩ := prepare_ok hp
  obtain ⟨main', jib', base', -, -, -, -, -, -, b2, hh', hv', res0', hres0', hflow0'⟩ := prepare_ok hp'
  have hi := ((vlm_ok_iff _ _).1 hv).1
  have hb : base' = base := Option.some.inj (b2.symm.trans b1)
  have hcen : p'.hull.deckCenterline = p.hull.deckCenterline.map acrossCentre := by
    have e : ∀ {cs : Csys} {v : V3} {H : Hull}, hullGeometry c.rig.sheer base cs v = .ok H →
        ∃ l : List V3, (∀ q ∈ l, q.y = 0) ∧ (∃ foil, vlmAirfoil 0.01 0.0 0.28 51 = .ok foil ∧
          l = deckLine (foil.xc.map fun x => -1.1 * base + base * 3 * x) (List.replicate 51 0) c.rig.sheer) ∧
          H.deckCenterline = l.map cs.rotatePointWithMirror := by
      intro cs v H hH
      unfold hullGeometry at hH
      simp only [bind, Except.bind] at hH
      split at hH
      · cases hH
      rename_i foil hfoil
      injection hH with hH
      rw [← hH]
      refine ⟨_, ?_, ⟨foil, hfoil, rfl⟩, rfl⟩
      intro q hq
      unfold deckLine at hq
      obtain ⟨k, hk, rfl⟩ := List.getElem_of_mem hq
      simp only [List.getElem_zipWith, List.getElem_replicate]
    rw [hb, hc'] at hh'
    obtain ⟨l, hy, ⟨foil, q1, q2⟩, e1⟩ := e hh
    obtain ⟨l', -, ⟨foil', q1', q2'⟩, e2⟩ := e hh'
    have hff : foil' = foil := Except.ok.inj (q1'.symm.trans q1)
    rw [e1, e2, q2', hff, ← q2, List.map_map]
    refine List.map_congr_left fun q hq => ?_
    rw [Function.comp, ← Csys.rotatePointWithMirror_across, across_of_y (hy q hq)]
  have e1 : p.flow.res = res := by rw [hf]; rfl
  have e2 : p'.flow.res = res.across := by rw [hf']; rfl
  have hlen' : p'.vlm.vars.length = p.vlm.vars.length := by
    simpa using congrArg List.length hcp'
  obtain ⟨hn, hpos, hlen, -⟩ := prepared_shape hp
  have hnc : 0 < c.solver.nc := Nat.pos_of_mul_pos_right hpos
  have hns : 0 < c.solver.ns := Nat.pos_of_mul_pos_left hpos
  obtain ⟨-, hl, -, hvl, -⟩ := vlm_lengths hv
  obtain ⟨hin', hcp, hne⟩ := vlm_inlet hv
  obtain ⟨-, ht, hie⟩ := (inletConditions_ok_iff _ _ _ _).1 hin'
  have hawa : p.vlm.inlet.awaInfsDeg = p.vlm.inlet.vAppInfs.map fun v => rad2deg (arctan2 v.y v.x) := by rw [hie]
  have hL : p.vlm.vars.length = 2 * p.set.sails.length * (c.solver.nc * c.solver.ns) := by
    rw [hl, show (c.vlmInput p.set (windGetProfile c.wind)).panels = p.set.panels from rfl, hlen, Nat.mul_assoc]
  have k3 : p.vlm.inlet.cpPoints.length = 2 * p.set.sails.length * (c.solver.nc * c.solver.ns) := by
    rw [hcp, List.length_map, hL]
  have k1 : p.vlm.inlet.twsAtCp.length = 2 * p.set.sails.length * (c.solver.nc * c.solver.ns) := by
    rw [(mapM_ok_inv ht).1, k3]
  have k2 : p.vlm.inlet.vAppInfs.length = 2 * p.set.sails.length * (c.solver.nc * c.solver.ns) := by
    rw [hvl, ← hl, hL]
  have k4 : res.vInd.length = 2 * p.set.sails.length * (c.solver.nc * c.solver.ns) := by
    have : res = res0 := by rw [← e1, hflow0]; rfl
    obtain ⟨-, -, f3, -⟩ := inviscidFlow_fields hres0
    rw [this, f3]; simp [Vlm.flowArrays, Vlm.out, VlmSolution.arrays, hL]
  rw [e1] at hs
  refine ⟨p', ?_⟩
  rw [e2]
  unfold displayScene at hs ⊢
  simp only [bind, Except.bind] at hs ⊢
  rw [displayCeClr_across hclr]
  split at hs
  · cases hs
  rename_i P hP
  split at hs
  · cases hs
  rename_i W hW
  split at hs
  · cases hs
  rename_i fp hfp
  injection hs with hs
  subst hs
  rw [displayPanels_across ho hle hte hpan _ hP, hfp, ens, enc, hlen']
  rw [hi, hL, show (c.vlmInput p.set (windGetProfile c.wind)).ns = c.solver.ns from rfl,
    show (c.vlmInput p.set (windGetProfile c.wind)).nc = c.solver.nc from rfl] at *
  rw [C56_arrows hnc hns (l := 2 * p.set.sails.length) (by omega) P.water p.vlm.inlet res.vInd false k1 k2 k3 k4] at hW
  injection hW with hW
  subst hW
  have hW' := C56_arrows hnc hns (l := 2 * p.set.sails.length) (by omega) P.water p'.vlm.inlet res.across.vInd false
    (by rw [hinl]; simp [Inlet.across, k1]) (by rw [hinl]; simp [Inlet.across, k2]) (by rw [hinl]; simp [Inlet.across, k3])
    (by simp [FlowResults.across, k4])
  have hWa : P.across.water = P.water := rfl
  simp only [Except.map, hWa, hW']
  refine ⟨_, hp', rfl, rfl, rfl, rfl, ?_, ?_, ?_⟩
  · simp [displayHull, hcen]
  · simp only [Bool.false_eq_true, if_false, List.append_nil, List.map_append, hinl]
    congr 1
    · exact firstRow_across_shown _ _ _ _ _ _ _ _ _ _
    · exact firstRow_across_shown _ _ _ _ _ _ _ _ _ _
  · intro h180
    simp only [Bool.false_eq_true, if_false, List.append_nil, List.map_append, hinl, windOrigin_across hawa h180]
    congr 1
    · exact firstRow_across _ _ _ _ _ _ _ _
    · exact firstRow_across _ _ _ _ _ _ _ _

end PySailing
