import Verif.Lemmas.HeadingFigures
import Verif.Lemmas.Picture
import Verif.Props.PictureRun

/-!
# Lemmas: the yacht and the wind turned together, picture
-/

namespace PySailing

open Spec Props

/-- The hull turned. -/
noncomputable def Hull.turn (δ : ℝ) (h : Hull) : Hull where
  deckCenterline := h.deckCenterline.map (turned δ)
  deckPort := h.deckPort.map (turned δ)
  deckStarboard := h.deckStarboard.map (turned δ)
  deckPortUnder := h.deckPortUnder.map (turned δ)
  deckStarboardUnder := h.deckStarboardUnder.map (turned δ)
  clr := turned δ h.clr

theorem hullGeometry_turn (δ : ℝ) (sheer base : ℝ) (c : Csys) (v : V3) :
    hullGeometry sheer base (c.turn δ) v = (hullGeometry sheer base c v).map (Hull.turn δ) := by
  have e : ∀ l : List V3, l.map (c.turn δ).rotatePointWithMirror = (l.map c.rotatePointWithMirror).map (turned δ) := by
    intro l
    rw [List.map_map]
    exact List.map_congr_left fun p _ => rotatePointWithMirror_turn δ c p
  have e2 : (c.turn δ).rotatePointWithoutMirror v = turned δ (c.rotatePointWithoutMirror v) := leeway_turn δ c _
  unfold hullGeometry
  simp only [bind, Except.bind, e, e2]
  cases vlmAirfoil 0.01 0.0 0.28 51 with
  | error x => rfl
  | ok foil => rfl

theorem displayPanels_turned {δ : ℝ} {r r' : Vlm} (ho : r'.out = mapAll r.out id (turned δ) (turned δ) id id)
    (hle : r'.vars.map PanelVars.leMid = (r.vars.map PanelVars.leMid).map (turned δ))
    (hte : r'.vars.map PanelVars.teMid = (r.vars.map PanelVars.teMid).map (turned δ))
    (hp : r'.input.panels = r.input.panels.map (turnPanel δ)) (mode : String) :
    displayPanels r' mode =
      (displayPanels r mode).map fun P => { P with polygons := P.polygons.map fun q => (turnPanel δ q.1, q.2) } := by
  have hc : colourData r' mode = colourData r mode := by
    unfold colourData
    rw [ho]
    simp [mapAll]
  have hw : waterSize (r'.vars.map PanelVars.leMid) (r'.vars.map PanelVars.teMid) =
      waterSize (r.vars.map PanelVars.leMid) (r.vars.map PanelVars.teMid) := by
    have ez : ∀ l : List V3, (l.map (turned δ)).map (fun p => |p.z|) = l.map fun p => |p.z| := by
      intro l; rw [List.map_map]; rfl
    unfold waterSize
    rw [hle, hte, ez, ez]
  unfold displayPanels
  rw [hc, hw, hp]
  simp only [bind, Except.bind]
  cases pyMin (colourData r mode) with
  | error e => rfl
  | ok lo =>
  cases pyMax (colourData r mode) with
  | error e => rfl
  | ok hi =>
  cases waterSize (r.vars.map PanelVars.leMid) (r.vars.map PanelVars.teMid) with
  | error e => rfl
  | ok w =>
  simp only
  cases axisLimits w with
  | error e => rfl
  | ok l =>
  simp only [Except.map, List.zip_map_left]
  rfl

/-- The force in the picture turned. -/
noncomputable def ForcePlot.turn (δ : ℝ) (f : ForcePlot) : ForcePlot where
  scale := f.scale
  clr := turned δ f.clr
  ce := turned δ f.ce
  F := turned δ f.F
  arrows := f.arrows.map fun a => { a with tail := turned δ a.tail, tip := turned δ a.tip }

theorem displayCeClr_turned {δ : ℝ} {res res' : FlowResults} (hT : ResultsTurned δ res res') (hull : Hull) :
    displayCeClr res' (hull.turn δ) = (displayCeClr res hull).map (ForcePlot.turn δ) := by
  have hn : normalize (turned δ res.forceTotal) = (normalize res.forceTotal).map (turned δ) := by
    unfold normalize
    rw [turned_norm]
    split_ifs
    · rfl
    · simp only [Except.map, turned_smul]
  unfold displayCeClr
  rw [hT.vFsLength, hT.ce, hT.forceTotal, hn]
  simp only [bind, Except.bind]
  cases npMean res.vFsLength with
  | error e => rfl
  | ok m =>
  cases res.centreOfEffort with
  | error e => rfl
  | ok ce =>
  cases normalize res.forceTotal with
  | error e => rfl
  | ok u =>
  have e : (hull.turn δ).clr = turned δ hull.clr := rfl
  simp only [Except.map, ForcePlot.turn, plotVector, List.map_cons, List.map_nil, turned_smul, turned_add, e, ← turned_neg]

/-! ## Wind arrows -/

/-- What an arrow shows, apart from where it starts above the water. -/
def Arrow.shown (a : Arrow) : V3 × ℝ × String × ℝ := (a.tip - a.tail, a.tail.z, a.color, a.alpha)

theorem windArrow_shown (δ x y x' y' : ℝ) (v p : V3) (color : String) :
    (windArrow x' y' (turned δ v) (turned δ p) color).tip - (windArrow x' y' (turned δ v) (turned δ p) color).tail =
      turned δ ((windArrow x y v p color).tip - (windArrow x y v p color).tail) := by
  unfold windArrow turned
  ext <;> simp

theorem firstRow_shown (δ : ℝ) (nc ns l : ℕ) (x y x' y' : ℝ) (vs ps : List V3) (color : String) :
    (firstRowArrows nc ns l fun _ k => windArrow x' y' (row (vs.map (turned δ)) k) (row (ps.map (turned δ)) k) color).map
        Arrow.shown =
      (firstRowArrows nc ns l fun _ k => windArrow x y (row vs k) (row ps k) color).map
        fun a => (turned δ (a.tip - a.tail), a.tail.z, a.color, a.alpha) := by
  have e : ∀ (l : List V3) k, row (l.map (turned δ)) k = turned δ (row l k) := by
    intro l k
    unfold row
    rw [List.getD_eq_getElem?_getD, List.getD_eq_getElem?_getD, List.getElem?_map]
    cases l[k]? with
    | none => exact (turned_zero δ).symm
    | some v => rfl
  unfold firstRowArrows gridArray
  simp only [List.map_flatMap, List.map_map, e]
  congr 1
  funext b
  apply List.map_congr_left
  intro j _
  simp only [Function.comp_apply, Arrow.shown, Prod.mk.injEq]
  exact ⟨windArrow_shown δ x y x' y' _ _ color, rfl, rfl, rfl⟩

/-- What the preparation yields for the picture of the turned scene. -/
theorem scene_turned {spline : SplineFn} {c : Config} {δ : ℝ} (hrest : c.wind.sog = 0) {p : Prepared}
    (hp : prepare spline c = .ok p) (hg : ∃ g, prepareGeometry spline (turnedScene δ c) = .ok g) {s : Scene}
    (hs : displayScene p.vlm p.flow.res p.hull false false = .ok s) :
    ∃ p' s', prepare spline (turnedScene δ c) = .ok p' ∧
      displayScene p'.vlm p'.flow.res p'.hull false false = .ok s' ∧ s'.title = s.title ∧
      s'.panels = { s.panels with polygons := s.panels.polygons.map fun q => (turnPanel δ q.1, q.2) } ∧
      s'.hullLines = s.hullLines.map (fun l => (l.1.map (turned δ), l.2)) ∧
      s'.force = s.force.turn δ ∧
      s'.winds.map Arrow.shown = s.winds.map fun a => (turned δ (a.tip - a.tail), a.tail.z, a.color, a.alpha) := by
  obtain ⟨p', res, res', hp', c1, c2, c3, -, w0, w1, w2, w3, w4, w5, w6, ho, f1, f2, hT, ha, hle, hte⟩ := prepare_turn hrest hp hg
  obtain ⟨main, jib, base, -, -, -, -, -, -, b1, hh, hv, res0, hres0, hflow0⟩ := prepare_ok hp
  obtain ⟨main', jib', base', -, -, -, -, -, -, b2, hh', hv', res0', hres0', hflow0'⟩ := prepare_ok hp'
  have hi := ((vlm_ok_iff _ _).1 hv).1
  have hi' := ((vlm_ok_iff _ _).1 hv').1
  have hpan : p'.vlm.input.panels = p.vlm.input.panels.map (turnPanel δ) := by
    rw [hi, hi', c2]; rfl
  have hb : base' = base := Option.some.inj (b2.symm.trans b1)
  have hhull : p'.hull = p.hull.turn δ := by
    rw [hb, c1, show (turnedScene δ c).clrUpright = c.clrUpright from rfl,
      show (turnedScene δ c).rig = c.rig from rfl, hullGeometry_turn, hh] at hh'
    exact (Except.ok.inj hh').symm
  have e1 : p.flow.res = res := by rw [f1]; rfl
  have e2 : p'.flow.res = res' := by rw [f2]; rfl
  have hlen' : p'.vlm.vars.length = p.vlm.vars.length := by
    simpa using congrArg List.length c3
  obtain ⟨hn, hpos, hlen, -⟩ := prepared_shape hp
  have hnc : 0 < c.solver.nc := Nat.pos_of_mul_pos_right hpos
  have hns : 0 < c.solver.ns := Nat.pos_of_mul_pos_left hpos
  obtain ⟨-, hl, -, hvl, -⟩ := vlm_lengths hv
  obtain ⟨hin', hcp, hne⟩ := vlm_inlet hv
  obtain ⟨-, ht, -⟩ := (inletConditions_ok_iff _ _ _ _).1 hin'
  have hL : p.vlm.vars.length = 2 * p.set.sails.length * (c.solver.nc * c.solver.ns) := by
    rw [hl, show (c.vlmInput p.set (windGetProfile c.wind)).panels = p.set.panels from rfl, hlen, Nat.mul_assoc]
  have k3 : p.vlm.inlet.cpPoints.length = 2 * p.set.sails.length * (c.solver.nc * c.solver.ns) := by
    rw [hcp, List.length_map, hL]
  have k1 : p.vlm.inlet.twsAtCp.length = 2 * p.set.sails.length * (c.solver.nc * c.solver.ns) := by
    rw [(mapM_ok_inv ht).1, k3]
  have k2 : p.vlm.inlet.vAppInfs.length = 2 * p.set.sails.length * (c.solver.nc * c.solver.ns) := by
    rw [hvl, ← hl, hL]
  have k4 : res.vInd.length = 2 * p.set.sails.length * (c.solver.nc * c.solver.ns) := by
    have : res = res0 := by rw [← e1, hflow0]; rfl
    obtain ⟨-, -, f3, -⟩ := inviscidFlow_fields hres0
    rw [this, f3]; simp [Vlm.flowArrays, Vlm.out, VlmSolution.arrays, hL]
  rw [e1] at hs
  refine ⟨p', ?_⟩
  rw [e2, hhull]
  unfold displayScene at hs ⊢
  simp only [bind, Except.bind] at hs ⊢
  rw [displayPanels_turned ho hle hte hpan, displayCeClr_turned hT]
  split at hs
  · cases hs
  rename_i P hP
  split at hs
  · cases hs
  rename_i W hW
  split at hs
  · cases hs
  rename_i fp hfp
  injection hs with hs
  subst hs
  rw [hP, hfp]
  rw [hi, hL, show (c.vlmInput p.set (windGetProfile c.wind)).ns = c.solver.ns from rfl,
    show (c.vlmInput p.set (windGetProfile c.wind)).nc = c.solver.nc from rfl,
    C56_arrows hnc hns (l := 2 * p.set.sails.length) (by omega) P.water p.vlm.inlet res.vInd false k1 k2 k3 k4] at hW
  injection hW with hW
  subst hW
  have hW' := C56_arrows hnc hns (l := 2 * p.set.sails.length) (by omega) P.water p'.vlm.inlet res'.vInd false
    (by rw [w2, List.length_map, k1]) (by rw [w4, List.length_map, k2]) (by rw [w1, List.length_map, k3])
    (by rw [hT.vInd, List.length_map, k4])
  rw [hi', hlen', hL]
  simp only [Except.map]
  rw [show (Config.vlmInput (turnedScene δ c) p'.set (windGetProfile (turnedScene δ c).wind)).ns = c.solver.ns from rfl,
    show (Config.vlmInput (turnedScene δ c) p'.set (windGetProfile (turnedScene δ c).wind)).nc = c.solver.nc from rfl]
  simp only [hW']
  refine ⟨_, hp', rfl, rfl, rfl, rfl, rfl, ?_⟩
  simp only [Bool.false_eq_true, if_false, List.append_nil, List.map_append, w1, w2, w4]
  rw [firstRow_shown, firstRow_shown]

end PySailing
