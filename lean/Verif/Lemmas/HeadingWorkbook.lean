import Verif.Lemmas.HeadingRun
import Verif.Lemmas.UnitsWorkbook

/-!
# Lemmas: the yacht and the wind turned together, the run
-/

namespace PySailing

open Spec Props

theorem prepare_turn {spline : SplineFn} {c : Config} {δ : ℝ} (hrest : c.wind.sog = 0) {p : Prepared}
    (hp : prepare spline c = .ok p) (hg : ∃ g, prepareGeometry spline (turnedScene δ c) = .ok g) :
    ∃ (p' : Prepared) (res res' : FlowResults), prepare spline (turnedScene δ c) = .ok p' ∧
      p'.csys = p.csys.turn δ ∧ p'.set = p.set.turn δ ∧
      p'.vlm.vars.map PanelVars.cp = (p.vlm.vars.map PanelVars.cp).map (turned δ) ∧
      p.vlm.inlet.winds = windGetProfile c.wind ∧
      p'.vlm.inlet.winds = (windGetProfile c.wind).turn δ ∧ p'.vlm.inlet.cpPoints = p.vlm.inlet.cpPoints.map (turned δ) ∧
      p'.vlm.inlet.twsAtCp = p.vlm.inlet.twsAtCp.map (turned δ) ∧ p'.vlm.inlet.twsLength = p.vlm.inlet.twsLength ∧
      p'.vlm.inlet.vAppInfs = p.vlm.inlet.vAppInfs.map (turned δ) ∧
      p'.vlm.inlet.vAppInfsLength = p.vlm.inlet.vAppInfsLength ∧
      p'.vlm.inlet.awaInfsDeg.length = p.vlm.inlet.awaInfsDeg.length ∧
      p'.vlm.out = mapAll p.vlm.out id (turned δ) (turned δ) id id ∧
      p.flow = (FlowObject.new res).estimateKeel p.hull.clr ∧
      p'.flow = (FlowObject.new res').estimateKeel (turned δ p.hull.clr) ∧ ResultsTurned δ res res' ∧
      p'.vlm.areas = p.vlm.areas ∧ p'.vlm.vars.map PanelVars.leMid = (p.vlm.vars.map PanelVars.leMid).map (turned δ) ∧
      p'.vlm.vars.map PanelVars.teMid = (p.vlm.vars.map PanelVars.teMid).map (turned δ) := by
  obtain ⟨main, jib, base, h1, h2, h3, h4, h5, h6, h7, h8, hv, res, hres, hflow⟩ := prepare_ok hp
  have hcs : p.csys = ⟨c.heelDeg, c.leewayDeg, c.vRef⟩ := by
    rw [C59_csys_constructor_total] at h3
    injection h3 with h3
    exact h3.symm
  have i1 : mainSailInit (turnedScene δ c).main = .ok main := h1
  have i2 : jibSailInit (turnedScene δ c).jib = .ok jib := h2
  have i3 : csysInit (turnedScene δ c).heelDeg (turnedScene δ c).leewayDeg (turnedScene δ c).vRef = .ok (p.csys.turn δ) := by
    rw [C59_csys_constructor_total, hcs]; rfl
  have i4 : windPostInit (turnedScene δ c).wind = .ok () := by
    rw [← h4]
    unfold windPostInit turnedScene
    rfl
  have i5 : sailPostInit (turnedScene δ c).rig (some main) (some jib) = .ok () := h5
  have i6 : sailSetOf spline (turnedScene δ c).solver (turnedScene δ c).rig (some main) (some jib) (p.csys.turn δ) =
      .ok (p.set.turn δ) := by
    obtain ⟨g, hgg⟩ := hg
    unfold prepareGeometry at hgg
    simp only [i1, i2, i3, i4, i5, bind, Except.bind] at hgg
    cases h9 : sailSetOf spline (turnedScene δ c).solver (turnedScene δ c).rig (some main) (some jib) (p.csys.turn δ) with
    | error e => rw [h9] at hgg; cases hgg
    | ok w => rw [sailSetOf_turn h6 h9]
  have i7 : (turnedScene δ c).rig.base = some base := h7
  obtain ⟨hull, hh, -⟩ := C57_hull (turnedScene δ c).rig.sheer base (p.csys.turn δ) (turnedScene δ c).clrUpright
  have hclr : hull.clr = turned δ p.hull.clr := by
    have e : ∀ {sh b : ℝ} {cs : Csys} {v : V3} {H : Hull}, hullGeometry sh b cs v = .ok H →
        H.clr = cs.rotatePointWithoutMirror v := by
      intro sh b cs v H hH
      unfold hullGeometry at hH
      simp only [bind, Except.bind] at hH
      split at hH
      · cases hH
      injection hH with hH
      rw [← hH]
    rw [e hh, e h8]
    exact leeway_turn δ p.csys _
  obtain ⟨r', hr', w0, w1, w2, w3, w4, w5, w6, w7, w8, w9, w10, w11⟩ := vlm_turn (δ := δ) (a := c.vlmInput p.set (windGetProfile c.wind))
    hrest (by simp [Config.vlmInput]) hv
  have hr2 : vlm (Config.vlmInput (turnedScene δ c) (p.set.turn δ) (windGetProfile (turnedScene δ c).wind)) = .ok r' := by
    rw [← hr']; rfl
  have hfa : r'.flowArrays = p.vlm.flowArrays.turn δ := by
    unfold Vlm.flowArrays FlowArrays.turn
    rw [w1, w9]
    simp [mapAll]
  obtain ⟨res', hres', hT⟩ := inviscidFlow_turned (δ := δ) hres
  rw [← hfa] at hres'
  have hwi : p.vlm.inlet.winds = windGetProfile c.wind := by
    obtain ⟨hin, -, -⟩ := vlm_inlet hv
    obtain ⟨-, -, e⟩ := (inletConditions_ok_iff _ _ _ _).1 hin
    rw [e]; rfl
  refine ⟨⟨p.csys.turn δ, p.set.turn δ, hull, r', (FlowObject.new res').estimateKeel hull.clr⟩, res, res', ?_,
    rfl, rfl, w1, hwi, w2, w3, w4, w5, w6, w7, w8, w9, hflow, by rw [hclr], hT, w0, w10, w11⟩
  have i9 : inviscidFlow (p.set.turn δ).sails (p.csys.turn δ) r'.flowArrays = .ok res' := hres'
  unfold prepare prepareGeometry
  simp only [i1, i2, i3, i4, i5, i6, i7, hh, i9, need, hr2, bind, Except.bind]

/-! ## The sheet with the wind -/

theorem windIntegral_turn {δ : ℝ} {w : WindObj} (hw : w.vYacht = 0) {c : Csys} {l : List (String × ℝ)}
    (h : windIntegral w c = .ok l) :
    ∃ l', windIntegral (w.turn δ) (c.turn δ) = .ok l' ∧
      (∀ key ∈ ["TWS_at_reference_height_COG", "V_app_infs_at_reference_height_COG"],
        rowVec (fun n => l'.lookup n) key = (rowVec (fun n => l.lookup n) key).map (turned δ)) ∧
      ∀ name ∈ ["TWS_length_at_reference_height", "V_app_infs_length_at_reference_height_COG",
        "Reference_measurement_height", "Reference_water_level_for_wind_profile", "Not implemented - dummy variable"],
        l'.lookup name = l.lookup name := by
  unfold windIntegral at h ⊢
  have e1 : (w.turn δ).profile = w.profile := rfl
  have e2 : (w.turn δ).twsRef = w.twsRef := rfl
  rw [e1]
  cases hp : w.profile with
  | flat =>
    rw [hp] at h
    cases h
    exact ⟨_, rfl, by simp [rowVec, List.lookup], fun _ _ => rfl⟩
  | log a b =>
    rw [hp] at h
    cases h
    exact ⟨_, rfl, by simp [rowVec, List.lookup], fun _ _ => rfl⟩
  | exp a b d =>
    rw [hp] at h
    cases a with
    | none => cases h
    | some a =>
    cases b with
    | none => cases h
    | some b =>
    cases d with
    | none => cases h
    | some d =>
    simp only [bind, Except.bind] at h ⊢
    cases hf : expFactorFloat a b d b with
    | error e => rw [hf] at h; cases h
    | ok f =>
    rw [hf] at h
    simp only [appInfs_rest hw, appInfs_rest (w := w.turn δ) hw, e2, lengthToXyz_turn, turned_norm] at h ⊢
    injection h with h
    subst h
    refine ⟨_, rfl, ?_, ?_⟩
    · intro key hkey
      simp only [List.mem_cons, List.not_mem_nil, or_false] at hkey
      rcases hkey with rfl | rfl <;> simp [rowVec, List.lookup]
    · intro name hname
      simp only [List.mem_cons, List.not_mem_nil, or_false] at hname
      rcases hname with rfl | rfl | rfl | rfl | rfl <;> simp [List.lookup]

/-! ## The sheet with the panels -/

theorem wind_angle_turned (δ : ℝ) {v : V3} (hv : v.x ≠ 0 ∨ v.y ≠ 0) :
    ∃ n : ℤ, rad2deg (arctan2 (turned δ v).y (turned δ v).x) = rad2deg (arctan2 v.y v.x) + δ + 360 * n := by
  have hz : (⟨v.x, v.y⟩ : ℂ) ≠ 0 := by
    intro h
    rcases hv with h1 | h1
    · exact h1 (congrArg Complex.re h)
    · exact h1 (congrArg Complex.im h)
  have hm : (⟨(turned δ v).x, (turned δ v).y⟩ : ℂ) =
      ((Real.cos (deg2rad δ) : ℂ) + Real.sin (deg2rad δ) * Complex.I) * ⟨v.x, v.y⟩ := by
    apply Complex.ext <;> simp [turned, -Complex.ofReal_cos, -Complex.ofReal_sin] <;> ring
  have hu : ((Real.cos (deg2rad δ) : ℂ) + Real.sin (deg2rad δ) * Complex.I) ≠ 0 := by
    rw [Complex.ofReal_cos, Complex.ofReal_sin, ← Complex.exp_mul_I]
    exact Complex.exp_ne_zero _
  have ha := Complex.arg_mul_coe_angle hu hz
  rw [← hm] at ha
  have hd := Complex.arg_cos_add_sin_mul_I_coe_angle (deg2rad δ : Real.Angle)
  rw [Real.Angle.cos_coe, Real.Angle.sin_coe] at hd
  rw [hd, ← Real.Angle.coe_add, Real.Angle.angle_eq_iff_two_pi_dvd_sub] at ha
  obtain ⟨n, hn⟩ := ha
  refine ⟨n, ?_⟩
  have hpi := Real.pi_ne_zero
  unfold arctan2 rad2deg
  have e : Complex.arg ⟨(turned δ v).x, (turned δ v).y⟩ = deg2rad δ + Complex.arg ⟨v.x, v.y⟩ + 2 * Real.pi * n := by linarith
  rw [e]
  unfold deg2rad
  field_simp
  ring

/-- The tables of one workbook, in the order in which they are put together. -/
noncomputable def sheetTables (res : FlowResults) (i : Inlet) (csys : Csys) (above : List V3) (g : List ℝ)
    (names : List String) : List Frame :=
  [res.toDfFull.firstHalf, (i.toDfFull csys).firstHalf, [("cp_points_upright.z", above.map fun p => .num p.z)],
    [("girths", g.map .num)], [("sail_name", names.map .text)]]

theorem sheetTables_nodup (res : FlowResults) (i : Inlet) (csys : Csys) (above : List V3) (g : List ℝ)
    (names : List String) : ((sheetTables res i csys above g names).flatten.map Prod.fst).Nodup := by
  have e : (sheetTables res i csys above g names).flatten.map Prod.fst =
      ["Circulation_magnitude", "V_induced_COG" ++ ".x", "V_induced_COG" ++ ".y", "V_induced_COG" ++ ".z",
        "V_induced_length", "V_app_fs_COG" ++ ".x", "V_app_fs_COG" ++ ".y", "V_app_fs_COG" ++ ".z", "V_app_fs_length",
        "AWA_fs_COG_deg", "AWA_fs_COW_deg", "Pressure", "F_sails_COG" ++ ".x", "F_sails_COG" ++ ".y", "F_sails_COG" ++ ".z",
        "M_sails_COG" ++ ".x", "M_sails_COG" ++ ".y", "M_sails_COG" ++ ".z", "F_sails_COW" ++ ".x", "F_sails_COW" ++ ".y",
        "F_sails_COW" ++ ".z", "cp_points_COG" ++ ".x", "cp_points_COG" ++ ".y", "cp_points_COG" ++ ".z",
        "TWS_COG" ++ ".x", "TWS_COG" ++ ".y", "TWS_COG" ++ ".z", "TWS_length", "V_app_infs_COG" ++ ".x",
        "V_app_infs_COG" ++ ".y", "V_app_infs_COG" ++ ".z", "V_app_infs_length", "AWA_infs_COG_deg", "AWA_infs_COW_deg",
        "cp_points_upright.z", "girths", "sail_name"] := rfl
  rw [e]
  decide

section Mem

variable {res : FlowResults} {i : Inlet} {csys : Csys} {above : List V3} {g : List ℝ} {names : List String}

theorem mem_flow {cols : Frame} (h : ∀ c ∈ cols, c ∈ res.toDfFull) :
    ∀ c ∈ Frame.firstHalf cols, c ∈ (sheetTables res i csys above g names).flatten := by
  intro c hc
  obtain ⟨q, hq, rfl⟩ := List.mem_map.1 hc
  exact List.mem_flatten.2 ⟨_, List.mem_cons_self, List.mem_map_of_mem (h q hq)⟩

theorem mem_inlet {cols : Frame} (h : ∀ c ∈ cols, c ∈ i.toDfFull csys) :
    ∀ c ∈ Frame.firstHalf cols, c ∈ (sheetTables res i csys above g names).flatten := by
  intro c hc
  obtain ⟨q, hq, rfl⟩ := List.mem_map.1 hc
  exact List.mem_flatten.2 ⟨_, List.mem_cons_of_mem _ List.mem_cons_self, List.mem_map_of_mem (h q hq)⟩

theorem mem_flow₁ {k : String} {xs : List ℝ} (h : (k, xs.map Cell.num) ∈ res.toDfFull) :
    (k, (xs.map Cell.num).take ((xs.length + 1) / 2)) ∈ (sheetTables res i csys above g names).flatten :=
  mem_flow (cols := [(k, xs.map Cell.num)]) (by simpa using h) _ (by simp [Frame.firstHalf])

theorem mem_inlet₁ {k : String} {xs : List ℝ} (h : (k, xs.map Cell.num) ∈ i.toDfFull csys) :
    (k, (xs.map Cell.num).take ((xs.length + 1) / 2)) ∈ (sheetTables res i csys above g names).flatten :=
  mem_inlet (cols := [(k, xs.map Cell.num)]) (by simpa using h) _ (by simp [Frame.firstHalf])

end Mem

/-- The sheet of a run and the sheet of the turned run. -/
structure SheetTurned (δ : ℝ) (t t' : Frame) : Prop where
  course : ∀ name ∈ courseColumns, ∀ line, cellVector t' name line = (cellVector t name line).map (turned δ)
  yacht : ∀ line, cellVector t' "F_sails_COW" line = (cellVector t "F_sails_COW" line).map (turned (2 * δ))
  plain : ∀ name ∈ plainColumns, ∀ line, t'.cell name line = t.cell name line
  angle : ∀ line v x, cellVector t "V_app_infs_COG" line = some v → v.x ≠ 0 ∨ v.y ≠ 0 →
    t.cell "AWA_infs_COW_deg" line = some (.num x) →
    ∃ n : ℤ, t'.cell "AWA_infs_COW_deg" line = some (.num (x + 360 * n))

theorem sheetTables_turned {δ : ℝ} {res res' : FlowResults} {i i' : Inlet} {csys csys' : Csys} (above : List V3)
    (g : List ℝ) (names : List String) (h : ResultsTurned δ res res')
    (w1 : i'.cpPoints = i.cpPoints.map (turned δ)) (w2 : i'.twsAtCp = i.twsAtCp.map (turned δ))
    (w3 : i'.twsLength = i.twsLength) (w4 : i'.vAppInfs = i.vAppInfs.map (turned δ))
    (w5 : i'.vAppInfsLength = i.vAppInfsLength) (w6 : i'.awaInfsDeg.length = i.awaInfsDeg.length)
    (a1 : i.awaInfsDeg = i.vAppInfs.map fun v => rad2deg (arctan2 v.y v.x))
    (a2 : i'.awaInfsDeg = i'.vAppInfs.map fun v => rad2deg (arctan2 v.y v.x))
    (hcs : csys'.leewayDeg = csys.leewayDeg + δ) :
    SheetTurned δ (concatFrames (sheetTables res i csys above g names))
      (concatFrames (sheetTables res' i' csys' above g names)) := by
  have n := sheetTables_nodup res i csys above g names
  have n' := sheetTables_nodup res' i' csys' above g names
  have key : ∀ {k : String} {vs vs' : List V3} {δ' : ℝ}, vs' = vs.map (turned δ') →
      (∀ c ∈ Frame.firstHalf (vecColumns k vs), c ∈ (sheetTables res i csys above g names).flatten) →
      (∀ c ∈ Frame.firstHalf (vecColumns k vs'), c ∈ (sheetTables res' i' csys' above g names).flatten) →
      ∀ line, cellVector (concatFrames (sheetTables res' i' csys' above g names)) k line =
        (cellVector (concatFrames (sheetTables res i csys above g names)) k line).map (turned δ') := by
    intro k vs vs' δ' e h1 h2 line
    rw [cellVector_concat n h1, cellVector_concat n' h2, e, List.length_map, ← List.map_take, List.getElem?_map]
  have hl : ((sheetTables res' i' csys' above g names).flatten.map fun c => c.2.length) =
      (sheetTables res i csys above g names).flatten.map fun c => c.2.length := by
    simp [sheetTables, FlowResults.toDfFull, Inlet.toDfFull, Frame.firstHalf, vecColumns, w1, w2, w3, w4, w5, w6,
      h.gamma, h.vInd, h.vIndLength, h.vFs, h.vFsLength, h.awa, h.pressure, h.force, h.moment, h.forceCl]
  have plain : ∀ {k : String} {l : List Cell}, (k, l) ∈ (sheetTables res i csys above g names).flatten →
      (k, l) ∈ (sheetTables res' i' csys' above g names).flatten →
      ∀ line, (concatFrames (sheetTables res' i' csys' above g names)).cell k line =
        (concatFrames (sheetTables res i csys above g names)).cell k line := by
    intro k l h1 h2 line
    rw [cell_concat n h1, cell_concat n' h2, hl]
  refine ⟨?_, ?_, ?_, ?_⟩
  rotate_right
  · intro line v x hv hv0 hx
    rw [cellVector_concat n (vs := i.vAppInfs) (mem_inlet fun c hc => by simp [Inlet.toDfFull, hc])] at hv
    obtain ⟨hlt, hget⟩ := List.getElem?_eq_some_iff.1 hv
    have hlt' : line < (i.vAppInfs.length + 1) / 2 ∧ line < i.vAppInfs.length := by simpa using hlt
    have m1 : ("AWA_infs_COW_deg", ((i.awaInfsDeg.map fun x => x - csys.leewayDeg).map Cell.num).take
        (((i.awaInfsDeg.map fun x => x - csys.leewayDeg).length + 1) / 2)) ∈
        (sheetTables res i csys above g names).flatten := mem_inlet₁ (by simp [Inlet.toDfFull])
    have m2 : ("AWA_infs_COW_deg", ((i'.awaInfsDeg.map fun x => x - csys'.leewayDeg).map Cell.num).take
        (((i'.awaInfsDeg.map fun x => x - csys'.leewayDeg).length + 1) / 2)) ∈
        (sheetTables res' i' csys' above g names).flatten := mem_inlet₁ (by simp [Inlet.toDfFull])
    rw [cell_concat n m1, List.getElem?_append_left (by simp [a1, hlt'])] at hx
    rw [cell_concat n' m2, List.getElem?_append_left (by simp [a2, w4, hlt'])]
    have hg : i.vAppInfs[line]'hlt'.2 = v := by simpa using hget
    simp only [a1, List.map_map, List.length_map, List.getElem?_take, hlt'.1, if_true, List.getElem?_map,
      List.getElem?_eq_getElem hlt'.2, hg, Option.map_some, Function.comp, Option.some.injEq, Cell.num.injEq] at hx
    obtain ⟨m, hm⟩ := wind_angle_turned δ hv0
    refine ⟨m, ?_⟩
    simp only [a2, w4, List.map_map, List.length_map, List.getElem?_take, hlt'.1, if_true, List.getElem?_map,
      List.getElem?_eq_getElem hlt'.2, hg, Option.map_some, Function.comp, Option.some.injEq, Cell.num.injEq, hm, hcs]
    linarith
  · intro name hn
    simp only [courseColumns, List.mem_cons, List.not_mem_nil, or_false] at hn
    rcases hn with rfl | rfl | rfl | rfl | rfl | rfl | rfl
    · exact key h.vInd (mem_flow fun c hc => by simp [FlowResults.toDfFull, hc]) (mem_flow fun c hc => by simp [FlowResults.toDfFull, hc])
    · exact key h.vFs (mem_flow fun c hc => by simp [FlowResults.toDfFull, hc]) (mem_flow fun c hc => by simp [FlowResults.toDfFull, hc])
    · exact key h.force (mem_flow fun c hc => by simp [FlowResults.toDfFull, hc]) (mem_flow fun c hc => by simp [FlowResults.toDfFull, hc])
    · exact key h.moment (mem_flow fun c hc => by simp [FlowResults.toDfFull, hc]) (mem_flow fun c hc => by simp [FlowResults.toDfFull, hc])
    · exact key w1 (mem_inlet fun c hc => by simp [Inlet.toDfFull, hc]) (mem_inlet fun c hc => by simp [Inlet.toDfFull, hc])
    · exact key w2 (mem_inlet fun c hc => by simp [Inlet.toDfFull, hc]) (mem_inlet fun c hc => by simp [Inlet.toDfFull, hc])
    · exact key w4 (mem_inlet fun c hc => by simp [Inlet.toDfFull, hc]) (mem_inlet fun c hc => by simp [Inlet.toDfFull, hc])
  · exact key h.forceCl (mem_flow fun c hc => by simp [FlowResults.toDfFull, hc]) (mem_flow fun c hc => by simp [FlowResults.toDfFull, hc])
  · intro name hn
    simp only [plainColumns, List.mem_cons, List.not_mem_nil, or_false] at hn
    rcases hn with rfl | rfl | rfl | rfl | rfl | rfl | rfl | rfl | rfl
    · exact plain (l := (res.gamma.map Cell.num).take ((res.gamma.length + 1) / 2))
        (mem_flow₁ (by simp [FlowResults.toDfFull])) (by rw [← h.gamma]; exact mem_flow₁ (by simp [FlowResults.toDfFull]))
    · exact plain (l := (res.vIndLength.map Cell.num).take ((res.vIndLength.length + 1) / 2))
        (mem_flow₁ (by simp [FlowResults.toDfFull])) (by rw [← h.vIndLength]; exact mem_flow₁ (by simp [FlowResults.toDfFull]))
    · exact plain (l := (res.vFsLength.map Cell.num).take ((res.vFsLength.length + 1) / 2))
        (mem_flow₁ (by simp [FlowResults.toDfFull])) (by rw [← h.vFsLength]; exact mem_flow₁ (by simp [FlowResults.toDfFull]))
    · exact plain (l := (res.pressure.map Cell.num).take ((res.pressure.length + 1) / 2))
        (mem_flow₁ (by simp [FlowResults.toDfFull])) (by rw [← h.pressure]; exact mem_flow₁ (by simp [FlowResults.toDfFull]))
    · exact plain (l := (i.twsLength.map Cell.num).take ((i.twsLength.length + 1) / 2))
        (mem_inlet₁ (by simp [Inlet.toDfFull])) (by rw [← w3]; exact mem_inlet₁ (by simp [Inlet.toDfFull]))
    · exact plain (l := (i.vAppInfsLength.map Cell.num).take ((i.vAppInfsLength.length + 1) / 2))
        (mem_inlet₁ (by simp [Inlet.toDfFull])) (by rw [← w5]; exact mem_inlet₁ (by simp [Inlet.toDfFull]))
    · exact plain (l := above.map fun p => .num p.z) (by simp [sheetTables]) (by simp [sheetTables])
    · exact plain (l := g.map .num) (by simp [sheetTables]) (by simp [sheetTables])
    · exact plain (l := names.map .text) (by simp [sheetTables]) (by simp [sheetTables])

theorem prepared_angles {spline : SplineFn} {c : Config} {p : Prepared} (hp : prepare spline c = .ok p) :
    p.vlm.inlet.awaInfsDeg = p.vlm.inlet.vAppInfs.map fun v => rad2deg (arctan2 v.y v.x) := by
  obtain ⟨main, jib, base, -, -, -, -, -, -, -, -, hv, -⟩ := prepare_ok hp
  obtain ⟨hin, -, -⟩ := vlm_inlet hv
  rw [((inletConditions_ok_iff _ _ _ _).1 hin).2.2]

theorem saveResults_turned {δ : ℝ} {r r' : Vlm} {csys : Csys} {res res' : FlowResults} {clr : V3} {sails : List SailGeom}
    {t : SavedResults} (h : saveResults r csys ((FlowObject.new res).estimateKeel clr) sails csys = .ok t)
    (hw : r.inlet.winds.vYacht = 0) (hT : ResultsTurned δ res res')
    (hv : r'.vars.map PanelVars.cp = (r.vars.map PanelVars.cp).map (turned δ))
    (w0 : r'.inlet.winds = r.inlet.winds.turn δ)
    (w1 : r'.inlet.cpPoints = r.inlet.cpPoints.map (turned δ)) (w2 : r'.inlet.twsAtCp = r.inlet.twsAtCp.map (turned δ))
    (w3 : r'.inlet.twsLength = r.inlet.twsLength) (w4 : r'.inlet.vAppInfs = r.inlet.vAppInfs.map (turned δ))
    (w5 : r'.inlet.vAppInfsLength = r.inlet.vAppInfsLength)
    (w6 : r'.inlet.awaInfsDeg.length = r.inlet.awaInfsDeg.length)
    (a1 : r.inlet.awaInfsDeg = r.inlet.vAppInfs.map fun v => rad2deg (arctan2 v.y v.x))
    (a2 : r'.inlet.awaInfsDeg = r'.inlet.vAppInfs.map fun v => rad2deg (arctan2 v.y v.x)) :
    ∃ t', saveResults r' (csys.turn δ) ((FlowObject.new res').estimateKeel (turned δ clr)) (sails.map (SailGeom.turn δ))
        (csys.turn δ) = .ok t' ∧
      SheetTurned δ t.components t'.components ∧
      t.integrals = ((FlowObject.new res).estimateKeel clr).toDfIntegral ∧
      t'.integrals = ((FlowObject.new res').estimateKeel (turned δ clr)).toDfIntegral ∧
      (∀ key ∈ ["TWS_at_reference_height_COG", "V_app_infs_at_reference_height_COG"],
        rowVec (fun n => t'.inlet.lookup n) key = (rowVec (fun n => t.inlet.lookup n) key).map (turned δ)) ∧
      ∀ name ∈ ["TWS_length_at_reference_height", "V_app_infs_length_at_reference_height_COG",
        "Reference_measurement_height", "Reference_water_level_for_wind_profile", "Not implemented - dummy variable"],
        t'.inlet.lookup name = t.inlet.lookup name := by
  unfold saveResults at h ⊢
  rw [hv, w0, cpGirthsAll_turned]
  cases h1 : windIntegral r.inlet.winds csys with
  | error e => rw [h1] at h; cases h
  | ok ic =>
  obtain ⟨ic', h1', hi, hi'⟩ := windIntegral_turn (δ := δ) hw h1
  rw [h1] at h
  rw [h1']
  simp only [bind, Except.bind] at h ⊢
  cases h2 : cpGirthsAll sails csys (r.vars.map PanelVars.cp) with
  | error e => rw [h2] at h; cases h
  | ok g =>
  rw [h2] at h
  simp only [cpGirthsAbove_turned, List.length_map] at h ⊢
  cases h3 : cpGirthsAbove g.1 sails with
  | error e => rw [h3] at h; cases h
  | ok ga =>
  rw [h3] at h
  simp only at h ⊢
  cases h4 : arraySplit g.2 (2 * sails.length) with
  | error e => rw [h4] at h; cases h
  | ok parts =>
  rw [h4] at h
  simp only at h ⊢
  injection h with h
  subst h
  exact ⟨_, rfl, sheetTables_turned _ _ _ hT w1 w2 w3 w4 w5 w6 a1 a2 rfl, rfl, rfl, hi, hi'⟩

end PySailing
