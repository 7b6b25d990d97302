import Verif.Props.Results
import Verif.Lemmas.Components
import Verif.Lemmas.Wind

/-!
# C49, C50, C54: the sheet `Components`
-/

namespace PySailing.Props

open PySailing PySailing.Spec

/-! ## C50 -/

/-- **C50.** Let `top` be the height of the highest point of a list of points.  If it differs from the
height of the tack, `cp_to_girths` returns for every point the value of one affine function `g` of its
height with `g = 0` at the tack and `g = 1` at the highest point; if the highest point is above the
tack, no value exceeds one and higher points have larger values.  If the highest point is at the height
of the tack there is no finite result, for an empty list the call fails. -/
theorem C50_girths (cps : List V3) (tack : V3) :
    (cps = [] → cpToGirths cps tack = .error .valueError) ∧
    ∀ top, IsGreatest {z | ∃ p ∈ cps, z = p.z} top →
      (top = tack.z → cpToGirths cps tack = .error .nonFinite) ∧
      (top ≠ tack.z → ∃ a c : ℝ, a * tack.z + c = 0 ∧ a * top + c = 1 ∧
        cpToGirths cps tack = .ok (cps.map fun p => a * p.z + c) ∧
        (tack.z < top → 0 < a ∧ ∀ p ∈ cps, a * p.z + c ≤ 1)) := by
  refine ⟨fun h => by rw [h]; rfl, fun top htop => ⟨fun h => ?_, fun h => ?_⟩⟩
  · have h' : IsGreatest {y | y ∈ cps.map V3.z} top := by
      convert htop using 3
      simp [eq_comm]
    unfold cpToGirths
    rw [pyMax_ok h']
    exact if_pos (sub_eq_zero.2 h)
  · have hd : top - tack.z ≠ 0 := sub_ne_zero.2 h
    refine ⟨1 / (top - tack.z), -tack.z / (top - tack.z), by field_simp; ring, by field_simp; ring, ?_, ?_⟩
    · rw [cpToGirths_ok htop h]
      congr 1
      refine List.map_congr_left fun p _ => ?_
      field_simp
      ring
    · intro hlt
      have hp : 0 < top - tack.z := by linarith
      refine ⟨by positivity, fun p hp' => ?_⟩
      have := htop.2 ⟨p, hp', rfl⟩
      rw [show 1 / (top - tack.z) * p.z + -tack.z / (top - tack.z) = (p.z - tack.z) / (top - tack.z) by
        field_simp; ring, div_le_one hp]
      linarith

/-- Non-vacuity of `C50_girths`. -/
example : IsGreatest {z | ∃ p ∈ ([⟨0, 0, 3⟩, ⟨1, 0, 5⟩] : List V3), z = p.z} 5 ∧ (5 : ℝ) ≠ 1 ∧ (1 : ℝ) < 5 := by
  refine ⟨⟨⟨⟨1, 0, 5⟩, by simp, rfl⟩, ?_⟩, by norm_num, by norm_num⟩
  rintro z ⟨p, hp, rfl⟩
  simp only [List.mem_cons, List.not_mem_nil, or_false] at hp
  rcases hp with rfl | rfl <;> norm_num

/-! ## C49 -/

/-- The three cells for a vector. -/
def vecCells (key : String) (v : V3) : List (String × Cell) :=
  [(key ++ ".x", .num v.x), (key ++ ".y", .num v.y), (key ++ ".z", .num v.z)]

/-- The cells that describe panel `q` of the flow `r`, a panel of the sail `sail` whose highest upright
pressure point is at height `top`; `tws` is the true wind at the height of the panel's pressure
point. -/
noncomputable def panelCells (r : Vlm) (csys csys0 : Csys) (sail : SailGeom) (top : ℝ) (tws : V3)
    (q : ℕ) : List (String × Cell) :=
  let cp := row (r.vars.map PanelVars.cp) q
  let force := row r.out.force q
  let V := row r.out.vFsCp q
  let app := r.input.wind.appInfs tws
  let up := csys.reverseRotationsWithMirror cp
  [("Circulation_magnitude", Cell.num (r.out.gamma.getD q 0))] ++
  vecCells "V_induced_COG" (row r.out.vIndCp q) ++
  [("V_induced_length", .num (row r.out.vIndCp q).norm)] ++ vecCells "V_app_fs_COG" V ++
  [("V_app_fs_length", .num V.norm),
    ("AWA_fs_COG_deg", .ofPy ((arctanRatio V.y V.x).map rad2deg)),
    ("AWA_fs_COW_deg", .ofPy ((arctanRatio V.y V.x).map fun y => rad2deg y - csys.leewayDeg)),
    ("Pressure", .num (r.out.pressure.getD q 0))] ++
  vecCells "F_sails_COG" force ++
  vecCells "M_sails_COG" (V3.cross (armFrom csys.vRef cp) force) ++
  vecCells "F_sails_COW" (csys.leeway.mulVec force) ++
  vecCells "cp_points_COG" cp ++ vecCells "TWS_COG" tws ++ [("TWS_length", .num tws.norm)] ++
  vecCells "V_app_infs_COG" app ++
  [("V_app_infs_length", .num app.norm), ("AWA_infs_COG_deg", .num (rad2deg (arctan2 app.y app.x))),
    ("AWA_infs_COW_deg", .num (rad2deg (arctan2 app.y app.x) - csys0.leewayDeg)),
    ("cp_points_upright.z", .num up.z),
    ("girths", .num ((up.z - sail.tackMounting.z) / (top - sail.tackMounting.z))),
    ("sail_name", .text sail.name)]

/-- **C49.** For any number of sails with `m` panels each, built into a sail set whose flow `r` is
computed by `Vlm`: `save_results_to_file` returns a table `Components` in which row `b * m + k` describes
panel `k` above the water of sail `b` in every column.  The panel with this number in the panel array is
panel `k` of sail `b`; the row contains its circulation, velocities, pressure, force, moment and pressure
point, the true and apparent wind at the height of this point, the upright height and girth of this point,
and the name of sail `b`.  There are no other columns, and all columns have one row per panel above the
water.  (Hypotheses: the pressure points of no sail have their greatest upright height at the tack; the
sheet for the wind can be written.) -/
theorem C49_components (inp : VlmInput) (r : Vlm) (h : vlm inp = .ok r) (sails : List SailGeom) (m : ℕ)
    (set : SailSet) (hset : sailSet sails = .ok set) (hpan : inp.panels = set.panels)
    (habove : ∀ s ∈ sails, s.panelsAbove.length = m) (hunder : ∀ s ∈ sails, s.panelsUnder.length = m)
    (csys csys0 : Csys) (res : FlowResults) (hres : inviscidFlow sails csys r.flowArrays = .ok res)
    (o : FlowObject) (ho : o.res = res) (ic : List (String × ℝ))
    (hic : windIntegral r.inlet.winds csys0 = .ok ic) (top : ℕ → ℝ)
    (htop : ∀ b, b < sails.length → IsGreatest {z | ∃ k, k < m ∧
      (z = (csys.reverseRotationsWithMirror (row (r.vars.map PanelVars.cp) (b * m + k))).z ∨
       z = (csys.reverseRotationsWithMirror (row (r.vars.map PanelVars.cp)
        (sails.length * m + (b * m + k)))).z)} (top b))
    (hne : ∀ b (hb : b < sails.length), top b ≠ sails[b].tackMounting.z) :
    ∃ s, saveResults r csys o sails csys0 = .ok s ∧
      (∀ c ∈ s.components, c.2.length = sails.length * m) ∧
      ∀ b (hb : b < sails.length) k, k < m → ∃ tws P,
        inp.panels[b * m + k]? = some P ∧ sails[b].panelsAbove[k]? = some P ∧
        inp.wind.trueWindAt |(row (r.vars.map PanelVars.cp) (b * m + k)).z| = .ok tws ∧
        s.components.map Prod.fst =
          (panelCells r csys csys0 sails[b] (top b) tws (b * m + k)).map Prod.fst ∧
        ∀ x ∈ panelCells r csys csys0 sails[b] (top b) tws (b * m + k),
          s.components.cell x.1 (b * m + k) = some x.2 := by
  have hn : sails ≠ [] := by
    rintro rfl
    simp [sailSet] at hset
  have hpos : 0 < sails.length := List.length_pos_iff.2 hn
  have hset' : set.panels = (sails.map SailGeom.panelsAbove).flatten ++
      (sails.map SailGeom.panelsUnder).flatten := by
    unfold sailSet at hset
    rw [if_neg hn] at hset
    cases hset
    rfl
  have hlA : (sails.map SailGeom.panelsAbove).flatten.length = sails.length * m := by
    rw [length_flatten_eq (n := m) _ (by simpa using habove)]; simp
  have hlU : (sails.map SailGeom.panelsUnder).flatten.length = sails.length * m := by
    rw [length_flatten_eq (n := m) _ (by simpa using hunder)]; simp
  have hlen : inp.panels.length = 2 * (sails.length * m) := by
    rw [hpan, hset', List.length_append, hlA, hlU]; ring
  obtain ⟨N, hN⟩ : ∃ N, N = sails.length * m := ⟨_, rfl⟩
  obtain ⟨hin, hvl, -⟩ := vlm_lengths h
  have hsh := vlm_shaped h hn hlen
  obtain ⟨res', hr', -, -, -, hMl, hMrow, -⟩ := inviscidFlow_ok hsh.nonempty csys _ hsh.force hsh.cp
  rw [hres] at hr'
  cases hr'
  obtain ⟨f1, f2, f3, f4, f5, f6, f7, f8, f9, f10⟩ := inviscidFlow_fields hres
  obtain ⟨cps, hcps⟩ : ∃ cps, cps = r.vars.map PanelVars.cp := ⟨_, rfl⟩
  have hcl : cps.length = 2 * (sails.length * m) := by rw [hcps, List.length_map, hvl, hlen]
  obtain ⟨-, -, hv, hinl, hsolve⟩ := (vlm_ok_iff inp r).1 h
  obtain ⟨-, htws, hinlet⟩ := (inletConditions_ok_iff _ _ _ _).1 hinl
  rw [← hcps] at htws hinlet
  obtain ⟨htwl, htwr⟩ := mapM_ok_inv htws
  have htl : r.inlet.twsAtCp.length = 2 * N := by rw [htwl, hcl, hN]
  obtain ⟨w1, w2⟩ : r.inlet.winds = inp.wind ∧ r.inlet.cpPoints = cps := by
    rw [hinlet]; exact ⟨rfl, rfl⟩
  have hf (l : List V3) (hl : l = r.out.force ∨ l = r.out.vFsCp ∨ l = r.out.vIndCp) :
      l.length = 2 * N := by
    rcases hl with rfl | rfl | rfl <;> simp [Vlm.out, VlmSolution.arrays, hvl, hlen, hN]
  have hg (l : List ℝ) (hl : l = r.out.gamma ∨ l = r.out.pressure) : l.length = 2 * N := by
    rcases hl with rfl | rfl <;> simp [Vlm.out, VlmSolution.arrays, hvl, hlen, hN]
  have hMl' : res.moment.length = 2 * N := by rw [hMl]; exact hf _ (.inl rfl)
  -- girths
  have htop' : ∀ b (_ : b < sails.length), IsGreatest {z | ∃ p ∈ uprightAbove csys cps m b ++
      uprightUnder csys cps sails.length m b, z = p.z} (top b) := by
    intro b hb
    have e := htop b hb
    rw [← hcps] at e
    convert e using 1
    ext z
    simp only [Set.mem_setOf_eq, List.mem_append, uprightAbove, uprightUnder, List.mem_map,
      List.mem_range, upright]
    constructor
    · rintro ⟨p, ⟨k, hk, rfl⟩ | ⟨k, hk, rfl⟩, rfl⟩
      · exact ⟨k, hk, .inl rfl⟩
      · exact ⟨k, hk, .inr (by rw [show (b + sails.length) * m + k =
          sails.length * m + (b * m + k) by ring])⟩
    · rintro ⟨k, hk, rfl | rfl⟩
      · exact ⟨_, .inl ⟨k, hk, rfl⟩, rfl⟩
      · exact ⟨_, .inr ⟨k, hk, rfl⟩, by rw [show (b + sails.length) * m + k =
          sails.length * m + (b * m + k) by ring]⟩
  have hga := cpGirthsAll_ok hn csys hcl htop' hne
  obtain ⟨pairsG, hpG⟩ : ∃ x, x = (List.range sails.length).flatMap fun b =>
          [(uprightAbove csys cps m b).map (girthOf sails top b),
            (uprightUnder csys cps sails.length m b).map (girthOf sails top b)] := ⟨_, rfl⟩
  obtain ⟨pairsU, hpU⟩ : ∃ x, x = (List.range sails.length).flatMap fun b =>
          [uprightAbove csys cps m b, uprightUnder csys cps sails.length m b] := ⟨_, rfl⟩
  rw [← hpG, ← hpU] at hga
  have lG : pairsG.length = 2 * sails.length := by rw [hpG, length_pairs, List.length_range]
  have lU : pairsU.length = 2 * sails.length := by rw [hpU, length_pairs, List.length_range]
  have sG : npSplit pairsG.flatten (2 * sails.length) = .ok pairsG := by
    rw [← lG]
    refine npSplit_flatten (n := m) _ (by rintro h0; rw [h0, List.length_nil] at lG; omega) ?_
    intro l hl
    rw [hpG] at hl
    simp only [List.mem_flatMap, List.mem_cons, List.not_mem_nil, or_false] at hl
    obtain ⟨b, -, rfl | rfl⟩ := hl <;> simp [uprightAbove, uprightUnder]
  have sU : arraySplit pairsU.flatten (2 * sails.length) = .ok pairsU := by
    rw [← lU]
    refine arraySplit_flatten (n := m) _ (by rintro h0; rw [h0, List.length_nil] at lU; omega) ?_
    intro l hl
    rw [hpU] at hl
    simp only [List.mem_flatMap, List.mem_cons, List.not_mem_nil, or_false] at hl
    obtain ⟨b, -, rfl | rfl⟩ := hl <;> simp [uprightAbove, uprightUnder]
  have eG : everySecond pairsG = (List.range sails.length).map fun b =>
      (uprightAbove csys cps m b).map (girthOf sails top b) := by rw [hpG, everySecond_pairs]
  have eU : everySecond pairsU = (List.range sails.length).map fun b => uprightAbove csys cps m b := by
    rw [hpU, everySecond_pairs]
  have flG : (everySecond pairsG).flatten.length = sails.length * m := by
    rw [eG, length_flatten_eq (n := m)]
    · simp
    · intro l hl; obtain ⟨b, -, rfl⟩ := List.mem_map.1 hl; simp [uprightAbove]
  have flU : (everySecond pairsU).flatten.length = sails.length * m := by
    rw [eU, length_flatten_eq (n := m)]
    · simp
    · intro l hl; obtain ⟨b, -, rfl⟩ := List.mem_map.1 hl; simp [uprightAbove]
  have hab : cpGirthsAbove pairsG.flatten sails = .ok ((everySecond pairsG).flatten,
      (sails.map fun s => List.replicate m s.name).flatten) := by
    unfold cpGirthsAbove
    simp only [sG, bind, Except.bind]
    rw [if_neg hpos.ne', flG, Nat.mul_div_cancel_left _ hpos]
  -- lengths of all columns
  have c1 : ∀ c ∈ res.toDfFull, c.2.length = 2 * N := by
    have a1 := hf _ (.inl rfl)
    have a2 := hf _ (.inr (.inl rfl))
    have a3 := hf _ (.inr (.inr rfl))
    have a4 := hg _ (.inl rfl)
    have a5 := hg _ (.inr rfl)
    unfold FlowResults.toDfFull vecColumns
    rw [f1, f2, f3, f4, f5, f6, f7, f9, f10]
    simp [Vlm.flowArrays, a1, a2, a3, a4, a5, hMl']
  have c2 : ∀ c ∈ r.inlet.toDfFull csys0, c.2.length = 2 * N := by
    unfold Inlet.toDfFull vecColumns
    rw [hinlet]
    simp [hcl, htl, hN]
  obtain ⟨ts, hts⟩ : ∃ ts : List Frame, ts = [o.res.toDfFull.firstHalf,
      (r.inlet.toDfFull csys0).firstHalf,
      [("cp_points_upright.z", (everySecond pairsU).flatten.map fun p => .num p.z)],
      [("girths", (everySecond pairsG).flatten.map .num)],
      [("sail_name", ((sails.map fun s => List.replicate m s.name).flatten).map .text)]] := ⟨_, rfl⟩
  have hflat : ts.flatten = res.toDfFull.firstHalf ++ ((r.inlet.toDfFull csys0).firstHalf ++
      ([("cp_points_upright.z", (everySecond pairsU).flatten.map fun p => Cell.num p.z)] ++
      ([("girths", (everySecond pairsG).flatten.map Cell.num)] ++
      [("sail_name", ((sails.map fun s => List.replicate m s.name).flatten).map Cell.text)]))) := by
    rw [hts, ho]; simp
  have hcol : ∀ c ∈ ts.flatten, c.2.length = N := by
    intro c hc
    rw [hflat] at hc
    simp only [List.mem_append] at hc
    rcases hc with hc | hc | hc | hc | hc
    · exact firstHalf_length c1 c hc
    · exact firstHalf_length c2 c hc
    · rw [List.mem_singleton.1 hc, List.length_map, flU, hN]
    · rw [List.mem_singleton.1 hc, List.length_map, flG, hN]
    · rw [List.mem_singleton.1 hc, List.length_map, length_flatten_eq (n := m)]
      · rw [List.length_map, hN]
      · intro l hl; obtain ⟨s, -, rfl⟩ := List.mem_map.1 hl; simp
  have hsave : saveResults r csys o sails csys0 = .ok ⟨ts.flatten, o.toDfIntegral, ic⟩ := by
    unfold saveResults
    rw [← hcps, hga]
    simp only [bind, Except.bind]
    rw [hab, sU, hic]
    simp only
    rw [← concatFrames_eq hcol, hts]
  refine ⟨_, hsave, by rw [← hN]; exact hcol, fun b hb k hk => ?_⟩
  have hq : b * m + k < N := by
    have : (b + 1) * m ≤ sails.length * m := Nat.mul_le_mul_right _ hb
    have e : (b + 1) * m = b * m + m := by ring
    omega
  obtain ⟨q, hqdef⟩ : ∃ q, q = b * m + k := ⟨_, rfl⟩
  rw [← hqdef] at hq ⊢
  have hq2 : q < cps.length := by rw [hcl, ← hN]; omega
  obtain ⟨tws, htw, htw'⟩ := htwr q hq2
  have hcpq : cps[q] = row cps q := by
    have := row_get hq2
    rw [List.getElem?_eq_getElem hq2] at this
    exact Option.some.inj this
  have hP : k < sails[b].panelsAbove.length := by
    rw [habove _ (List.getElem_mem hb)]; exact hk
  refine ⟨tws, sails[b].panelsAbove[k], ?_, List.getElem?_eq_getElem hP, ?_, ?_⟩
  · rw [hpan, hset', List.getElem?_append_left (by rw [hlA]; omega), hqdef,
      flatten_getElem? (n := m) _ (by simpa using habove) hk]
    simp [List.getElem?_eq_getElem hb, List.getElem?_eq_getElem hP]
  · rw [← hcps, ← hcpq]; exact htw'
  -- the row
  have r1 : RowIs q res.toDfFull (
      [("Circulation_magnitude", Cell.num (r.out.gamma.getD q 0))] ++
      vecCells "V_induced_COG" (row r.out.vIndCp q) ++
      [("V_induced_length", .num (row r.out.vIndCp q).norm)] ++
      vecCells "V_app_fs_COG" (row r.out.vFsCp q) ++
      [("V_app_fs_length", .num (row r.out.vFsCp q).norm),
        ("AWA_fs_COG_deg", .ofPy ((arctanRatio (row r.out.vFsCp q).y (row r.out.vFsCp q).x).map rad2deg)),
        ("AWA_fs_COW_deg", .ofPy ((arctanRatio (row r.out.vFsCp q).y (row r.out.vFsCp q).x).map
          fun y => rad2deg y - csys.leewayDeg)),
        ("Pressure", .num (r.out.pressure.getD q 0))] ++
      vecCells "F_sails_COG" (row r.out.force q) ++
      vecCells "M_sails_COG" (V3.cross (armFrom csys.vRef (row cps q)) (row r.out.force q)) ++
      vecCells "F_sails_COW" (csys.leeway.mulVec (row r.out.force q))) := by
    unfold FlowResults.toDfFull
    rw [f1, f2, f3, f4, f5, f6, f7, f8, f9, f10]
    have a1 : q < r.out.force.length := by rw [hf _ (.inl rfl)]; omega
    have a2 : q < r.out.vFsCp.length := by rw [hf _ (.inr (.inl rfl))]; omega
    have a3 : q < r.out.vIndCp.length := by rw [hf _ (.inr (.inr rfl))]; omega
    have a4 : q < r.out.gamma.length := by rw [hg _ (.inl rfl)]; omega
    have a5 : q < r.out.pressure.length := by rw [hg _ (.inr rfl)]; omega
    have hm := hMrow q a1
    have hm' : row res.moment q = V3.cross (armFrom csys.vRef (row cps q)) (row r.out.force q) := by
      rw [hm, hcps]; rfl
    rw [← hm']
    have hfc : csys.leeway.mulVec (row r.out.force q) = row (r.out.force.map csys.leeway.mulVec) q := by
      rw [row_map a1]
    rw [hfc]
    refine RowIs.append (RowIs.append (RowIs.append (RowIs.append (RowIs.append (RowIs.append
      (RowIs.append (RowIs.single ?_) (RowIs.vec a3)) (RowIs.single ?_)) (RowIs.vec a2)) ?_)
      (RowIs.vec a1)) (RowIs.vec (by rw [hMl']; omega))) (RowIs.vec (by rw [List.length_map]; exact a1))
    · exact map_get (getD_get a4)
    · exact map_get (by rw [List.getElem?_map]; exact congrArg _ (row_get a3))
    · refine .cons ⟨rfl, ?_⟩ (.cons ⟨rfl, ?_⟩ (.cons ⟨rfl, ?_⟩ (.cons ⟨rfl, ?_⟩ .nil)))
      · exact map_get (by rw [List.getElem?_map]; exact congrArg _ (row_get a2))
      · exact map_get (by rw [List.getElem?_map]; exact congrArg _ (row_get a2))
      · exact map_get (by rw [List.getElem?_map]; exact congrArg _ (row_get a2))
      · exact map_get (getD_get a5)
  have r2 : RowIs q (r.inlet.toDfFull csys0) (
      vecCells "cp_points_COG" (row cps q) ++ vecCells "TWS_COG" tws ++ [("TWS_length", .num tws.norm)] ++
      vecCells "V_app_infs_COG" (r.input.wind.appInfs tws) ++
      [("V_app_infs_length", .num (r.input.wind.appInfs tws).norm),
        ("AWA_infs_COG_deg", .num (rad2deg (arctan2 (r.input.wind.appInfs tws).y
          (r.input.wind.appInfs tws).x))),
        ("AWA_infs_COW_deg", .num (rad2deg (arctan2 (r.input.wind.appInfs tws).y
          (r.input.wind.appInfs tws).x) - csys0.leewayDeg))]) := by
    unfold Inlet.toDfFull
    rw [hinlet, hin]
    have b1 : q < r.inlet.twsAtCp.length := by rw [htl]; omega
    have b2 : row r.inlet.twsAtCp q = tws := by
      have := row_get b1
      rw [htw] at this
      exact (Option.some.inj this).symm
    have b3 : row (r.inlet.twsAtCp.map inp.wind.appInfs) q = inp.wind.appInfs tws := by
      rw [row_map b1, b2]
    have b4 : (r.inlet.twsAtCp.map inp.wind.appInfs)[q]? = some (inp.wind.appInfs tws) := by
      rw [List.getElem?_map, htw]; rfl
    have v1 := RowIs.vec (q := q) (key := "TWS_COG") b1
    have v2 := RowIs.vec (q := q) (key := "V_app_infs_COG")
      (l := r.inlet.twsAtCp.map inp.wind.appInfs) (by rw [List.length_map]; exact b1)
    rw [b2] at v1
    rw [b3] at v2
    refine RowIs.append (RowIs.append (RowIs.append (RowIs.append (RowIs.vec hq2) v1)
      (RowIs.single ?_)) v2) ?_
    · exact map_get (by rw [List.getElem?_map, htw]; rfl)
    · refine .cons ⟨rfl, ?_⟩ (.cons ⟨rfl, ?_⟩ (.cons ⟨rfl, ?_⟩ .nil))
      · exact map_get (by rw [List.getElem?_map, b4]; rfl)
      · exact map_get (by rw [List.getElem?_map, b4]; rfl)
      · rw [List.getElem?_map, List.getElem?_map, b4]; rfl
  have hup : (everySecond pairsU).flatten[q]? = some (csys.reverseRotationsWithMirror (row cps q)) := by
    rw [eU, hqdef, flatten_getElem? (n := m) _ (by
      intro l hl; obtain ⟨b, -, rfl⟩ := List.mem_map.1 hl; simp [uprightAbove]) hk]
    simp [List.getElem?_range hb, uprightAbove, List.getElem?_range hk, upright]
  have hgi : (everySecond pairsG).flatten[q]? =
      some (((csys.reverseRotationsWithMirror (row cps q)).z - sails[b].tackMounting.z) /
        (top b - sails[b].tackMounting.z)) := by
    rw [eG, hqdef, flatten_getElem? (n := m) _ (by
      intro l hl; obtain ⟨b, -, rfl⟩ := List.mem_map.1 hl; simp [uprightAbove]) hk]
    simp [List.getElem?_range hb, uprightAbove, List.getElem?_range hk, upright, girthOf,
      List.getElem?_eq_getElem hb]
  have hnm : ((sails.map fun s => List.replicate m s.name).flatten)[q]? = some sails[b].name := by
    rw [hqdef]; exact sailNames_get hb hk
  have hrow : RowIs q ts.flatten (panelCells r csys csys0 sails[b] (top b) tws q) := by
    rw [hflat]
    have := (r1.firstHalf hq c1).append ((r2.firstHalf hq c2).append
      ((RowIs.single (name := "cp_points_upright.z") (map_get (f := fun p => Cell.num p.z) hup)).append
      ((RowIs.single (name := "girths") (map_get (f := Cell.num) hgi)).append
      (RowIs.single (name := "sail_name") (map_get (f := Cell.text) hnm)))))
    convert this using 1
    unfold panelCells
    rw [← hcps]
    simp only [List.append_assoc, List.cons_append, List.nil_append]
  refine ⟨hrow.names, cell_of_forall₂ hrow ?_⟩
  rw [hrow.names]
  simp [panelCells, vecCells]

/-- The sail of the two-panel example. -/
def demoGeom : SailGeom :=
  ⟨[Demo.panel], [mirrorPanel Demo.panel], [], [], [true], [true], 1, 1, "jib", ⟨0, 0, 1⟩⟩

theorem demo_reverse (p : V3) : (⟨0, 0, 0⟩ : Csys).reverseRotationsWithMirror p = p := by
  have h1 : ∀ v : V3, (⟨0, 0, 0⟩ : Csys).reverseLeeway.mulVec v = v := by
    intro v
    rw [Csys.reverseLeeway_mulVec]
    ext <;> simp [deg2rad]
  unfold Csys.reverseRotationsWithMirror
  rw [h1]
  simp only
  split_ifs
  · rw [Csys.reverseHeeling_mulVec]; ext <;> simp [deg2rad]
  · rw [Csys.heeling_mulVec]; ext <;> simp [deg2rad]

/-- Non-vacuity of `C49_components`: the hypotheses hold for the computed flow about one panel and its
mirror image, with the highest pressure point at height 3/2 and the tack at height 1. -/
example : ∃ r set res ic, vlm Demo.input2 = .ok r ∧ sailSet [demoGeom] = .ok set ∧
    Demo.input2.panels = set.panels ∧ (∀ s ∈ [demoGeom], s.panelsAbove.length = 1) ∧
    (∀ s ∈ [demoGeom], s.panelsUnder.length = 1) ∧
    inviscidFlow [demoGeom] ⟨0, 0, 0⟩ r.flowArrays = .ok res ∧
    windIntegral r.inlet.winds ⟨0, 0, 0⟩ = .ok ic ∧
    (∀ b, b < [demoGeom].length → IsGreatest {z | ∃ k, k < 1 ∧
      (z = ((⟨0, 0, 0⟩ : Csys).reverseRotationsWithMirror (row (r.vars.map PanelVars.cp) (b * 1 + k))).z ∨
       z = ((⟨0, 0, 0⟩ : Csys).reverseRotationsWithMirror (row (r.vars.map PanelVars.cp)
        ([demoGeom].length * 1 + (b * 1 + k)))).z)} (3 / 2)) ∧
    ∀ b (hb : b < [demoGeom].length), (3 / 2 : ℝ) ≠ [demoGeom][b].tackMounting.z := by
  obtain ⟨r, hr, -, hv, -⟩ := Demo.vlm_ok2
  have hsh : Shaped [demoGeom] 1 r.flowArrays :=
    vlm_shaped hr (by simp) (by rw [Demo.input2_panels]; rfl)
  obtain ⟨res, hres, -⟩ := inviscidFlow_ok hsh.nonempty ⟨0, 0, 0⟩ _ hsh.force hsh.cp
  obtain ⟨-, -, -, hinl, -⟩ := (vlm_ok_iff _ r).1 hr
  have hw : r.inlet.winds = Demo.wind := by
    have := (inletConditions_ok_iff _ _ _ _).1 hinl
    rw [this.2.2]; rfl
  refine ⟨r, _, res, _, hr, by rw [sailSet, if_neg (by simp)], ?_, by simp [demoGeom],
    by simp [demoGeom], hres, by rw [hw]; rfl, ?_, ?_⟩
  · rw [Demo.input2_panels]; simp [demoGeom]
  · intro b hb
    have hb0 : b = 0 := by simpa using hb
    subst hb0
    simp only [demo_reverse, hv]
    refine ⟨⟨0, by norm_num, .inl ?_⟩, ?_⟩
    · simp [row, Demo.vars]
    · rintro z ⟨k, hk, h⟩
      have hk0 : k = 0 := by omega
      subst hk0
      rcases h with rfl | rfl
      · simp [row, Demo.vars]
      · simp [row, Demo.vars, PanelVars.mirrored, mirror]; norm_num
  · intro b hb
    have hb0 : b = 0 := by simpa using hb
    subst hb0
    norm_num [demoGeom]

/-! ## C54 -/

theorem arctanRatio_pos {x y : ℝ} (hx : 0 < x) : arctanRatio y x = .ok (arctan2 y x) := by
  have hc : 0 < Real.cos (Real.arctan (y / x)) := Real.cos_arctan_pos _
  have ht := Real.tan_arctan (y / x)
  rw [Real.tan_eq_sin_div_cos] at ht
  have h1 := Real.neg_pi_div_two_lt_arctan (y / x)
  have h2 := Real.arctan_lt_pi_div_two (y / x)
  have hp := Real.pi_pos
  rw [arctanRatio, if_neg hx.ne', arctan2_eq (ρ := x / Real.cos (Real.arctan (y / x)))
    (θ := Real.arctan (y / x)) (div_pos hx hc)]
  · field_simp
  · rw [div_mul_eq_mul_div, mul_div_assoc, ht]; field_simp
  · linarith
  · linarith

theorem arctanRatio_neg {x y : ℝ} (hx : x < 0) : arctanRatio y x =
    .ok (if 0 ≤ y then arctan2 y x - Real.pi else arctan2 y x + Real.pi) := by
  have hc : 0 < Real.cos (Real.arctan (y / x)) := Real.cos_arctan_pos _
  have ht := Real.tan_arctan (y / x)
  rw [Real.tan_eq_sin_div_cos] at ht
  have h1 := Real.neg_pi_div_two_lt_arctan (y / x)
  have h2 := Real.arctan_lt_pi_div_two (y / x)
  have hp := Real.pi_pos
  rw [arctanRatio, if_neg hx.ne]
  have hy : -(x / Real.cos (Real.arctan (y / x))) * -Real.sin (Real.arctan (y / x)) = y := by
    rw [neg_mul_neg, div_mul_eq_mul_div, mul_div_assoc, ht, mul_div_cancel₀ _ hx.ne]
  have hxx : -(x / Real.cos (Real.arctan (y / x))) * -Real.cos (Real.arctan (y / x)) = x := by
    field_simp
  have hρ : 0 < -(x / Real.cos (Real.arctan (y / x))) := by
    rw [neg_pos]; exact div_neg_of_neg_of_pos hx hc
  split_ifs with h
  · rw [arctan2_eq (θ := Real.arctan (y / x) + Real.pi) hρ]
    · congr 1; ring
    · rw [Real.cos_add_pi, hxx]
    · rw [Real.sin_add_pi, hy]
    · linarith
    · have : Real.arctan (y / x) ≤ 0 := by
        rw [← Real.arctan_zero]
        exact Real.arctan_mono (div_nonpos_of_nonneg_of_nonpos h hx.le)
      linarith
  · rw [arctan2_eq (θ := Real.arctan (y / x) - Real.pi) hρ]
    · congr 1; ring
    · rw [Real.cos_sub_pi, hxx]
    · rw [Real.sin_sub_pi, hy]
    · have : 0 < Real.arctan (y / x) := by
        rw [← Real.arctan_zero]
        exact Real.arctan_strictMono (div_pos_of_neg_of_neg (not_le.1 h) hx)
      linarith
    · linarith

theorem arctanRatio_zero {y : ℝ} (hy : y ≠ 0) : arctanRatio y 0 = .ok (arctan2 y 0) := by
  have hp := Real.pi_pos
  rw [arctanRatio, if_pos rfl, if_neg hy]
  rcases lt_or_gt_of_ne hy with h | h
  · rw [if_neg (not_lt.2 h.le), arctan2_eq (ρ := -y) (θ := -(Real.pi / 2)) (by linarith)] <;>
      first | (simp; done) | linarith
  · rw [if_pos h, arctan2_eq (ρ := y) (θ := Real.pi / 2) h] <;> first | (simp; done) | linarith

/-- The cell `AWA_fs_COG_deg` of row `k`. -/
theorem awa_cell {sails : List SailGeom} {csys : Csys} {a : FlowArrays} {res : FlowResults}
    (h : inviscidFlow sails csys a = .ok res) {k : ℕ} (hk : k < a.vFsCp.length) :
    res.toDfFull.cell "AWA_fs_COG_deg" k =
      some (.ofPy ((arctanRatio (row a.vFsCp k).y (row a.vFsCp k).x).map rad2deg)) := by
  obtain ⟨-, -, -, -, -, -, f7, -⟩ := inviscidFlow_fields h
  simp [Frame.cell, FlowResults.toDfFull, vecColumns, f7, row_get hk]

/-- **C54**, partial: the column `AWA_fs_COG_deg` of the results is the direction of the local apparent
wind in the horizontal plane (the `arctan2` angle which `AWA_infs_COG_deg` uses) exactly for the panels
where the flow does not come from behind (`V.x > 0`, or `V.x = 0` with a transverse component).
Missing: `V.x < 0`, where the column is off by 180 degrees, see `C54_refuted`. -/
theorem C54_direction_partial (sails : List SailGeom) (csys : Csys) (a : FlowArrays) (res : FlowResults)
    (h : inviscidFlow sails csys a = .ok res) (k : ℕ) (hk : k < a.vFsCp.length) (V : V3)
    (hV : V = row a.vFsCp k) :
    PointsAlong ⟨V.x, V.y, 0⟩ (arctan2 V.y V.x) ∧
    (res.toDfFull.cell "AWA_fs_COG_deg" k = some (.num (rad2deg (arctan2 V.y V.x))) ↔
      0 < V.x ∨ (V.x = 0 ∧ V.y ≠ 0)) ∧
    (V.x < 0 → res.toDfFull.cell "AWA_fs_COG_deg" k =
      some (.num (rad2deg (arctan2 V.y V.x) + if 0 ≤ V.y then -180 else 180))) ∧
    (V.x = 0 → V.y = 0 → res.toDfFull.cell "AWA_fs_COG_deg" k = some .nan) := by
  rw [awa_cell h hk, ← hV]
  have hp := Real.pi_pos
  have hneg : V.x < 0 → Cell.ofPy ((arctanRatio V.y V.x).map rad2deg) =
      .num (rad2deg (arctan2 V.y V.x) + if 0 ≤ V.y then -180 else 180) := by
    intro hx
    rw [arctanRatio_neg hx]
    simp only [Except.map, Cell.ofPy]
    congr 1
    unfold rad2deg
    split_ifs <;> field_simp <;> ring
  refine ⟨pointsAlong_arctan2 ⟨V.x, V.y, 0⟩ rfl, ⟨fun he => ?_, ?_⟩, fun hx => ?_, fun hx hy => ?_⟩
  · rcases lt_trichotomy V.x 0 with hx | hx | hx
    · rw [hneg hx] at he
      simp at he
      split_ifs at he <;> linarith
    · refine .inr ⟨hx, fun hy => ?_⟩
      rw [hx, hy] at he
      simp [arctanRatio, Except.map, Cell.ofPy] at he
    · exact .inl hx
  · rintro (hx | ⟨hx, hy⟩)
    · rw [arctanRatio_pos hx]; rfl
    · rw [hx, arctanRatio_zero hy]; rfl
  · rw [hneg hx]
  · rw [hx, hy]; simp [arctanRatio, Except.map, Cell.ofPy]

/-- The flow arrays of one panel and its mirror image with local velocity `V` at both. -/
def oneVelocity (V : V3) : FlowArrays where
  gamma := []
  pressure := []
  vIndCp := []
  vFsCp := [V, V]
  force := [⟨1, 0, 0⟩, ⟨1, 0, 0⟩]
  cp := [⟨0, 0, 1⟩, ⟨0, 0, -1⟩]

/-- Non-vacuity of `C54_direction_partial`. -/
theorem oneVelocity_ok (V : V3) :
    ∃ res, inviscidFlow [namedSail "jib"] ⟨0, 0, 0⟩ (oneVelocity V) = .ok res := by
  have hs : Shaped [namedSail "jib"] 1 (oneVelocity V) := ⟨by simp, rfl, rfl⟩
  obtain ⟨res, hr, -⟩ := inviscidFlow_ok hs.nonempty ⟨0, 0, 0⟩ _ hs.force hs.cp
  exact ⟨res, hr⟩

/-- **C54 refuted** in general: for a local velocity along the negative x axis the column contains 0
and not 180 degrees. -/
theorem C54_refuted : ¬ ∀ (sails : List SailGeom) (csys : Csys) (a : FlowArrays) (res : FlowResults)
    (k : ℕ) (θ : ℝ), inviscidFlow sails csys a = .ok res → k < a.vFsCp.length →
    row a.vFsCp k ≠ 0 → -Real.pi < θ → θ ≤ Real.pi →
    PointsAlong ⟨(row a.vFsCp k).x, (row a.vFsCp k).y, 0⟩ θ →
    res.toDfFull.cell "AWA_fs_COG_deg" k = some (.num (rad2deg θ)) := by
  intro hall
  obtain ⟨res, hr⟩ := oneVelocity_ok ⟨-1, 0, 0⟩
  obtain ⟨h1, h2, -⟩ := C54_direction_partial _ _ _ res hr 0 (by simp [oneVelocity]) ⟨-1, 0, 0⟩
    (by simp [oneVelocity, row])
  have := h2.1 (hall _ _ _ res 0 (arctan2 0 (-1)) hr (by simp [oneVelocity])
    (by simp [oneVelocity, row, V3.ext_iff]) (arctan2_range _ _).1 (arctan2_range _ _).2 h1)
  norm_num at this

end PySailing.Props
