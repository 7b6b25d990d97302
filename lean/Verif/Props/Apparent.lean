import Verif.Spec.Apparent
import Verif.Props.SameWind
import Verif.Props.Keel

/-!
# C152: the sails feel the apparent wind only
-/

namespace PySailing.Props

open PySailing Spec

/-- The true wind that belongs to an apparent wind. -/
def trueOf (w : WindObj) (a : V3) : V3 := ⟨a.x - w.vYacht, a.y, a.z⟩

theorem trueOf_appInfs (w : WindObj) (v : V3) : trueOf w (w.appInfs v) = v := by
  ext <;> simp [trueOf, WindObj.appInfs]

/-- The same apparent wind, as felt in another true wind. -/
noncomputable def felt (w : WindObj) (i : Inlet) : Inlet :=
  { i with winds := w, twsAtCp := i.vAppInfs.map (trueOf w), twsLength := (i.vAppInfs.map (trueOf w)).map V3.norm }

theorem mapM_map_except {α β γ : Type} (f : α → Py β) (g : β → γ) (l : List α) :
    (l.mapM fun a => (f a).map g) = (l.mapM f).map (List.map g) := by
  induction l with
  | nil => rfl
  | cons a l ih =>
    simp only [List.mapM_cons]
    cases f a with
    | error e => rfl
    | ok b =>
      simp only [Except.map, bind, Except.bind] at ih ⊢
      rw [ih]
      cases l.mapM f <;> rfl

theorem inlet_apparent {w w' : WindObj}
    (h : ∀ z, 0 ≤ z → (w.trueWindAt z).map w.appInfs = (w'.trueWindAt z).map w'.appInfs) (rho : ℝ) (cps : List V3) :
    inletConditions w rho cps = (inletConditions w' rho cps).map (felt w) := by
  have key : (cps.mapM fun p : V3 => w.trueWindAt |p.z|).map (List.map w.appInfs) =
      (cps.mapM fun p : V3 => w'.trueWindAt |p.z|).map (List.map w'.appInfs) := by
    rw [← mapM_map_except, ← mapM_map_except]
    congr 1
    exact funext fun p => h _ (abs_nonneg _)
  unfold inletConditions
  cases h1 : cps.mapM fun p : V3 => w.trueWindAt |p.z| with
  | error e =>
    cases h2 : cps.mapM fun p : V3 => w'.trueWindAt |p.z| with
    | error e' =>
      rw [h1, h2] at key
      obtain rfl : e = e' := by simpa [Except.map] using key
      rfl
    | ok t' => rw [h1, h2] at key; cases key
  | ok t =>
    cases h2 : cps.mapM fun p : V3 => w'.trueWindAt |p.z| with
    | error e' => rw [h1, h2] at key; cases key
    | ok t' =>
      rw [h1, h2] at key
      have key : t.map w.appInfs = t'.map w'.appInfs := Except.ok.inj key
      have hnil : t = [] ↔ t' = [] := by
        rw [← List.map_eq_nil_iff (f := w.appInfs), key, List.map_eq_nil_iff]
      have ht : (t'.map w'.appInfs).map (trueOf w) = t := by
        rw [← key, List.map_map]
        conv_rhs => rw [← List.map_id t]
        exact List.map_congr_left fun v _ => trueOf_appInfs w v
      simp only [bind, Except.bind]
      by_cases hz : t' = []
      · rw [if_pos hz, if_pos (hnil.2 hz)]; rfl
      · rw [if_neg hz, if_neg fun e => hz (hnil.1 e)]
        simp only [Except.map, felt, ht, key]

/-- The same solver result in another true wind. -/
noncomputable def feltVlm (w : WindObj) (r : Vlm) : Vlm :=
  ⟨{ r.input with wind := w }, r.areas, r.vars, felt w r.inlet, r.sol⟩

theorem vlm_apparent {w : WindObj} (a : VlmInput)
    (h : ∀ z, 0 ≤ z → (w.trueWindAt z).map w.appInfs = (a.wind.trueWindAt z).map a.wind.appInfs) :
    vlm { a with wind := w } = (vlm a).map (feltVlm w) := by
  unfold vlm
  simp only [inlet_apparent h, nanTrap_map]
  cases nanTrap (calculateVlmVariables a.panels a.te a.g a.nc a.ns) with
  | error e => rfl
  | ok vars =>
    simp only [bind, Except.bind]
    cases nanTrap (inletConditions a.wind a.rho (vars.map PanelVars.cp)) with
    | error e => rfl
    | ok i =>
      simp only [Except.map]
      have : vlmSolve { a with wind := w } vars (felt w i).vAppInfs = vlmSolve a vars i.vAppInfs := rfl
      rw [this]
      cases vlmSolve a vars i.vAppInfs <;> rfl

/-- Everything prepared for the output, in another true wind. -/
noncomputable def feltRun (w : WindObj) (p : Prepared) : Prepared := { p with vlm := feltVlm w p.vlm }

theorem prepare_apparent (spline : SplineFn) (c : Config) (w : WindConditions)
    (h : ∀ z, 0 ≤ z → ((windGetProfile w).trueWindAt z).map (windGetProfile w).appInfs =
      ((windGetProfile c.wind).trueWindAt z).map (windGetProfile c.wind).appInfs)
    (hp : windPostInit w = windPostInit c.wind) :
    prepare spline { c with wind := w } = (prepare spline c).map (feltRun (windGetProfile w)) := by
  unfold prepare prepareGeometry
  simp only [hp]
  cases mainSailInit c.main with
  | error e => rfl
  | ok m =>
  cases jibSailInit c.jib with
  | error e => rfl
  | ok j =>
  simp only [bind, Except.bind]
  cases csysInit c.heelDeg c.leewayDeg c.vRef with
  | error e => rfl
  | ok cs =>
  simp only []
  cases windPostInit c.wind with
  | error e => rfl
  | ok _ =>
  simp only []
  cases sailPostInit c.rig (some m) (some j) with
  | error e => rfl
  | ok _ =>
  simp only []
  cases sailSetOf spline c.solver c.rig (some m) (some j) cs with
  | error e => rfl
  | ok set =>
  simp only []
  cases need c.rig.base with
  | error e => rfl
  | ok b =>
  simp only []
  cases hullGeometry c.rig.sheer b cs c.clrUpright with
  | error e => rfl
  | ok hull =>
  simp only []
  have e1 : Config.vlmInput { c with wind := w } set (windGetProfile w) =
      { c.vlmInput set (windGetProfile c.wind) with wind := windGetProfile w } := rfl
  rw [e1, vlm_apparent (c.vlmInput set (windGetProfile c.wind)) h]
  cases vlm (c.vlmInput set (windGetProfile c.wind)) with
  | error e => rfl
  | ok r =>
  simp only [Except.map]
  rw [show (feltVlm (windGetProfile w) r).flowArrays = r.flowArrays from rfl]
  cases inviscidFlow set.sails cs r.flowArrays <;> rfl

/-! ## The table -/

/-- Names and lengths of the columns. -/
def columnSizes (t : Frame) : List (String × ℕ) := t.map fun c => (c.1, c.2.length)

/-- A table without the columns of the true wind. -/
def noTrueWind (t : Frame) : Frame := t.filter fun c => c.1 ∉ trueWindColumns

theorem concat_noTrueWind {a b : List Frame} (h1 : columnSizes a.flatten = columnSizes b.flatten)
    (h2 : noTrueWind a.flatten = noTrueWind b.flatten) :
    noTrueWind (concatFrames a) = noTrueWind (concatFrames b) := by
  have hn : (a.flatten.map fun c => c.2.length) = b.flatten.map fun c => c.2.length := by
    have := congrArg (List.map Prod.snd) h1
    simpa only [columnSizes, List.map_map, Function.comp_def] using this
  unfold concatFrames noTrueWind at *
  simp only [hn, List.filter_map, Function.comp_def]
  rw [h2]

theorem concat_middle (A C D E : Frame) {B B' : Frame} (h1 : columnSizes B = columnSizes B') (h2 : noTrueWind B = noTrueWind B') :
    noTrueWind (concatFrames [A, B, C, D, E]) = noTrueWind (concatFrames [A, B', C, D, E]) := by
  refine concat_noTrueWind ?_ ?_
  · simp only [List.flatten_cons, columnSizes, List.map_append] at h1 ⊢
    rw [h1]
  · simp only [List.flatten_cons, noTrueWind, List.filter_append] at h2 ⊢
    rw [h2]

theorem inlet_columns (w : WindObj) (i : Inlet) (cs : Csys) (h : i.twsAtCp.length = i.vAppInfs.length)
    (h' : i.twsLength.length = i.vAppInfs.length) :
    columnSizes ((felt w i).toDfFull cs).firstHalf = columnSizes (i.toDfFull cs).firstHalf ∧
      noTrueWind ((felt w i).toDfFull cs).firstHalf = noTrueWind (i.toDfFull cs).firstHalf := by
  constructor
  · simp [columnSizes, Frame.firstHalf, Inlet.toDfFull, felt, vecColumns, h, h']
  · simp [noTrueWind, Frame.firstHalf, Inlet.toDfFull, felt, vecColumns, trueWindColumns]

/-! ## The picture -/

theorem chunksOf_map {α β : Type} (f : α → β) (l : List ℕ) (xs : List α) :
    chunksOf (xs.map f) l = (chunksOf xs l).map (List.map f) := by
  induction l generalizing xs with
  | nil => rfl
  | cons n l ih => simp only [chunksOf, List.map_cons, ← List.map_drop, ih, List.map_take]

theorem sliceStep_map {α β : Type} (f : α → β) (xs : List α) (n : ℕ) :
    sliceStep (xs.map f) n = (sliceStep xs n).map f := by
  unfold sliceStep
  rw [List.length_map, List.map_filterMap]
  congr 1
  funext i
  split_ifs <;> simp

theorem firstRows_map {α β : Type} (f : α → β) (xs : List α) (nc l : ℕ) :
    firstRows (xs.map f) nc l = (firstRows xs nc l).map (List.map f) := by
  unfold firstRows npSplit
  rw [List.length_map]
  split_ifs
  · rfl
  · simp [bind, Except.bind, Except.map, chunksOf_map, sliceStep_map, List.map_flatten]
  · rfl

theorem idx_map {α β : Type} (f : α → β) (xs : List α) (i : ℕ) : idx (xs.map f) i = (idx xs i).map f := by
  unfold idx
  rw [List.getElem?_map]
  cases xs[i]? <;> rfl

/-- The arrows of the true wind are drawn in the same way, whatever it is. -/
theorem windLoop_green (colors : List String) (cps : List V3) (ns : ℕ) (a : List V3) (f g : V3 → V3) (st : WindLoop)
    (is : List ℕ) :
    (∃ e, windLoop colors cps ns (a.map f) "green" st is = .error e ∧
      windLoop colors cps ns (a.map g) "green" st is = .error e) ∨
    ∃ s x y, windLoop colors cps ns (a.map f) "green" st is = .ok (s, x) ∧
      windLoop colors cps ns (a.map g) "green" st is = .ok (s, y) ∧
      (∀ t ∈ x, t.color = "green") ∧ ∀ t ∈ y, t.color = "green" := by
  induction is generalizing st with
  | nil => exact .inr ⟨st, [], [], rfl, rfl, by simp, by simp⟩
  | cons i is ih =>
    have hs : windStart colors cps ns "green" st i = .ok (st, "green") := by
      unfold windStart
      rw [if_neg (by decide)]
    simp only [windLoop, windStep, hs, idx_map, bind, Except.bind]
    cases idx a i with
    | error e => exact .inl ⟨e, rfl, rfl⟩
    | ok v =>
      simp only [Except.map]
      cases idx cps i with
      | error e => exact .inl ⟨e, rfl, rfl⟩
      | ok p =>
        simp only []
        rcases ih st with ⟨e, e1, e2⟩ | ⟨s, x, y, e1, e2, e3, e4⟩
        · rw [e1, e2]; exact .inl ⟨e, rfl, rfl⟩
        · rw [e1, e2]
          refine .inr ⟨s, _, _, rfl, rfl, ?_, ?_⟩
          · simpa using e3
          · simpa using e4

theorem displayWinds_felt (n : ℕ) (water : ℤ) (i : Inlet) (w w' : WindObj) (ind : List V3) (ns nc : ℕ) :
    (displayWinds n water (felt w i) ind ns nc false).map (List.filter fun a => a.color ≠ "green") =
      (displayWinds n water (felt w' i) ind ns nc false).map (List.filter fun a => a.color ≠ "green") := by
  unfold displayWinds windsToDraw
  by_cases h0 : ns * nc = 0
  · simp only [h0, if_true]
  simp only [h0, if_false, Bool.false_eq_true, show (felt w i).twsAtCp = i.vAppInfs.map (trueOf w) from rfl,
    show (felt w' i).twsAtCp = i.vAppInfs.map (trueOf w') from rfl, firstRows_map,
    show ∀ w, (felt w i).vAppInfs = i.vAppInfs from fun _ => rfl,
    show ∀ w, (felt w i).cpPoints = i.cpPoints from fun _ => rfl,
    show ∀ w, (felt w i).awaInfsDeg = i.awaInfsDeg from fun _ => rfl]
  cases firstRows i.vAppInfs nc (n / (ns * nc)) with
  | error e => rfl
  | ok a =>
  simp only [Except.map, bind, Except.bind]
  cases firstRows i.cpPoints nc (n / (ns * nc)) with
  | error e => rfl
  | ok cps =>
  simp only [drawWinds, assertShapes, List.all_cons, List.all_nil, List.length_map, bind, Except.bind]
  split_ifs
  · simp only [windLoops, bind, Except.bind]
    rcases windLoop_green (inducedColors (n / (ns * nc))) cps ns a (trueOf w) (trueOf w')
      ⟨-0.925 * water * Real.cos (deg2rad (i.awaInfsDeg.sum / i.awaInfsDeg.length)),
        -0.925 * water * Real.sin (deg2rad (i.awaInfsDeg.sum / i.awaInfsDeg.length)), 0⟩
      (List.range (ns * (n / (ns * nc)))) with ⟨e, e1, e2⟩ | ⟨s, x, y, e1, e2, e3, e4⟩
    · rw [e1, e2]
    · rw [e1, e2]
      simp only []
      cases windLoop (inducedColors (n / (ns * nc))) cps ns a "blue" s (List.range (ns * (n / (ns * nc)))) with
      | error e => rfl
      | ok b =>
        have f1 : x.filter (fun a => decide (a.color ≠ "green")) = [] := List.filter_eq_nil_iff.2 (by simpa using e3)
        have f2 : y.filter (fun a => decide (a.color ≠ "green")) = [] := List.filter_eq_nil_iff.2 (by simpa using e4)
        simp only [List.filter_append, f1, f2]
  all_goals rfl

theorem prepared_felt {spline : SplineFn} {c : Config} {p : Prepared} (h : prepare spline c = .ok p) :
    p.vlm = feltVlm (windGetProfile c.wind) p.vlm := by
  have := prepare_apparent spline c c.wind (fun _ _ => rfl) rfl
  rw [show ({ c with wind := c.wind } : Config) = c from rfl, h] at this
  exact congrArg Prepared.vlm (Except.ok.inj this)

/-- **C152.**  Two winds with the same apparent wind on board at every height above the water, however it is made up of true wind and speed
of the yacht, give the same output, in the same order and with the same end of the program, apart from the columns, the sheet
and the arrows that show the true wind. -/
theorem C152_apparent (spline : SplineFn) (c : Config) (w : WindConditions) (h : ∀ z, 0 ≤ z → apparentAt w z = apparentAt c.wind z)
    (hp : windPostInit w = windPostInit c.wind)
    (hi : ∀ csys, ∃ t, windIntegral (windGetProfile w) csys = .ok t)
    (hi' : ∀ csys, ∃ t, windIntegral (windGetProfile c.wind) csys = .ok t) :
    (run spline { c with wind := w }).1.map withoutTrueWind = (run spline c).1.map withoutTrueWind ∧
      (run spline { c with wind := w }).2 = (run spline c).2 := by
  have happ : ∀ w : WindConditions, (windGetProfile w).appInfs = fun v => v + ⟨w.sog, 0, 0⟩ := by
    intro w
    funext v
    ext <;> simp [WindObj.appInfs, windGetProfile]
  have h' : ∀ z, 0 ≤ z → ((windGetProfile w).trueWindAt z).map (windGetProfile w).appInfs =
      ((windGetProfile c.wind).trueWindAt z).map (windGetProfile c.wind).appInfs := by
    intro z hz
    rw [happ, happ]
    exact h z hz
  unfold run
  rw [prepare_apparent spline c w h' hp]
  cases hpc : prepare spline c with
  | error e => exact ⟨rfl, rfl⟩
  | ok p =>
    have hf := prepared_felt hpc
    simp only [Except.map]
    refine emit_without ?_
    unfold outputSteps
    refine .cons ?_ (.cons rfl (.cons ?_ (.cons rfl (.cons rfl (.cons rfl .nil)))))
    · have hl : p.vlm.inlet.twsAtCp.length = p.vlm.inlet.vAppInfs.length := by
        rw [congrArg (fun r => r.inlet.twsAtCp.length) hf]
        simp [feltVlm, felt]
      have hl' : p.vlm.inlet.twsLength.length = p.vlm.inlet.vAppInfs.length := by
        rw [congrArg (fun r => r.inlet.twsLength.length) hf]
        simp [feltVlm, felt]
      obtain ⟨k1, k2⟩ := inlet_columns (windGetProfile w) p.vlm.inlet p.csys hl hl'
      obtain ⟨t, ht⟩ := hi p.csys
      obtain ⟨t', ht'⟩ := hi' p.csys
      rw [← prepare_winds hpc] at ht'
      unfold saveResults
      rw [show (feltRun (windGetProfile w) p).vlm = feltVlm (windGetProfile w) p.vlm from rfl,
        show (feltRun (windGetProfile w) p).csys = p.csys from rfl, show (feltRun (windGetProfile w) p).set = p.set from rfl,
        show (feltRun (windGetProfile w) p).flow = p.flow from rfl,
        show (feltVlm (windGetProfile w) p.vlm).inlet = felt (windGetProfile w) p.vlm.inlet from rfl,
        show (felt (windGetProfile w) p.vlm.inlet).winds = windGetProfile w from rfl, ht, ht',
        show (feltVlm (windGetProfile w) p.vlm).vars = p.vlm.vars from rfl]
      simp only [bind, Except.bind]
      cases cpGirthsAll p.set.sails p.csys (p.vlm.vars.map PanelVars.cp) with
      | error e => cases e <;> rfl
      | ok g =>
      simp only []
      cases cpGirthsAbove g.1 p.set.sails with
      | error e => cases e <;> rfl
      | ok ga =>
      simp only []
      cases arraySplit g.2 (2 * p.set.sails.length) with
      | error e => cases e <;> rfl
      | ok parts =>
      simp only [nanAsNone, Except.map, withoutTrueWind]
      have key := concat_middle p.flow.res.toDfFull.firstHalf [("cp_points_upright.z", (everySecond parts).flatten.map fun q => .num q.z)]
        [("girths", ga.1.map .num)] [("sail_name", ga.2.map .text)] k1 k2
      unfold noTrueWind at key
      rw [key]
    · unfold displayScene
      rw [show (feltRun (windGetProfile w) p).vlm = feltVlm (windGetProfile w) p.vlm from rfl,
        show (feltRun (windGetProfile w) p).flow = p.flow from rfl, show (feltRun (windGetProfile w) p).hull = p.hull from rfl]
      simp only [Bool.false_eq_true, if_false]
      rw [show displayPanels (feltVlm (windGetProfile w) p.vlm) "p_coeffs" = displayPanels p.vlm "p_coeffs" from rfl,
        show (feltVlm (windGetProfile w) p.vlm).vars = p.vlm.vars from rfl,
        show (feltVlm (windGetProfile w) p.vlm).inlet = felt (windGetProfile w) p.vlm.inlet from rfl,
        show (feltVlm (windGetProfile w) p.vlm).input.ns = p.vlm.input.ns from rfl,
        show (feltVlm (windGetProfile w) p.vlm).input.nc = p.vlm.input.nc from rfl]
      cases displayPanels p.vlm "p_coeffs" with
      | error e => cases e <;> rfl
      | ok P =>
      simp only [bind, Except.bind]
      have hin : p.vlm.inlet = felt (windGetProfile c.wind) p.vlm.inlet := congrArg Vlm.inlet hf
      have hw := displayWinds_felt p.vlm.vars.length P.water p.vlm.inlet (windGetProfile w) (windGetProfile c.wind)
        p.flow.res.vInd p.vlm.input.ns p.vlm.input.nc
      rw [← hin] at hw
      revert hw
      cases displayWinds p.vlm.vars.length P.water (felt (windGetProfile w) p.vlm.inlet) p.flow.res.vInd p.vlm.input.ns
          p.vlm.input.nc false with
      | error e =>
        cases displayWinds p.vlm.vars.length P.water p.vlm.inlet p.flow.res.vInd p.vlm.input.ns p.vlm.input.nc false with
        | error e' =>
          intro hw
          obtain rfl : e = e' := by simpa [Except.map] using hw
          rfl
        | ok W' => intro hw; cases hw
      | ok W =>
        cases displayWinds p.vlm.vars.length P.water p.vlm.inlet p.flow.res.vInd p.vlm.input.ns p.vlm.input.nc false with
        | error e' => intro hw; cases hw
        | ok W' =>
          intro hw
          have hw := Except.ok.inj hw
          simp only []
          cases displayCeClr p.flow.res p.hull with
          | error e => cases e <;> rfl
          | ok f =>
            simp only [nanAsNone, Except.map, withoutTrueWind]
            rw [hw]

/-- **C152, uniform wind.**  With the flat profile only the sum of the true wind and the head wind of the yacht's own speed
matters. -/
theorem C152_flat (spline : SplineFn) (c : Config) (hc : c.wind.profile = "flat") (alphaDeg tws sog : ℝ)
    (hx : tws * Real.cos (alphaDeg / 180 * Real.pi) + sog =
      c.wind.twsRef * Real.cos (c.wind.alphaDeg / 180 * Real.pi) + c.wind.sog)
    (hy : tws * Real.sin (alphaDeg / 180 * Real.pi) = c.wind.twsRef * Real.sin (c.wind.alphaDeg / 180 * Real.pi)) :
    (run spline { c with wind := { c.wind with alphaDeg := alphaDeg, twsRef := tws, sog := sog } }).1.map withoutTrueWind =
        (run spline c).1.map withoutTrueWind ∧
      (run spline { c with wind := { c.wind with alphaDeg := alphaDeg, twsRef := tws, sog := sog } }).2 = (run spline c).2 := by
  have hd : ∀ a : ℝ, deg2rad a = a / 180 * Real.pi := by intro a; simp only [deg2rad]; ring
  refine C152_apparent spline c _ ?_ rfl ?_ ?_
  · intro z _
    simp only [apparentAt, windGetProfile, WindObj.trueWindAt, hc, String.reduceEq, if_true, if_false, Except.map,
      WindObj.lengthToXyz, WindObj.alpha, hd]
    congr 1
    ext
    · simpa using hx
    · simpa using hy
    · simp
  · intro csys
    simp only [windGetProfile, hc, String.reduceEq, if_true, if_false, windIntegral]
    exact ⟨_, rfl⟩
  · intro csys
    simp only [windGetProfile, hc, String.reduceEq, if_true, if_false, windIntegral]
    exact ⟨_, rfl⟩

/-- Non-vacuity: the demonstration run (1 m/s from abeam, 1 m/s speed), which writes a workbook, and the yacht at rest in √2 m/s
at 45 degrees. -/
example (spline : SplineFn) : (∃ t, .workbook (some t) ∈ (run spline Demo.config).1) ∧
    (run spline { Demo.config with wind := { Demo.config.wind with alphaDeg := 45, twsRef := √2, sog := 0 } }).1.map
      withoutTrueWind = (run spline Demo.config).1.map withoutTrueWind := by
  refine ⟨demo_workbook spline, (C152_flat spline Demo.config rfl 45 (√2) 0 ?_ ?_).1⟩
  all_goals
    have e1 : (45 : ℝ) / 180 * Real.pi = Real.pi / 4 := by ring
    have e2 : (90 : ℝ) / 180 * Real.pi = Real.pi / 2 := by ring
    have e3 : Demo.config.wind = ⟨90, 1, 1, "flat", some 1, some 10, none, none⟩ := rfl
    have e4 : √2 * (√2 / 2) = (1 : ℝ) := by
      rw [← mul_div_assoc, Real.mul_self_sqrt (by norm_num)]; norm_num
    simp [e1, e2, e3, e4]

end PySailing.Props
