import Verif.Spec.CamberPlace
import Verif.Props.Straight

/-!
# C154: the place of the greatest camber of a sail without camber does not matter
-/

namespace PySailing.Props

open Spec

theorem airfoil_zero {p q : ℝ} (hp : Place p) (hq : Place q) (t : ℝ) (n : ℕ) : vlmAirfoil 0 p t n = vlmAirfoil 0 q t n := by
  have key : ∀ {p : ℝ}, Place p → ∀ x : ℝ, yCamber 0 p x = (if 0 ≤ x ∧ x ≤ 1 then .ok 0 else .error .valueError) ∧
      dyCamber 0 p x = (if 0 ≤ x ∧ x ≤ 1 then .ok 0 else .error .valueError) := by
    intro p hp x
    obtain ⟨h1, h2⟩ := hp
    norm_num at h2
    unfold yCamber dyCamber
    simp only [zero_mul, mul_zero, zero_div]
    by_cases hx : 0 ≤ x ∧ x ≤ 1
    · rw [if_pos hx]
      rcases lt_or_ge x p with h | h
      · rw [if_pos ⟨h, hx.1⟩]; exact ⟨rfl, rfl⟩
      · have n1 : ¬ (x < p ∧ x ≥ 0) := fun k => absurd k.1 (not_lt.2 h)
        rw [if_neg n1, if_pos ⟨h, hx.2⟩]; exact ⟨rfl, rfl⟩
    · have n1 : ¬ (x < p ∧ x ≥ 0) := fun k => hx ⟨k.2, by linarith [k.1]⟩
      have n2 : ¬ (x ≥ p ∧ x ≤ 1) := fun k => hx ⟨by linarith [k.1], k.2⟩
      rw [if_neg hx, if_neg n1, if_neg n2]; exact ⟨rfl, rfl⟩
  have e1 : yCamber 0 p = yCamber 0 q := funext fun x => by rw [(key hp x).1, (key hq x).1]
  have e2 : dyCamber 0 p = dyCamber 0 q := funext fun x => by rw [(key hp x).2, (key hq x).2]
  unfold vlmAirfoil
  rw [e1, e2]
  have a : ∀ {p : ℝ}, Place p → (p ≤ 0.9 ∧ p ≥ 0) := fun h => ⟨h.2, h.1⟩
  simp only [a hp, a hq]

theorem mesh_zero (sw nw : V3) (nc ns : ℕ) (chords : List ℝ) {d d' camber : List ℝ} (hl : d.length = d'.length)
    (hd : ∀ p ∈ d, Place p) (hd' : ∀ p ∈ d', Place p) (hc : ∀ x ∈ camber, x = 0) :
    makeAirfoilMesh sw nw nc ns chords d camber = makeAirfoilMesh sw nw nc ns chords d' camber := by
  have key : ∀ n r p1 p2, airfoilRow n d camber r p1 p2 = airfoilRow n d' camber r p1 p2 := by
    intro n r p1 p2
    unfold airfoilRow idx
    by_cases hr : r < d.length
    · rw [List.getElem?_eq_getElem hr, List.getElem?_eq_getElem (show r < d'.length from hl ▸ hr)]
      cases hcr : camber[r]? with
      | none => rfl
      | some m =>
        obtain rfl := hc m (List.mem_of_getElem? hcr)
        simp only [bind, Except.bind]
        rw [airfoil_zero (hd _ (List.getElem_mem hr)) (hd' _ (List.getElem_mem (hl ▸ hr)))]
    · rw [List.getElem?_eq_none (show d.length ≤ r by omega), List.getElem?_eq_none (show d'.length ≤ r by omega)]
  unfold makeAirfoilMesh
  simp only [key]

theorem geometry_zero (s : SailInput) {d' : List ℝ} (hl : s.distance.length = d'.length)
    (hd : ∀ p ∈ s.distance, Place p) (hd' : ∀ p ∈ d', Place p) (hc : ∀ x ∈ s.camber, x = 0) :
    sailGeometry { s with distance := d' } = sailGeometry s := by
  unfold sailGeometry
  simp only [mesh_zero _ _ _ _ _ hl hd hd' hc, mesh_zero _ _ _ _ _ hl hd hd' (fun x hx => hc x (List.mem_reverse.1 hx))]
  rfl

theorem interp1_range {lo hi : ℝ} (x : ℝ) (pts : List (ℝ × ℝ)) (hne : pts ≠ []) (h : ∀ q ∈ pts, lo ≤ q.2 ∧ q.2 ≤ hi) :
    lo ≤ interp1 x pts ∧ interp1 x pts ≤ hi := by
  induction pts with
  | nil => exact absurd rfl hne
  | cons a l ih =>
    cases l with
    | nil => exact h a (by simp)
    | cons b l =>
      obtain ⟨a, fa⟩ := a
      obtain ⟨b, fb⟩ := b
      have ha := h (a, fa) (by simp)
      have hb := h (b, fb) (by simp)
      simp only at ha hb
      simp only [interp1]
      split_ifs with h1 h2
      · exact ha
      · push Not at h2
        have hab : 0 < b - a := by linarith
        have e : (fb - fa) / (b - a) * (x - a) + fa = ((b - x) * fa + (x - a) * fb) / (b - a) := by
          field_simp; ring
        rw [e]
        constructor
        · rw [le_div_iff₀ hab]; nlinarith [mul_le_mul_of_nonneg_left ha.1 (by linarith : 0 ≤ b - x), mul_le_mul_of_nonneg_left hb.1 (by linarith : 0 ≤ x - a)]
        · rw [div_le_iff₀ hab]; nlinarith [mul_le_mul_of_nonneg_left ha.2 (by linarith : 0 ≤ b - x), mul_le_mul_of_nonneg_left hb.2 (by linarith : 0 ≤ x - a)]
      · exact ih (by simp) fun q hq => h q (List.mem_cons_of_mem _ hq)

theorem interpolate_place (spline : SplineFn) (g : List ℝ) {d d' : List ℝ} (n : ℕ) (hl : d.length = d'.length)
    (hd : ∀ p ∈ d, Place p) (hd' : ∀ p ∈ d', Place p) :
    (∃ e, interpolateGirths spline "linear" g d n = .error e ∧ interpolateGirths spline "linear" g d' n = .error e) ∨
    ∃ x y, interpolateGirths spline "linear" g d n = .ok x ∧ interpolateGirths spline "linear" g d' n = .ok y ∧
      x.length = y.length ∧ (∀ p ∈ x, Place p) ∧ ∀ p ∈ y, Place p := by
  unfold interpolateGirths npInterp
  simp only [if_true, hl]
  split_ifs with h1 h2
  · exact .inl ⟨_, rfl, rfl⟩
  · exact .inl ⟨_, rfl, rfl⟩
  · refine .inr ⟨_, _, rfl, rfl, by simp, ?_, ?_⟩
    all_goals
      intro p hp
      obtain ⟨x, -, rfl⟩ := List.mem_map.1 hp
      refine interp1_range x _ ?_ fun q hq => ?_
      · intro e
        have := congrArg List.length e
        rw [List.length_zip] at this
        have h3 := List.length_pos_iff.2 h1
        simp only [List.length_nil] at this
        omega
      · first
          | exact hd _ (List.of_mem_zip hq).2
          | exact hd' _ (List.of_mem_zip hq).2

/-- The interpolated data of a sail without camber, for two choices of the places of the greatest camber. -/
theorem interpolated_place (spline : SplineFn) {s : SolverConf} (hs : s.interpolation = "linear") {m : SailConf} (hf : Flat m)
    {d d' : List ℝ} (hm : m.distance = some d) (hl : d.length = d'.length) (hd : ∀ p ∈ d, Place p) (hd' : ∀ p ∈ d', Place p) :
    (∃ e, interpolatedSail spline s m = .error e ∧ interpolatedSail spline s { m with distance := some d' } = .error e) ∨
    ∃ ch tw ca x y, interpolatedSail spline s m = .ok (ch, tw, ca, x) ∧
      interpolatedSail spline s { m with distance := some d' } = .ok (ch, tw, ca, y) ∧
      x.length = y.length ∧ (∀ p ∈ x, Place p) ∧ (∀ p ∈ y, Place p) ∧ ∀ q ∈ ca, q = 0 := by
  unfold interpolatedSail
  simp only [hm, hs, needArray_some, bind, Except.bind]
  cases needArray "linear" m.girths with
  | error e => exact .inl ⟨e, rfl, rfl⟩
  | ok g =>
  simp only []
  cases needArray "linear" m.chords with
  | error e => exact .inl ⟨e, rfl, rfl⟩
  | ok ch =>
  simp only []
  cases interpolateGirths spline "linear" g ch (s.ns + 1) with
  | error e => exact .inl ⟨e, rfl, rfl⟩
  | ok ch' =>
  simp only []
  cases needArray "linear" m.twist with
  | error e => exact .inl ⟨e, rfl, rfl⟩
  | ok tw =>
  simp only []
  cases interpolateGirths spline "linear" g tw (s.ns + 1) with
  | error e => exact .inl ⟨e, rfl, rfl⟩
  | ok tw' =>
  simp only []
  cases h4 : m.camber with
  | none => exact .inl ⟨_, rfl, rfl⟩
  | some ca =>
  simp only [needArray_some]
  cases h5 : interpolateGirths spline "linear" g ca (s.ns + 1) with
  | error e => exact .inl ⟨e, rfl, rfl⟩
  | ok ca' =>
  simp only []
  rcases interpolate_place spline g (s.ns + 1) hl hd hd' with ⟨e, e1, e2⟩ | ⟨x, y, e1, e2, e3, e4, e5⟩
  · rw [e1, e2]; exact .inl ⟨e, rfl, rfl⟩
  · rw [e1, e2]
    exact .inr ⟨_, _, _, x, y, rfl, rfl, e3, e4, e5, interpolateGirths_zero (.inl rfl) (hf _ h4) h5⟩

theorem sailMain_place (spline : SplineFn) {s : SolverConf} (rig : RigConf) (csys : Csys) (hs : s.interpolation = "linear")
    {m : SailConf} (hf : Flat m) {d d' : List ℝ} (hm : m.distance = some d) (hl : d.length = d'.length)
    (hd : ∀ p ∈ d, Place p) (hd' : ∀ p ∈ d', Place p) :
    sailMain spline s rig (some { m with distance := some d' }) csys = sailMain spline s rig (some m) csys := by
  unfold sailMain
  simp only [attr, bind, Except.bind]
  rcases interpolated_place spline hs hf hm hl hd hd' with ⟨e, e1, e2⟩ | ⟨ch, tw, ca, x, y, e1, e2, e3, e4, e5, e6⟩
  · rw [e1, e2]
  · rw [e1, e2]
    simp only []
    cases need rig.mainLuff with
    | error e => rfl
    | ok luff =>
      simp only [SailFactory.makeMainSail]
      exact geometry_zero (d' := y) ⟨_, _, _, _, _, ch, some tw, some s.lltTwist, ca, x, "main_sail"⟩ e3 e4 e5 e6

theorem sailJib_place (spline : SplineFn) {s : SolverConf} (rig : RigConf) (csys : Csys) (hs : s.interpolation = "linear")
    {m : SailConf} (hf : Flat m) {d d' : List ℝ} (hm : m.distance = some d) (hl : d.length = d'.length)
    (hd : ∀ p ∈ d, Place p) (hd' : ∀ p ∈ d', Place p) :
    sailJib spline s rig (some { m with distance := some d' }) csys = sailJib spline s rig (some m) csys := by
  unfold sailJib
  simp only [attr, bind, Except.bind]
  rcases interpolated_place spline hs hf hm hl hd hd' with ⟨e, e1, e2⟩ | ⟨ch, tw, ca, x, y, e1, e2, e3, e4, e5, e6⟩
  · rw [e1, e2]
  · rw [e1, e2]
    simp only []
    cases need rig.jibLuff with
    | error e => rfl
    | ok luff =>
    simp only []
    cases need rig.base with
    | error e => rfl
    | ok base =>
    simp only []
    cases need rig.height with
    | error e => rfl
    | ok height =>
    simp only [SailFactory.makeJib, bind, Except.bind]
    split
    · rfl
    · exact geometry_zero (d' := y) ⟨_, _, _, _, _, ch, some tw, some s.lltTwist, ca, x, "jib"⟩ e3 e4 e5 e6

theorem withTwist_place (m : SailConf) (a b : ℝ) (d' : List ℝ) :
    ({ m with distance := some d' } : SailConf).withTwist a b = (m.withTwist a b).map fun x => { x with distance := some d' } := by
  obtain ⟨tw, g, ch, ca, di⟩ := m
  cases tw <;> cases g <;> rfl

theorem withTwist_same {m m' : SailConf} {a b : ℝ} (h : m.withTwist a b = .ok m') :
    m'.distance = m.distance ∧ m'.camber = m.camber := by
  unfold SailConf.withTwist at h
  split at h
  · cases h; exact ⟨rfl, rfl⟩
  · split at h
    · cases h; exact ⟨rfl, rfl⟩
    · cases h

theorem checkShapes_place (m : SailConf) {d d' : List ℝ} (hm : m.distance = some d) (hl : d.length = d'.length) :
    checkShapes ({ m with distance := some d' } : SailConf).arrays = checkShapes m.arrays := by
  have e : m.arrays = [m.girths, m.twist, m.camber, some d] := by simp only [SailConf.arrays, hm]
  rw [e]
  simp only [SailConf.arrays, checkShapes, List.foldlM, List.head?_cons]
  cases m.girths with
  | none => rfl
  | some g => simp only [hl]

theorem hasNone_place (m : SailConf) {d d' : List ℝ} (hm : m.distance = some d) (sc : List (Option ℝ)) (l : List (Option (List ℝ))) :
    hasNone sc ({ m with distance := some d' } : SailConf).arrays = hasNone sc m.arrays ∧
    hasNone sc (l ++ ({ m with distance := some d' } : SailConf).arrays) = hasNone sc (l ++ m.arrays) ∧
    hasNone sc (({ m with distance := some d' } : SailConf).arrays ++ l) = hasNone sc (m.arrays ++ l) := by
  simp [hasNone, SailConf.arrays, hm]

/-- **C154, main sail.**  The places of the greatest camber of a main sail without camber have no influence on anything a run
does, as long as they are acceptable and of the same number. -/
theorem C154_main (spline : SplineFn) (c : Config) (hs : c.solver.interpolation = "linear") (hf : Flat c.main) {d d' : List ℝ}
    (hm : c.main.distance = some d) (hl : d.length = d'.length) (hd : ∀ p ∈ d, Place p) (hd' : ∀ p ∈ d', Place p) :
    run spline { c with main := { c.main with distance := some d' } } = run spline c := by
  refine run_congr rfl ?_
  unfold prepare prepareGeometry
  simp only [mainSailInit, withTwist_place]
  cases hi : c.main.withTwist 12 5 with
  | error e => rfl
  | ok m =>
  obtain ⟨i1, i2⟩ := withTwist_same hi
  have hf' : Flat m := fun ca h => hf ca (i2 ▸ h)
  have hm' : m.distance = some d := i1.trans hm
  have e3 : ∀ j, sailPostInit c.rig (some { m with distance := some d' }) (some j) = sailPostInit c.rig (some m) (some j) := by
    intro j
    unfold sailPostInit sailChecks
    simp only [boundLocal, bind, Except.bind, checkShapes_place m hm' hl, (hasNone_place m hm' _ []).1,
      (hasNone_place m hm' _ _).2.1]
  have e4 : ∀ j csys, sailSetOf spline c.solver c.rig (some { m with distance := some d' }) j csys =
      sailSetOf spline c.solver c.rig (some m) j csys := by
    intro j csys
    unfold sailSetOf selectedMain
    rw [sailMain_place spline c.rig csys hs hf' hm' hl hd hd']
  simp only [bind, Except.bind, Except.map, e3, e4]
  rfl

/-- **C154, jib.**  The same for the jib. -/
theorem C154_jib (spline : SplineFn) (c : Config) (hs : c.solver.interpolation = "linear") (hf : Flat c.jib) {d d' : List ℝ}
    (hm : c.jib.distance = some d) (hl : d.length = d'.length) (hd : ∀ p ∈ d, Place p) (hd' : ∀ p ∈ d', Place p) :
    run spline { c with jib := { c.jib with distance := some d' } } = run spline c := by
  refine run_congr rfl ?_
  unfold prepare prepareGeometry
  simp only [jibSailInit, withTwist_place]
  cases mainSailInit c.main with
  | error e => rfl
  | ok m0 =>
  cases hi : c.jib.withTwist 15 7 with
  | error e => rfl
  | ok m =>
  obtain ⟨i1, i2⟩ := withTwist_same hi
  have hf' : Flat m := fun ca h => hf ca (i2 ▸ h)
  have hm' : m.distance = some d := i1.trans hm
  have e3 : ∀ j, sailPostInit c.rig (some j) (some { m with distance := some d' }) = sailPostInit c.rig (some j) (some m) := by
    intro j
    unfold sailPostInit sailChecks
    simp only [boundLocal, bind, Except.bind, checkShapes_place m hm' hl, (hasNone_place m hm' _ []).1,
      (hasNone_place m hm' _ _).2.2]
  have e4 : ∀ j csys, sailSetOf spline c.solver c.rig j (some { m with distance := some d' }) csys =
      sailSetOf spline c.solver c.rig j (some m) csys := by
    intro j csys
    unfold sailSetOf selectedJib
    rw [sailJib_place spline c.rig csys hs hf' hm' hl hd hd']
  simp only [bind, Except.bind, Except.map, e3, e4]
  rfl

/-- Non-vacuity: the demonstration run, whose main sail has no camber and which writes a workbook, does the same with other
places of the greatest camber. -/
example (spline : SplineFn) : (∃ t, .workbook (some t) ∈ (run spline Demo.config).1) ∧
    run spline { Demo.config with main := { Demo.config.main with distance := some [0, 0.9] } } = run spline Demo.config := by
  refine ⟨demo_workbook spline, C154_main spline Demo.config rfl ?_ (d := [1 / 2, 1 / 2]) rfl rfl ?_ ?_⟩
  · intro ca h x hx
    simp only [Demo.config, demoConf, Option.some.injEq] at h
    subst h
    simpa using hx
  · simp [Place]; norm_num
  · simp [Place]; norm_num

end PySailing.Props
