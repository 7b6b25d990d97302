import Verif.Props.SameWind

/-!
# C156: the reference height of the wind may be chosen freely
-/

namespace PySailing.Props

open Spec

theorem rpow_scaled {b t k : ℝ} (ht : 0 < t) (hb : 0 ≤ b ∨ ∃ n : ℤ, k = n) : (b * t) ^ k = b ^ k * t ^ k := by
  rcases hb with hb | ⟨n, rfl⟩
  · exact Real.mul_rpow hb ht.le
  · rw [Real.rpow_intCast, Real.rpow_intCast, Real.rpow_intCast, mul_zpow]

theorem expFactor_height {k ref ref' : ℝ} (wl h : ℝ) (hr : 0 < ref) (hr' : 0 < ref') :
    (WindObj.expFactor k ref' wl h).map (fun f => (ref' / ref) ^ k * f) = WindObj.expFactor k ref wl h := by
  have ht : 0 < ref' / ref := div_pos hr' hr
  have e : (h - wl) / ref = (h - wl) / ref' * (ref' / ref) := by field_simp
  unfold WindObj.expFactor
  rw [if_neg hr.ne', if_neg hr'.ne']
  have n1 : (h - wl) / ref < 0 ↔ (h - wl) / ref' < 0 := by
    rw [div_lt_iff₀ hr, div_lt_iff₀ hr', zero_mul, zero_mul]
  have n2 : (h - wl) / ref = 0 ↔ (h - wl) / ref' = 0 := by
    rw [e, mul_eq_zero, or_iff_left ht.ne']
  by_cases hk : k = 0
  · simp only [hk, if_true, Except.map, Real.rpow_zero, mul_one]
  simp only [hk, if_false]
  by_cases c1 : (h - wl) / ref' < 0 ∧ ¬ ∃ n : ℤ, k = n
  · have c1' : (h - wl) / ref < 0 ∧ ¬ ∃ n : ℤ, k = n := ⟨n1.2 c1.1, c1.2⟩
    rw [if_pos c1, if_pos c1']; rfl
  have c1' : ¬ ((h - wl) / ref < 0 ∧ ¬ ∃ n : ℤ, k = n) := fun c => c1 ⟨n1.1 c.1, c.2⟩
  rw [if_neg c1, if_neg c1']
  by_cases c2 : (h - wl) / ref' = 0 ∧ k < 0
  · have c2' : (h - wl) / ref = 0 ∧ k < 0 := ⟨n2.2 c2.1, c2.2⟩
    rw [if_pos c2, if_pos c2']; rfl
  have c2' : ¬ ((h - wl) / ref = 0 ∧ k < 0) := fun c => c2 ⟨n2.1 c.1, c.2⟩
  rw [if_neg c2, if_neg c2']
  have hb : 0 ≤ (h - wl) / ref' ∨ ∃ n : ℤ, k = n := by
    by_contra hcon
    push Not at hcon
    exact c1 ⟨hcon.1, fun ⟨n, hn⟩ => hcon.2 n hn⟩
  simp only [Except.map]
  rw [e, rpow_scaled ht hb, mul_comm]

theorem sameWind_exp {alphaDeg tws sog k ref ref' wl : ℝ} (rough : Option ℝ) (hr : 0 < ref) (hr' : 0 < ref') :
    SameWind (windGetProfile ⟨alphaDeg, tws * (ref' / ref) ^ k, sog, "exponential", some k, some ref', some wl, rough⟩)
      (windGetProfile ⟨alphaDeg, tws, sog, "exponential", some k, some ref, some wl, rough⟩) := by
  refine ⟨fun h _ => ?_, rfl⟩
  have e := expFactor_height (k := k) wl h hr hr'
  simp only [windGetProfile, WindObj.trueWindAt, if_true, ← e, bind, Except.bind]
  cases WindObj.expFactor k ref' wl h with
  | error e => rfl
  | ok f =>
    simp only [Except.map, ← mul_assoc]
    rfl

/-- **C156, exponential profile.**  Giving the wind speed at another reference height, as it follows from the profile, changes
nothing but the sheet of the wind at the reference height. -/
theorem C156_exponential (spline : SplineFn) (c : Config) {alphaDeg tws sog k ref ref' wl : ℝ} {rough : Option ℝ}
    (hc : c.wind = ⟨alphaDeg, tws, sog, "exponential", some k, some ref, some wl, rough⟩) (hr : 0 < ref) (hr' : 0 < ref')
    (hw : wl < ref) (hw' : wl < ref') :
    List.Forall₂ SameOutput
        (run spline { c with wind :=
          ⟨alphaDeg, tws * (ref' / ref) ^ k, sog, "exponential", some k, some ref', some wl, rough⟩ }).1 (run spline c).1 ∧
      (run spline { c with wind :=
        ⟨alphaDeg, tws * (ref' / ref) ^ k, sog, "exponential", some k, some ref', some wl, rough⟩ }).2 = (run spline c).2 := by
  have hi : ∀ (tws ref : ℝ), 0 < ref → wl < ref → ∀ csys, ∃ t, windIntegral
      (windGetProfile ⟨alphaDeg, tws, sog, "exponential", some k, some ref, some wl, rough⟩) csys = .ok t := by
    intro tws ref hr hw csys
    have hb : 0 < (ref - wl) / ref := div_pos (by linarith) hr
    have hf : ∃ f, expFactorFloat k ref wl ref = .ok f := by
      unfold expFactorFloat
      rw [if_neg hr.ne']
      by_cases hk : k = 0
      · exact ⟨1, by simp only [hk, if_true]⟩
      · refine ⟨((ref - wl) / ref) ^ k, ?_⟩
        simp only [hk, if_false, hb.not_gt, false_and, hb.ne']
    obtain ⟨f, hf⟩ := hf
    simp only [windGetProfile, windIntegral, if_true, hf, bind, Except.bind]
    exact ⟨_, rfl⟩
  refine C98_same_wind spline c _ ?_ ?_ ?_ ?_
  · rw [hc]; exact sameWind_exp rough hr hr'
  · rw [hc]; simp [windPostInit]
  · exact hi _ _ hr' hw'
  · rw [hc]; exact hi _ _ hr hw

theorem sameWind_log {alphaDeg tws sog r ref ref' : ℝ} (k wl : Option ℝ) (hr : 0 < r) (h1 : 0 < ref) (h2 : ref ≠ r)
    (h1' : 0 < ref') (h2' : ref' ≠ r) :
    SameWind (windGetProfile ⟨alphaDeg, tws * (Real.log (ref' / r) / Real.log (ref / r)), sog, "logarithmic", k, some ref', wl, some r⟩)
      (windGetProfile ⟨alphaDeg, tws, sog, "logarithmic", k, some ref, wl, some r⟩) := by
  refine ⟨fun h _ => ?_, rfl⟩
  have key : ∀ {ref : ℝ}, 0 < ref → ref ≠ r → WindObj.logFactor r ref h =
      if h / r ≤ 0 then .error .nonFinite else .ok (Real.log (h / r) / Real.log (ref / r)) := by
    intro ref h1 h2
    have hp : 0 < ref / r := div_pos h1 hr
    have hne : ref / r ≠ 1 := fun e => h2 ((div_eq_one_iff_eq hr.ne').1 e)
    unfold WindObj.logFactor
    simp only [hr.ne', if_false, hp.not_gt, hp.ne', hne]
  have hl : Real.log (ref' / r) ≠ 0 :=
    Real.log_ne_zero_of_pos_of_ne_one (div_pos h1' hr) fun e => h2' ((div_eq_one_iff_eq hr.ne').1 e)
  simp only [windGetProfile, WindObj.trueWindAt, String.reduceEq, if_false, key h1 h2, key h1' h2', bind, Except.bind]
  by_cases hz : h / r ≤ 0
  · simp only [hz, if_true]
  · simp only [hz, if_false]
    have e : tws * (Real.log (ref' / r) / Real.log (ref / r)) * (Real.log (h / r) / Real.log (ref' / r)) =
        tws * (Real.log (h / r) / Real.log (ref / r)) := by
      field_simp
    rw [e]
    rfl

/-- **C156, logarithmic profile.**  The same run, including all sheets. -/
theorem C156_logarithmic (spline : SplineFn) (c : Config) {alphaDeg tws sog r ref ref' : ℝ} {k wl : Option ℝ}
    (hc : c.wind = ⟨alphaDeg, tws, sog, "logarithmic", k, some ref, wl, some r⟩) (hr : 0 < r) (h1 : 0 < ref) (h2 : ref ≠ r)
    (h1' : 0 < ref') (h2' : ref' ≠ r) :
    run spline { c with wind :=
      ⟨alphaDeg, tws * (Real.log (ref' / r) / Real.log (ref / r)), sog, "logarithmic", k, some ref', wl, some r⟩ } = run spline c := by
  refine C98_same_run spline c _ ?_ ?_ ?_
  · rw [hc]; exact sameWind_log k wl hr h1 h2 h1' h2'
  · rw [hc]; simp [windPostInit]
  · intro csys
    rw [hc]
    simp [windGetProfile, windIntegral]

/-- Non-vacuity: 5 m/s at 10 m, and the speed at 20 m, for well-formed settings. -/
example : WellFormed wellFormedConfig ∧
    wellFormedConfig.wind = ⟨50, 5, 3, "exponential", some (1 / 7), some 10, some 0, none⟩ ∧ (0 : ℝ) < 10 ∧ (0 : ℝ) < 20 ∧
    (0 : ℝ) < 0.05 ∧ (10 : ℝ) ≠ 0.05 ∧ (20 : ℝ) ≠ 0.05 :=
  ⟨wellFormed_demo, rfl, by norm_num, by norm_num, by norm_num, by norm_num, by norm_num⟩

end PySailing.Props
