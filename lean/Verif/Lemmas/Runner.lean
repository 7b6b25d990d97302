import Verif.Spec.Runner
import Verif.Props.Spline
import Verif.Props.Sail
import Verif.Lemmas.SailBlocks

/-!
# Lemmas about the runner
-/

namespace PySailing

open Spec Props

theorem checkShapes_four (a b c d : Option (List ℝ)) : checkShapes [a, b, c, d] =
    match a, b, c, d with
    | some a, some b, some c, some d =>
      if b.length = a.length ∧ c.length = a.length ∧ d.length = a.length then .ok ()
      else .error .valueError
    | some a, b, c, _ =>
      match b with
      | none => .error .attributeError
      | some b => if b.length = a.length then
          match c with
          | none => .error .attributeError
          | some c => if c.length = a.length then .error .attributeError else .error .valueError
        else .error .valueError
    | none, _, _, _ => .error .attributeError := by
  cases a with
  | none => rfl
  | some a =>
    cases b with
    | none => simp [checkShapes, bind, Except.bind]
    | some b =>
      cases c with
      | none =>
        by_cases h : b.length = a.length <;> simp [checkShapes, bind, Except.bind, h]
      | some c =>
        cases d with
        | none =>
          by_cases h : b.length = a.length <;> by_cases h' : c.length = a.length <;>
            simp [checkShapes, bind, Except.bind, h, h']
        | some d =>
          by_cases h : b.length = a.length <;> by_cases h' : c.length = a.length <;>
            by_cases h'' : d.length = a.length <;>
            simp [checkShapes, bind, Except.bind, pure, Except.pure, h, h', h'']

/-- The two checks of one sail. -/
theorem arrays_check (c : SailConf) (h : ∀ x ∈ c.arrays, x ≠ none) :
    (ArraysComplete c → checkShapes c.arrays = .ok ()) ∧
    (¬ ArraysComplete c → checkShapes c.arrays = .error .valueError) := by
  obtain ⟨tw, g, ch, ca, d⟩ := c
  simp only [SailConf.arrays, List.mem_cons, List.not_mem_nil, or_false, forall_eq_or_imp, forall_eq] at h
  obtain ⟨h1, h2, h3, h4⟩ := h
  obtain ⟨g, rfl⟩ := Option.ne_none_iff_exists'.1 h1
  obtain ⟨tw, rfl⟩ := Option.ne_none_iff_exists'.1 h2
  obtain ⟨ca, rfl⟩ := Option.ne_none_iff_exists'.1 h3
  obtain ⟨d, rfl⟩ := Option.ne_none_iff_exists'.1 h4
  have e : ArraysComplete ⟨some tw, some g, ch, some ca, some d⟩ ↔
      (tw.length = g.length ∧ ca.length = g.length ∧ d.length = g.length) := by
    constructor
    · rintro ⟨_, _, _, _, e1, e2, e3, e4, h⟩
      cases e1; cases e2; cases e3; cases e4
      exact h
    · intro h
      exact ⟨_, _, _, _, rfl, rfl, rfl, rfl, h⟩
  unfold SailConf.arrays
  rw [checkShapes_four, e]
  exact ⟨fun h => if_pos h, fun h => if_neg h⟩

theorem hasNone_iff (sc : List (Option ℝ)) (ar : List (Option (List ℝ))) :
    hasNone sc ar = true ↔ none ∈ sc ∨ none ∈ ar := by
  simp [hasNone, Option.isNone_iff_eq_none]

theorem arraysComplete_mem {c : SailConf} (h : ArraysComplete c) : ∀ x ∈ c.arrays, x ≠ none := by
  obtain ⟨_, _, _, _, e1, e2, e3, e4, -⟩ := h
  simp [SailConf.arrays, e1, e2, e3, e4]

theorem jibScalars_iff (rig : RigConf) : none ∉ jibScalars rig ↔
    ∃ base height luff, rig.base = some base ∧ rig.height = some height ∧ rig.jibLuff = some luff := by
  simp only [jibScalars, List.mem_cons, List.not_mem_nil, or_false, not_or]
  constructor
  · rintro ⟨h1, h2, h3⟩
    obtain ⟨a, ha⟩ := Option.ne_none_iff_exists'.1 (Ne.symm h1)
    obtain ⟨b, hb⟩ := Option.ne_none_iff_exists'.1 (Ne.symm h2)
    obtain ⟨c, hc⟩ := Option.ne_none_iff_exists'.1 (Ne.symm h3)
    exact ⟨a, b, c, ha, hb, hc⟩
  · rintro ⟨a, b, c, ha, hb, hc⟩
    simp [ha, hb, hc]

theorem mainScalars_iff (rig : RigConf) : none ∉ mainScalars rig ↔ ∃ luff, rig.mainLuff = some luff := by
  simp only [mainScalars, List.mem_cons, List.not_mem_nil, or_false]
  constructor
  · intro h
    exact Option.ne_none_iff_exists'.1 (Ne.symm h)
  · rintro ⟨l, h⟩
    simp [h]

/-- One interpolated array: either type of interpolation samples its curve. -/
theorem interpolateGirths_curve {spline : SplineFn} {kind : String} (hk : kind = "linear" ∨ spline = fitpackSpline)
    {gi ys : List ℝ} (hne : gi ≠ []) (hkind : kind = "linear" ∨ (kind = "spline" ∧ 4 ≤ gi.length))
    (hinc : ∀ i, i + 1 < gi.length → gi.getD i 0 < gi.getD (i + 1) 0) (hl : ys.length = gi.length) (ns : ℕ) :
    ∃ v, interpolateGirths spline kind gi ys (ns + 1) = .ok v ∧ Sampled kind ns gi ys v := by
  obtain ⟨m, hm⟩ : ∃ m, gi.length = m + 1 := by
    have : gi.length ≠ 0 := fun h0 => hne (List.eq_nil_of_length_eq_zero h0)
    exact ⟨gi.length - 1, by omega⟩
  have data : GirthData m gi ys := ⟨hm, by omega, fun i hi => hinc i (by omega)⟩
  have em : gi.length - 1 = m := by omega
  have en : (((ns + 1 : ℕ) : ℝ) - 1) = ns := by push_cast; ring
  have lin : kind = "linear" → ∃ v, interpolateGirths spline kind gi ys (ns + 1) = .ok v ∧
      Sampled kind ns gi ys v := by
    rintro rfl
    obtain ⟨v, e, l, p⟩ := C52_polygon data spline (ns + 1)
    refine ⟨v, e, l, fun k hk => Or.inl ⟨rfl, ?_⟩⟩
    obtain ⟨w, hw, p⟩ := p k (by omega)
    have e : v.getD k 0 = w := by rw [List.getD_eq_getElem?_getD, hw]; rfl
    rw [en] at p
    rw [e, em]
    exact p
  rcases hkind with hkind | ⟨hkind, h4⟩
  · exact lin hkind
  rcases hk with hk | hk
  · exact lin hk
  subst hk hkind
  obtain ⟨S, ⟨hS, v, e, l, p⟩, -⟩ := C81_spline data (by omega) (ns + 1)
  refine ⟨v, e, l, fun k hk => Or.inr ⟨rfl, S, by rw [em]; exact hS, ?_⟩⟩
  have p := p k (by omega)
  rw [en] at p
  rw [List.getD_eq_getElem?_getD, p]; rfl

theorem sampled_within {kind : String} {ns : ℕ} {gi ys v : List ℝ} {lo hi : ℝ} (hns : 1 ≤ ns) (h : Sampled kind ns gi ys v)
    (hw : CurveWithin kind gi ys lo hi) : ∀ w ∈ v, lo ≤ w ∧ w ≤ hi := by
  intro w hm
  obtain ⟨k, hk, rfl⟩ := List.getElem_of_mem hm
  obtain ⟨hl, h⟩ := h
  have e : v.getD k 0 = v[k] := by rw [List.getD_eq_getElem?_getD, List.getElem?_eq_getElem hk]; rfl
  have hp : (0 : ℝ) < ns := by exact_mod_cast hns
  have hkn : (k : ℝ) ≤ ns := by exact_mod_cast (by omega : k ≤ ns)
  rw [← e]
  exact hw _ _ (by positivity) (by rw [div_le_one hp]; exact hkn) (h k (by omega))

/-- For linear interpolation it is enough that the data are in range. -/
theorem curveWithin_linear {gi ys : List ℝ} {lo hi : ℝ} (hne : gi ≠ []) (hl : ys.length = gi.length)
    (hinc : ∀ i, i + 1 < gi.length → gi.getD i 0 < gi.getD (i + 1) 0) (hy : ∀ y ∈ ys, lo ≤ y ∧ y ≤ hi) :
    CurveWithin "linear" gi ys lo hi := by
  rintro x v - - (⟨-, p⟩ | ⟨h, -⟩)
  · have hn : 0 < gi.length := List.length_pos_iff.2 hne
    have hy' : ∀ i ≤ gi.length - 1, lo ≤ ys.getD i 0 ∧ ys.getD i 0 ≤ hi := by
      intro i hi
      have hi' : i < ys.length := by omega
      rw [List.getD_eq_getElem?_getD, List.getElem?_eq_getElem hi']
      exact hy _ (List.getElem_mem hi')
    rcases polygon_cases p with ⟨_, e⟩ | ⟨_, e⟩ | ⟨i, hi, a, b, e⟩
    · rw [e]; exact hy' 0 (by omega)
    · rw [e]; exact hy' _ le_rfl
    · rw [e]
      exact lerp_range (hinc i (by omega)) a b (hy' i (by omega)).1 (hy' (i + 1) (by omega)).1
        (hy' i (by omega)).2 (hy' (i + 1) (by omega)).2
  · exact absurd h (by decide)

/-- An array that is there. -/
theorem needArray_some (kind : String) (a : List ℝ) : needArray kind (some a) = .ok a := rfl

/-- A missing array is refused. -/
theorem needArray_none (kind : String) : ∃ e, needArray kind none = .error e := by
  unfold needArray
  split_ifs <;> exact ⟨_, rfl⟩

/-- The four interpolated arrays of a well-formed sail. -/
theorem interpolatedSail_ok (spline : SplineFn) (s : SolverConf) (hk : s.interpolation = "linear" ∨ spline = fitpackSpline)
    (hns : 1 ≤ s.ns) {c : SailConf} {gi ch tw ca di : List ℝ} (h : GoodSail s.interpolation c gi ch tw ca di) :
    ∃ ch' tw' ca' di', interpolatedSail spline s c = .ok (ch', tw', ca', di') ∧
      ch'.length = s.ns + 1 ∧ tw'.length = s.ns + 1 ∧ ca'.length = s.ns + 1 ∧ di'.length = s.ns + 1 ∧
      (∀ m ∈ ca', 0 ≤ m ∧ m ≤ 0.3) ∧ (∀ p ∈ di', 0 < p ∧ p ≤ 0.9) ∧
      Sampled s.interpolation s.ns gi ch ch' ∧ Sampled s.interpolation s.ns gi tw tw' ∧
      Sampled s.interpolation s.ns gi ca ca' ∧ Sampled s.interpolation s.ns gi di di' := by
  obtain ⟨ch', e1, s1⟩ := interpolateGirths_curve hk h.nonempty h.kind_ok h.increasing h.chords_len s.ns
  obtain ⟨tw', e2, s2⟩ := interpolateGirths_curve hk h.nonempty h.kind_ok h.increasing h.twist_len s.ns
  obtain ⟨ca', e3, s3⟩ := interpolateGirths_curve hk h.nonempty h.kind_ok h.increasing h.camber_len s.ns
  obtain ⟨di', e4, s4⟩ := interpolateGirths_curve hk h.nonempty h.kind_ok h.increasing h.distance_len s.ns
  refine ⟨ch', tw', ca', di', ?_, s1.1, s2.1, s3.1, s4.1, sampled_within hns s3 h.camber_range, ?_, s1, s2, s3, s4⟩
  · unfold interpolatedSail
    rw [h.girths_eq, h.chords_eq, h.twist_eq, h.camber_eq, h.distance_eq]
    simp only [needArray, bind, Except.bind, e1, e2, e3, e4]
  · obtain ⟨lo, hlo, hr⟩ := h.distance_range
    intro p hp
    obtain ⟨h1, h2⟩ := sampled_within hns s4 hr p hp
    exact ⟨lt_of_lt_of_le hlo h1, h2⟩

/-- Well-formed arguments of `SailGeometry` from the interpolated arrays. -/
theorem sailOk_interpolated {tack head : V3} {csys : Csys} {ns nc : ℕ} {ch tw ca di : List ℝ}
    {mode name : String} (hns : 1 ≤ ns) (hnc : 1 ≤ nc) (lch : ch.length = ns + 1)
    (ltw : tw.length = ns + 1) (lca : ca.length = ns + 1) (ldi : di.length = ns + 1)
    (rca : ∀ m ∈ ca, 0 ≤ m ∧ m ≤ 0.3) (rdi : ∀ p ∈ di, 0 < p ∧ p ≤ 0.9)
    (hmode : mode = "sheeting_angle_const" ∨ mode = "average_const" ∨ mode = "real_twist")
    (ty : tack.y = 0) (hy : head.y = 0) (tz : 0 < tack.z ∨ tack.z = 0 ∧ Real.sin (deg2rad csys.heelDeg) = 0) (hz : 0 < head.z) (hne : head.z ≠ tack.z)
    (hheel : Real.cos (deg2rad csys.heelDeg) ≠ 0) :
    SailOk ⟨head, tack, csys, ns, nc, ch, some tw, some mode, ca, di, name⟩
      (fun r => tw.getD r 0) where
  ns_pos := hns
  nc_pos := hnc
  valid := {
    chords_len := lch
    distance_len := ldi.ge
    camber_len := lca.ge
    camber_range := fun m hm => rca m (List.mem_of_mem_take hm)
    distance_range := fun p hp => ⟨(rdi p (List.mem_of_mem_take hp)).1.le,
      (rdi p (List.mem_of_mem_take hp)).2⟩ }
  camber_len := lca
  pos := by
    intro r hr
    have hr' : r < di.length := by simp only at hr; omega
    simp only
    rw [List.getD_eq_getElem?_getD, List.getElem?_eq_getElem hr']
    exact (rdi _ (List.getElem_mem hr')).1
  twist := by
    refine Or.inl ⟨tw, mode, rfl, rfl, ltw, hmode, fun r hr => ?_⟩
    have hr' : r < tw.length := by simp only at hr; omega
    simp only
    rw [List.getD_eq_getElem?_getD, List.getElem?_eq_getElem hr']; rfl
  tack_y := ty
  head_y := hy
  tack_z := by rcases tz with h | ⟨h, -⟩ <;> linarith
  foot := tz.imp_right And.right
  head_z := hz
  sloped := hne
  heel := hheel

theorem sailMain_ok (spline : SplineFn) (s : SolverConf) (hk : s.interpolation = "linear" ∨ spline = fitpackSpline)
    (hmode : s.lltTwist = "sheeting_angle_const" ∨ s.lltTwist = "average_const" ∨ s.lltTwist = "real_twist")
    (hns : 1 ≤ s.ns) (hnc : 1 ≤ s.nc) (rig : RigConf) (csys : Csys)
    (hheel : Real.cos (deg2rad csys.heelDeg) ≠ 0) (hr : GoodMainRig csys.heelDeg rig) {c : SailConf}
    {gi ch tw ca di : List ℝ} (h : GoodSail s.interpolation c gi ch tw ca di) :
    ∃ si g, sailMain spline s rig (some c) csys = .ok g ∧ BuiltFrom s.nc s.ns si g ∧
      si.1.csys = csys ∧ g.name = "main_sail" ∧ ∀ luff, rig.mainLuff = some luff →
      DesignedSail s.interpolation s.ns s.nc csys gi ch tw ca di ((rig.sheer + rig.boom) • mastDirection rig.rakeDeg)
        ((rig.sheer + rig.boom + luff) • mastDirection rig.rakeDeg) si := by
  obtain ⟨ch', tw', ca', di', hi, l1, l2, l3, l4, r3, r4, s1, s2, s3, s4⟩ :=
    interpolatedSail_ok spline s hk hns h
  obtain ⟨luff, hl, hl0⟩ := hr.luff
  have hb := hr.boom
  have hs := hr.rake
  have hok := sailOk_interpolated (tack := (rig.sheer + rig.boom) • mastDirection rig.rakeDeg)
    (head := (rig.sheer + rig.boom + luff) • mastDirection rig.rakeDeg) (csys := csys)
    (mode := s.lltTwist) (name := "main_sail") hns hnc l1 l2 l3 l4 r3 r4 hmode
    (by simp [mastDirection]) (by simp [mastDirection])
    (by
      rcases hb with hb | ⟨hb, h0⟩
      · left; simp [mastDirection]; positivity
      · right; exact ⟨by rw [hb]; simp, h0⟩)
    (by
      have : 0 < rig.sheer + rig.boom + luff := by rcases hb with hb | ⟨hb, -⟩ <;> linarith
      simp only [mastDirection, V3.smul_z]; exact mul_pos this hs)
    (by simp only [mastDirection, V3.smul_z]; nlinarith [mul_pos hl0 hs]) hheel
  obtain ⟨g, hg, -, -, hn, -⟩ := sailGeometry_ok hok
  refine ⟨⟨_, _⟩, g, ?_, ⟨hok, rfl, rfl, hg⟩, rfl, hn, fun l hl' => ?_⟩
  rotate_left
  · rw [hl] at hl'; cases hl'
    exact ⟨rfl, rfl, rfl, rfl, rfl, s1, s3, s4, s2.2⟩
  unfold sailMain
  simp only [attr, need, bind, Except.bind, hi, hl]
  rw [C19_main_sail]
  exact hg

theorem sailJib_ok (spline : SplineFn) (s : SolverConf) (hk : s.interpolation = "linear" ∨ spline = fitpackSpline)
    (hmode : s.lltTwist = "sheeting_angle_const" ∨ s.lltTwist = "average_const" ∨ s.lltTwist = "real_twist")
    (hns : 1 ≤ s.ns) (hnc : 1 ≤ s.nc) (rig : RigConf) (csys : Csys)
    (hheel : Real.cos (deg2rad csys.heelDeg) ≠ 0) (hr : GoodJibRig csys.heelDeg rig) {c : SailConf}
    {gi ch tw ca di : List ℝ} (h : GoodSail s.interpolation c gi ch tw ca di) :
    ∃ si g, sailJib spline s rig (some c) csys = .ok g ∧ BuiltFrom s.nc s.ns si g ∧
      si.1.csys = csys ∧ g.name = "jib" ∧
      ∀ luff base height, rig.jibLuff = some luff → rig.base = some base → rig.height = some height →
      DesignedSail s.interpolation s.ns s.nc csys gi ch tw ca di (jibTack rig base) (jibHead rig luff base height) si := by
  obtain ⟨ch', tw', ca', di', hi, l1, l2, l3, l4, r3, r4, s1, s2, s3, s4⟩ :=
    interpolatedSail_ok spline s hk hns h
  obtain ⟨luff, hl, hl0⟩ := hr.luff
  obtain ⟨base, hb, hb0⟩ := hr.base
  obtain ⟨height, hh, hh0⟩ := hr.height
  have hsh := hr.sheer
  have hs := hr.rake
  have fz : (forestay rig.rakeDeg base height).z = height * Real.sin (deg2rad rig.rakeDeg) := by
    simp [forestay, mastDirection]
  have hfz : 0 < (forestay rig.rakeDeg base height).z := by rw [fz]; positivity
  have hf : forestay rig.rakeDeg base height ≠ 0 := by
    intro h0; rw [h0] at hfz; simp at hfz
  have hn := V3.norm_pos hf
  obtain ⟨D, hD⟩ : ∃ D, D = luff / (forestay rig.rakeDeg base height).norm := ⟨_, rfl⟩
  have hD0 : 0 < D := by rw [hD]; positivity
  have hm := jibMounting_eq (rig.factory s csys) luff base height rig.mastLOA hs hf
  have hok := sailOk_interpolated (tack := rig.sheer • mastDirection rig.rakeDeg -
      ⟨base + rig.mastLOA / Real.sin (rig.factory s csys).rake, 0, 0⟩)
    (head := rig.sheer • mastDirection rig.rakeDeg -
      ⟨base + rig.mastLOA / Real.sin (rig.factory s csys).rake, 0, 0⟩ +
      (luff / (forestay rig.rakeDeg base height).norm) •
          (⟨|(forestay rig.rakeDeg base height).x|, 0, (forestay rig.rakeDeg base height).z⟩ : V3))
    (csys := csys) (mode := s.lltTwist) (name := "jib") hns hnc l1 l2 l3 l4 r3 r4 hmode
    (by simp [mastDirection]) (by simp [mastDirection])
    (by
      rcases hsh with hsh | ⟨hsh, h0⟩
      · left; simp [mastDirection]; positivity
      · right; exact ⟨by rw [hsh]; simp, h0⟩)
    (by rw [← hD]
        have h1 : 0 ≤ rig.sheer * Real.sin (deg2rad rig.rakeDeg) := by
          rcases hsh with hsh | ⟨hsh, -⟩
          · positivity
          · rw [hsh, zero_mul]
        have h2 := mul_pos hD0 hfz
        simp [mastDirection]; linarith)
    (by rw [← hD]
        have h2 := mul_pos hD0 hfz
        simp [mastDirection]; exact ⟨hD0.ne', hfz.ne'⟩) hheel
  obtain ⟨g, hg, -, -, hn, -⟩ := sailGeometry_ok hok
  refine ⟨⟨_, _⟩, g, ?_, ⟨hok, rfl, rfl, hg⟩, rfl, hn, fun l b h' hl' hb' hh' => ?_⟩
  rotate_left
  · rw [hl] at hl'; cases hl'
    rw [hb] at hb'; cases hb'
    rw [hh] at hh'; cases hh'
    exact ⟨rfl, rfl, rfl, rfl, rfl, s1, s3, s4, s2.2⟩
  unfold sailJib
  simp only [attr, need, bind, Except.bind, SailFactory.makeJib, hi, hl, hb, hh]
  rw [hm]
  exact hg


theorem sailGeometry_name {s : SailInput} {g : SailGeom} (h : sailGeometry s = .ok g) :
    g.name = s.name := by
  unfold sailGeometry at h
  simp only [bind, Except.bind] at h
  repeat' split at h
  all_goals first
    | (cases h; done)
    | (simp only [pure, Except.pure, Except.ok.injEq] at h; rw [← h])

theorem sailJib_name {spline : SplineFn} {s : SolverConf} {rig : RigConf} {jib : Option SailConf}
    {csys : Csys} {g : SailGeom} (h : sailJib spline s rig jib csys = .ok g) : g.name = "jib" := by
  unfold sailJib SailFactory.makeJib at h
  simp only [bind, Except.bind] at h
  repeat' split at h
  all_goals first
    | (cases h; done)
    | exact sailGeometry_name h

theorem sailMain_name {spline : SplineFn} {s : SolverConf} {rig : RigConf} {main : Option SailConf}
    {csys : Csys} {g : SailGeom} (h : sailMain spline s rig main csys = .ok g) : g.name = "main_sail" := by
  unfold sailMain SailFactory.makeMainSail at h
  simp only [bind, Except.bind] at h
  repeat' split at h
  all_goals first
    | (cases h; done)
    | exact sailGeometry_name h

theorem sailSetOf_sails {spline : SplineFn} {s : SolverConf} {rig : RigConf} {main jib : Option SailConf}
    {csys : Csys} {set : SailSet} (h : sailSetOf spline s rig main jib csys = .ok set) :
    sailSet set.sails = .ok set := by
  unfold sailSetOf at h
  have key : ∀ l, sailSet l = .ok set → sailSet set.sails = .ok set := by
    intro l hl
    have : set.sails = l := by
      unfold sailSet at hl
      split_ifs at hl
      cases hl; rfl
    rw [this, hl]
  simp only [bind, Except.bind] at h
  repeat' split at h
  all_goals first
    | (cases h; done)
    | exact key _ h

theorem blockFlags_length (nc ns n : ℕ) (row : ℕ → Bool) :
    (blockFlags nc ns n row).length = n * (nc * ns) := by
  have e := grid_length nc ns (fun i _ => row i)
  unfold blockFlags
  rw [List.length_flatten, List.map_replicate, List.sum_replicate, e, smul_eq_mul]

/-- The sail set of a well-formed configuration. -/
theorem sailSetOf_ok (spline : SplineFn) (s : SolverConf) (rig : RigConf) (csys : Csys)
    (hk : s.interpolation = "linear" ∨ spline = fitpackSpline)
    (hmode : s.lltTwist = "sheeting_angle_const" ∨ s.lltTwist = "average_const" ∨ s.lltTwist = "real_twist")
    (hns : 1 ≤ s.ns) (hnc : 1 ≤ s.nc)
    (hheel : Real.cos (deg2rad csys.heelDeg) ≠ 0) (main jib : SailConf)
    (hdef : rig.sailsDef ∈ ["jib", "main", "jib_and_main"])
    (hj : rig.sailsDef ≠ "main" → GoodJibRig csys.heelDeg rig ∧ ∃ gi ch tw ca di, GoodSail s.interpolation jib gi ch tw ca di)
    (hm : rig.sailsDef ≠ "jib" → GoodMainRig csys.heelDeg rig ∧ ∃ gi ch tw ca di, GoodSail s.interpolation main gi ch tw ca di) :
    ∃ ss set, sailSetOf spline s rig (some main) (some jib) csys = .ok set ∧
      List.Forall₂ (BuiltFrom s.nc s.ns) ss set.sails ∧ (∀ x ∈ ss, x.1.csys = csys) ∧
      (set.sails.length = if rig.sailsDef = "jib_and_main" then 2 else 1) ∧
      set.sails ≠ [] ∧ (∀ g ∈ set.sails, g.name = "jib" ∨ g.name = "main_sail") ∧
      (rig.sailsDef = "jib" → ∃ sj, ss = [sj] ∧ DesignedJib s rig csys jib sj) ∧
      (rig.sailsDef = "main" → ∃ sm, ss = [sm] ∧ DesignedMain s rig csys main sm) ∧
      (rig.sailsDef = "jib_and_main" → ∃ sj sm, ss = [sj, sm] ∧ DesignedJib s rig csys jib sj ∧
        DesignedMain s rig csys main sm) := by
  have J : rig.sailsDef ≠ "main" → ∃ si g, sailJib spline s rig (some jib) csys = .ok g ∧
      BuiltFrom s.nc s.ns si g ∧ si.1.csys = csys ∧ g.name = "jib" ∧ DesignedJib s rig csys jib si := fun h => by
    obtain ⟨hr, gi, ch, tw, ca, di, hg⟩ := hj h
    obtain ⟨si, g, h1, h2, h3, h4, h5⟩ := sailJib_ok spline s hk hmode hns hnc rig csys hheel hr hg
    obtain ⟨luff, hl, -⟩ := hr.luff
    obtain ⟨base, hb, -⟩ := hr.base
    obtain ⟨height, hh, -⟩ := hr.height
    exact ⟨si, g, h1, h2, h3, h4, luff, base, height, gi, ch, tw, ca, di, hl, hb, hh, hg, h5 _ _ _ hl hb hh⟩
  have M : rig.sailsDef ≠ "jib" → ∃ si g, sailMain spline s rig (some main) csys = .ok g ∧
      BuiltFrom s.nc s.ns si g ∧ si.1.csys = csys ∧ g.name = "main_sail" ∧
      DesignedMain s rig csys main si := fun h => by
    obtain ⟨hr, gi, ch, tw, ca, di, hg⟩ := hm h
    obtain ⟨si, g, h1, h2, h3, h4, h5⟩ := sailMain_ok spline s hk hmode hns hnc rig csys hheel hr hg
    obtain ⟨luff, hl, -⟩ := hr.luff
    exact ⟨si, g, h1, h2, h3, h4, luff, gi, ch, tw, ca, di, hl, hg, h5 _ hl⟩
  simp only [List.mem_cons, List.not_mem_nil, or_false] at hdef
  have no : ∀ {a b : String} {P : Prop}, rig.sailsDef = a → a ≠ b → rig.sailsDef = b → P :=
    fun h1 h2 h3 => absurd (h1.symm.trans h3) h2
  rcases hdef with hd | hd | hd
  · obtain ⟨si, g, h1, h2, h3, h4, h5⟩ := J (by rw [hd]; decide)
    refine ⟨[si], ⟨[g], _, _, _, _⟩, by
      simp only [sailSetOf, selectedJib, selectedMain, hd, h1]; rfl, List.Forall₂.cons h2 .nil, by simpa using h3, ?_, by simp, by simp [h4],
      fun _ => ⟨si, rfl, h5⟩, no hd (by decide), no hd (by decide)⟩
    rw [if_neg (by rw [hd]; decide)]; rfl
  · obtain ⟨si, g, h1, h2, h3, h4, h5⟩ := M (by rw [hd]; decide)
    refine ⟨[si], ⟨[g], _, _, _, _⟩, by
      simp only [sailSetOf, selectedJib, selectedMain, hd, h1]; rfl, List.Forall₂.cons h2 .nil, by simpa using h3, ?_, by simp, by simp [h4],
      no hd (by decide), fun _ => ⟨si, rfl, h5⟩, no hd (by decide)⟩
    rw [if_neg (by rw [hd]; decide)]; rfl
  · obtain ⟨si, g, h1, h2, h3, h4, h5⟩ := J (by rw [hd]; decide)
    obtain ⟨si', g', h1', h2', h3', h4', h5'⟩ := M (by rw [hd]; decide)
    refine ⟨[si, si'], ⟨[g, g'], _, _, _, _⟩, by
      simp only [sailSetOf, selectedJib, selectedMain, hd, h1, h1']; rfl, List.Forall₂.cons h2 (List.Forall₂.cons h2' .nil),
      by simpa using ⟨h3, h3'⟩, ?_, by simp, by simp [h4, h4'], no hd (by decide), no hd (by decide),
      fun _ => ⟨si, si', rfl, h5, h5'⟩⟩
    rw [if_pos hd]; rfl

end PySailing
