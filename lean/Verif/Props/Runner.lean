import Verif.Lemmas.Runner
import Verif.Props.Mesh

/-!
# Properties of the runner: validation and sail set (C53, C65, C66)
-/

namespace PySailing.Props

open PySailing Spec

/-! ## C53 -/

/-- **C53**, for the three documented values of `sails_def` and sail objects that are not `None`:
`Sail(...)` accepts the configuration if the data of the selected sails are complete (given, arrays of
equal length) and stops with `sys.exit()` otherwise; the data of a sail that is not selected do not
matter.  Missing: the chords are not checked, other values of `sails_def` and `None` sails; see
`C53_refuted_*`. -/
theorem C53_validation_partial (rig : RigConf) :
    (rig.sailsDef = "jib" → ∀ main j,
      (JibComplete rig j → sailPostInit rig main (some j) = .ok ()) ∧
      (¬ JibComplete rig j → sailPostInit rig main (some j) = .error (.sysExit 0))) ∧
    (rig.sailsDef = "main" → ∀ jib m,
      (MainComplete rig m → sailPostInit rig (some m) jib = .ok ()) ∧
      (¬ MainComplete rig m → sailPostInit rig (some m) jib = .error (.sysExit 0))) ∧
    (rig.sailsDef = "jib_and_main" → ∀ j m,
      (JibComplete rig j ∧ MainComplete rig m → sailPostInit rig (some m) (some j) = .ok ()) ∧
      (¬ (JibComplete rig j ∧ MainComplete rig m) →
        sailPostInit rig (some m) (some j) = .error (.sysExit 0))) := by
  refine ⟨fun hd main j => ?_, fun hd jib m => ?_, fun hd j m => ?_⟩
  · have e : sailChecks rig main (some j) =
        if hasNone (jibScalars rig) j.arrays then .error .valueError else checkShapes j.arrays := by
      unfold sailChecks
      rw [if_pos hd]; rfl
    unfold sailPostInit
    rw [e]
    by_cases hn : hasNone (jibScalars rig) j.arrays = true
    · rw [if_pos hn]
      refine ⟨fun hc => ?_, fun _ => rfl⟩
      rcases (hasNone_iff _ _).1 hn with h | h
      · exact absurd h ((jibScalars_iff rig).2 hc.1)
      · exact absurd rfl (arraysComplete_mem hc.2 _ h)
    · rw [if_neg hn]
      have hn' := mt (hasNone_iff _ _).2 hn
      push Not at hn'
      obtain ⟨h1, h2⟩ := arrays_check j fun x hx h0 => hn'.2 (h0 ▸ hx)
      refine ⟨fun hc => by rw [h1 hc.2], fun hc => ?_⟩
      rw [h2 fun h => hc ⟨(jibScalars_iff rig).1 hn'.1, h⟩]
  · have e : sailChecks rig (some m) jib =
        if hasNone (mainScalars rig) m.arrays then .error .valueError else checkShapes m.arrays := by
      unfold sailChecks
      rw [if_neg (by rw [hd]; decide), if_pos hd]; rfl
    unfold sailPostInit
    rw [e]
    by_cases hn : hasNone (mainScalars rig) m.arrays = true
    · rw [if_pos hn]
      refine ⟨fun hc => ?_, fun _ => rfl⟩
      rcases (hasNone_iff _ _).1 hn with h | h
      · exact absurd h ((mainScalars_iff rig).2 hc.1)
      · exact absurd rfl (arraysComplete_mem hc.2 _ h)
    · rw [if_neg hn]
      have hn' := mt (hasNone_iff _ _).2 hn
      push Not at hn'
      obtain ⟨h1, h2⟩ := arrays_check m fun x hx h0 => hn'.2 (h0 ▸ hx)
      refine ⟨fun hc => by rw [h1 hc.2], fun hc => ?_⟩
      rw [h2 fun h => hc ⟨(mainScalars_iff rig).1 hn'.1, h⟩]
  · have e : sailChecks rig (some m) (some j) =
        if hasNone (jibScalars rig ++ mainScalars rig) (j.arrays ++ m.arrays) then .error .valueError
        else (checkShapes j.arrays >>= fun _ => checkShapes m.arrays) := by
      unfold sailChecks
      rw [if_neg (by rw [hd]; decide), if_neg (by rw [hd]; decide), if_pos hd]; rfl
    unfold sailPostInit
    rw [e]
    by_cases hn : hasNone (jibScalars rig ++ mainScalars rig) (j.arrays ++ m.arrays) = true
    · rw [if_pos hn]
      refine ⟨fun hc => ?_, fun _ => rfl⟩
      rcases (hasNone_iff _ _).1 hn with h | h
      · rcases List.mem_append.1 h with h | h
        · exact absurd h ((jibScalars_iff rig).2 hc.1.1)
        · exact absurd h ((mainScalars_iff rig).2 hc.2.1)
      · rcases List.mem_append.1 h with h | h
        · exact absurd rfl (arraysComplete_mem hc.1.2 _ h)
        · exact absurd rfl (arraysComplete_mem hc.2.2 _ h)
    · rw [if_neg hn]
      have hn' := mt (hasNone_iff _ _).2 hn
      simp only [List.mem_append, not_or] at hn'
      obtain ⟨h1, h2⟩ := arrays_check j fun x hx h0 => hn'.2.1 (h0 ▸ hx)
      obtain ⟨h3, h4⟩ := arrays_check m fun x hx h0 => hn'.2.2 (h0 ▸ hx)
      refine ⟨fun hc => by rw [h1 hc.1.2, h3 hc.2.2]; rfl, fun hc => ?_⟩
      by_cases hj : ArraysComplete j
      · rw [h1 hj, h4 fun h => hc ⟨⟨(jibScalars_iff rig).1 hn'.1.1, hj⟩,
          ⟨(mainScalars_iff rig).1 hn'.1.2, h⟩⟩]
        rfl
      · rw [h2 hj]; rfl

/-- An example rig, upright mast. -/
noncomputable def demoRig (d : String) : RigConf := ⟨some 1, some 1, some 1, some 1, 1 / 2, 1 / 2, 90, 0, d⟩

/-- An example sail: two girths, chord 1, no twist, no camber. -/
noncomputable def demoConf : SailConf := ⟨some [0, 0], some [0, 1], some [1, 1], some [0, 0], some [1 / 2, 1 / 2]⟩

theorem demoConf_complete : ArraysComplete demoConf := ⟨_, _, _, _, rfl, rfl, rfl, rfl, rfl, rfl, rfl⟩

/-- Non-vacuity of `C53_validation_partial`: complete data, a missing luff, arrays of different length. -/
example : JibComplete (demoRig "jib") demoConf ∧
    ¬ JibComplete { demoRig "jib" with jibLuff := none } demoConf ∧
    ¬ JibComplete (demoRig "jib") { demoConf with twist := some [0] } := by
  refine ⟨⟨⟨_, _, _, rfl, rfl, rfl⟩, demoConf_complete⟩, ?_, ?_⟩
  · rintro ⟨⟨_, _, _, -, -, h⟩, -⟩
    cases h
  · rintro ⟨-, _, _, _, _, h1, h2, -, -, h, -⟩
    cases h1; cases h2
    simp at h

/-- **C53** fails for the chords: a configuration with two girths and one chord is accepted, and building
the sail set then raises `ValueError`. -/
theorem C53_refuted_chords : ∃ (s : SolverConf) (rig : RigConf) (m : SailConf) (csys : Csys)
    (spline : SplineFn), sailPostInit rig (some m) none = .ok () ∧
    sailSetOf spline s rig (some m) none csys = .error .valueError := by
  refine ⟨⟨1, 1, "linear", "real_twist"⟩, demoRig "main", { demoConf with chords := some [1] }, ⟨0, 0, 0⟩,
    fun _ _ _ => .error .typeError, ?_, ?_⟩
  · exact (((C53_validation_partial (demoRig "main")).2.1 rfl none _).1
      ⟨⟨_, rfl⟩, ⟨_, _, _, _, rfl, rfl, rfl, rfl, rfl, rfl, rfl⟩⟩)
  · have h := C52_bad_data (fun _ _ _ => .error .typeError) [0, 1] [1] 2 (Or.inr (by simp))
    simp [sailSetOf, selectedJib, selectedMain, Except.map, demoRig, demoConf, sailMain, interpolatedSail, attr, need, needArray, bind, Except.bind, h]

/-- **C53** fails for missing chords: for every rig and solver for which the rest of a main sail is accepted, the
sail without chords is accepted too, and building the sail set then raises `ValueError` (linear
interpolation) or `TypeError` (spline). -/
theorem C53_refuted_missing_chords (spline : SplineFn) (s : SolverConf) (rig : RigConf) (csys : Csys) (m : SailConf)
    (h : rig.sailsDef = "main") (hm : MainComplete rig m) :
    sailPostInit rig (some { m with chords := none }) none = .ok () ∧
    (s.interpolation = "linear" →
      sailSetOf spline s rig (some { m with chords := none }) none csys = .error .valueError) ∧
    (s.interpolation = "spline" →
      sailSetOf spline s rig (some { m with chords := none }) none csys = .error .typeError) := by
  obtain ⟨hl, g, tw, ca, di, h1, h2, h3, h4, e⟩ := hm
  refine ⟨((C53_validation_partial rig).2.1 h none _).1 ⟨hl, g, tw, ca, di, h1, h2, h3, h4, e⟩, ?_, ?_⟩ <;> intro hk <;>
  simp [sailSetOf, selectedJib, selectedMain, Except.map, h, sailMain, interpolatedSail, attr, needArray, bind,
    Except.bind, h1, hk]

/-- Non-vacuity of `C53_refuted_missing_chords`. -/
example : (demoRig "main").sailsDef = "main" ∧ MainComplete (demoRig "main") demoConf :=
  ⟨rfl, ⟨_, rfl⟩, demoConf_complete⟩

/-- **C53** fails for a missing sail object: the check itself ends with `UnboundLocalError`. -/
theorem C53_refuted_none (rig : RigConf) (main : Option SailConf) (h : rig.sailsDef = "jib") :
    sailPostInit rig main none = .error .unboundLocal := by
  unfold sailPostInit sailChecks
  rw [if_pos h]; rfl

/-- **C53** fails for an unknown `sails_def`: with complete data it is accepted, and building the sail set
then raises `ValueError`. -/
theorem C53_refuted_unknown (spline : SplineFn) (s : SolverConf) (rig : RigConf) (csys : Csys)
    (m j : SailConf) (h1 : rig.sailsDef ≠ "jib") (h2 : rig.sailsDef ≠ "main")
    (h3 : rig.sailsDef ≠ "jib_and_main") (hm : ArraysComplete m) (hj : ArraysComplete j) :
    sailPostInit rig (some m) (some j) = .ok () ∧
    sailSetOf spline s rig (some m) (some j) csys = .error .valueError := by
  constructor
  · unfold sailPostInit sailChecks
    rw [if_neg h1, if_neg h2, if_neg h3]
    simp only [boundLocal, bind, Except.bind]
    rw [(arrays_check j (arraysComplete_mem hj)).1 hj]
    simp only
    rw [(arrays_check m (arraysComplete_mem hm)).1 hm]
  · simp [sailSetOf, selectedJib, selectedMain, h1, h2, h3, sailSet, bind, Except.bind]

/-- Non-vacuity of `C53_refuted_unknown`. -/
example : (demoRig "main_sail").sailsDef ≠ "jib" ∧ (demoRig "main_sail").sailsDef ≠ "main" ∧
    (demoRig "main_sail").sailsDef ≠ "jib_and_main" ∧ ArraysComplete demoConf := by
  refine ⟨by decide, by decide, by decide, demoConf_complete⟩

/-! ## C65 -/

/-- **C65.** The sail set contains exactly the selected sails: `'jib'` gives one sail named `jib`,
`'main'` one named `main_sail`, `'jib_and_main'` the jib followed by the main sail, each the one built
from its own data, and any other value raises `ValueError`. -/
theorem C65_selection (spline : SplineFn) (s : SolverConf) (rig : RigConf) (main jib : Option SailConf)
    (csys : Csys) :
    (rig.sailsDef = "jib" → ∀ set, sailSetOf spline s rig main jib csys = .ok set →
      ∃ g, sailJib spline s rig jib csys = .ok g ∧ set.sails = [g] ∧ g.name = "jib") ∧
    (rig.sailsDef = "main" → ∀ set, sailSetOf spline s rig main jib csys = .ok set →
      ∃ g, sailMain spline s rig main csys = .ok g ∧ set.sails = [g] ∧ g.name = "main_sail") ∧
    (rig.sailsDef = "jib_and_main" → ∀ set, sailSetOf spline s rig main jib csys = .ok set →
      ∃ g g', sailJib spline s rig jib csys = .ok g ∧ sailMain spline s rig main csys = .ok g' ∧
        set.sails = [g, g'] ∧ g.name = "jib" ∧ g'.name = "main_sail") ∧
    (rig.sailsDef ∉ ["jib", "main", "jib_and_main"] →
      sailSetOf spline s rig main jib csys = .error .valueError) := by
  have nj := @sailJib_name spline s rig jib csys
  have nm := @sailMain_name spline s rig main csys
  refine ⟨fun hd set h => ?_, fun hd set h => ?_, fun hd set h => ?_, fun hd => ?_⟩
  · simp only [sailSetOf, selectedJib, selectedMain, hd] at h
    cases hj : sailJib spline s rig jib csys with
    | error e => rw [hj] at h; simp [bind, Except.bind, Except.map] at h
    | ok g =>
      rw [hj] at h
      simp [bind, Except.bind, Except.map, sailSet] at h
      exact ⟨g, rfl, by rw [← h], nj hj⟩
  · simp only [sailSetOf, selectedJib, selectedMain, hd] at h
    cases hm : sailMain spline s rig main csys with
    | error e => rw [hm] at h; simp [bind, Except.bind, Except.map] at h
    | ok g =>
      rw [hm] at h
      simp [bind, Except.bind, Except.map, sailSet] at h
      exact ⟨g, rfl, by rw [← h], nm hm⟩
  · simp only [sailSetOf, selectedJib, selectedMain, hd] at h
    cases hj : sailJib spline s rig jib csys with
    | error e => rw [hj] at h; simp [bind, Except.bind, Except.map] at h
    | ok g =>
      cases hm : sailMain spline s rig main csys with
      | error e => rw [hj, hm] at h; simp [bind, Except.bind, Except.map] at h
      | ok g' =>
        rw [hj, hm] at h
        simp [bind, Except.bind, Except.map, sailSet] at h
        exact ⟨g, g', rfl, rfl, by rw [← h], nj hj, nm hm⟩
  · simp only [List.mem_cons, List.not_mem_nil, or_false, not_or] at hd
    simp [sailSetOf, selectedJib, selectedMain, hd.1, hd.2.1, hd.2.2, sailSet, bind, Except.bind]

/-! ## C66 -/

/-- **C66.** With either type of interpolation, at least one panel in each direction, a heel angle that is not
90 degrees, a documented twist mode, and well-formed rig and sail data for the selected sails (interpolated camber and
camber position in range), the sail
set is built: no exception, no `nan`, and `2 * n_chordwise * n_spanwise` panels (with their images) per
sail. -/
theorem C66_builds (s : SolverConf) (rig : RigConf) (csys : Csys)
    (hmode : s.lltTwist ∈ twistModes) (hns : 1 ≤ s.ns) (hnc : 1 ≤ s.nc)
    (hheel : Real.cos (deg2rad csys.heelDeg) ≠ 0) (main jib : SailConf)
    (hdef : rig.sailsDef ∈ ["jib", "main", "jib_and_main"])
    (hj : rig.sailsDef ≠ "main" → GoodJibRig csys.heelDeg rig ∧
      ∃ gi ch tw ca di, GoodSail s.interpolation jib gi ch tw ca di)
    (hm : rig.sailsDef ≠ "jib" → GoodMainRig csys.heelDeg rig ∧
      ∃ gi ch tw ca di, GoodSail s.interpolation main gi ch tw ca di) :
    ∃ set, sailSetOf fitpackSpline s rig (some main) (some jib) csys = .ok set ∧
      set.panels.length = 2 * (set.sails.length * (s.nc * s.ns)) ∧
      set.te.length = set.panels.length ∧ set.le.length = set.panels.length ∧
      set.sails.length = if rig.sailsDef = "jib_and_main" then 2 else 1 := by
  obtain ⟨ss, set, hset, hb, -, hlen, -, -⟩ := sailSetOf_ok fitpackSpline s rig csys (Or.inr rfl)
    (by simpa [twistModes] using hmode) hns hnc hheel main jib hdef hj hm
  have hs : sailSet set.sails = .ok set := sailSetOf_sails hset
  obtain ⟨hp, ht, hl⟩ := sailSet_blocks hb hs
  refine ⟨set, hset, ?_, ?_, ?_, hlen⟩
  · rw [hp, blockPanels_length, List.length_append, List.length_map, List.length_map, hb.length_eq]
    ring
  · rw [hp, ht, blockPanels_length, trailingFlags, blockFlags_length, List.length_append, List.length_map, List.length_map]
    ring
  · rw [hp, hl, blockPanels_length, leadingFlags, blockFlags_length, List.length_append, List.length_map, List.length_map]
    ring

theorem demo_increasing (i : ℕ) (hi : i + 1 < ([0, 1] : List ℝ).length) :
    ([0, 1] : List ℝ).getD i 0 < ([0, 1] : List ℝ).getD (i + 1) 0 := by
  have : i = 0 := by simp at hi; omega
  subst this; simp

theorem demo_goodSail : GoodSail "linear" demoConf [0, 1] [1, 1] [0, 0] [0, 0] [1 / 2, 1 / 2] where
  girths_eq := rfl
  chords_eq := rfl
  twist_eq := rfl
  camber_eq := rfl
  distance_eq := rfl
  nonempty := by simp
  kind_ok := Or.inl rfl
  increasing := demo_increasing
  chords_len := rfl
  twist_len := rfl
  camber_len := rfl
  distance_len := rfl
  camber_range := curveWithin_linear (by simp) rfl demo_increasing (by simp; norm_num)
  distance_range := ⟨1 / 2, by norm_num, curveWithin_linear (by simp) rfl demo_increasing (by simp; norm_num)⟩

theorem demo_goodMain {a : ℝ} (d : String) : GoodMainRig a (demoRig d) :=
  ⟨⟨1, rfl, one_pos⟩, Or.inl (by norm_num [demoRig]), by rw [show (demoRig d).rakeDeg = 90 from rfl, sin_deg_90]; exact one_pos⟩

theorem demo_goodJib {a : ℝ} (d : String) : GoodJibRig a (demoRig d) :=
  ⟨⟨1, rfl, one_pos⟩, ⟨1, rfl, one_pos⟩, ⟨1, rfl, one_pos⟩, Or.inl (by norm_num [demoRig]),
    by rw [show (demoRig d).rakeDeg = 90 from rfl, sin_deg_90]; exact one_pos⟩

/-- Non-vacuity of `C66_builds` and `C65_selection`: jib and main sail. -/
example : ∃ set, sailSetOf fitpackSpline ⟨2, 3, "linear", "real_twist"⟩
    (demoRig "jib_and_main") (some demoConf) (some demoConf) ⟨10, 5, 0⟩ = .ok set ∧
    set.panels.length = 24 := by
  obtain ⟨set, h, h1, -, -, h2⟩ := C66_builds ⟨2, 3, "linear", "real_twist"⟩
    (demoRig "jib_and_main") ⟨10, 5, 0⟩ (by simp [twistModes]) (by simp) (by simp)
    (by
      apply ne_of_gt
      apply Real.cos_pos_of_mem_Ioo
      have := Real.pi_pos
      simp only [deg2rad]
      constructor <;> linarith) demoConf demoConf (by decide)
    (fun _ => ⟨demo_goodJib _, _, _, _, _, _, demo_goodSail⟩)
    (fun _ => ⟨demo_goodMain _, _, _, _, _, _, demo_goodSail⟩)
  refine ⟨set, h, ?_⟩
  rw [h1, h2, if_pos (show (demoRig "jib_and_main").sailsDef = "jib_and_main" from rfl)]
  norm_num

/-- Five girths. -/
theorem five_increasing (i : ℕ) (hi : i + 1 < ([0, 1 / 4, 1 / 2, 3 / 4, 1] : List ℝ).length) :
    ([0, 1 / 4, 1 / 2, 3 / 4, 1] : List ℝ).getD i 0 < ([0, 1 / 4, 1 / 2, 3 / 4, 1] : List ℝ).getD (i + 1) 0 :=
  (demo_girths [0, 0, 0, 0, 0] rfl).increasing i (by simp at hi; omega)

/-- A constant row of data keeps its value, for both types. -/
theorem curveWithin_const (x : ℝ) : CurveWithin "spline" [0, 1 / 4, 1 / 2, 3 / 4, 1] [x, x, x, x, x] x x := by
  rintro t v - - (⟨h, -⟩ | ⟨-, S, hS, rfl⟩)
  · exact absurd h (by decide)
  · have h := cubic_isSpline (m := 4) (xs := fun i => ([0, 1 / 4, 1 / 2, 3 / 4, 1] : List ℝ).getD i 0)
      (ys := fun i => ([x, x, x, x, x] : List ℝ).getD i 0) x 0 0 0 (by
        intro i hi
        interval_cases i <;> simp)
    have e := hS.unique (by norm_num) (demo_girths [0, 0, 0, 0, 0] rfl).increasing h
    rw [e]
    constructor <;> simp

/-- A sail with tapering chords and twist, ten percent camber at 40 percent of the chord. -/
noncomputable def splineConf : SailConf :=
  ⟨some [5, 8, 11, 14, 17], some [0, 1 / 4, 1 / 2, 3 / 4, 1], some [4, 7 / 2, 3, 2, 1 / 10],
    some [1 / 10, 1 / 10, 1 / 10, 1 / 10, 1 / 10], some [2 / 5, 2 / 5, 2 / 5, 2 / 5, 2 / 5]⟩

theorem spline_goodSail : GoodSail "spline" splineConf [0, 1 / 4, 1 / 2, 3 / 4, 1] [4, 7 / 2, 3, 2, 1 / 10]
    [5, 8, 11, 14, 17] [1 / 10, 1 / 10, 1 / 10, 1 / 10, 1 / 10] [2 / 5, 2 / 5, 2 / 5, 2 / 5, 2 / 5] where
  girths_eq := rfl
  chords_eq := rfl
  twist_eq := rfl
  camber_eq := rfl
  distance_eq := rfl
  nonempty := by simp
  kind_ok := Or.inr ⟨rfl, by simp⟩
  increasing := five_increasing
  chords_len := rfl
  twist_len := rfl
  camber_len := rfl
  distance_len := rfl
  camber_range := fun x v h0 h1 h => by
    obtain ⟨a, b⟩ := curveWithin_const (1 / 10) x v h0 h1 h
    constructor <;> linarith
  distance_range := ⟨2 / 5, by norm_num, fun x v h0 h1 h => by
    obtain ⟨a, b⟩ := curveWithin_const (2 / 5) x v h0 h1 h
    constructor <;> linarith⟩

/-- Non-vacuity of `C66_builds` with splines. -/
example : ∃ set, sailSetOf fitpackSpline ⟨5, 3, "spline", "real_twist"⟩
    (demoRig "jib_and_main") (some splineConf) (some splineConf) ⟨0, 5, 0⟩ = .ok set ∧
    set.panels.length = 60 := by
  obtain ⟨set, h, h1, -, -, h2⟩ := C66_builds ⟨5, 3, "spline", "real_twist"⟩
    (demoRig "jib_and_main") ⟨0, 5, 0⟩ (by simp [twistModes]) (by simp) (by simp) (by simp [deg2rad])
    splineConf splineConf (by decide)
    (fun _ => ⟨demo_goodJib _, _, _, _, _, _, spline_goodSail⟩)
    (fun _ => ⟨demo_goodMain _, _, _, _, _, _, spline_goodSail⟩)
  refine ⟨set, h, ?_⟩
  rw [h1, h2, if_pos (show (demoRig "jib_and_main").sailsDef = "jib_and_main" from rfl)]
  norm_num

/-- A sail whose cambers are all between 0 and 30 percent. -/
noncomputable def overshootConf : SailConf := { splineConf with camber := some demoCamber }

/-- **C82**, consequence: a configuration whose data are all in range builds with linear interpolation, but with
splines the interpolated camber becomes negative and the program ends with status 1. -/
theorem C82_exit :
    (∃ set, sailSetOf fitpackSpline ⟨8, 3, "linear", "real_twist"⟩ (demoRig "main") (some overshootConf)
      (some overshootConf) ⟨0, 0, 0⟩ = .ok set) ∧
    (∀ m ∈ demoCamber, 0 ≤ m ∧ m ≤ 0.3) ∧
    sailSetOf fitpackSpline ⟨8, 3, "spline", "real_twist"⟩ (demoRig "main") (some overshootConf)
      (some overshootConf) ⟨0, 0, 0⟩ = .error (.sysExit 1) := by
  have hr : ∀ m ∈ demoCamber, (0 : ℝ) ≤ m ∧ m ≤ 0.3 := by simp [demoCamber]; norm_num
  refine ⟨?_, hr, ?_⟩
  · have hg : GoodSail "linear" overshootConf [0, 1 / 4, 1 / 2, 3 / 4, 1] [4, 7 / 2, 3, 2, 1 / 10]
        [5, 8, 11, 14, 17] demoCamber [2 / 5, 2 / 5, 2 / 5, 2 / 5, 2 / 5] :=
      { girths_eq := rfl, chords_eq := rfl, twist_eq := rfl, camber_eq := rfl, distance_eq := rfl
        nonempty := by simp, kind_ok := Or.inl rfl, increasing := five_increasing, chords_len := rfl
        twist_len := rfl, camber_len := rfl, distance_len := rfl
        camber_range := curveWithin_linear (by simp) rfl five_increasing hr
        distance_range := ⟨2 / 5, by norm_num, curveWithin_linear (by simp) rfl five_increasing
          (by simp; norm_num)⟩ }
    obtain ⟨set, h, -⟩ := C66_builds ⟨8, 3, "linear", "real_twist"⟩ (demoRig "main") ⟨0, 0, 0⟩ (by simp [twistModes])
      (by norm_num) (by norm_num) (by simp [deg2rad]) overshootConf overshootConf (by decide) (fun h => absurd rfl h)
      (fun _ => ⟨demo_goodMain _, _, _, _, _, _, hg⟩)
    exact ⟨set, h⟩
  · have e4 : interpolateGirths fitpackSpline "spline" [0, 1 / 4, 1 / 2, 3 / 4, 1]
        [2 / 5, 2 / 5, 2 / 5, 2 / 5, 2 / 5] 9 = .ok (List.replicate 9 (2 / 5)) := by
      have h := C81_cubic (2 / 5) 0 0 0 (demo_girths _ rfl) (by norm_num) 9
      have e : ([0, 1 / 4, 1 / 2, 3 / 4, 1].map fun x : ℝ => 2 / 5 + 0 * x + 0 * x ^ 2 + 0 * x ^ 3) =
          [2 / 5, 2 / 5, 2 / 5, 2 / 5, 2 / 5] := by simp
      rw [e] at h
      rw [h]
      congr 1
      simp [List.range, List.range.loop, List.replicate]
    obtain ⟨cc, hcc⟩ : ∃ cc, cc = (List.range 9).map fun k : ℕ => (13 : ℝ) / 200 + (-(3 / 8)) * ((k : ℝ) / (((9 : ℕ) : ℝ) - 1)) +
        1 / 2 * ((k : ℝ) / (((9 : ℕ) : ℝ) - 1)) ^ 2 + 0 * ((k : ℝ) / (((9 : ℕ) : ℝ) - 1)) ^ 3 := ⟨_, rfl⟩
    have e3 := demoCamber_spline 9
    rw [← hcc] at e3
    obtain ⟨S1, ⟨-, ch, e1, l1, -⟩, -⟩ := C81_spline (demo_girths [4, 7 / 2, 3, 2, 1 / 10] rfl) (by norm_num) 9
    obtain ⟨S2, ⟨-, tw, e2, l2, -⟩, -⟩ := C81_spline (demo_girths [5, 8, 11, 14, 17] rfl) (by norm_num) 9
    have hi : interpolatedSail fitpackSpline ⟨8, 3, "spline", "real_twist"⟩ overshootConf =
        .ok (ch, tw, cc, List.replicate 9 (2 / 5)) := by
      unfold interpolatedSail
      simp only [overshootConf, splineConf, needArray, bind, Except.bind, e1, e2, e3, e4]
    have hm : ∀ a b, makeAirfoilMesh a b 3 8 ch (List.replicate 9 (2 / 5))
        cc =
        .error (.sysExit 1)   := fun a b => by
      rw [hcc]
      refine ((C12_airfoil_mesh_rejects a b 3 8 _ _ _).2 l1 3 (by norm_num) ?_).2 _ _
        (by rw [List.getElem?_map]; rfl) rfl (Or.inl (by norm_num))
      intro i hi
      refine ⟨_, 2 / 5, by rw [List.getElem?_map, List.getElem?_range (by omega)]; rfl, ?_, ?_⟩
      · rw [List.getElem?_replicate, if_pos (by omega)]
      · interval_cases i <;> norm_num
    have hs : sailMain fitpackSpline ⟨8, 3, "spline", "real_twist"⟩ (demoRig "main") (some overshootConf) ⟨0, 0, 0⟩ =
        .error (.sysExit 1) := by
      unfold sailMain
      simp only [attr, need, bind, Except.bind, hi, demoRig]
      unfold SailFactory.makeMainSail sailGeometry
      simp only [bind, Except.bind, RigConf.factory]
      rw [hm]
    simp only [sailSetOf, selectedJib, selectedMain, demoRig] at hs ⊢
    simp only [hs]
    rfl

end PySailing.Props
