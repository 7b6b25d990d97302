import Verif.Spec.Stations
import Verif.Lemmas.Picture
import Verif.Props.Workbook
import Verif.Props.JibMoved

/-!
# C148: sections on a straight line between their neighbours change nothing
-/

namespace PySailing.Props

open Spec

theorem interp1_cons (x a fa b fb : ℝ) (rest : List (ℝ × ℝ)) : interp1 x ((a, fa) :: (b, fb) :: rest) =
    if x < b then if x ≤ a then fa else (fb - fa) / (b - a) * (x - a) + fa else interp1 x ((b, fb) :: rest) := rfl

/-- A point on the segment between two neighbours does not change a polygon. -/
theorem interp1_between {t a b fa fb : ℝ} (h0 : 0 < t) (h1 : t < 1) (hab : a < b) (x : ℝ) (post : List (ℝ × ℝ)) :
    ∀ pre : List (ℝ × ℝ), interp1 x (pre ++ (a, fa) :: (a + t * (b - a), fa + t * (fb - fa)) :: (b, fb) :: post) =
      interp1 x (pre ++ (a, fa) :: (b, fb) :: post)
  | [] => by
    have hd : 0 < b - a := sub_pos.2 hab
    have m1 : a < a + t * (b - a) := by nlinarith
    have m2 : a + t * (b - a) < b := by nlinarith
    simp only [List.nil_append, interp1_cons]
    by_cases hx : x < a + t * (b - a)
    · rw [if_pos hx, if_pos (hx.trans m2)]
      by_cases hx' : x ≤ a
      · rw [if_pos hx', if_pos hx']
      · rw [if_neg hx', if_neg hx']
        congr 2
        have := hd.ne'
        rw [add_sub_cancel_left, add_sub_cancel_left, mul_div_mul_left _ _ h0.ne']
    · rw [if_neg hx]
      by_cases hb : x < b
      · rw [if_pos hb, if_pos hb, if_neg (by linarith : ¬ x ≤ a)]
        have := hd.ne'
        split_ifs with h
        · have e : x = a + t * (b - a) := le_antisymm h (not_lt.1 hx)
          rw [e]
          field_simp
          ring
        · have e1 : b - (a + t * (b - a)) = (1 - t) * (b - a) := by ring
          have e2 : fb - (fa + t * (fb - fa)) = (1 - t) * (fb - fa) := by ring
          rw [e1, e2, mul_div_mul_left _ _ (by linarith : (1 - t) ≠ 0)]
          field_simp
          ring
      · rw [if_neg hb, if_neg hb]
  | [(p, fp)] => by
    have ih := interp1_between (fa := fa) (fb := fb) h0 h1 hab x post []
    simp only [List.nil_append] at ih
    simp only [List.cons_append, List.nil_append]
    rw [interp1_cons x p fp, interp1_cons x p fp, ih]
  | (p, fp) :: (q, fq) :: pre => by
    have ih := interp1_between (fa := fa) (fb := fb) h0 h1 hab x post ((q, fq) :: pre)
    simp only [List.cons_append] at ih ⊢
    rw [interp1_cons x p fp, interp1_cons x p fp, ih]

theorem zip_stations (l : List Station) (f : Station → ℝ) : (l.map Station.girth).zip (l.map f) = l.map fun s => (s.girth, f s) := by
  induction l with
  | nil => rfl
  | cons s l ih => simp [ih]

theorem interpolate_between (spline : SplineFn) {t : ℝ} {a b : Station} (h0 : 0 < t) (h1 : t < 1) (hab : a.girth < b.girth)
    (pre post : List Station) (f : Station → ℝ) (hf : f (Station.between t a b) = f a + t * (f b - f a)) (n : ℕ) :
    interpolateGirths spline "linear" ((pre ++ a :: Station.between t a b :: b :: post).map Station.girth)
        ((pre ++ a :: Station.between t a b :: b :: post).map f) n =
      interpolateGirths spline "linear" ((pre ++ a :: b :: post).map Station.girth) ((pre ++ a :: b :: post).map f) n := by
  unfold interpolateGirths npInterp
  rw [if_pos rfl, if_pos rfl, if_neg (by simp), if_neg (by simp), if_neg (by simp), if_neg (by simp), zip_stations, zip_stations]
  refine congrArg Except.ok (List.map_congr_left fun x _ => ?_)
  have := interp1_between (fa := f a) (fb := f b) h0 h1 hab x (post.map fun s => (s.girth, f s)) (pre.map fun s => (s.girth, f s))
  simp only [List.map_append, List.map_cons, hf]
  exact this

theorem interpolated_between (spline : SplineFn) (s : SolverConf) (hs : s.interpolation = "linear") {t : ℝ} {a b : Station}
    (h0 : 0 < t) (h1 : t < 1) (hab : a.girth < b.girth) (pre post : List Station) :
    interpolatedSail spline s (sailFrom true (pre ++ a :: Station.between t a b :: b :: post)) =
      interpolatedSail spline s (sailFrom true (pre ++ a :: b :: post)) := by
  have k := fun f hf => interpolate_between spline h0 h1 hab pre post f hf (s.ns + 1)
  unfold interpolatedSail sailFrom
  simp only [hs, needArray, if_true, bind, Except.bind, k Station.chord rfl, k Station.twist rfl, k Station.camber rfl,
    k Station.distance rfl]

theorem checkShapes_sail (l : List Station) : checkShapes (sailFrom true l).arrays = .ok () := by
  simp [checkShapes, SailConf.arrays, sailFrom, List.foldlM, bind, Except.bind, pure, Except.pure]

/-- The sections with the default twist filled in. -/
noncomputable def twistFilled (x y : ℝ) (g : Bool) (l : List Station) : List Station :=
  if g then l else l.map fun s => { s with twist := x * s.girth + y }

theorem withTwist_sail (x y : ℝ) (g : Bool) (l : List Station) :
    (sailFrom g l).withTwist x y = .ok (sailFrom true (twistFilled x y g l)) := by
  cases g
  · simp [SailConf.withTwist, sailFrom, twistFilled, Function.comp_def]
  · simp [SailConf.withTwist, sailFrom, twistFilled]

theorem twisted_between (x y : ℝ) (g : Bool) (t : ℝ) (a b : Station) (pre post : List Station) :
    ∃ a' b' pre' post', a'.girth = a.girth ∧ b'.girth = b.girth ∧
      twistFilled x y g (pre ++ a :: Station.between t a b :: b :: post) = pre' ++ a' :: Station.between t a' b' :: b' :: post' ∧
      twistFilled x y g (pre ++ a :: b :: post) = pre' ++ a' :: b' :: post' := by
  cases g
  · refine ⟨{ a with twist := x * a.girth + y }, { b with twist := x * b.girth + y },
      pre.map fun s => { s with twist := x * s.girth + y }, post.map fun s => { s with twist := x * s.girth + y }, rfl, rfl, ?_, ?_⟩
    · simp only [twistFilled, Bool.false_eq_true, if_false, List.map_append, List.map_cons, Station.between]
      congr 4
      ring
    · simp [twistFilled]
  · exact ⟨a, b, pre, post, rfl, rfl, rfl, rfl⟩

/-- Two descriptions of the main sail, or of the jib, that are interpolated alike. -/
theorem sailMain_interp {spline : SplineFn} {s : SolverConf} (rig : RigConf) {m m' : SailConf} (csys : Csys)
    (h : interpolatedSail spline s m' = interpolatedSail spline s m) :
    sailMain spline s rig (some m') csys = sailMain spline s rig (some m) csys := by
  unfold sailMain
  simp only [attr, bind, Except.bind, h]

theorem sailJib_interp {spline : SplineFn} {s : SolverConf} (rig : RigConf) {j j' : SailConf} (csys : Csys)
    (h : interpolatedSail spline s j' = interpolatedSail spline s j) :
    sailJib spline s rig (some j') csys = sailJib spline s rig (some j) csys := by
  unfold sailJib
  simp only [attr, bind, Except.bind, h]

theorem hasNone_sail (scalars : List (Option ℝ)) (l l' : List Station) (rest : List (Option (List ℝ))) :
    hasNone scalars ((sailFrom true l').arrays ++ rest) = hasNone scalars ((sailFrom true l).arrays ++ rest) ∧
    hasNone scalars (rest ++ (sailFrom true l').arrays) = hasNone scalars (rest ++ (sailFrom true l).arrays) ∧
    hasNone scalars (sailFrom true l').arrays = hasNone scalars (sailFrom true l).arrays := by
  simp [hasNone, SailConf.arrays, sailFrom]

/-- **C148, main sail.**  With linear interpolation, adding to the description of the main sail a section that lies on
straight lines between two neighbouring sections does not change anything: the run is the same, whatever it produces and
however it ends.  The same is true if the twist is left out and the default is used. -/
theorem C148_main (spline : SplineFn) (c : Config) (hl : c.solver.interpolation = "linear") (g : Bool) (t : ℝ) (h0 : 0 < t)
    (h1 : t < 1) (a b : Station) (hab : a.girth < b.girth) (pre post : List Station) :
    run spline { c with main := sailFrom g (pre ++ a :: Station.between t a b :: b :: post) } =
      run spline { c with main := sailFrom g (pre ++ a :: b :: post) } := by
  refine run_congr rfl ?_
  obtain ⟨a', b', pre', post', e1, e2, e3, e4⟩ := twisted_between 12 5 g t a b pre post
  unfold prepare prepareGeometry mainSailInit
  simp only [withTwist_sail, e3, e4, bind, Except.bind]
  have k := interpolated_between spline c.solver hl h0 h1 (a := a') (b := b') (by rw [e1, e2]; exact hab) pre' post'
  generalize ha : pre' ++ a' :: Station.between t a' b' :: b' :: post' = l' at k ⊢
  generalize hb : pre' ++ a' :: b' :: post' = l at k ⊢
  have hp : ∀ j, sailPostInit c.rig (some (sailFrom true l')) (some j) = sailPostInit c.rig (some (sailFrom true l)) (some j) := by
    intro j
    unfold sailPostInit sailChecks
    simp only [boundLocal, bind, Except.bind, checkShapes_sail, (hasNone_sail (mainScalars c.rig) l l' []).2.2,
      (hasNone_sail (jibScalars c.rig ++ mainScalars c.rig) l l' j.arrays).2.1]
  have hset : ∀ j csys, sailSetOf spline c.solver c.rig (some (sailFrom true l')) (some j) csys =
      sailSetOf spline c.solver c.rig (some (sailFrom true l)) (some j) csys := by
    intro j csys
    unfold sailSetOf selectedMain
    rw [sailMain_interp c.rig csys k]
  simp only [hp, hset]
  rfl

/-- **C148, jib.** -/
theorem C148_jib (spline : SplineFn) (c : Config) (hl : c.solver.interpolation = "linear") (g : Bool) (t : ℝ) (h0 : 0 < t)
    (h1 : t < 1) (a b : Station) (hab : a.girth < b.girth) (pre post : List Station) :
    run spline { c with jib := sailFrom g (pre ++ a :: Station.between t a b :: b :: post) } =
      run spline { c with jib := sailFrom g (pre ++ a :: b :: post) } := by
  refine run_congr rfl ?_
  obtain ⟨a', b', pre', post', e1, e2, e3, e4⟩ := twisted_between 15 7 g t a b pre post
  unfold prepare prepareGeometry jibSailInit
  simp only [withTwist_sail, e3, e4, bind, Except.bind]
  have k := interpolated_between spline c.solver hl h0 h1 (a := a') (b := b') (by rw [e1, e2]; exact hab) pre' post'
  generalize ha : pre' ++ a' :: Station.between t a' b' :: b' :: post' = l' at k ⊢
  generalize hb : pre' ++ a' :: b' :: post' = l at k ⊢
  have hp : ∀ m, sailPostInit c.rig (some m) (some (sailFrom true l')) = sailPostInit c.rig (some m) (some (sailFrom true l)) := by
    intro m
    unfold sailPostInit sailChecks
    simp only [boundLocal, bind, Except.bind, checkShapes_sail, (hasNone_sail (jibScalars c.rig) l l' []).2.2,
      (hasNone_sail (jibScalars c.rig ++ mainScalars c.rig) l l' m.arrays).1]
  have hset : ∀ m csys, sailSetOf spline c.solver c.rig (some m) (some (sailFrom true l')) csys =
      sailSetOf spline c.solver c.rig (some m) (some (sailFrom true l)) csys := by
    intro m csys
    unfold sailSetOf selectedJib
    rw [sailJib_interp c.rig csys k]
  simp only [hp, hset]
  rfl

/-- Non-vacuity of `C148_main`: the demonstration run with a third section at mid-height; both runs write a workbook. -/
example (spline : SplineFn) :
    Demo.config.main = sailFrom true ([] ++ ⟨0, 1, 0, 0, 1 / 2⟩ :: ⟨1, 1, 0, 0, 1 / 2⟩ :: []) ∧
    (∃ t, .workbook (some t) ∈ (run spline { Demo.config with
      main := sailFrom true
        ([] ++ ⟨0, 1, 0, 0, 1 / 2⟩ :: Station.between (1 / 2) ⟨0, 1, 0, 0, 1 / 2⟩ ⟨1, 1, 0, 0, 1 / 2⟩ :: ⟨1, 1, 0, 0, 1 / 2⟩ :: []) }).1) := by
  have e : Demo.config.main = sailFrom true ([] ++ ⟨0, 1, 0, 0, 1 / 2⟩ :: ⟨1, 1, 0, 0, 1 / 2⟩ :: []) := rfl
  refine ⟨e, ?_⟩
  have h := C148_main spline Demo.config rfl true (1 / 2) (by norm_num) (by norm_num) ⟨0, 1, 0, 0, 1 / 2⟩ ⟨1, 1, 0, 0, 1 / 2⟩
    (by norm_num) [] []
  rw [← e] at h
  obtain ⟨t, ht⟩ := demo_workbook spline
  exact ⟨t, by rw [h]; exact ht⟩

/-- Non-vacuity of `C148_jib`: the demonstration run of a jib alone with a third section. -/
example :
    (∃ t, .workbook (some t) ∈ (run fitpackSpline { demoJibAlone with
      jib := sailFrom true
        ([] ++ ⟨0, 1, 0, 0, 1 / 2⟩ :: Station.between (1 / 3) ⟨0, 1, 0, 0, 1 / 2⟩ ⟨1, 1, 0, 0, 1 / 2⟩ :: ⟨1, 1, 0, 0, 1 / 2⟩ :: []) }).1) := by
  have e : demoJibAlone.jib = sailFrom true ([] ++ ⟨0, 1, 0, 0, 1 / 2⟩ :: ⟨1, 1, 0, 0, 1 / 2⟩ :: []) := rfl
  have h := C148_jib fitpackSpline demoJibAlone rfl true (1 / 3) (by norm_num) (by norm_num) ⟨0, 1, 0, 0, 1 / 2⟩ ⟨1, 1, 0, 0, 1 / 2⟩
    (by norm_num) [] []
  rw [← e] at h
  obtain ⟨t, ht⟩ := jibAlone_workbook
  exact ⟨t, by rw [h]; exact ht⟩

end PySailing.Props
