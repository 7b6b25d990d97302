import Verif.Spec.Straight
import Verif.Props.Spline
import Verif.Props.Stations

/-!
# C151: a straight sail is the same sail however it is described
-/

namespace PySailing.Props

open Spec

theorem interpolate_line {kind : String} {xs : List ℝ} (h : Suitable kind xs) (l : Line) (n : ℕ) :
    interpolateGirths fitpackSpline kind xs (xs.map l.at) n =
      .ok ((List.range n).map fun k : ℕ => l.at ((k : ℝ) / ((n : ℝ) - 1))) := by
  obtain ⟨x0, h0, h0'⟩ := h.foot
  obtain ⟨x1, h1, h1'⟩ := h.head
  have hne : xs ≠ [] := by rintro rfl; simp at h0
  have hpos : 0 < xs.length := List.length_pos_iff.2 hne
  have hd : GirthData (xs.length - 1) xs (xs.map fun x => l.slope * x + l.foot) := by
    refine ⟨by omega, by rw [List.length_map]; omega, fun i hi => ?_⟩
    have := List.pairwise_iff_getElem.1 h.increasing i (i + 1) (by omega) (by omega) (by omega)
    rw [List.getD_eq_getElem?_getD, List.getD_eq_getElem?_getD, List.getElem?_eq_getElem (by omega : i < xs.length),
      List.getElem?_eq_getElem (by omega : i + 1 < xs.length)]
    exact this
  have e0 : ∃ x0, xs[0]? = some x0 ∧ x0 ≤ 0 := ⟨x0, by rw [← List.head?_eq_getElem?]; exact h0, h0'⟩
  have e1 : ∃ x1, xs[xs.length - 1]? = some x1 ∧ 1 ≤ x1 := ⟨x1, by rw [← List.getLast?_eq_getElem?]; exact h1, h1'⟩
  have hlin := C52_affine (n := n) l.slope l.foot hd fitpackSpline e0 e1
  show interpolateGirths fitpackSpline kind xs (xs.map fun x => l.slope * x + l.foot) n =
    .ok ((List.range n).map fun k : ℕ => l.slope * ((k : ℝ) / ((n : ℝ) - 1)) + l.foot)
  rcases h.enough with rfl | ⟨rfl, h4⟩
  · exact hlin
  · rw [C81_affine l.slope l.foot hd (by omega) e0 e1, hlin]

theorem interpolated_straight {s : SolverConf} {xs : List ℝ} (h : Suitable s.interpolation xs) (m : StraightSail) :
    interpolatedSail fitpackSpline s (m.sections xs) =
      .ok ((List.range (s.ns + 1)).map fun k : ℕ => m.chord.at ((k : ℝ) / (((s.ns + 1 : ℕ) : ℝ) - 1)),
        (List.range (s.ns + 1)).map fun k : ℕ => m.twist.at ((k : ℝ) / (((s.ns + 1 : ℕ) : ℝ) - 1)),
        (List.range (s.ns + 1)).map fun k : ℕ => m.camber.at ((k : ℝ) / (((s.ns + 1 : ℕ) : ℝ) - 1)),
        (List.range (s.ns + 1)).map fun k : ℕ => m.distance.at ((k : ℝ) / (((s.ns + 1 : ℕ) : ℝ) - 1))) := by
  unfold interpolatedSail StraightSail.sections
  simp only [needArray, bind, Except.bind, interpolate_line h]

theorem checkShapes_straight (m : StraightSail) (xs : List ℝ) : checkShapes (m.sections xs).arrays = .ok () := by
  simp [checkShapes, SailConf.arrays, StraightSail.sections, List.foldlM, bind, Except.bind, pure, Except.pure]

theorem hasNone_straight (m j : StraightSail) (xs ys xs' ys' : List ℝ) (scalars : List (Option ℝ)) :
    hasNone scalars ((j.sections ys').arrays ++ (m.sections xs').arrays) = hasNone scalars ((j.sections ys).arrays ++ (m.sections xs).arrays) ∧
    hasNone scalars (m.sections xs').arrays = hasNone scalars (m.sections xs).arrays := by
  simp [hasNone, SailConf.arrays, StraightSail.sections]

/-- The settings with both sails straight, given at some girths, and an interpolation. -/
noncomputable def straightConf (c : Config) (m j : StraightSail) (kind : String) (xs ys : List ℝ) : Config :=
  { c with solver := { c.solver with interpolation := kind }, main := m.sections xs, jib := j.sections ys }

/-- **C151.**  If chord, twist, camber and camber position of the sails are straight lines over the girth, a run does not depend
on the girths at which they are given, nor on the kind of interpolation. -/
theorem C151_straight (c : Config) (m j : StraightSail) {kind kind' : String} {xs ys xs' ys' : List ℝ}
    (hx : Suitable kind xs) (hy : Suitable kind ys) (hx' : Suitable kind' xs') (hy' : Suitable kind' ys') :
    run fitpackSpline { c with solver := { c.solver with interpolation := kind' }, main := m.sections xs', jib := j.sections ys' } =
      run fitpackSpline { c with solver := { c.solver with interpolation := kind }, main := m.sections xs, jib := j.sections ys } := by
  show run fitpackSpline (straightConf c m j kind' xs' ys') = run fitpackSpline (straightConf c m j kind xs ys)
  have hp : prepare fitpackSpline (straightConf c m j kind' xs' ys') = prepare fitpackSpline (straightConf c m j kind xs ys) := by
    have hpost : sailPostInit c.rig (some (m.sections xs')) (some (j.sections ys')) =
        sailPostInit c.rig (some (m.sections xs)) (some (j.sections ys)) := by
      unfold sailPostInit sailChecks
      simp only [boundLocal, bind, Except.bind, checkShapes_straight, (hasNone_straight m j xs ys xs' ys' _).1,
        (hasNone_straight m j xs ys xs' ys' _).2, (hasNone_straight j m ys xs ys' xs' _).2]
    have hm : ∀ csys, sailMain fitpackSpline { c.solver with interpolation := kind' } c.rig (some (m.sections xs')) csys =
        sailMain fitpackSpline { c.solver with interpolation := kind } c.rig (some (m.sections xs)) csys := by
      intro csys
      unfold sailMain
      simp only [attr, bind, Except.bind]
      rw [interpolated_straight (s := { c.solver with interpolation := kind' }) hx' m,
        interpolated_straight (s := { c.solver with interpolation := kind }) hx m]
      rfl
    have hj : ∀ csys, sailJib fitpackSpline { c.solver with interpolation := kind' } c.rig (some (j.sections ys')) csys =
        sailJib fitpackSpline { c.solver with interpolation := kind } c.rig (some (j.sections ys)) csys := by
      intro csys
      unfold sailJib
      simp only [attr, bind, Except.bind]
      rw [interpolated_straight (s := { c.solver with interpolation := kind' }) hy' j,
        interpolated_straight (s := { c.solver with interpolation := kind }) hy j]
      rfl
    have hset : ∀ csys, sailSetOf fitpackSpline { c.solver with interpolation := kind' } c.rig (some (m.sections xs')) (some (j.sections ys'))
        csys = sailSetOf fitpackSpline { c.solver with interpolation := kind } c.rig (some (m.sections xs)) (some (j.sections ys)) csys := by
      intro csys
      unfold sailSetOf selectedJib selectedMain
      rw [hm, hj]
    have hi : ∀ a b xs, (m.sections xs).withTwist a b = .ok (m.sections xs) := fun _ _ _ => rfl
    have hi' : ∀ a b ys, (j.sections ys).withTwist a b = .ok (j.sections ys) := fun _ _ _ => rfl
    unfold prepare prepareGeometry straightConf mainSailInit jibSailInit
    simp only [hi, hi', bind, Except.bind, hpost, hset]
    rfl
  unfold run
  rw [hp]
  rfl

/-- Non-vacuity: girths for both kinds of interpolation, and the demonstration run, whose sails are straight and which writes a
workbook; it does so with splines through four sections. -/
example : ∃ t, .workbook (some t) ∈ (run fitpackSpline { Demo.config with
    solver := { Demo.config.solver with interpolation := "spline" }
    main := StraightSail.sections ⟨⟨0, 1⟩, ⟨0, 0⟩, ⟨0, 0⟩, ⟨0, 1 / 2⟩⟩ [0, 1 / 4, 1 / 2, 1]
    jib := StraightSail.sections ⟨⟨0, 1⟩, ⟨0, 0⟩, ⟨0, 0⟩, ⟨0, 1 / 2⟩⟩ [-1, 1 / 4, 1 / 2, 2] }).1 := by
  have h1 : Suitable "linear" [0, 1] := ⟨.inl rfl, by simp, ⟨0, rfl, le_rfl⟩, ⟨1, rfl, le_rfl⟩⟩
  have h2 : Suitable "spline" [0, 1 / 4, 1 / 2, 1] :=
    ⟨.inr ⟨rfl, by simp⟩, by simp; norm_num, ⟨0, rfl, le_rfl⟩, ⟨1, rfl, le_rfl⟩⟩
  have h3 : Suitable "spline" [-1, 1 / 4, 1 / 2, 2] :=
    ⟨.inr ⟨rfl, by simp⟩, by simp; norm_num, ⟨-1, rfl, by norm_num⟩, ⟨2, rfl, by norm_num⟩⟩
  rw [C151_straight Demo.config ⟨⟨0, 1⟩, ⟨0, 0⟩, ⟨0, 0⟩, ⟨0, 1 / 2⟩⟩ ⟨⟨0, 1⟩, ⟨0, 0⟩, ⟨0, 0⟩, ⟨0, 1 / 2⟩⟩ h1 h1 h2 h3]
  obtain ⟨t, ht⟩ := demo_workbook fitpackSpline
  refine ⟨t, ?_⟩
  have e : StraightSail.sections ⟨⟨0, 1⟩, ⟨0, 0⟩, ⟨0, 0⟩, ⟨0, 1 / 2⟩⟩ [0, 1] = demoConf := by
    simp [StraightSail.sections, Line.at, demoConf]
  rw [e]
  exact ht

end PySailing.Props
