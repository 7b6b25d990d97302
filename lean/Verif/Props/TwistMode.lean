import Verif.Props.Keel

/-!
# C18, whole run: the twist mode has no influence
-/

namespace PySailing.Props

open Spec

/-- **C18, whole run.**  The three documented values of `LLT_twist` give the same run, with all its outputs, whatever the twist of
the sails. -/
theorem C18_run_mode_ignored (spline : SplineFn) (c : Config) (mode : String) (h : c.solver.lltTwist ∈ twistModes)
    (h' : mode ∈ twistModes) :
    run spline { c with solver := { c.solver with lltTwist := mode } } = run spline c := by
  have hp : prepare spline { c with solver := { c.solver with lltTwist := mode } } = prepare spline c := by
    have hm : ∀ m csys, sailMain spline { c.solver with lltTwist := mode } c.rig m csys = sailMain spline c.solver c.rig m csys := by
      intro m csys
      unfold sailMain
      cases attr m with
      | error e => rfl
      | ok m =>
      simp only [bind, Except.bind]
      rw [show interpolatedSail spline { c.solver with lltTwist := mode } m = interpolatedSail spline c.solver m from rfl]
      cases interpolatedSail spline c.solver m with
      | error e => rfl
      | ok q =>
      obtain ⟨ch, tw, ca, di⟩ := q
      simp only []
      cases need c.rig.mainLuff with
      | error e => rfl
      | ok luff =>
      simp only [SailFactory.makeMainSail]
      exact C18_mode_ignored ⟨_, _, _, _, _, ch, some tw, some c.solver.lltTwist, ca, di, "main_sail"⟩ mode c.solver.lltTwist h' h
    have hj : ∀ m csys, sailJib spline { c.solver with lltTwist := mode } c.rig m csys = sailJib spline c.solver c.rig m csys := by
      intro m csys
      unfold sailJib
      cases attr m with
      | error e => rfl
      | ok m =>
      simp only [bind, Except.bind]
      rw [show interpolatedSail spline { c.solver with lltTwist := mode } m = interpolatedSail spline c.solver m from rfl]
      cases interpolatedSail spline c.solver m with
      | error e => rfl
      | ok q =>
      obtain ⟨ch, tw, ca, di⟩ := q
      simp only []
      cases need c.rig.jibLuff with
      | error e => rfl
      | ok luff =>
      simp only []
      cases need c.rig.base with
      | error e => rfl
      | ok base =>
      simp only []
      cases need c.rig.height with
      | error e => rfl
      | ok height =>
      simp only [SailFactory.makeJib, bind, Except.bind]
      split
      · rename_i e he
        split
        · rename_i e' he'
          obtain rfl : e = e' := by simpa using he.symm.trans he'
          rfl
        · rename_i v hv
          exact absurd (he.symm.trans hv) (by simp)
      · rename_i v hv
        split
        · rename_i e' he'
          exact absurd (hv.symm.trans he') (by simp)
        · rename_i v' hv'
          obtain rfl := Except.ok.inj (hv.symm.trans hv')
          exact C18_mode_ignored ⟨_, _, _, _, _, ch, some tw, some c.solver.lltTwist, ca, di, "jib"⟩ mode c.solver.lltTwist h' h
    unfold prepare prepareGeometry sailSetOf selectedJib selectedMain
    simp only [hm, hj]
    rfl
  unfold run
  rw [hp]
  rfl

/-- Non-vacuity: the demonstration run, which writes a workbook, with the mode `average_const`. -/
example (spline : SplineFn) : (∃ t, .workbook (some t) ∈ (run spline Demo.config).1) ∧
    run spline { Demo.config with solver := { Demo.config.solver with lltTwist := "average_const" } } = run spline Demo.config :=
  ⟨demo_workbook spline, C18_run_mode_ignored spline Demo.config _ (by simp [Demo.config, twistModes]) (by simp [twistModes])⟩

end PySailing.Props
