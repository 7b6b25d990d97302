import Verif.Props.Turns
import Verif.Props.Spline

/-!
# C149: the twist is only used modulo full turns
-/

namespace PySailing.Props

open Spec

theorem interp1_shift (x d : ℝ) : ∀ (l : List (ℝ × ℝ)), l ≠ [] → interp1 x (l.map fun q => (q.1, q.2 + d)) = interp1 x l + d
  | [], h => absurd rfl h
  | [(_, _)], _ => rfl
  | (a, fa) :: (b, fb) :: rest, _ => by
    have ih := interp1_shift x d ((b, fb) :: rest) (by simp)
    simp only [List.map_cons] at ih ⊢
    unfold interp1
    rw [ih]
    split_ifs
    · rfl
    · ring
    · rfl

theorem npInterp_shift (d : ℝ) (xNew xs ys : List ℝ) :
    npInterp xNew xs (ys.map (· + d)) = (npInterp xNew xs ys).map (List.map (· + d)) := by
  unfold npInterp
  rw [List.length_map]
  by_cases h0 : xs = []
  · rw [if_pos h0, if_pos h0]; rfl
  · rw [if_neg h0, if_neg h0]
    by_cases h1 : xs.length ≠ ys.length
    · rw [if_pos h1, if_pos h1]; rfl
    · rw [if_neg h1, if_neg h1]
      simp only [Except.map, List.map_map]
      refine congrArg Except.ok (List.map_congr_left fun x _ => ?_)
      have e : xs.zip (ys.map (· + d)) = (xs.zip ys).map fun q => (q.1, q.2 + d) := by
        rw [List.zip_map_right]
        rfl
      rw [e, interp1_shift]
      · rfl
      · rw [not_not] at h1
        intro h
        rw [List.zip_eq_nil_iff] at h
        rcases h with h | h
        · exact h0 h
        · rw [h] at h1
          exact h0 (List.eq_nil_of_length_eq_zero h1)

theorem fitpack_shift (d : ℝ) (xNew xs ys : List ℝ) :
    fitpackSpline xNew xs (ys.map (· + d)) = (fitpackSpline xNew xs ys).map (List.map (· + d)) := by
  unfold fitpackSpline
  rw [List.length_map]
  by_cases h1 : xs.length ≠ ys.length
  · rw [if_pos h1, if_pos h1]; rfl
  rw [if_neg h1, if_neg h1]
  rw [not_not] at h1
  by_cases h2 : xs.length ≤ 3
  · rw [if_pos h2, if_pos h2]; rfl
  rw [if_neg h2, if_neg h2]
  by_cases h3 : ∃ i, i + 1 < xs.length ∧ xs.getD (i + 1) 0 < xs.getD i 0
  · rw [if_pos h3, if_pos h3]; rfl
  rw [if_neg h3, if_neg h3]
  by_cases h4 : ∃ i, i + 1 < xs.length ∧ xs.getD (i + 1) 0 = xs.getD i 0
  · rw [if_pos h4, if_pos h4]; rfl
  rw [if_neg h4, if_neg h4]
  have hm : 3 ≤ xs.length - 1 := by omega
  have hinc : ∀ i < xs.length - 1, xs.getD i 0 < xs.getD (i + 1) 0 := by
    intro i hi
    rcases lt_trichotomy (xs.getD i 0) (xs.getD (i + 1) 0) with h | h | h
    · exact h
    · exact absurd ⟨i, by omega, h.symm⟩ h4
    · exact absurd ⟨i, by omega, h⟩ h3
  have hS := splineThrough_isSpline (xs := fun i => xs.getD i 0) hm hinc fun i => ys.getD i 0
  have hT := splineThrough_isSpline (xs := fun i => xs.getD i 0) hm hinc fun i => (ys.map (· + d)).getD i 0
  have hC := hS.sub (cubic_isSpline (m := xs.length - 1) (xs := fun i => xs.getD i 0) (ys := fun _ => -d) (-d) 0 0 0 fun _ _ => by ring)
  have hU : IsSpline (xs.length - 1) (fun i => xs.getD i 0) (fun i => (ys.map (· + d)).getD i 0)
      fun x => splineThrough (xs.length - 1) (fun i => xs.getD i 0) (fun i => ys.getD i 0) x -
        (-d + 0 * x + 0 * x ^ 2 + 0 * x ^ 3) := by
    refine ⟨fun i hi => ?_, hC.smooth, hC.first, hC.between, hC.last⟩
    rw [hC.through i hi]
    have : i < ys.length := by omega
    simp [List.getD_eq_getElem?_getD, this]
  rw [hT.unique hm hinc hU]
  simp only [Except.map, List.map_map]
  refine congrArg Except.ok (List.map_congr_left fun x _ => ?_)
  simp only [Function.comp]
  ring

theorem interpolate_shift {spline : SplineFn} {kind : String} (hs : kind = "linear" ∨ spline = fitpackSpline) (d : ℝ) (xs ys : List ℝ)
    (n : ℕ) : interpolateGirths spline kind xs (ys.map (· + d)) n = (interpolateGirths spline kind xs ys n).map (List.map (· + d)) := by
  unfold interpolateGirths
  by_cases hk : kind = "linear"
  · simp only [if_pos hk, npInterp_shift]
  · obtain rfl := hs.resolve_left hk
    simp only [if_neg hk]
    by_cases hk' : kind = "spline"
    · simp only [if_pos hk', fitpack_shift]
    · simp only [if_neg hk']; rfl

theorem arbitraryAxis_turns (ps : List V3) (p1 p2 : V3) (t : ℝ) (k : ℤ) :
    rotatePointsAroundArbitraryAxis ps p1 p2 (deg2rad (t + 360 * k)) = rotatePointsAroundArbitraryAxis ps p1 p2 (deg2rad t) := by
  unfold rotatePointsAroundArbitraryAxis rotateAboutLineCore arbitraryAxisMatrix matRz
  simp only [deg2rad_turns, Real.cos_add_int_mul_two_pi, Real.sin_add_int_mul_two_pi]

theorem aroundLe_turns (ps : List V3) (p1 p2 : V3) (tw : List ℝ) (k : ℤ) :
    rotatePointsAroundLe ps p1 p2 (tw.map (· + 360 * (k : ℝ))) = rotatePointsAroundLe ps p1 p2 tw := by
  rcases tw with _ | ⟨t0, tw⟩
  · rfl
  · unfold rotatePointsAroundLe
    simp only [List.map_cons]
    have e : (∀ t ∈ (t0 + 360 * (k : ℝ)) :: tw.map (· + 360 * (k : ℝ)), t = t0 + 360 * (k : ℝ)) ↔ ∀ t ∈ t0 :: tw, t = t0 := by
      simp
    rw [arbitraryAxis_turns]
    by_cases h : ∀ t ∈ t0 :: tw, t = t0
    · rw [if_pos h, if_pos (e.2 h)]
    · rw [if_neg h, if_neg fun h' => h (e.1 h')]
      have hz : ps.zip ((t0 + 360 * (k : ℝ)) :: tw.map (· + 360 * (k : ℝ))) =
          (ps.zip (t0 :: tw)).map fun q => (q.1, q.2 + 360 * (k : ℝ)) := by
        rw [← List.map_cons (f := fun x : ℝ => x + 360 * (k : ℝ)), List.zip_map_right]
        rfl
      have hm : ∀ l : List (V3 × ℝ),
          (l.map fun q => (q.1, q.2 + 360 * (k : ℝ))).mapM (fun q => rotatePointsAroundArbitraryAxis [q.1] p1 p2 (deg2rad q.2)) =
            l.mapM fun q => rotatePointsAroundArbitraryAxis [q.1] p1 p2 (deg2rad q.2) := by
        intro l
        induction l with
        | nil => rfl
        | cons q l ih => simp only [List.map_cons, List.mapM_cons, ih, arbitraryAxis_turns]
      rw [hz, hm]

theorem twistMesh_turns (mesh : List V3) (sh0 sh1 : ℕ) (tw : List ℝ) (k : ℤ) :
    twistMesh mesh sh0 sh1 (tw.map (· + 360 * (k : ℝ))) = twistMesh mesh sh0 sh1 tw := by
  unfold twistMesh
  simp only [aroundLe_turns]

theorem twistPerPoint_map (f : ℝ → ℝ) (tw : List ℝ) (sh0 sh1 : ℕ) :
    twistPerPoint (tw.map f) sh0 sh1 = (twistPerPoint tw sh0 sh1).map (List.map f) := by
  unfold twistPerPoint
  have e : (List.replicate sh1 (tw.map f)).flatten = (List.replicate sh1 tw).flatten.map f := by
    rw [List.map_flatten, List.map_replicate]
  simp only [e, List.length_map]
  by_cases h : (List.replicate sh1 tw).flatten.length = sh1 * sh0
  · rw [if_pos h, if_pos h]
    simp only [Except.map, List.map_flatMap, List.map_map]
    refine congrArg Except.ok ?_
    refine List.flatMap_congr fun i hi => List.map_congr_left fun j hj => ?_
    have hlt : j * sh0 + i < (List.replicate sh1 tw).flatten.length := by
      rw [h]
      have := List.mem_range.1 hi
      have h2 := List.mem_range.1 hj
      calc j * sh0 + i < j * sh0 + sh0 := by omega
        _ = (j + 1) * sh0 := by ring
        _ ≤ sh1 * sh0 := Nat.mul_le_mul_right _ h2
    simp only [Function.comp]
    generalize (List.replicate sh1 tw).flatten = l at hlt ⊢
    simp [List.getD, List.getElem?_eq_getElem hlt]
  · rw [if_neg h, if_neg h]; rfl

theorem twistBlock_turns (s : SailInput) (tw : List ℝ) (sh0 sh1 : ℕ) (mesh under : List V3) (k : ℤ) :
    twistBlock { s with twist := some (tw.map (· + 360 * (k : ℝ))) } sh0 sh1 mesh under =
      twistBlock { s with twist := some tw } sh0 sh1 mesh under := by
  unfold twistBlock
  rcases s.mode with _ | mode
  · rfl
  · have hd : (twistDict (tw.map (· + 360 * (k : ℝ))) mode).map (fun _ => ()) = (twistDict tw mode).map fun _ => () := by
      rcases tw with _ | ⟨x, xs⟩
      · rfl
      · simp only [twistDict, List.map_cons]
        split_ifs <;> rfl
    simp only [twistPerPoint_map]
    cases h1 : twistDict tw mode with
    | error e =>
      rw [h1] at hd
      cases h2 : twistDict (tw.map (· + 360 * (k : ℝ))) mode with
      | error e' => rw [h2] at hd; cases hd; rfl
      | ok _ => rw [h2] at hd; cases hd
    | ok _ =>
      rw [h1] at hd
      cases h2 : twistDict (tw.map (· + 360 * (k : ℝ))) mode with
      | error e' => rw [h2] at hd; cases hd
      | ok _ =>
        simp only [bind, Except.bind]
        cases twistPerPoint tw sh0 sh1 with
        | error e => rfl
        | ok t => simp only [Except.map, ← List.map_reverse, twistMesh_turns]

theorem sail_turns (s : SailInput) (tw : List ℝ) (k : ℤ) :
    sailGeometry { s with twist := some (tw.map (· + 360 * (k : ℝ))) } = sailGeometry { s with twist := some tw } := by
  unfold sailGeometry
  simp only [twistBlock_turns s tw]

/-- A sail with every twist angle of its sections changed by the same full turns. -/
noncomputable def twistTurned (k : ℤ) (s : SailConf) : SailConf := { s with twist := s.twist.map (List.map (· + 360 * (k : ℝ))) }

theorem interpolated_turns (spline : SplineFn) (s : SolverConf) (hs : s.interpolation = "linear" ∨ spline = fitpackSpline) (m : SailConf)
    (k : ℤ) : interpolatedSail spline s (twistTurned k m) =
      (interpolatedSail spline s m).map fun a => (a.1, a.2.1.map (· + 360 * (k : ℝ)), a.2.2) := by
  unfold interpolatedSail twistTurned
  rcases m with ⟨tw, gi, ch, ca, di⟩
  simp only []
  cases needArray s.interpolation gi with
  | error e => rfl
  | ok gi' =>
  cases needArray s.interpolation ch with
  | error e => rfl
  | ok ch' =>
  simp only [bind, Except.bind]
  cases interpolateGirths spline s.interpolation gi' ch' (s.ns + 1) with
  | error e => rfl
  | ok ch'' =>
  simp only []
  rcases tw with _ | tw
  · simp only [Option.map]
    cases h : needArray s.interpolation none with
    | error e => rfl
    | ok a =>
      unfold needArray at h
      simp only at h
      split_ifs at h
  simp only [Option.map, show ∀ a, needArray s.interpolation (some a) = .ok a from fun _ => rfl, interpolate_shift hs]
  cases interpolateGirths spline s.interpolation gi' tw (s.ns + 1) with
  | error e => rfl
  | ok tw' =>
  simp only [Except.map]
  cases needArray s.interpolation ca with
  | error e => rfl
  | ok ca' =>
  simp only []
  cases interpolateGirths spline s.interpolation gi' ca' (s.ns + 1) with
  | error e => rfl
  | ok ca'' =>
  simp only []
  cases needArray s.interpolation di with
  | error e => rfl
  | ok di' =>
  simp only []
  cases interpolateGirths spline s.interpolation gi' di' (s.ns + 1) <;> rfl

theorem sailMain_turns (spline : SplineFn) (s : SolverConf) (hs : s.interpolation = "linear" ∨ spline = fitpackSpline) (rig : RigConf) (m : SailConf) (csys : Csys)
    (k : ℤ) : sailMain spline s rig (some (twistTurned k m)) csys = sailMain spline s rig (some m) csys := by
  unfold sailMain SailFactory.makeMainSail
  simp only [attr, bind, Except.bind, interpolated_turns spline s hs]
  cases interpolatedSail spline s m with
  | error e => rfl
  | ok a =>
    obtain ⟨a1, a2, a3, a4⟩ := a
    simp only [Except.map]
    cases need rig.mainLuff with
    | error e => rfl
    | ok l => exact sail_turns ⟨_, _, _, _, _, _, none, _, _, _, _⟩ a2 k

theorem sailJib_turns (spline : SplineFn) (s : SolverConf) (hs : s.interpolation = "linear" ∨ spline = fitpackSpline) (rig : RigConf) (m : SailConf) (csys : Csys)
    (k : ℤ) : sailJib spline s rig (some (twistTurned k m)) csys = sailJib spline s rig (some m) csys := by
  unfold sailJib SailFactory.makeJib
  simp only [attr, bind, Except.bind, interpolated_turns spline s hs]
  cases interpolatedSail spline s m with
  | error e => rfl
  | ok a =>
    obtain ⟨a1, a2, a3, a4⟩ := a
    simp only [Except.map]
    cases need rig.jibLuff with
    | error e => rfl
    | ok l =>
    cases need rig.base with
    | error e => rfl
    | ok b =>
    cases need rig.height with
    | error e => rfl
    | ok h =>
    simp only []
    cases (rig.factory s csys).jibMounting l b h rig.mastLOA with
    | error e => rfl
    | ok mt => exact sail_turns ⟨_, _, _, _, _, _, none, _, _, _, _⟩ a2 k

theorem checkShapes_turns (k : ℤ) (m : SailConf) : checkShapes (twistTurned k m).arrays = checkShapes m.arrays := by
  rcases m with ⟨tw, gi, ch, ca, di⟩
  rcases tw with _ | tw <;> rcases gi with _ | gi <;>
    simp [checkShapes, SailConf.arrays, twistTurned, List.foldlM, bind, Except.bind]

theorem isNone_turns (k : ℤ) (m : SailConf) : (twistTurned k m).arrays.any Option.isNone = m.arrays.any Option.isNone := by
  simp [SailConf.arrays, twistTurned]

theorem postInit_turns (k n : ℤ) (rig : RigConf) (m j : SailConf) :
    sailPostInit rig (some (twistTurned k m)) (some (twistTurned n j)) = sailPostInit rig (some m) (some j) := by
  unfold sailPostInit sailChecks hasNone
  simp only [boundLocal, bind, Except.bind, checkShapes_turns, isNone_turns, List.any_append]

theorem withTwist_turns (k : ℤ) (a b : ℝ) (m : SailConf) (h : m.twist ≠ none) :
    (twistTurned k m).withTwist a b = (m.withTwist a b).map (twistTurned k) := by
  rcases m with ⟨tw, gi, ch, ca, di⟩
  rcases tw with _ | tw
  · exact absurd rfl h
  · rfl

theorem turns_none (k : ℤ) (m : SailConf) (h : m.twist = none) : twistTurned k m = m := by
  rcases m with ⟨tw, gi, ch, ca, di⟩
  simp only at h
  subst h
  rfl

theorem turned_zero (m : SailConf) : twistTurned 0 m = m := by
  rcases m with ⟨tw, gi, ch, ca, di⟩
  rcases tw with _ | tw <;> simp [twistTurned]

/-- The object of a sail with the twist changed is the object of the sail, with the twist changed or not. -/
theorem init_turns (k : ℤ) (a b : ℝ) (m : SailConf) : ∃ k', (twistTurned k m).withTwist a b = (m.withTwist a b).map (twistTurned k') := by
  by_cases h : m.twist = none
  · refine ⟨0, ?_⟩
    rw [turns_none k m h]
    cases m.withTwist a b with
    | error e => rfl
    | ok m' => simp only [Except.map, turned_zero]
  · exact ⟨k, withTwist_turns k a b m h⟩

/-- **C149, twist.**  Changing the twist of all sections of a sail by the same full turns changes nothing, whatever the
interpolation is; the sails may be changed by different numbers of turns. -/
theorem C149_twist (c : Config) (k n : ℤ) :
    run fitpackSpline { c with
      main := { c.main with twist := c.main.twist.map (List.map (· + 360 * (k : ℝ))) }
      jib := { c.jib with twist := c.jib.twist.map (List.map (· + 360 * (n : ℝ))) } } = run fitpackSpline c := by
  show run fitpackSpline { c with main := twistTurned k c.main, jib := twistTurned n c.jib } = run fitpackSpline c
  refine run_congr rfl ?_
  obtain ⟨k', hk⟩ := init_turns k 12 5 c.main
  obtain ⟨n', hn⟩ := init_turns n 15 7 c.jib
  have hset : ∀ m j csys, sailSetOf fitpackSpline c.solver c.rig (some (twistTurned k' m)) (some (twistTurned n' j)) csys =
      sailSetOf fitpackSpline c.solver c.rig (some m) (some j) csys := by
    intro m j csys
    unfold sailSetOf selectedJib selectedMain
    rw [sailMain_turns fitpackSpline c.solver (.inr rfl), sailJib_turns fitpackSpline c.solver (.inr rfl)]
  unfold prepare prepareGeometry mainSailInit jibSailInit
  simp only [hk, hn]
  cases c.main.withTwist 12 5 with
  | error e => rfl
  | ok m =>
  cases c.jib.withTwist 15 7 with
  | error e => rfl
  | ok j =>
    simp only [Except.map, bind, Except.bind, postInit_turns, hset]
    rfl

/-- Non-vacuity: the demonstration run, with a turn added to the twist of one sail and one subtracted from the other. -/
example : ∃ t, .workbook (some t) ∈ (run fitpackSpline { Demo.config with
      main := { Demo.config.main with twist := some [0 + 360 * ((1 : ℤ) : ℝ), 0 + 360 * ((1 : ℤ) : ℝ)] }
      jib := { Demo.config.jib with twist := some [0 + 360 * ((-1 : ℤ) : ℝ), 0 + 360 * ((-1 : ℤ) : ℝ)] } }).1 := by
  obtain ⟨t, ht⟩ := demo_workbook fitpackSpline
  have h := C149_twist Demo.config 1 (-1)
  exact ⟨t, by rw [← h] at ht; exact ht⟩

end PySailing.Props
