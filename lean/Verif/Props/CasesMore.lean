import Verif.Props.Cases
import Verif.Props.CasesSmall
import Verif.Props.Args
import Verif.Props.Settings
import Verif.Props.Wind

/-!
# Further cases

Concrete values that meet the hypotheses of theorems about rotations, meshes, sails, the apparent wind, the lattice and the
interpolation of girths. The solved lattice is that of `rectangle_variables.py` (`rectangle_case` in `Props/Cases.lean`).
-/

namespace PySailing.Props

open PySailing PySailing.Spec

/-! ## Rotations, meshes and sails -/

/-- C03: two points turned about the diagonal. -/
example : rotatePointsAroundOriginAxis [⟨1, 0, 0⟩, ⟨0, 2, 5⟩] ⟨1, 1, 1⟩ 2 =
    .ok ([(⟨1, 0, 0⟩ : V3), ⟨0, 2, 5⟩].map (rodrigues (unit ⟨1, 1, 1⟩) 2)) :=
  C03_origin_axis _ _ (by simp [V3.ext_iff]) 2

/-- C05: a point of the rig of a boat with thirty degrees of heel. -/
example : (⟨30, 5, 0⟩ : Csys).reverseRotationsWithMirror ((⟨30, 5, 0⟩ : Csys).rotatePointWithMirror ⟨1, 1, 10⟩) = ⟨1, 1, 10⟩ := by
  refine C05_round_trip_partial _ _ (iff_of_true (by norm_num) ?_)
  have h : deg2rad 30 = Real.pi / 6 := by
    unfold deg2rad
    ring
  have h3 : (1 : ℝ) ≤ Real.sqrt 3 := Real.one_le_sqrt.2 (by norm_num)
  unfold Csys.rotatePointWithMirror
  rw [if_pos (by norm_num), Csys.leeway_mulVec, Csys.heeling_mulVec]
  simp only [h, Real.sin_pi_div_six, Real.cos_pi_div_six]
  linarith

/-- C10: a camber of forty per cent is refused. -/
example : vlmAirfoil 0.4 0.5 0 10 = .error (.sysExit 1) := C10_rejects _ _ _ _ (by norm_num)

/-- C12: a sail with two girths, two panels along the chord. -/
example : ∃ mesh, makeAirfoilMesh ⟨0, 0, 1⟩ ⟨0, 0, 9⟩ 2 1 [2, 1] [0.5, 0.5] [0.1, 0.1] = .ok mesh ∧ mesh.n0 = 2 ∧ mesh.n1 = 3 ∧
    mesh.at' 1 2 = ⟨1, 0, 9⟩ := by
  obtain ⟨mesh, h, h0, h1, hp⟩ := C12_airfoil_mesh ⟨0, 0, 1⟩ ⟨0, 0, 9⟩ 2 1 [2, 1] [0.5, 0.5] [0.1, 0.1] (by norm_num) (by norm_num) rfl rfl
    ⟨rfl, le_refl _, le_refl _, by norm_num, by norm_num⟩
  obtain ⟨c, m, p, e1, -, -, -, -, e, -⟩ := hp 1 (le_refl _)
  obtain rfl : (1 : ℝ) = c := by simpa using e1
  refine ⟨mesh, h, h0, h1, e.trans ?_⟩
  simp [lerp, V3.ext_iff]

/-- The twist of the demonstration sail. -/
theorem demo_twist (nc : ℕ) (camber distance : List ℝ) : TwistOk (demoSail nc camber distance none none) fun _ => 0 :=
  Or.inr ⟨Or.inl rfl, fun _ => rfl⟩

/-- C16, C20: a cambered sail with three panels along the chord, and the set with this sail twice. -/
example : ∃ g above under, sailGeometry (demoSail 3 [0.1, 0.2] [0.4, 0.5] none none) = .ok g ∧ g.panelsAbove = panelGrid 3 1 above ∧
    g.panelsUnder = panelGrid 3 1 under ∧ ∃ ss, sailSet [g, g] = .ok ss ∧ ss.panels.length = 12 ∧
      ss.panels[7]? = g.panelsUnder[1]? := by
  have ok := demoSail_ok 3 (by norm_num) 0.1 0.2 0.4 0.5 none none (by norm_num) (by norm_num) (by norm_num) (by norm_num) _
    (demo_twist 3 _ _)
  obtain ⟨g, above, under, hg, ha, hu, -, hl, -⟩ := C16_sail_geometry _ _ ok
  obtain ⟨g', hg', hw⟩ := C20_applies _ _ ok
  obtain rfl : g = g' := Except.ok.inj (hg.symm.trans hg')
  obtain ⟨ss, N, hs, hN, hp, -, -, hk, -⟩ := (C20_sail_set [g, g] (by
    intro x hx
    simp at hx
    rw [hx]
    exact hw)).2 (by simp)
  have e3 : (demoSail 3 [0.1, 0.2] [0.4, 0.5] none none).nc * (demoSail 3 [0.1, 0.2] [0.4, 0.5] none none).ns = 3 := rfl
  rw [e3] at hl
  have hN' : N = 6 := by rw [hN]; simp [hl]
  obtain ⟨o, h1, -, -, h2, -⟩ := hk 0 (by simp) 1 (by simp [hl])
  refine ⟨g, above, under, hg, ha, hu, ss, hs, by rw [hp, hN'], ?_⟩
  have : o = 1 := by rw [h1]; simp [blockStart]
  rw [this, hN'] at h2
  simpa using h2

/-- C18: two twist modes. -/
example : sailGeometry { demoSail 3 [0.1, 0.2] [0.4, 0.5] (some [0, 5]) none with mode := some "real_twist" } =
    sailGeometry { demoSail 3 [0.1, 0.2] [0.4, 0.5] (some [0, 5]) none with mode := some "sheeting_angle_const" } :=
  C18_mode_ignored _ _ _ (by simp [twistModes]) (by simp [twistModes])

/-- C61: a sail with fifty per cent camber is refused. -/
example : ∃ e, sailGeometry (demoSail 3 [0.5, 0.5] [0.4, 0.5] none none) = .error e ∧
    (e = .valueError ∨ e = .indexError ∨ e = .keyError ∨ e = .assertionError ∨ e = .sysExit 1) := by
  have h : sailGeometry (demoSail 3 [0.5, 0.5] [0.4, 0.5] none none) = .error (.sysExit 1) := by
    have hm := ((C12_airfoil_mesh_rejects ⟨0, 0, 1⟩ ⟨0, 0, 2⟩ 3 1 [1, 1] [0.4, 0.5] [0.5, 0.5]).2 rfl 0 (by norm_num)
      (fun i hi => absurd hi (by omega))).2 0.5 0.4 rfl rfl (by norm_num)
    unfold sailGeometry
    simp only [demoSail, hm]
    rfl
  exact ⟨_, h, C61_never_nan _ _ h⟩

/-- C106: a cambered sail whose tack is above the water. -/
example : ∃ g pts, sailGeometry (demoSail 3 [0.1, 0.2] [0.4, 0.5] none none) = .ok g ∧ g.panelsAbove = panelGrid 3 1 pts ∧
    ∀ k, pts 0 k = afloatPoint 0 0 (demoSail 3 [0.1, 0.2] [0.4, 0.5] none none, fun _ => 0) 0 k := by
  have ok := demoSail_ok 3 (by norm_num) 0.1 0.2 0.4 0.5 none none (by norm_num) (by norm_num) (by norm_num) (by norm_num) _
    (demo_twist 3 _ _)
  obtain ⟨g, pts, hg, hp, -, h, -⟩ := C106_foot_partial _ _ ok.toSailArgs
  exact ⟨g, pts, hg, hp, h (by norm_num [demoSail])⟩

/-! ## Apparent wind -/

/-- The apparent wind of a boat at three metres per second in a wind of ten at sixty degrees is not zero. -/
theorem boat_wind : (⟨60, 10, 3, .flat⟩ : WindObj).appInfs ((10 : ℝ) • heading (deg 60)) ≠ 0 := by
  intro h
  have hs : Real.sin (deg 60) = Real.sqrt 3 / 2 := by
    rw [show deg 60 = Real.pi / 3 by unfold deg; ring, Real.sin_pi_div_three]
  have h3 : (0 : ℝ) < Real.sqrt 3 := Real.sqrt_pos.2 (by norm_num)
  rw [(C22_vector_sum _).1] at h
  have := congrArg V3.y h
  simp [heading, hs] at this

/-- C22: the angle of this wind. -/
example : ∃ θ, (⟨60, 10, 3, .flat⟩ : WindObj).appAlfaInfs ((10 : ℝ) • heading (deg 60)) = .ok θ ∧
    PointsAlong ((⟨60, 10, 3, .flat⟩ : WindObj).appInfs ((10 : ℝ) • heading (deg 60))) θ ∧
    θ = arctan2 ((⟨60, 10, 3, .flat⟩ : WindObj).appInfs ((10 : ℝ) • heading (deg 60))).y
      ((⟨60, 10, 3, .flat⟩ : WindObj).appInfs ((10 : ℝ) • heading (deg 60))).x := by
  have hs : Real.sin (deg 60) = Real.sqrt 3 / 2 := by
    rw [show deg 60 = Real.pi / 3 by unfold deg; ring, Real.sin_pi_div_three]
  obtain ⟨θ, h1, h2⟩ := C22_angle_partial ⟨60, 10, 3, .flat⟩ (s := 10) (by norm_num) boat_wind
  refine ⟨θ, h1, h2.2 ?_, Except.ok.inj (h1.symm.trans (C22_agrees_with_arctan2 ⟨60, 10, 3, .flat⟩ (s := 10) (by norm_num) boat_wind
    (by norm_num) (by norm_num) (by norm_num)))⟩
  show (0 : ℝ) ≤ 3 * Real.sin (deg 60)
  rw [hs]
  positivity

/-- C22: a boat that runs with the wind as fast as the wind. -/
example : (⟨180, 10, 10, .flat⟩ : WindObj).appAlfaInfs ((10 : ℝ) • heading (deg 180)) = .error .nonFinite := by
  refine C22_no_wind ⟨180, 10, 10, .flat⟩ (by norm_num) ?_
  have e : deg 180 = Real.pi := by unfold deg; ring
  rw [(C22_vector_sum _).1]
  simp [heading, e, V3.ext_iff]

/-- C24: two points and their mirror images. -/
example : ∃ i, inletConditions ⟨60, 10, 3, .flat⟩ 1.2 [⟨0, 0, 1⟩, ⟨1, 0, 5⟩] = .ok i ∧
    inletConditions ⟨60, 10, 3, .flat⟩ 1.2 [⟨0, 0, -1⟩, ⟨1, 0, -5⟩] =
      .ok { i with cpPoints := [⟨0, 0, -1⟩, ⟨1, 0, -5⟩] } ∧ i.vAppInfs.length = 2 := by
  obtain ⟨i, hi⟩ := C24_flat_ok 60 10 3 1.2 ⟨0, 0, 1⟩ [⟨1, 0, 5⟩]
  obtain ⟨h1, -, h2, -⟩ := C24_mirror hi
  refine ⟨i, hi, ?_, h2⟩
  simpa [mirror] using h1

/-! ## Vortices -/

/-- C28: a point above a ring of side one. -/
example : TendstoV (fun s => vortexRing ⟨0, 0, 1⟩ (0 + s • ⟨1, 0, 0⟩) 0 ⟨0, 1, 0⟩ (⟨0, 1, 0⟩ + s • ⟨1, 0, 0⟩) 3)
    (vortexHorseshoe ⟨0, 0, 1⟩ 0 ⟨0, 1, 0⟩ ⟨1, 0, 0⟩ 3) := by
  have far : ∀ v : V3, v.z = 1 → (1e-8 : ℝ) ≤ v.norm := by
    intro v h
    unfold V3.norm
    refine Real.le_sqrt_of_sq_le ?_
    simp only [V3.dot, h]
    nlinarith [sq_nonneg v.x, sq_nonneg v.y]
  have off : ∀ v : V3, v.z = 1 → V3.cross ⟨1, 0, 0⟩ v ≠ 0 := by
    intro v h e
    have := congrArg V3.y e
    simp [V3.cross, h] at this
  exact (C28_horseshoe_is_limit_of_rings ⟨0, 0, 1⟩ ⟨1, 0, 0⟩ 0 ⟨0, 1, 0⟩ ⟨1, 1, 0⟩ ⟨1, 0, 0⟩ 3 (off _ (by simp)) (far _ (by simp))
    (off _ (by simp)) (far _ (by simp)) (off _ (by simp)) (far _ (by simp)) (off _ (by simp)) (far _ (by simp))).1

/-! ## Solved lattices -/

/-- C35: the reported force of the third panel of the second row. -/
example : ∃ (a : VlmInput) (r : Vlm) (k : Fin r.vars.length), vlm a = .ok r ∧ k.val = panelNo a.nc a.ns 0 1 2 ∧
    r.out.force[k.val]? = some (a.rho • V3.cross (r.out.vFsCp.getD k 0)
      (((r.out.gamma.getD k 0 - r.out.gamma.getD (panelNo a.nc a.ns 0 0 2) 0) * a.g) • ((r.vars[k]).ring.C - (r.vars[k]).ring.B))) := by
  obtain ⟨p, -, -, -, -, -, ⟨hv, -, hnc, hns, -, -, hl, hle⟩, -⟩ := rectangle_case
  have hk : panelNo p.vlm.input.nc p.vlm.input.ns 0 1 2 < p.vlm.vars.length := by
    rw [(vlm_lengths hv).2.1, hl, hnc, hns]
    decide
  obtain ⟨Γ, -, h1, -, h2, -⟩ := C35_reported _ _ hv 2 (by omega) (by omega) (by norm_num) (by rw [hl, hnc, hns])
    (by rw [hle, hnc, hns]) 0 1 2 (by norm_num) (by omega) (by omega) ⟨_, hk⟩ rfl
  refine ⟨_, _, ⟨_, hk⟩, hv, rfl, ?_⟩
  rw [h2, h1 one_pos]

/-- C40: the lattice of the sail turned by one radian about the vertical and moved. -/
example : ∃ (a : VlmInput) (V : List V3) (o o' : VlmArrays), vlmWithWinds a V = .ok o ∧ a.panels.length = 256 ∧
    vlmWithWinds { a with panels := a.panels.map fun q =>
      ⟨rodrigues ⟨0, 0, 1⟩ 1 q.p1 + ⟨5, 6, 7⟩, rodrigues ⟨0, 0, 1⟩ 1 q.p2 + ⟨5, 6, 7⟩, rodrigues ⟨0, 0, 1⟩ 1 q.p3 + ⟨5, 6, 7⟩,
        rodrigues ⟨0, 0, 1⟩ 1 q.p4 + ⟨5, 6, 7⟩⟩ } (V.map (rodrigues ⟨0, 0, 1⟩ 1)) = .ok o' ∧ o'.gamma = o.gamma := by
  obtain ⟨p, -, -, -, -, -, ⟨hv, -, -, -, hg, -, hl, -⟩, -⟩ := rectangle_case
  have h := C40_rigid_motion _ _ (rodrigues ⟨0, 0, 1⟩ 1) (isIsometry_rodrigues _ (by simp [V3.dot]) 1) ⟨5, 6, 7⟩
    (by rw [hg]; norm_num) _ (vlm_withWinds hv)
  exact ⟨_, _, _, _, vlm_withWinds hv, by rw [hl], h.1, List.map_id _⟩

/-- C89: the sail of the run carries a load exactly if the wind blows through one of its panels. -/
example : ∃ (a : VlmInput) (V : List V3) (o : VlmArrays), vlmWithWinds a V = .ok o ∧ a.panels.length = 256 ∧
    ((∀ γ ∈ o.gamma, γ = 0) ↔ ∀ (k : ℕ) (q : Panel) (v : V3), a.panels[k]? = some q → V[k]? = some v → v.dot (acrossPanel q) = 0) := by
  obtain ⟨p, -, -, -, -, -, ⟨hv, -, -, -, hg, -, hl, -⟩, -⟩ := rectangle_case
  exact ⟨_, _, _, vlm_withWinds hv, by rw [hl], (C89_no_load _ _ (by
    exact (vlm_lengths hv).2.2.2.1) _ (vlm_withWinds hv)).1⟩

/-! ## Interpolation of girths -/

/-- C52: a misspelt interpolation type. -/
example (spline : SplineFn) : interpolateGirths spline "Linear" [0, 1] [1, 2] 9 = .error .keyError :=
  C52_unknown_type spline "Linear" (by decide) (by decide) _ _ _

/-- C52: one row of data of a jib and of a main sail. -/
example (spline : SplineFn) : ∃ (a b : List ℝ) (t : List (List ℝ)), interpolateAndMirrorGirths spline "linear" [0, 1 / 2, 1] [1, 4, 5] 9 = .ok a ∧
    interpolateAndMirrorGirths spline "linear" [0, 1 / 2, 1] [3, 2, 1] 9 = .ok b ∧
    interpolateDataForSections spline "linear" [[3, 2, 1]] [[1, 4, 5]] [0, 1 / 2, 1] [0, 1 / 2, 1] 9 = .ok t ∧ t[0]? = some (a ++ b) := by
  have one : ∀ y0 y1 y2 : ℝ, ∃ w, interpolateAndMirrorGirths spline "linear" [0, 1 / 2, 1] [y0, y1, y2] 9 = .ok w := by
    intro y0 y1 y2
    obtain ⟨v, hv, hl, -⟩ := C82_range_partial (girths_three y0 y1 y2) spline 9 (lo := min y0 (min y1 y2)) (hi := max y0 (max y1 y2)) (by
      intro y hy
      simp at hy
      rcases hy with rfl | rfl | rfl <;> simp)
    obtain ⟨w, h1, -⟩ := C52_mirror spline "linear" hv hl
    exact ⟨w, h1⟩
  obtain ⟨a, ha⟩ := one 1 4 5
  obtain ⟨b, hb⟩ := one 3 2 1
  obtain ⟨t, h1, -, h3⟩ := C52_sections spline "linear" (dj := [[1, 4, 5]]) (dm := [[3, 2, 1]]) (js := [a]) (ms := [b])
    (List.Forall₂.cons ha .nil) (List.Forall₂.cons hb .nil)
  exact ⟨a, b, t, ha, hb, h1, h3 0 a b rfl rfl⟩

/-- C81: the spline through the values of `x ^ 3`, and three points only. -/
example : interpolateGirths fitpackSpline "spline" [0, 1 / 4, 3 / 4, 1] [0, 1 / 64, 27 / 64, 1] 9 =
      .ok ((List.range 9).map fun k : ℕ => ((k : ℝ) / ((9 : ℕ) - 1)) ^ 3) ∧
    interpolateGirths fitpackSpline "spline" [0, 1 / 2, 1] [0, 1 / 8, 1] 9 = .error .typeError := by
  refine ⟨?_, C81_too_few _ _ _ (Or.inl (by norm_num))⟩
  refine (C81_values (m := 3) (S := fun x => 0 + 0 * x + 0 * x ^ 2 + 1 * x ^ 3) ⟨rfl, rfl, fun i hi => by interval_cases i <;> norm_num⟩
    (by norm_num) (cubic_isSpline 0 0 0 1 fun i hi => by interval_cases i <;> norm_num)).trans ?_
  simp

/-! ## Runs -/

/-- C103: `-d b` runs the settings in the directory `b`. -/
example (spline : SplineFn) (py : PythonFn) (cwd : String) (second : ℕ) (p : Process) (disk : Disk) :
    callProgram spline py cwd second ["-d".toList, "b".toList] p disk = callMain spline py cwd second "b" p disk :=
  C103_runs spline py cwd second _ p disk (some "b".toList)
    (Selects.apart "-d".toList "b".toList [] none (Or.inr (Or.inl rfl)) (Or.inl (by decide)) .nothing)

/-- C107: a settings file with a misspelt name. -/
example (spline : SplineFn) : runSettings spline ⟨[], [], [], [], [], [], [("rake", .num 92)]⟩ = some ([], .error .typeError) :=
  C107_unknown spline _ (by
    intro h
    have := h _ (List.mem_of_getElem? (i := 6) rfl) _ (List.mem_singleton.2 rfl)
    simp at this)

end PySailing.Props
