import Verif.Props.Solver
import Verif.Lemmas.Coefs
import Verif.Lemmas.Wind

/-!
# C36, C37, C38, C40: how the results change with the inputs
-/

namespace PySailing.Props

open PySailing PySailing.Spec

theorem movePanel_id (q : Panel) : movePanel id 0 q = q := by
  simp [movePanel, move]

theorem map_movePanel_id (l : List Panel) : l.map (movePanel id 0) = l := by
  conv_rhs => rw [← List.map_id l]
  exact List.map_congr_left fun q _ => movePanel_id q

theorem map_move_id (l : List V3) : l.map (move id 0) = l := by
  conv_rhs => rw [← List.map_id l]
  exact List.map_congr_left fun q _ => by simp [move]

/-- Winds of a `Vlm` object. -/
theorem vlm_inlet {a : VlmInput} {r : Vlm} (h : vlm a = .ok r) :
    inletConditions a.wind a.rho r.inlet.cpPoints = .ok r.inlet ∧
    r.inlet.cpPoints = r.vars.map PanelVars.cp ∧ r.vars ≠ [] := by
  obtain ⟨-, -, -, hin, -⟩ := (vlm_ok_iff a r).1 h
  obtain ⟨h1, -, h3⟩ := (inletConditions_ok_iff _ _ _ _).1 hin
  have hcp : r.inlet.cpPoints = r.vars.map PanelVars.cp := by rw [h3]
  exact ⟨by rw [hcp]; exact hin, hcp, by rintro h0; rw [h0] at h1; exact h1 rfl⟩

theorem inlet_rho {w : WindObj} {rho rho' : ℝ} {cps : List V3} {i : Inlet}
    (h : inletConditions w rho cps = .ok i) :
    inletConditions w rho' cps = .ok { i with rho := rho' } := by
  obtain ⟨h1, h2, h3⟩ := (inletConditions_ok_iff _ _ _ _).1 h
  refine (inletConditions_ok_iff _ _ _ _).2 ⟨h1, h2, ?_⟩
  rw [h3]

/-! ## C36 -/

/-- **C36.** If `Vlm` returns with some non-zero orientation of the circulation, it returns with every
other one; the circulations are rescaled by the ratio of the orientations and nothing else changes:
velocities, forces, pressures, pressure coefficients, areas, winds. -/
theorem C36_orientation (a : VlmInput) (g' : ℝ) (hg : a.g ≠ 0) (hg' : g' ≠ 0) (r : Vlm)
    (h : vlm a = .ok r) :
    ∃ r', vlm { a with g := g' } = .ok r' ∧ r'.inlet = r.inlet ∧ r'.areas = r.areas ∧
      r'.out = { r.out with gamma := r.out.gamma.map fun x => a.g / g' * x } := by
  obtain ⟨h1, -, -⟩ := vlm_inlet h
  obtain ⟨r', hr', hi, ha, -, ho⟩ := vlm_moved isIsometry_id 0 a (μ := 1) (c := 1) one_pos one_ne_zero
    hg hg' h (w := a.wind) (inlet := r.inlet) (by rw [map_move_id, one_mul]; exact h1) (by simp)
  rw [map_movePanel_id, one_mul] at hr'
  refine ⟨r', hr', hi, ha, ?_⟩
  rw [ho]
  simp [mapAll]

/-! ## C37 -/

/-- **C37.** Multiplying true wind speed and boat speed by `μ > 0` multiplies circulations and
velocities by `μ`, forces and pressures by `μ²`, and leaves pressure coefficients and the section lift
and drag coefficients unchanged.  This holds for every wind profile. -/
theorem C37_wind_speed (a : VlmInput) (μ : ℝ) (hμ : 0 < μ) (hg : a.g ≠ 0) (r : Vlm)
    (h : vlm a = .ok r) :
    ∃ r', vlm { a with wind := { a.wind with
          twsRef := μ * a.wind.twsRef, vYacht := μ * a.wind.vYacht } } = .ok r' ∧
      r'.inlet.vAppInfs = r.inlet.vAppInfs.map (fun v => μ • v) ∧
      r'.out = mapAll r.out (μ * ·) (μ • ·) ((μ ^ 2) • ·) (μ ^ 2 * ·) id ∧
      r'.sectionLift = r.sectionLift ∧ r'.sectionDrag = r.sectionDrag := by
  obtain ⟨h1, -, -⟩ := vlm_inlet h
  obtain ⟨h2, h3, h4⟩ := (inletConditions_ok_iff _ _ _ _).1 h1
  obtain ⟨tws, htws⟩ : ∃ tws, tws = r.inlet.twsAtCp := ⟨_, rfl⟩
  have hV : r.inlet.vAppInfs = tws.map a.wind.appInfs := by rw [htws, h4]
  have hV' : (tws.map (fun v => μ • v)).map ({ a.wind with
      twsRef := μ * a.wind.twsRef, vYacht := μ * a.wind.vYacht } : WindObj).appInfs =
      r.inlet.vAppInfs.map (fun v => μ • v) := by
    rw [hV, List.map_map, List.map_map]
    apply List.map_congr_left
    intro v _
    ext <;> simp [WindObj.appInfs] <;> ring
  have hin := inletConditions_of (w := { a.wind with
    twsRef := μ * a.wind.twsRef, vYacht := μ * a.wind.vYacht }) (tws := tws.map fun v => μ • v)
    a.rho h2 (by
      rw [mapM_map_congr (γ := Unit) (fun p : V3 => a.wind.trueWindAt |p.z|) _ (fun v => μ • v)
        _ (fun p _ => trueWindAt_scaled a.wind μ |p.z|), h3, htws]
      rfl)
  obtain ⟨r', hr', hi, ha, -, ho⟩ := vlm_moved isIsometry_id 0 a (μ := μ) (c := 1) hμ one_ne_zero
    hg hg h (by rw [map_move_id, one_mul]; exact hin) hV'
  rw [map_movePanel_id, one_mul] at hr'
  have hV2 : r'.inlet.vAppInfs = r.inlet.vAppInfs.map (fun v => μ • v) := by rw [hi]; exact hV'
  have hin' : r'.input = _ := ((vlm_ok_iff _ _).1 hr').1
  have hin0 : r.input = _ := ((vlm_ok_iff _ _).1 h).1
  have hout : r'.out = mapAll r.out (μ * ·) (μ • ·) ((μ ^ 2) • ·) (μ ^ 2 * ·) id := by
    rw [ho]
    simp [mapAll, hg]
  have hsec (F : List V3) := getC_scaled isIsometry_id (c := 1) one_pos hμ a.panels.length r.areas
    F r.inlet.vAppInfs a.ns a.nc a.rho
  simp only [one_mul, id] at hsec
  refine ⟨r', hr', hV2, hout, ?_, ?_⟩
  · unfold Vlm.sectionLift
    rw [hout, hV2, ha, hin', hin0]
    exact hsec _
  · unfold Vlm.sectionDrag
    rw [hout, hV2, ha, hin', hin0]
    exact hsec _

/-! ## C38 -/

/-- **C38.** With any other non-zero density, `Vlm` returns too; circulations and velocities are the
same, forces and pressures are proportional to the density, pressure coefficients are the same; the
section coefficients are the same for densities of the same sign. -/
theorem C38_density (a : VlmInput) (rho' : ℝ) (hrho' : rho' ≠ 0) (hg : a.g ≠ 0) (r : Vlm)
    (h : vlm a = .ok r) :
    a.rho ≠ 0 ∧ ∃ r', vlm { a with rho := rho' } = .ok r' ∧
      r'.inlet.vAppInfs = r.inlet.vAppInfs ∧
      r'.out = mapAll r.out id id ((rho' / a.rho) • ·) (rho' / a.rho * ·) id ∧
      (0 < a.rho * rho' →
        r'.sectionLift = r.sectionLift ∧ r'.sectionDrag = r.sectionDrag) := by
  obtain ⟨h1, -, hne⟩ := vlm_inlet h
  have hrho : a.rho ≠ 0 := by
    obtain ⟨-, -, -, -, hs⟩ := (vlm_ok_iff a r).1 h
    exact ((vlmCore_ok_iff _ _ _ _ _ _ _ _ _).1 hs).1.rho (List.length_pos_of_ne_nil hne)
  refine ⟨hrho, ?_⟩
  have hc : rho' / a.rho * a.rho = rho' := div_mul_cancel₀ _ hrho
  obtain ⟨r', hr', hi, ha, -, ho⟩ := vlm_moved isIsometry_id 0 a (μ := 1) (c := rho' / a.rho) one_pos
    (div_ne_zero hrho' hrho) hg hg h (w := a.wind) (inlet := { r.inlet with rho := rho' })
    (by rw [map_move_id, hc]; exact inlet_rho h1) (by simp)
  rw [map_movePanel_id, hc] at hr'
  have hin' : r'.input = _ := ((vlm_ok_iff _ _).1 hr').1
  have hin0 : r.input = _ := ((vlm_ok_iff _ _).1 h).1
  have hV2 : r'.inlet.vAppInfs = r.inlet.vAppInfs := by rw [hi]
  have hout : r'.out = mapAll r.out id id ((rho' / a.rho) • ·) (rho' / a.rho * ·) id := by
    rw [ho]
    simp [mapAll, hg]
  refine ⟨r', hr', hV2, hout, fun hpos => ?_⟩
  have hcpos : 0 < rho' / a.rho := by
    rcases lt_or_gt_of_ne hrho with h0 | h0
    · exact div_pos_of_neg_of_neg (by nlinarith) h0
    · exact div_pos (by nlinarith) h0
  have hsec (F : List V3) := getC_scaled isIsometry_id hcpos one_pos a.panels.length r.areas
    F r.inlet.vAppInfs a.ns a.nc a.rho
  simp only [hc, one_smul, one_pow, mul_one, id, List.map_id'] at hsec
  constructor
  · unfold Vlm.sectionLift
    rw [hout, hV2, ha, hin', hin0]
    exact hsec _
  · unfold Vlm.sectionDrag
    rw [hout, hV2, ha, hin', hin0]
    exact hsec _

/-! ## C40 -/

/-- **C40.** For any array of winds at the pressure points, any rotation `R` (linear, preserving dot
and cross products) and any translation `t`: solving the moved panels in the rotated winds gives the
rotated velocities and forces and the same circulations, pressures and coefficients. -/
theorem C40_rigid_motion (a : VlmInput) (V : List V3) (R : V3 → V3) (hR : IsIsometry R 1) (t : V3)
    (hg : a.g ≠ 0) (o : VlmArrays) (h : vlmWithWinds a V = .ok o) :
    vlmWithWinds { a with panels := a.panels.map (movePanel R t) } (V.map R) =
        .ok (mapAll o id R R id id) ∧
    (∀ K A ns nc rho F, getC K A (F.map R) (V.map R) ns nc rho = getC K A F V ns nc rho) := by
  have := vlmWithWinds_moved hR t a V one_pos one_ne_zero hg hg h a.wind
  simp only [one_smul, one_mul, one_pow] at this
  refine ⟨?_, fun K A ns nc rho F => ?_⟩
  · rw [this, div_self hg]
    simp only [one_mul]
    rfl
  · have := getC_scaled hR one_pos one_pos K A F V ns nc rho
    simpa only [one_smul, one_mul, one_pow] using this

/-- **C40**, translations along the water surface of the whole calculation with its wind profile:
nothing changes. -/
theorem C40_horizontal_translation (a : VlmInput) (t : V3) (ht : t.z = 0) (hg : a.g ≠ 0) (r : Vlm)
    (h : vlm a = .ok r) :
    ∃ r', vlm { a with panels := a.panels.map (movePanel id t) } = .ok r' ∧ r'.out = r.out ∧
      r'.areas = r.areas ∧ r'.inlet.vAppInfs = r.inlet.vAppInfs ∧
      r'.inlet.cpPoints = r.inlet.cpPoints.map (· + t) := by
  obtain ⟨h1, -, -⟩ := vlm_inlet h
  obtain ⟨h2, h3, h4⟩ := (inletConditions_ok_iff _ _ _ _).1 h1
  have hin : inletConditions a.wind a.rho (r.inlet.cpPoints.map (move id t)) =
      .ok { r.inlet with cpPoints := r.inlet.cpPoints.map (move id t) } := by
    refine (inletConditions_ok_iff _ _ _ _).2 ⟨by simpa using h2, ?_, by rw [h4]⟩
    rw [mapM_comp]
    simp only [move, id, V3.add_z, ht, add_zero]
    exact h3
  obtain ⟨r', hr', hi, ha, -, ho⟩ := vlm_moved isIsometry_id t a (μ := 1) (c := 1) one_pos one_ne_zero
    hg hg h (w := a.wind) (by rw [one_mul]; exact hin) (by simp)
  rw [one_mul] at hr'
  refine ⟨r', hr', ?_, ha, by rw [hi], by rw [hi]; rfl⟩
  rw [ho]
  simp [mapAll, hg]

/-- Non-vacuity of C36, C37, C38, C40: all apply to `Demo.input`; rotations are isometries of
sign `1`. -/
example : ∃ r, vlm Demo.input = .ok r ∧ Demo.input.g ≠ 0 ∧ vlmWithWinds Demo.input [Demo.V] = .ok r.out ∧
    IsIsometry (rodrigues ⟨0, 0, 1⟩ 1) 1 := by
  obtain ⟨r, h, hV, -⟩ := Demo.vlm_ok
  refine ⟨r, h, by norm_num [Demo.input], ?_, isIsometry_rodrigues _ (by simp [V3.dot]) 1⟩
  rw [← hV]
  exact vlm_withWinds h

end PySailing.Props
