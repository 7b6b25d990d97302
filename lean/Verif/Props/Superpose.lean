import Verif.Lemmas.Superpose
import Verif.Props.Heading

/-!
# C142: winds of the same direction
-/

namespace PySailing.Props

open Spec

/-- **C142.** Whether the flow can be calculated depends on the direction of the apparent wind at the heights of the
panels, not on its strength: when `Vlm` returns for one wind, it returns for every wind from the same directions. -/
theorem C142_direction (a : VlmInput) (r : Vlm) (h : vlm a = .ok r) (H : Set ℝ) (hH : ∀ q ∈ r.vars, |q.cp.z| ∈ H)
    (w : WindObj) (hd : SameDirection H a.wind w) : ∃ r', vlm { a with wind := w } = .ok r' :=
  let ⟨r', hr', _⟩ := vlm_direction h hH hd
  ⟨r', hr'⟩

/-- **C142.** Winds from the same direction superpose: if at the heights of the panels the apparent wind is `α` times that
of `w₁` plus `β` times that of `w₂`, all from the same direction, then so are the circulations and, at the control points
and pressure points, the induced and total velocities. -/
theorem C142_superposition (a : VlmInput) (w₁ w₂ : WindObj) (r r₁ r₂ : Vlm) (h : vlm a = .ok r)
    (h₁ : vlm { a with wind := w₁ } = .ok r₁) (h₂ : vlm { a with wind := w₂ } = .ok r₂) (H : Set ℝ)
    (hH : ∀ q ∈ r.vars, |q.cp.z| ∈ H) (d₁ : SameDirection H a.wind w₁) (d₂ : SameDirection H a.wind w₂)
    (α β : ℝ) (hc : Combined H α β w₁ w₂ a.wind) :
    r.out.gamma = List.zipWith (fun x y => α * x + β * y) r₁.out.gamma r₂.out.gamma ∧
    r.out.vIndCtrl = List.zipWith (fun x y => α • x + β • y) r₁.out.vIndCtrl r₂.out.vIndCtrl ∧
    r.out.vFsCtrl = List.zipWith (fun x y => α • x + β • y) r₁.out.vFsCtrl r₂.out.vFsCtrl ∧
    r.out.vIndCp = List.zipWith (fun x y => α • x + β • y) r₁.out.vIndCp r₂.out.vIndCp ∧
    r.out.vFsCp = List.zipWith (fun x y => α • x + β • y) r₁.out.vFsCp r₂.out.vFsCp :=
  vlm_superpose h h₁ h₂ hH d₁ d₂ hc

/-- **C142, complete runs.** If the calculation of a run succeeds and not all of the sail lies in the water surface, the
run with any other wind from the same directions is completed and writes all its outputs (with the reference height of
an exponential profile above the water). -/
theorem C142_run (spline : SplineFn) (c : Config) (p : Prepared) (hp : prepare spline c = .ok p)
    (hz : ∃ q ∈ p.vlm.vars, q.leMid.z ≠ 0 ∨ q.teMid.z ≠ 0) (H : Set ℝ) (hH : ∀ q ∈ p.vlm.vars, |q.cp.z| ∈ H)
    (w : WindConditions) (hw : windPostInit w = .ok ()) (href : ReferenceAboveWater w)
    (hd : SameDirection H (windGetProfile c.wind) (windGetProfile w)) :
    (run spline { c with wind := w }).2 = .ok () ∧
      (run spline { c with wind := w }).1.map outputKind = outputOrder := by
  obtain ⟨main, jib, base, h1, h2, h3, -, h5, h6, h7, -, hv, -⟩ := prepare_ok hp
  have hcs : p.csys = ⟨c.heelDeg, c.leewayDeg, c.vRef⟩ := by
    rw [C59_csys_constructor_total] at h3
    injection h3 with h3
    exact h3.symm
  rw [hcs] at h6
  obtain ⟨r', hr', hvars⟩ := vlm_direction hv hH hd
  obtain ⟨p', hp', -, -, hpv⟩ := prepare_of (spline := spline) (c := { c with wind := w }) h1 h2 hw h5 h6 h7 hr'
  exact C72_completes_partial spline _ p' hp' (by rw [hpv, hvars]; exact hz) href

/-- **C142, workbook.** Three runs that differ only in the wind, the apparent winds at the heights of the panels being from
the same direction and that of the first `α` times that of the second plus `β` times that of the third: line by line, so
are the circulation, the induced velocity and the velocity at the sail in their workbooks. -/
theorem C142_workbook (spline : SplineFn) (c : Config) (w₁ w₂ : WindConditions) (t t₁ t₂ : SavedResults)
    (h : .workbook (some t) ∈ (run spline c).1) (h₁ : .workbook (some t₁) ∈ (run spline { c with wind := w₁ }).1)
    (h₂ : .workbook (some t₂) ∈ (run spline { c with wind := w₂ }).1) (p : Prepared) (hp : prepare spline c = .ok p)
    (H : Set ℝ) (hH : ∀ q ∈ p.vlm.vars, |q.cp.z| ∈ H)
    (d₁ : SameDirection H (windGetProfile c.wind) (windGetProfile w₁))
    (d₂ : SameDirection H (windGetProfile c.wind) (windGetProfile w₂)) (α β : ℝ)
    (hc : Combined H α β (windGetProfile w₁) (windGetProfile w₂) (windGetProfile c.wind)) (line : ℕ) :
    (∀ x₁ x₂, t₁.components.cell "Circulation_magnitude" line = some (.num x₁) →
      t₂.components.cell "Circulation_magnitude" line = some (.num x₂) →
      t.components.cell "Circulation_magnitude" line = some (.num (α * x₁ + β * x₂))) ∧
    ∀ name ∈ ["V_induced_COG", "V_app_fs_COG"], ∀ v₁ v₂, cellVector t₁.components name line = some v₁ →
      cellVector t₂.components name line = some v₂ → cellVector t.components name line = some (α • v₁ + β • v₂) := by
  obtain ⟨q, hq, hs⟩ := run_workbook h
  rw [hp] at hq
  injection hq with hq
  subst hq
  obtain ⟨p₁, hp₁, hs₁⟩ := run_workbook h₁
  obtain ⟨p₂, hp₂, hs₂⟩ := run_workbook h₂
  obtain ⟨-, hv, hv₁⟩ := prepare_wind hp hp₁
  obtain ⟨-, -, hv₂⟩ := prepare_wind hp hp₂
  obtain ⟨g, -, -, vi, vf⟩ := vlm_superpose hv hv₁ hv₂ hH d₁ d₂ hc
  have fields : ∀ {c : Config} {p : Prepared}, prepare spline c = .ok p → p.flow.res.gamma = p.vlm.out.gamma ∧
      p.flow.res.vInd = p.vlm.out.vIndCp ∧ p.flow.res.vFs = p.vlm.out.vFsCp := by
    intro c p hp
    obtain ⟨-, -, -, -, -, -, -, -, -, -, -, -, res, hres, hflow⟩ := prepare_ok hp
    obtain ⟨f1, -, f3, -, f5, -⟩ := inviscidFlow_fields hres
    rw [hflow]
    exact ⟨f1, f3, f5⟩
  obtain ⟨a1, a2, a3⟩ := fields hp
  obtain ⟨b1, b2, b3⟩ := fields hp₁
  obtain ⟨c1, c2, c3⟩ := fields hp₂
  obtain ⟨k1, k2, k3⟩ := saveResults_flow hs
  obtain ⟨l1, l2, l3⟩ := saveResults_flow hs₁
  obtain ⟨m1, m2, m3⟩ := saveResults_flow hs₂
  rw [a1] at k1; rw [a2] at k2; rw [a3] at k3
  rw [b1] at l1; rw [b2] at l2; rw [b3] at l3
  rw [c1] at m1; rw [c2] at m2; rw [c3] at m3
  refine ⟨fun x₁ x₂ e₁ e₂ => ?_, ?_⟩
  · obtain ⟨u1, u2⟩ := (l1 line x₁).1 e₁
    obtain ⟨v1, v2⟩ := (m1 line x₂).1 e₂
    refine (k1 line _).2 ⟨?_, ?_⟩
    · rw [g, List.length_zipWith]; omega
    · rw [g, List.getElem?_zipWith, u2, v2]
  · have vec : ∀ {A B C : List V3}, A = List.zipWith (fun x y => α • x + β • y) B C → ∀ v₁ v₂,
        (B.take ((B.length + 1) / 2))[line]? = some v₁ → (C.take ((C.length + 1) / 2))[line]? = some v₂ →
        (A.take ((A.length + 1) / 2))[line]? = some (α • v₁ + β • v₂) := by
      intro A B C e v₁ v₂ e₁ e₂
      rw [List.getElem?_take] at e₁ e₂ ⊢
      split_ifs at e₁ e₂ with i1 i2
      rw [if_pos (by rw [e, List.length_zipWith]; omega), e, List.getElem?_zipWith, e₁, e₂]
    intro name hn v₁ v₂ e₁ e₂
    simp only [List.mem_cons, List.not_mem_nil, or_false] at hn
    rcases hn with rfl | rfl
    · rw [l2] at e₁; rw [m2] at e₂; rw [k2]
      exact vec vi v₁ v₂ e₁ e₂
    · rw [l3] at e₁; rw [m3] at e₂; rw [k3]
      exact vec vf v₁ v₂ e₁ e₂

/-- **C142, roughness.** For a yacht at rest the results in the logarithmic wind of roughness `z₀` follow from those in
the logarithmic wind of roughness `z₁` and those in the flat wind, when all pressure points are higher than `z₀` and
`z₁`: with the weights `ln(ref / z₁) / ln(ref / z₀)` and `ln(z₁ / z₀) / ln(ref / z₀)` for circulations and velocities. -/
theorem C142_roughness (spline : SplineFn) (c : Config) (z₀ z₁ ref : ℝ) (hprof : c.wind.profile = "logarithmic")
    (hr₀ : c.wind.roughness = some z₀) (href : c.wind.refHeight = some ref) (hy : c.wind.sog = 0) (h0 : 0 < z₀) (h1 : 0 < z₁)
    (h0r : z₀ < ref) (h1r : z₁ < ref) (p : Prepared) (hp : prepare spline c = .ok p)
    (hH : ∀ q ∈ p.vlm.vars, z₀ < |q.cp.z| ∧ z₁ < |q.cp.z|) (t t₁ t₂ : SavedResults)
    (h : .workbook (some t) ∈ (run spline c).1)
    (h₁ : .workbook (some t₁) ∈ (run spline { c with wind := { c.wind with roughness := some z₁ } }).1)
    (h₂ : .workbook (some t₂) ∈ (run spline { c with wind := { c.wind with profile := "flat" } }).1) (line : ℕ) :
    (∀ x₁ x₂, t₁.components.cell "Circulation_magnitude" line = some (.num x₁) →
      t₂.components.cell "Circulation_magnitude" line = some (.num x₂) →
      t.components.cell "Circulation_magnitude" line = some (.num
        (Real.log (ref / z₁) / Real.log (ref / z₀) * x₁ + Real.log (z₁ / z₀) / Real.log (ref / z₀) * x₂))) ∧
    ∀ name ∈ ["V_induced_COG", "V_app_fs_COG"], ∀ v₁ v₂, cellVector t₁.components name line = some v₁ →
      cellVector t₂.components name line = some v₂ → cellVector t.components name line = some
        ((Real.log (ref / z₁) / Real.log (ref / z₀)) • v₁ + (Real.log (z₁ / z₀) / Real.log (ref / z₀)) • v₂) := by
  obtain ⟨d₁, d₂, -, hc⟩ := roughness_combined (w := windGetProfile c.wind)
    (w₁ := windGetProfile { c.wind with roughness := some z₁ }) (w₂ := windGetProfile { c.wind with profile := "flat" })
    (r := z₀) (r₁ := z₁) (ref := ref) (by simp [windGetProfile, hprof, hr₀, href]) (by simp [windGetProfile, hprof, href])
    (by simp [windGetProfile]) hy hy hy rfl rfl rfl rfl h0 h1 h0r h1r
  exact C142_workbook spline c _ _ t t₁ t₂ h h₁ h₂ p hp _ hH d₁ d₂ _ _ hc line

/-- The yacht of one panel at rest in a logarithmic wind of the roughness `z`. -/
noncomputable def demoRough (z : ℝ) : Config :=
  { demoAtRest with wind := ⟨45, √2, 0, "logarithmic", some 1, some 10, none, some z⟩ }

theorem demo_heights (z : ℝ) (hz : z < 3 / 2) : ∀ q ∈ [Demo.vars (-1), (Demo.vars (-1)).mirrored], z < |q.cp.z| := by
  intro q hq
  simp only [List.mem_cons, List.not_mem_nil, or_false] at hq
  rcases hq with rfl | rfl
  · simpa [Demo.vars, abs_of_pos] using hz
  · simpa [PanelVars.mirrored, mirror, Demo.vars, abs_of_pos] using hz

theorem rough_direction (z : ℝ) (h0 : 0 < z) (h1 : z < 3 / 2) :
    SameDirection {h | z < h ∧ z < h} (windGetProfile demoAtRest.wind) (windGetProfile (demoRough z).wind) :=
  (roughness_combined (w := windGetProfile (demoRough z).wind) (w₁ := windGetProfile (demoRough z).wind)
    (w₂ := windGetProfile demoAtRest.wind) (r := z) (r₁ := z) (ref := 10) (by simp [windGetProfile, demoRough])
    (by simp [windGetProfile, demoRough]) (by simp [windGetProfile, demoAtRest]) rfl rfl rfl rfl rfl rfl rfl h0 h0
    (by linarith) (by linarith)).2.2.1

theorem rest_otherWind (spline : SplineFn) (w : WindConditions) (hw : windPostInit w = .ok ()) (H : Set ℝ)
    (hH : ∀ q ∈ [Demo.vars (-1), (Demo.vars (-1)).mirrored], |q.cp.z| ∈ H)
    (hd : SameDirection H (windGetProfile demoAtRest.wind) (windGetProfile w))
    (hi : ∃ ic, windIntegral (windGetProfile w) ⟨0, 0, 0⟩ = .ok ic) :
    ∃ p, prepare spline { demoAtRest with wind := w } = .ok p ∧
      p.vlm.vars = [Demo.vars (-1), (Demo.vars (-1)).mirrored] ∧
      ∃ t, .workbook (some t) ∈ (run spline { demoAtRest with wind := w }).1 := by
  obtain ⟨p, hp, hcs, hv, -⟩ := rest_prepared spline
  obtain ⟨main, jib, base, i1, i2, i3, -, i5, i6, i7, -, iv, -⟩ := prepare_ok hp
  rw [hcs] at i6
  obtain ⟨r', hr', hvars⟩ := vlm_direction iv (H := H) (fun q hq => by rw [hv] at hq; exact hH q hq) hd
  obtain ⟨p', hp', hc', -, hpv⟩ := prepare_of (spline := spline) (c := { demoAtRest with wind := w }) i1 i2 hw i5 i6 i7 hr'
  have hv' : p'.vlm.vars = [Demo.vars (-1), (Demo.vars (-1)).mirrored] := by rw [hpv, hvars, hv]
  have hc0 : p'.csys = ⟨0, 0, 0⟩ := hc'
  refine ⟨p', hp', hv', demo_prepared_workbook spline hp' rfl rfl
    (by norm_num [demoAtRest, Demo.config, demoRig, deg2rad_90]) hc0 hv' ?_⟩
  obtain ⟨-, -, -, k4, -⟩ := (vlm_ok_iff _ _).1 hr'
  obtain ⟨-, -, e⟩ := (inletConditions_ok_iff _ _ _ _).1 k4
  have hw : p'.vlm.inlet.winds = windGetProfile w := by rw [hpv, e]
  rw [hw, hc0]
  exact hi

theorem rough_prepared (spline : SplineFn) (z : ℝ) (h0 : 0 < z) (h1 : z < 3 / 2) :
    ∃ p, prepare spline (demoRough z) = .ok p ∧ p.vlm.vars = [Demo.vars (-1), (Demo.vars (-1)).mirrored] ∧
      ∃ t, .workbook (some t) ∈ (run spline (demoRough z)).1 :=
  rest_otherWind spline _ (by simp [windPostInit]) {h | z < h ∧ z < h}
    (fun q hq => ⟨demo_heights z h1 q hq, demo_heights z h1 q hq⟩) (rough_direction z h0 h1) ⟨_, rfl⟩

/-- Non-vacuity of `C142_direction` and `C142_run`: from the flat wind to a logarithmic one. -/
example (spline : SplineFn) : ∃ p, prepare spline demoAtRest = .ok p ∧
    (∃ q ∈ p.vlm.vars, q.leMid.z ≠ 0 ∨ q.teMid.z ≠ 0) ∧ (∀ q ∈ p.vlm.vars, |q.cp.z| ∈ {h : ℝ | 1 < h ∧ 1 < h}) ∧
    windPostInit (demoRough 1).wind = .ok () ∧ ReferenceAboveWater (demoRough 1).wind ∧
    SameDirection {h | 1 < h ∧ 1 < h} (windGetProfile demoAtRest.wind) (windGetProfile (demoRough 1).wind) := by
  obtain ⟨p, hp, -, hv, -⟩ := rest_prepared spline
  refine ⟨p, hp, by rw [hv]; exact demo_offWater, fun q hq => ?_, by simp [windPostInit, demoRough],
    fun h => by simp [demoRough] at h, rough_direction 1 one_pos (by norm_num)⟩
  rw [hv] at hq
  exact ⟨demo_heights 1 (by norm_num) q hq, demo_heights 1 (by norm_num) q hq⟩

/-- Non-vacuity of `C142_roughness`, and with it of `C142_superposition` and `C142_workbook`. -/
example (spline : SplineFn) : ∃ p, prepare spline (demoRough 1) = .ok p ∧
    (∀ q ∈ p.vlm.vars, 1 < |q.cp.z| ∧ 1 / 2 < |q.cp.z|) ∧ (∃ t, .workbook (some t) ∈ (run spline (demoRough 1)).1) ∧
    (∃ t₁, .workbook (some t₁) ∈ (run spline { demoRough 1 with
      wind := { (demoRough 1).wind with roughness := some (1 / 2) } }).1) ∧
    ∃ t₂, .workbook (some t₂) ∈ (run spline { demoRough 1 with wind := { (demoRough 1).wind with profile := "flat" } }).1 := by
  obtain ⟨p, hp, hv, ht⟩ := rough_prepared spline 1 one_pos (by norm_num)
  obtain ⟨p₁, hp₁, -, ht₁⟩ := rough_prepared spline (1 / 2) (by norm_num) (by norm_num)
  refine ⟨p, hp, fun q hq => ?_, ht, ht₁, ?_⟩
  · rw [hv] at hq
    exact ⟨demo_heights 1 (by norm_num) q hq, demo_heights (1 / 2) (by norm_num) q hq⟩
  · obtain ⟨-, -, -, ht₂⟩ := rest_otherWind spline { (demoRough 1).wind with profile := "flat" }
      (by simp [windPostInit, demoRough]) Set.univ (fun _ _ => Set.mem_univ _)
      (fun h _ v hv => ⟨1, one_pos, by rw [one_smul]; exact hv⟩) ⟨_, rfl⟩
    exact ht₂

end PySailing.Props
