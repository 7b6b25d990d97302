import Verif.Spec.Superpose
import Verif.Lemmas.Outputs
import Verif.Lemmas.HeadingWorkbook

/-!
# Lemmas: winds of the same direction
-/

namespace PySailing

open Spec Props

section Core

variable {K : ℕ} {L : Fin K → PanelVars} {te : Fin K → Bool} {V V' : Fin K → V3} {k : Fin K → ℝ}

theorem velCoef_direction (hk : ∀ i, 0 < k i) (hV : ∀ i, V' i = k i • V i) (g : ℝ) (p : V3) (j : Fin K) :
    velCoef L te V' g p j = velCoef L te V g p j := by
  unfold velCoef vortexHorseshoeV2
  simp only [hV j, vortexInfiniteLine_smul_wind _ _ _ _ (hk j)]

theorem latticeVelocity_direction (hk : ∀ i, 0 < k i) (hV : ∀ i, V' i = k i • V i) (g : ℝ) (γ : Fin K → ℝ) (p : V3) :
    latticeVelocity L te V' g γ p = latticeVelocity L te V g γ p := by
  rw [latticeVelocity_eq, latticeVelocity_eq]
  simp only [velCoef_direction hk hV]

theorem influence_direction (hk : ∀ i, 0 < k i) (hV : ∀ i, V' i = k i • V i) (g : ℝ) :
    influence L te V' g = influence L te V g := by
  funext i j
  unfold influence
  rw [latticeVelocity_direction hk hV]

theorem clearOfWakes_direction (hk : ∀ i, 0 < k i) (hV : ∀ i, V' i = k i • V i) {pts : Fin K → V3}
    (h : clearOfWakes L te V pts) : clearOfWakes L te V' pts := by
  intro i j hj
  obtain ⟨h0, h1⟩ := h i j hj
  refine ⟨?_, fun s hs => ?_⟩
  · rw [hV]; exact smul_ne_zero (hk j).ne' h0
  · have := h1 (s * k j) (mul_nonneg hs (hk j).le)
    rw [hV, smul_smul]
    exact this

theorem wellPosed_direction (hk : ∀ i, 0 < k i) (hV : ∀ i, V' i = k i • V i) {areas : Fin K → ℝ} {rho g : ℝ}
    (h : WellPosed L areas te rho g V) : WellPosed L areas te rho g V' where
  ctr := clearOfWakes_direction hk hV h.ctr
  cp := clearOfWakes_direction hk hV h.cp
  regular := by rw [influence_direction hk hV]; exact h.regular
  areas := h.areas
  rho := h.rho
  wind i := by rw [hV]; exact smul_ne_zero (hk i).ne' (h.wind i)

theorem latticeVelocity_linear (g a b : ℝ) (γ₁ γ₂ : Fin K → ℝ) (p : V3) :
    latticeVelocity L te V g (fun i => a * γ₁ i + b * γ₂ i) p =
      a • latticeVelocity L te V g γ₁ p + b • latticeVelocity L te V g γ₂ p := by
  simp only [latticeVelocity_eq, Finset.smul_sum, ← Finset.sum_add_distrib, smul_smul, add_smul]

end Core

/-- The winds at the panels, one by one. -/
theorem inlet_apparent {w : WindObj} {rho : ℝ} {cps : List V3} {i : Inlet} (h : inletConditions w rho cps = .ok i) :
    i.vAppInfs.length = cps.length ∧ ∀ (k : ℕ) (hk : k < cps.length), ApparentAt w |cps[k].z| (i.vAppInfs.getD k 0) := by
  obtain ⟨-, ht, e⟩ := (inletConditions_ok_iff _ _ _ _).1 h
  obtain ⟨hl, hi⟩ := mapM_ok_inv ht
  have hv : i.vAppInfs = i.twsAtCp.map w.appInfs := by rw [e]
  refine ⟨by rw [hv, List.length_map, hl], fun k hk => ?_⟩
  obtain ⟨t, h1, h2⟩ := hi k hk
  refine ⟨t, h2, ?_⟩
  rw [hv, List.getD_eq_getElem?_getD, List.getElem?_map, h1]
  ext <;> simp [WindObj.appInfs]

theorem apparent_unique {w : WindObj} {h : ℝ} {v v' : V3} (h1 : ApparentAt w h v) (h2 : ApparentAt w h v') : v = v' := by
  obtain ⟨t, ht, rfl⟩ := h1
  obtain ⟨t', ht', rfl⟩ := h2
  rw [Except.ok.inj (ht.symm.trans ht')]

/-- The solver returns for all winds of the same direction. -/
theorem vlm_direction {a : VlmInput} {r : Vlm} (h : vlm a = .ok r) {H : Set ℝ} (hH : ∀ q ∈ r.vars, |q.cp.z| ∈ H)
    {w : WindObj} (hd : SameDirection H a.wind w) : ∃ r', vlm { a with wind := w } = .ok r' ∧ r'.vars = r.vars := by
  obtain ⟨input, areas, vars, inlet, sol⟩ := r
  obtain ⟨h1, h2, h3, h4, h5⟩ := (vlm_ok_iff _ _).1 h
  simp only at h1 h2 h3 h4 h5 hH
  obtain ⟨hl, hap⟩ := inlet_apparent h4
  obtain ⟨hne, -, -⟩ := (inletConditions_ok_iff _ _ _ _).1 h4
  have key : ∀ i : Fin vars.length, ∃ k : ℝ, 0 < k ∧ ApparentAt w |vars[i].cp.z| (k • inlet.vAppInfs.getD i 0) := by
    intro i
    have := hap i (by simp)
    rw [List.getElem_map] at this
    exact hd _ (hH _ (List.getElem_mem _)) _ this
  choose k hk hw using key
  have ht : ∃ tws, ((vars.map PanelVars.cp).mapM fun p => w.trueWindAt |p.z|) = .ok tws := by
    have : ∀ p ∈ vars.map PanelVars.cp, ∃ t, w.trueWindAt |p.z| = .ok t := by
      intro p hp
      obtain ⟨q, hq, rfl⟩ := List.mem_map.1 hp
      obtain ⟨n, hn, rfl⟩ := List.getElem_of_mem hq
      obtain ⟨t, ht, -⟩ := hw ⟨n, hn⟩
      exact ⟨t, ht⟩
    choose! g hg using this
    exact ⟨_, mapM_ok (g := g) fun p hp => hg p hp⟩
  obtain ⟨tws, ht⟩ := ht
  have hin := inletConditions_of a.rho hne ht
  obtain ⟨hl', hap'⟩ := inlet_apparent hin
  obtain ⟨hwp, hix, -⟩ := (vlmCore_ok_iff _ _ _ _ _ _ _ _ _).1 h5
  have hV : ∀ i : Fin vars.length, (inletOf w a.rho (vars.map PanelVars.cp) tws).vAppInfs.getD i 0 =
      k i • inlet.vAppInfs.getD i 0 := by
    intro i
    have := hap' i (by simp)
    rw [List.getElem_map] at this
    exact apparent_unique this (hw i)
  have hsol := (vlmCore_ok_iff _ _ _ _ _ _ _ _ _).2 ⟨wellPosed_direction hk hV hwp, hix, rfl⟩
  exact ⟨⟨{ a with wind := w }, areas, vars, inletOf w a.rho (vars.map PanelVars.cp) tws, _⟩,
    (vlm_ok_iff _ _).2 ⟨rfl, h2, h3, hin, hsol⟩, rfl⟩

theorem zipWith_ofFn {α β γ : Type} {n : ℕ} (f : α → β → γ) (u : Fin n → α) (v : Fin n → β) :
    List.zipWith f (List.ofFn u) (List.ofFn v) = List.ofFn fun i => f (u i) (v i) := by
  apply List.ext_getElem
  · simp
  · intro i h1 h2
    simp

/-- Circulations and velocities of winds of the same direction superpose. -/
theorem vlm_superpose {a : VlmInput} {w₁ w₂ : WindObj} {r r₁ r₂ : Vlm} (h : vlm a = .ok r)
    (h₁ : vlm { a with wind := w₁ } = .ok r₁) (h₂ : vlm { a with wind := w₂ } = .ok r₂) {H : Set ℝ}
    (hH : ∀ q ∈ r.vars, |q.cp.z| ∈ H) (d₁ : SameDirection H a.wind w₁) (d₂ : SameDirection H a.wind w₂)
    {α β : ℝ} (hc : Combined H α β w₁ w₂ a.wind) :
    r.out.gamma = List.zipWith (fun x y => α * x + β * y) r₁.out.gamma r₂.out.gamma ∧
    r.out.vIndCtrl = List.zipWith (fun x y => α • x + β • y) r₁.out.vIndCtrl r₂.out.vIndCtrl ∧
    r.out.vFsCtrl = List.zipWith (fun x y => α • x + β • y) r₁.out.vFsCtrl r₂.out.vFsCtrl ∧
    r.out.vIndCp = List.zipWith (fun x y => α • x + β • y) r₁.out.vIndCp r₂.out.vIndCp ∧
    r.out.vFsCp = List.zipWith (fun x y => α • x + β • y) r₁.out.vFsCp r₂.out.vFsCp := by
  obtain ⟨input, areas, vars, inlet, sol⟩ := r
  obtain ⟨input₁, areas₁, vars₁, inlet₁, sol₁⟩ := r₁
  obtain ⟨input₂, areas₂, vars₂, inlet₂, sol₂⟩ := r₂
  obtain ⟨-, -, h3, h4, h5⟩ := (vlm_ok_iff _ _).1 h
  obtain ⟨-, -, i3, i4, i5⟩ := (vlm_ok_iff _ _).1 h₁
  obtain ⟨-, -, j3, j4, j5⟩ := (vlm_ok_iff _ _).1 h₂
  simp only at h3 h4 h5 hH i3 i4 i5 j3 j4 j5
  have e1 : vars₁ = vars := Except.ok.inj (i3.symm.trans h3)
  have e2 : vars₂ = vars := Except.ok.inj (j3.symm.trans h3)
  subst e1
  subst e2
  obtain ⟨-, hap⟩ := inlet_apparent h4
  obtain ⟨-, hap₁⟩ := inlet_apparent i4
  obtain ⟨-, hap₂⟩ := inlet_apparent j4
  have hap : ∀ i : Fin vars₂.length, ApparentAt a.wind |vars₂[i].cp.z| (inlet.vAppInfs.getD i 0) := fun i => by
    simpa using hap i (by simp)
  have hap₁ : ∀ i : Fin vars₂.length, ApparentAt w₁ |vars₂[i].cp.z| (inlet₁.vAppInfs.getD i 0) := fun i => by
    simpa using hap₁ i (by simp)
  have hap₂ : ∀ i : Fin vars₂.length, ApparentAt w₂ |vars₂[i].cp.z| (inlet₂.vAppInfs.getD i 0) := fun i => by
    simpa using hap₂ i (by simp)
  have hm : ∀ i : Fin vars₂.length, |vars₂[i].cp.z| ∈ H := fun i => hH _ (List.getElem_mem _)
  choose k₁ hk₁ hw₁ using fun i => d₁ _ (hm i) _ (hap i)
  choose k₂ hk₂ hw₂ using fun i => d₂ _ (hm i) _ (hap i)
  have hV₁ := fun i => apparent_unique (hap₁ i) (hw₁ i)
  have hV₂ := fun i => apparent_unique (hap₂ i) (hw₂ i)
  have hV := fun i => hc _ (hm i) _ _ _ (hap₁ i) (hap₂ i) (hap i)
  obtain ⟨-, -, s0⟩ := (vlmCore_ok_iff _ _ _ _ _ _ _ _ _).1 h5
  obtain ⟨-, -, s1⟩ := (vlmCore_ok_iff _ _ _ _ _ _ _ _ _).1 i5
  obtain ⟨-, -, s2⟩ := (vlmCore_ok_iff _ _ _ _ _ _ _ _ _).1 j5
  obtain ⟨L, hL⟩ : ∃ L : Fin vars₂.length → PanelVars, L = fun i => vars₂[i] := ⟨_, rfl⟩
  obtain ⟨V, hVd⟩ : ∃ V : Fin vars₂.length → V3, V = fun i => inlet.vAppInfs.getD i.val 0 := ⟨_, rfl⟩
  obtain ⟨V₁, hVd₁⟩ : ∃ V : Fin vars₂.length → V3, V = fun i => inlet₁.vAppInfs.getD i.val 0 := ⟨_, rfl⟩
  obtain ⟨V₂, hVd₂⟩ : ∃ V : Fin vars₂.length → V3, V = fun i => inlet₂.vAppInfs.getD i.val 0 := ⟨_, rfl⟩
  obtain ⟨te, hte⟩ : ∃ te : Fin vars₂.length → Bool, te = fun i => a.te.getD i.val false := ⟨_, rfl⟩
  rw [← hL, ← hVd, ← hte] at s0
  rw [← hL, ← hVd₁, ← hte] at s1
  rw [← hL, ← hVd₂, ← hte] at s2
  have v1 : ∀ i, V₁ i = k₁ i • V i := fun i => by rw [hVd, hVd₁]; exact hV₁ i
  have v2 : ∀ i, V₂ i = k₂ i • V i := fun i => by rw [hVd, hVd₂]; exact hV₂ i
  have v0 : ∀ i, V i = α • V₁ i + β • V₂ i := fun i => by rw [hVd, hVd₁, hVd₂]; exact hV i
  have hγ : coreGamma L te a.g V = fun i => α * coreGamma L te a.g V₁ i + β * coreGamma L te a.g V₂ i := by
    unfold coreGamma
    rw [influence_direction hk₁ v1, influence_direction hk₂ v2]
    have : (fun i => -((V i).dot (L i).normal)) =
        α • (fun i => -((V₁ i).dot (L i).normal)) + β • (fun i => -((V₂ i).dot (L i).normal)) := by
      funext i
      rw [v0 i]
      simp only [Pi.add_apply, Pi.smul_apply, smul_eq_mul, V3.dot, V3.add_x, V3.add_y, V3.add_z, V3.smul_x, V3.smul_y,
        V3.smul_z]
      ring
    rw [this, Matrix.mulVec_add, Matrix.mulVec_smul, Matrix.mulVec_smul]
    rfl
  have hv : ∀ p, latticeVelocity L te V a.g (coreGamma L te a.g V) p =
      α • latticeVelocity L te V₁ a.g (coreGamma L te a.g V₁) p +
        β • latticeVelocity L te V₂ a.g (coreGamma L te a.g V₂) p := by
    intro p
    rw [latticeVelocity_direction hk₁ v1, latticeVelocity_direction hk₂ v2, ← latticeVelocity_linear, ← hγ]
  have hadd : ∀ i p, V i + latticeVelocity L te V a.g (coreGamma L te a.g V) p =
      α • (V₁ i + latticeVelocity L te V₁ a.g (coreGamma L te a.g V₁) p) +
        β • (V₂ i + latticeVelocity L te V₂ a.g (coreGamma L te a.g V₂) p) := by
    intro i p
    rw [hv, v0 i, smul_add, smul_add]
    abel
  simp only [Vlm.out, VlmSolution.arrays, zipWith_ofFn, s0, s1, s2, solOf]
  refine ⟨?_, ?_, ?_, ?_, ?_⟩
  · rw [hγ]
  · simp only [hv]
  · simp only [hadd]
  · simp only [hv]
  · simp only [hadd]

/-! ## Runs -/

theorem saveResults_flow {r : Vlm} {csys csys0 : Csys} {o : FlowObject} {sails : List SailGeom} {t : SavedResults}
    (h : saveResults r csys o sails csys0 = .ok t) :
    (∀ line x, t.components.cell "Circulation_magnitude" line = some (.num x) ↔
      line < (o.res.gamma.length + 1) / 2 ∧ o.res.gamma[line]? = some x) ∧
    (∀ line, cellVector t.components "V_induced_COG" line = (o.res.vInd.take ((o.res.vInd.length + 1) / 2))[line]?) ∧
    ∀ line, cellVector t.components "V_app_fs_COG" line = (o.res.vFs.take ((o.res.vFs.length + 1) / 2))[line]? := by
  obtain ⟨i, cs, above, g, names, e⟩ : ∃ i cs above g names, t.components = concatFrames (sheetTables o.res i cs above g names) := by
    unfold saveResults at h
    simp only [bind, Except.bind] at h
    split at h
    · cases h
    split at h
    · cases h
    split at h
    · cases h
    split at h
    · cases h
    injection h with h
    subst h
    exact ⟨_, _, _, _, _, rfl⟩
  have n := sheetTables_nodup o.res i cs above g names
  rw [e]
  refine ⟨fun line x => ?_, fun line => cellVector_concat n (mem_flow fun c hc => by simp [FlowResults.toDfFull, hc]) line,
    fun line => cellVector_concat n (mem_flow fun c hc => by simp [FlowResults.toDfFull, hc]) line⟩
  rw [cell_concat n (mem_flow₁ (xs := o.res.gamma) (by simp [FlowResults.toDfFull])), List.getElem?_append]
  have hlen : (List.take ((o.res.gamma.length + 1) / 2) (List.map Cell.num o.res.gamma)).length =
      (o.res.gamma.length + 1) / 2 := by
    rw [List.length_take, List.length_map]; omega
  rw [hlen]
  split_ifs with hl
  · simp only [List.getElem?_take, hl, if_true, List.getElem?_map, true_and]
    cases o.res.gamma[line]? <;> simp
  · simp only [hl, false_and, iff_false]
    intro h0
    have := List.mem_of_getElem? h0
    simp at this

/-- What two runs that differ only in the wind have in common. -/
theorem prepare_wind {spline : SplineFn} {c : Config} {w : WindConditions} {p p' : Prepared} (hp : prepare spline c = .ok p)
    (hp' : prepare spline { c with wind := w } = .ok p') :
    p'.set = p.set ∧ vlm (c.vlmInput p.set (windGetProfile c.wind)) = .ok p.vlm ∧
      vlm { c.vlmInput p.set (windGetProfile c.wind) with wind := windGetProfile w } = .ok p'.vlm := by
  obtain ⟨main, jib, base, h1, h2, h3, -, -, h6, -, -, hv, -⟩ := prepare_ok hp
  obtain ⟨main', jib', base', i1, i2, i3, -, -, i6, -, -, iv, -⟩ := prepare_ok hp'
  have e1 : main' = main := Except.ok.inj (i1.symm.trans h1)
  have e2 : jib' = jib := Except.ok.inj (i2.symm.trans h2)
  have e3 : p'.csys = p.csys := Except.ok.inj (i3.symm.trans h3)
  rw [e1, e2, e3] at i6
  have e4 : p'.set = p.set := Except.ok.inj (i6.symm.trans h6)
  rw [e4] at iv
  exact ⟨e4, hv, iv⟩

/-- The wind of a yacht at rest with a logarithmic profile, at a height above the roughness length. -/
theorem apparent_log {w : WindObj} {r ref h : ℝ} (hp : w.profile = .log (some r) (some ref)) (hy : w.vYacht = 0)
    (hr : 0 < r) (href : r < ref) (hh : r < h) (v : V3) :
    ApparentAt w h v ↔ v = w.lengthToXyz (w.twsRef * (Real.log (h / r) / Real.log (ref / r))) := by
  have h1 : 0 < h / r := div_pos (hr.trans hh) hr
  have h2 : 1 < ref / r := (one_lt_div hr).2 href
  have e : w.trueWindAt h = .ok (w.lengthToXyz (w.twsRef * (Real.log (h / r) / Real.log (ref / r)))) := by
    unfold WindObj.trueWindAt WindObj.logFactor
    rw [hp]
    simp only
    rw [if_neg hr.ne', if_neg (not_le.2 h1), if_neg (by linarith), if_neg (by linarith), if_neg (by linarith)]
    rfl
  have z : ∀ t : V3, t + ⟨w.vYacht, 0, 0⟩ = t := by
    intro t
    rw [hy]
    ext <;> simp
  unfold ApparentAt
  constructor
  · rintro ⟨t, ht, rfl⟩
    rw [e] at ht
    rw [z]
    exact (Except.ok.inj ht).symm
  · rintro rfl
    exact ⟨_, e, (z _).symm⟩

/-- The wind of a yacht at rest with the flat profile. -/
theorem apparent_flat {w : WindObj} (hp : w.profile = .flat) (hy : w.vYacht = 0) (h : ℝ) (v : V3) :
    ApparentAt w h v ↔ v = w.lengthToXyz w.twsRef := by
  have e : w.trueWindAt h = .ok (w.lengthToXyz w.twsRef) := by
    unfold WindObj.trueWindAt
    rw [hp]
  have z : ∀ t : V3, t + ⟨w.vYacht, 0, 0⟩ = t := by
    intro t
    rw [hy]
    ext <;> simp
  unfold ApparentAt
  constructor
  · rintro ⟨t, ht, rfl⟩
    rw [e] at ht
    rw [z]
    exact (Except.ok.inj ht).symm
  · rintro rfl
    exact ⟨_, e, (z _).symm⟩

theorem lengthToXyz_smul (w : WindObj) (k s : ℝ) : k • w.lengthToXyz s = w.lengthToXyz (k * s) := by
  ext <;> simp [WindObj.lengthToXyz] <;> ring

theorem lengthToXyz_add (w : WindObj) (s t : ℝ) : w.lengthToXyz s + w.lengthToXyz t = w.lengthToXyz (s + t) := by
  ext <;> simp [WindObj.lengthToXyz] <;> ring

theorem lengthToXyz_alpha {w w' : WindObj} (h : w'.alphaDeg = w.alphaDeg) (s : ℝ) : w'.lengthToXyz s = w.lengthToXyz s := by
  simp [WindObj.lengthToXyz, WindObj.alpha, h]

/-- The factor of a logarithmic profile above the roughness length is positive. -/
theorem log_factor_pos {r ref h : ℝ} (hr : 0 < r) (href : r < ref) (hh : r < h) :
    0 < Real.log (h / r) / Real.log (ref / r) :=
  div_pos (Real.log_pos ((one_lt_div hr).2 hh)) (Real.log_pos ((one_lt_div hr).2 href))

/-- For a yacht at rest the logarithmic wind of one roughness, that of another, and the flat wind come from the same
direction, and the first is a combination of the others. -/
theorem roughness_combined {w w₁ w₂ : WindObj} {r r₁ ref : ℝ} (hp : w.profile = .log (some r) (some ref))
    (hp₁ : w₁.profile = .log (some r₁) (some ref)) (hp₂ : w₂.profile = .flat) (hy : w.vYacht = 0) (hy₁ : w₁.vYacht = 0)
    (hy₂ : w₂.vYacht = 0) (ht₁ : w₁.twsRef = w.twsRef) (ht₂ : w₂.twsRef = w.twsRef) (ha₁ : w₁.alphaDeg = w.alphaDeg)
    (ha₂ : w₂.alphaDeg = w.alphaDeg) (hr : 0 < r) (hr₁ : 0 < r₁) (href : r < ref) (href₁ : r₁ < ref) :
    SameDirection {h | r < h ∧ r₁ < h} w w₁ ∧ SameDirection {h | r < h ∧ r₁ < h} w w₂ ∧
      SameDirection {h | r < h ∧ r₁ < h} w₂ w ∧
      Combined {h | r < h ∧ r₁ < h} (Real.log (ref / r₁) / Real.log (ref / r)) (Real.log (r₁ / r) / Real.log (ref / r))
        w₁ w₂ w := by
  refine ⟨?_, ?_, ?_, ?_⟩
  · rintro h ⟨h0, h1⟩ v hv
    rw [apparent_log hp hy hr href h0] at hv
    have f0 := log_factor_pos hr href h0
    have f1 := log_factor_pos hr₁ href₁ h1
    refine ⟨_, div_pos f1 f0, (apparent_log hp₁ hy₁ hr₁ href₁ h1 _).2 ?_⟩
    rw [hv, lengthToXyz_smul, lengthToXyz_alpha ha₁, ht₁]
    congr 1
    generalize Real.log (h / r) / Real.log (ref / r) = x at f0 ⊢
    generalize Real.log (h / r₁) / Real.log (ref / r₁) = y at f1 ⊢
    field_simp
  · rintro h ⟨h0, h1⟩ v hv
    rw [apparent_log hp hy hr href h0] at hv
    have f0 := log_factor_pos hr href h0
    refine ⟨_, inv_pos.2 f0, (apparent_flat hp₂ hy₂ h _).2 ?_⟩
    rw [hv, lengthToXyz_smul, lengthToXyz_alpha ha₂, ht₂]
    congr 1
    generalize Real.log (h / r) / Real.log (ref / r) = x at f0 ⊢
    field_simp
  · rintro h ⟨h0, h1⟩ v hv
    rw [apparent_flat hp₂ hy₂] at hv
    refine ⟨_, log_factor_pos hr href h0, (apparent_log hp hy hr href h0 _).2 ?_⟩
    rw [hv, lengthToXyz_smul, lengthToXyz_alpha ha₂, ht₂, mul_comm]
  · rintro h ⟨h0, h1⟩ v₁ v₂ v e₁ e₂ e
    rw [apparent_log hp hy hr href h0] at e
    rw [apparent_log hp₁ hy₁ hr₁ href₁ h1] at e₁
    rw [apparent_flat hp₂ hy₂] at e₂
    rw [e, e₁, e₂, lengthToXyz_alpha ha₁, lengthToXyz_alpha ha₂, lengthToXyz_smul, lengthToXyz_smul, lengthToXyz_add,
      ht₁, ht₂]
    congr 1
    have g0 : Real.log (ref / r) ≠ 0 := (Real.log_pos ((one_lt_div hr).2 href)).ne'
    have g1 : Real.log (ref / r₁) ≠ 0 := (Real.log_pos ((one_lt_div hr₁).2 href₁)).ne'
    have hs : Real.log (h / r) = Real.log (h / r₁) + Real.log (r₁ / r) := by
      rw [← Real.log_mul (div_pos (hr₁.trans h1) hr₁).ne' (div_pos hr₁ hr).ne']
      congr 1
      field_simp
    rw [hs]
    field_simp

end PySailing
