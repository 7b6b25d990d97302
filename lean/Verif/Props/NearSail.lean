import Verif.Lemmas.NearSail
import Verif.Lemmas.OffSwitches
import Verif.Props.Continuity
import Verif.Props.FlatSailForce

/-!
# C126: nearby sail settings give nearby results
-/

namespace PySailing.Props

open PySailing PySailing.Spec Filter Topology

variable {T : Type} {l : Filter T}

/-- The factor by which the speed at a height differs from the reference speed. -/
noncomputable def heightFactor (P : WindProfile) (h : ℝ) : ℝ :=
  match (⟨0, 1, 0, P⟩ : WindObj).trueWindAt h with
  | .ok v => v.x
  | .error _ => 0

theorem heightFactor_near {P : WindProfile} {h : ℝ} (hn : WindNear P h) :
    (∀ᶠ h' in 𝓝 h, ∀ w : WindObj, w.profile = P → w.trueWindAt h' = .ok (w.lengthToXyz (w.twsRef * heightFactor P h'))) ∧
      ContinuousAt (heightFactor P) h := by
  obtain ⟨f, h1, h2⟩ := hn
  have e : ∀ᶠ h' in 𝓝 h, f h' = heightFactor P h' := h1.mono fun h' e => by
    unfold heightFactor
    rw [e ⟨0, 1, 0, P⟩ rfl]
    simp [WindObj.lengthToXyz, WindObj.alpha, deg2rad]
  refine ⟨?_, h2.congr e⟩
  filter_upwards [h1, e] with h' e1 e2
  rw [← e2]
  exact e1

theorem abs_z_conv {f : T → V3} {p : V3} (h : Conv l f p) : Tendsto (fun t => |(f t).z|) l (𝓝 |p.z|) := h.z.abs

/-- The apparent wind of height `h`. -/
noncomputable def apparentAt (w : WindObj) (P : WindProfile) (h : ℝ) : V3 :=
  w.appInfs (w.lengthToXyz (w.twsRef * heightFactor P h))

theorem apparentAt_conv {w : T → WindObj} {w0 : WindObj} (hw : NearWind l w w0) {h : T → ℝ} {h0 : ℝ}
    (hh : Tendsto h l (𝓝 h0)) (hc : ContinuousAt (heightFactor w0.profile) h0) :
    Conv l (fun t => apparentAt (w t) w0.profile (h t)) (apparentAt w0 w0.profile h0) := by
  have hang : Tendsto (fun t => (w t).alpha) l (𝓝 w0.alpha) := by
    unfold WindObj.alpha
    exact deg2rad_tendsto hw.alpha
  have hs := hw.speed.mul (hc.tendsto.comp hh)
  exact ⟨(hs.mul (Real.continuous_cos.continuousAt.tendsto.comp hang)).add hw.yacht,
    hs.mul (Real.continuous_sin.continuousAt.tendsto.comp hang), tendsto_const_nhds⟩

/-- `C126_mesh`, with the pressure points and the wind at them. -/
theorem near_mesh (nc ns n : ℕ) (hnc : 0 < nc) (hns : 0 < ns) (f : T → Fin n → ℕ → ℕ → V3)
    (f0 : Fin n → ℕ → ℕ → V3) (hf : ∀ b i j, Conv l (fun t => f t b i j) (f0 b i j)) (rho : T → ℝ) (rho0 : ℝ)
    (hr : Tendsto rho l (𝓝 rho0)) (w : T → WindObj) (w0 : WindObj) (hw : NearWind l w w0) (g : ℝ) (r0 : Vlm)
    (h : vlm (meshInput nc ns f0 rho0 g w0) = .ok r0) (hoff : OffSwitches (meshInput nc ns f0 rho0 g w0) r0.vars)
    (hlevel : ∀ p ∈ r0.vars, ¬ AtWaterLevel w0.profile |p.cp.z|) :
    ∃ r : T → Vlm, (∀ᶠ t in l, vlm (meshInput nc ns (f t) (rho t) g (w t)) = .ok (r t)) ∧
      ConvArrays l (fun t => (r t).out) r0.out ∧
      (∀ k, Conv l (fun t => row ((r t).vars.map PanelVars.cp) k) (row (r0.vars.map PanelVars.cp) k)) ∧
      (∀ᶠ t in l, ∀ v ∈ (r t).vars, (w t).trueWindAt |v.cp.z| =
        .ok ((w t).lengthToXyz ((w t).twsRef * heightFactor w0.profile |v.cp.z|))) := by
  classical
  obtain ⟨-, -, hv0, hin, -⟩ := (vlm_ok_iff _ _).1 h
  have hcp0 := ((inletConditions_ok_iff _ _ _ _).1 hin).1
  obtain ⟨W0, hW0, hi⟩ := inlet_pointwise hin
  have hn : 0 < n := by
    rcases Nat.eq_zero_or_pos n with hn | hn
    · subst hn
      simp only [meshInput, List.ofFn_zero, blockPanels, List.map_nil, List.flatten_nil, calculateVlmVariables] at hv0
      rw [if_neg (Nat.mul_pos hnc hns).ne'] at hv0
      simp [arraySplit, Bind.bind, Except.bind] at hv0
    · exact hn
  have hbl : ∀ f : Fin n → ℕ → ℕ → V3, List.ofFn f ≠ [] := fun f => by simp; omega
  have hblocks : ∀ f : Fin n → ℕ → ℕ → V3, _ := fun f => calculateVlmVariables_blocks g hnc hns (List.ofFn f) (hbl f)
  simp only [List.length_ofFn] at hblocks
  let vs : (Fin n → ℕ → ℕ → V3) → List PanelVars := fun f => ((List.ofFn f).map fun pts => (List.range nc).flatMap fun i =>
      (List.range ns).map fun j => meshVars g nc pts i j).flatten
  have hvs : ∀ (f : Fin n → ℕ → ℕ → V3) v, calculateVlmVariables (blockPanels nc ns (List.ofFn f)) (trailingFlags nc ns n) g nc ns =
      .ok v → v = vs f := fun f v hv => by
    rw [hblocks f] at hv
    split_ifs at hv
    injection hv with hv
    exact hv.symm
  have hvs0 : r0.vars = vs f0 := hvs f0 _ hv0
  have hlenv : ∀ f : Fin n → ℕ → ℕ → V3, (vs f).length = n * (nc * ns) := fun f => by
    simp only [vs]
    rw [List.length_flatten, List.map_map]
    simp [Function.comp_def]
  have hget : ∀ (f : Fin n → ℕ → ℕ → V3) (b : Fin n) i j, i < nc → j < ns →
      (vs f)[panelNo nc ns b i j]? = some (meshVars g nc (f b) i j) := by
    intro f b i j hi hj
    have h1 := blocks_get (List.ofFn f) (meshVars g nc) (b := b.val) (by simp) hi hj
    simp only [List.getElem_ofFn] at h1
    exact h1
  have hcpc : ∀ b i j, Conv l (fun t => (meshVars g nc (f t b) i j).cp) (meshVars g nc (f0 b) i j).cp := fun b i j => by
    have hle := Conv.const_smul (1 / 2) ((hf b j i).add (hf b (j + 1) i))
    have hte := Conv.const_smul (1 / 2) ((hf b j (i + 1)).add (hf b (j + 1) (i + 1)))
    unfold meshVars
    split_ifs
    all_goals exact hle.add (Conv.const_smul _ (hte.sub hle))
  have near : ∀ b i j, i < nc → j < ns → WindNear w0.profile |(meshVars g nc (f0 b) i j).cp.z| := fun b i j hi hj => by
    have hm : meshVars g nc (f0 b) i j ∈ r0.vars := by rw [hvs0]; exact List.mem_of_getElem? (hget f0 b i j hi hj)
    exact windNear_of (hW0 _ (List.mem_map.2 ⟨_, hm, rfl⟩)) (hlevel _ hm)
  have hgood : ∀ᶠ t in l, ∀ v ∈ vs (f t), (w t).trueWindAt |v.cp.z| =
      .ok ((w t).lengthToXyz ((w t).twsRef * heightFactor w0.profile |v.cp.z|)) := by
    have : ∀ᶠ t in l, ∀ b : Fin n, ∀ i : Fin nc, ∀ j : Fin ns, ∀ w : WindObj, w.profile = w0.profile →
        w.trueWindAt |(meshVars g nc (f t b) i j).cp.z| =
          .ok (w.lengthToXyz (w.twsRef * heightFactor w0.profile |(meshVars g nc (f t b) i j).cp.z|)) := by
      simp only [eventually_all]
      intro b i j
      exact (abs_z_conv (hcpc b i j)).eventually (heightFactor_near (near b i j i.isLt j.isLt)).1
    refine this.mono fun t ht v hv => ?_
    obtain ⟨k, hk, rfl⟩ := List.getElem_of_mem hv
    have hk' := hk
    rw [hlenv] at hk'
    obtain ⟨b, i, j, hb, hi, hj, rfl⟩ := panelNo_surj hk'
    obtain ⟨_, e⟩ := List.getElem?_eq_some_iff.1 (hget (f t) ⟨b, hb⟩ i j hi hj)
    simp only [] at e ⊢
    rw [e]
    exact ht ⟨b, hb⟩ ⟨i, hi⟩ ⟨j, hj⟩ _ (hw.profile t)
  let tw : T → List V3 := fun t => ((vs (f t)).map PanelVars.cp).map fun p => (w t).lengthToXyz ((w t).twsRef * heightFactor w0.profile |p.z|)
  let inl : T → Inlet := fun t => inletOf (w t) (rho t) ((vs (f t)).map PanelVars.cp) (tw t)
  have hV0 : r0.inlet.vAppInfs = (vs f0).map fun v => apparentAt w0 w0.profile |v.cp.z| := by
    rw [hi]
    simp only [inletOf, List.map_map]
    rw [← hvs0]
    apply List.map_congr_left
    intro v hv
    have h1 := hW0 _ (List.mem_map.2 ⟨_, hv, rfl⟩)
    have h2 := (heightFactor_near (windNear_of h1 (hlevel _ hv))).1.self_of_nhds w0 rfl
    have h1' : w0.trueWindAt |v.cp.z| = .ok (W0 v.cp) := h1
    rw [h2] at h1'
    simp only [Function.comp, apparentAt]
    rw [← Except.ok.inj h1']
    rfl
  have hconvV : ∀ k, Conv l (fun t => ((inl t).vAppInfs).getD k 0) (r0.inlet.vAppInfs.getD k 0) := by
    intro k
    rw [hV0]
    have e : ∀ t, (inl t).vAppInfs = (vs (f t)).map fun v => apparentAt (w t) w0.profile |v.cp.z| := fun t => by
      simp only [inl, tw, inletOf, List.map_map]
      rfl
    simp only [e]
    by_cases hk : k < n * (nc * ns)
    · obtain ⟨b, i, j, hb, hi, hj, rfl⟩ := panelNo_surj hk
      have e2 : ∀ (f : Fin n → ℕ → ℕ → V3) (F : PanelVars → V3), ((vs f).map F).getD (panelNo nc ns b i j) 0 =
          F (meshVars g nc (f ⟨b, hb⟩) i j) := fun f F => by
        rw [List.getD_eq_getElem?_getD, List.getElem?_map, hget f ⟨b, hb⟩ i j hi hj]
        rfl
      simp only [e2]
      exact apparentAt_conv hw (abs_z_conv (hcpc _ i j)) (heightFactor_near (near ⟨b, hb⟩ i j hi hj)).2
    · have e2 : ∀ (f : Fin n → ℕ → ℕ → V3) (F : PanelVars → V3), ((vs f).map F).getD k 0 = 0 := fun f F => by
        rw [List.getD_eq_getElem?_getD, List.getElem?_eq_none (by rw [List.length_map, hlenv]; omega)]
        rfl
      simp only [e2]
      exact conv_const 0
  obtain ⟨out, h1, h2⟩ := C100_continuous nc ns n hnc hns f f0 hf rho rho0 hr (fun t => (inl t).vAppInfs) r0.inlet.vAppInfs hconvV g
    w0 r0.out (vlm_withWinds h) (fun vars hv => by
      have e1 := hvs f0 _ hv
      rw [e1, ← hvs0]; exact hoff)
  have hne : ∀ f, (vs f).map PanelVars.cp ≠ [] := fun f e => by
    have := congrArg List.length e
    rw [List.length_map, hlenv] at this
    have : 0 < n * (nc * ns) := Nat.mul_pos hn (Nat.mul_pos hnc hns)
    simp only [List.length_nil] at *
    omega
  have hall : ∀ᶠ t in l, ∃ r, vlm (meshInput nc ns (f t) (rho t) g (w t)) = .ok r ∧ out t = r.out := by
    filter_upwards [h1, hgood] with t t1 t2
    obtain ⟨vars, e1, sol, e2, e3⟩ := (vlmWithWinds_ok_iff _ _ _).1 t1
    have := hvs (f t) _ e1
    subst this
    have hinl : inletConditions (w t) (rho t) ((vs (f t)).map PanelVars.cp) = .ok (inl t) :=
      inletConditions_of _ (hne _) (mapM_ok fun p hp => by
        obtain ⟨v, hv, rfl⟩ := List.mem_map.1 hp
        exact t2 v hv)
    exact ⟨⟨meshInput nc ns (f t) (rho t) g (w t), getPanelsArea (meshInput nc ns (f t) (rho t) g (w t)).panels, vs (f t), inl t, sol⟩,
      (vlm_ok_iff _ _).2 ⟨rfl, rfl, e1, hinl, e2⟩, e3⟩
  have : ∀ t, ∃ r, (∃ r', vlm (meshInput nc ns (f t) (rho t) g (w t)) = .ok r' ∧ out t = r'.out) →
      vlm (meshInput nc ns (f t) (rho t) g (w t)) = .ok r ∧ out t = r.out := fun t => by
    by_cases hc : ∃ r', vlm (meshInput nc ns (f t) (rho t) g (w t)) = .ok r' ∧ out t = r'.out
    · exact ⟨hc.choose, fun _ => hc.choose_spec⟩
    · exact ⟨r0, fun h => absurd h hc⟩
  choose r hr' using this
  have hrv : ∀ᶠ t in l, (r t).vars = vs (f t) := hall.mono fun t ht =>
    hvs (f t) _ ((vlm_ok_iff _ _).1 (hr' t ht).1).2.2.1
  refine ⟨r, hall.mono fun t ht => (hr' t ht).1, h2.congr' (hall.mono fun t ht => (hr' t ht).2), fun k => ?_, ?_⟩
  · have hc : Conv l (fun t => row ((vs (f t)).map PanelVars.cp) k) (row ((vs f0).map PanelVars.cp) k) := by
      unfold row
      by_cases hk : k < n * (nc * ns)
      · obtain ⟨b, i, j, hb, hi, hj, rfl⟩ := panelNo_surj hk
        have e2 : ∀ f : Fin n → ℕ → ℕ → V3, ((vs f).map PanelVars.cp).getD (panelNo nc ns b i j) 0 =
            (meshVars g nc (f ⟨b, hb⟩) i j).cp := fun f => by
          rw [List.getD_eq_getElem?_getD, List.getElem?_map, hget f ⟨b, hb⟩ i j hi hj]
          rfl
        simp only [e2]
        exact hcpc _ i j
      · have e2 : ∀ f : Fin n → ℕ → ℕ → V3, ((vs f).map PanelVars.cp).getD k 0 = 0 := fun f => by
          rw [List.getD_eq_getElem?_getD, List.getElem?_eq_none (by rw [List.length_map, hlenv]; omega)]
          rfl
        simp only [e2]
        exact conv_const 0
    rw [hvs0]
    exact hc.congr' (hrv.mono fun t e => by rw [e])
  · filter_upwards [hgood, hrv] with t t1 t2
    rw [t2]
    exact t1

/-- **C126**, for meshes: if the nodes, the density and the wind tend to those of an input for which `Vlm` returns, then `Vlm`
returns for all inputs near enough and all its results tend to those of that input, the wind being that at the moved
panels. -/
theorem C126_mesh (nc ns n : ℕ) (hnc : 0 < nc) (hns : 0 < ns) (f : T → Fin n → ℕ → ℕ → V3)
    (f0 : Fin n → ℕ → ℕ → V3) (hf : ∀ b i j, Conv l (fun t => f t b i j) (f0 b i j)) (rho : T → ℝ) (rho0 : ℝ)
    (hr : Tendsto rho l (𝓝 rho0)) (w : T → WindObj) (w0 : WindObj) (hw : NearWind l w w0) (g : ℝ) (r0 : Vlm)
    (h : vlm (meshInput nc ns f0 rho0 g w0) = .ok r0) (hoff : OffSwitches (meshInput nc ns f0 rho0 g w0) r0.vars)
    (hlevel : ∀ p ∈ r0.vars, ¬ AtWaterLevel w0.profile |p.cp.z|) :
    ∃ r : T → Vlm, (∀ᶠ t in l, vlm (meshInput nc ns (f t) (rho t) g (w t)) = .ok (r t)) ∧
      ConvArrays l (fun t => (r t).out) r0.out := by
  obtain ⟨r, h1, h2, -⟩ := near_mesh nc ns n hnc hns f f0 hf rho rho0 hr w w0 hw g r0 h hoff hlevel
  exact ⟨r, h1, h2⟩

/-- A family of sails as list of blocks, cut off after the last row. -/
noncomputable def sailBlocks {m : ℕ} (ns : ℕ) (ss : Fin m → SailInput × (ℕ → ℝ)) (b : Fin (m + m)) (r k : ℕ) : V3 :=
  if r ≤ ns then Fin.addCases (fun b => abovePoints (ss b)) (fun b => underPoints (ss b)) b r k else 0

theorem sailBlocks_list {m : ℕ} (nc ns : ℕ) (ss : Fin m → SailInput × (ℕ → ℝ)) :
    blockPanels nc ns ((List.ofFn ss).map abovePoints ++ (List.ofFn ss).map underPoints) =
      blockPanels nc ns (List.ofFn (sailBlocks ns ss)) := by
  have e : (List.ofFn ss).map abovePoints ++ (List.ofFn ss).map underPoints =
      List.ofFn (Fin.addCases (fun b => abovePoints (ss b)) (fun b => underPoints (ss b)) : Fin (m + m) → ℕ → ℕ → V3) := by
    rw [List.ofFn_add, List.map_ofFn, List.map_ofFn]
    congr 1
    · congr 1; funext b
      exact (Fin.addCases_left (motive := fun _ => ℕ → ℕ → V3) b).symm
    · congr 1; funext b
      exact (Fin.addCases_right (motive := fun _ => ℕ → ℕ → V3) b).symm
  rw [e]
  apply blockPanels_congr
  rw [List.forall₂_iff_get]
  refine ⟨by simp, fun i h1 h2 r k hr => ?_⟩
  simp [sailBlocks, hr]

theorem sailBlocks_conv {m : ℕ} {ss : T → Fin m → SailInput × (ℕ → ℝ)} {ss0 : Fin m → SailInput × (ℕ → ℝ)}
    (N : ∀ b, NearSail l (fun t => ss t b) (ss0 b)) {ns : ℕ} (hns : ∀ b, (ss0 b).1.ns = ns) (b : Fin (m + m)) (r k : ℕ) :
    Conv l (fun t => sailBlocks ns (ss t) b r k) (sailBlocks ns ss0 b r k) := by
  unfold sailBlocks
  split_ifs with h
  · refine Fin.addCases (fun b => ?_) (fun b => ?_) b
    · simp only [Fin.addCases_left]
      exact (N b).above_conv (by rw [hns b]; exact h) k
    · simp only [Fin.addCases_right]
      exact (N b).under_conv (by rw [hns b]; exact h) k
  · exact conv_const 0

theorem calculateSails_eq {m : ℕ} (hm : 0 < m) {nc ns : ℕ} (ss : Fin m → SailInput × (ℕ → ℝ)) (hok : ∀ b, SailOk (ss b).1 (ss b).2)
    (hnc : ∀ b, (ss b).1.nc = nc) (hns : ∀ b, (ss b).1.ns = ns) (rho g : ℝ) (w : WindObj) :
    calculateSails (List.ofFn fun b => (ss b).1) nc ns rho g w = vlm (meshInput nc ns (sailBlocks ns ss) rho g w) := by
  choose gm hg using fun b => sailGeometry_ok (hok b)
  have h1 : (List.ofFn fun b => (ss b).1).mapM sailGeometry = .ok (List.ofFn gm) := by
    have : (List.ofFn fun b => (ss b).1).mapM sailGeometry = .ok ((List.ofFn fun b => (ss b).1).map fun s =>
        match sailGeometry s with | .ok g => g | .error _ => gm ⟨0, hm⟩) := mapM_ok fun s hs => by
      obtain ⟨b, rfl⟩ := List.mem_ofFn.1 hs
      rw [(hg b).1]
    rw [this, List.map_ofFn]
    congr 2
    funext b
    simp only [Function.comp, (hg b).1]
  have hne : List.ofFn gm ≠ [] := by simp; omega
  obtain ⟨set, h2⟩ : ∃ set, sailSet (List.ofFn gm) = .ok set := ⟨_, if_neg hne⟩
  have hb : List.Forall₂ (BuiltFrom nc ns) (List.ofFn ss) (List.ofFn gm) := by
    rw [List.forall₂_iff_get]
    refine ⟨by simp, fun i hi1 hi2 => ?_⟩
    simp only [List.get_ofFn]
    exact ⟨hok _, hnc _, hns _, (hg _).1⟩
  obtain ⟨e1, e2, e3⟩ := sailSet_blocks hb h2
  unfold calculateSails
  rw [h1]
  simp only [Bind.bind, Except.bind]
  rw [h2]
  simp only
  rw [e1, e2, e3, sailBlocks_list, List.length_ofFn, two_mul]
  rfl

/-- `C126_sails`, with the pressure points and the wind at them. -/
theorem near_sails {m : ℕ} (hm : 0 < m) (nc ns : ℕ) (ss : T → Fin m → SailInput × (ℕ → ℝ)) (ss0 : Fin m → SailInput × (ℕ → ℝ))
    (N : ∀ b, NearSail l (fun t => ss t b) (ss0 b)) (hnc : ∀ b, (ss0 b).1.nc = nc) (hns : ∀ b, (ss0 b).1.ns = ns)
    (rho : T → ℝ) (rho0 : ℝ) (hr : Tendsto rho l (𝓝 rho0)) (w : T → WindObj) (w0 : WindObj) (hw : NearWind l w w0) (g : ℝ)
    (r0 : Vlm) (h : calculateSails (List.ofFn fun b => (ss0 b).1) nc ns rho0 g w0 = .ok r0)
    (hoff : OffSwitches r0.input r0.vars) (hlevel : ∀ p ∈ r0.vars, ¬ AtWaterLevel w0.profile |p.cp.z|) :
    ∃ r : T → Vlm, (∀ᶠ t in l, calculateSails (List.ofFn fun b => (ss t b).1) nc ns (rho t) g (w t) = .ok (r t)) ∧
      ConvArrays l (fun t => (r t).out) r0.out ∧
      (∀ k, Conv l (fun t => row ((r t).vars.map PanelVars.cp) k) (row (r0.vars.map PanelVars.cp) k)) ∧
      (∀ᶠ t in l, ∀ v ∈ (r t).vars, (w t).trueWindAt |v.cp.z| =
        .ok ((w t).lengthToXyz ((w t).twsRef * heightFactor w0.profile |v.cp.z|))) := by
  have hncp : 0 < nc := by rw [← hnc ⟨0, hm⟩]; exact (N ⟨0, hm⟩).ok0.nc_pos
  have hnsp : 0 < ns := by rw [← hns ⟨0, hm⟩]; exact (N ⟨0, hm⟩).ok0.ns_pos
  rw [calculateSails_eq hm ss0 (fun b => (N b).ok0) hnc hns] at h
  have hin := ((vlm_ok_iff _ _).1 h).1
  rw [hin] at hoff
  obtain ⟨r, h1, h2⟩ := near_mesh nc ns (m + m) hncp hnsp (fun t => sailBlocks ns (ss t)) (sailBlocks ns ss0)
    (sailBlocks_conv N hns) rho rho0 hr w w0 hw g r0 h hoff hlevel
  refine ⟨r, ?_, h2⟩
  have hev : ∀ᶠ t in l, ∀ b, SailOk (ss t b).1 (ss t b).2 ∧ (ss t b).1.nc = nc ∧ (ss t b).1.ns = ns := by
    rw [eventually_all]
    intro b
    filter_upwards [(N b).ok, (N b).nc, (N b).ns] with t t1 t2 t3
    exact ⟨t1, t2.trans (hnc b), t3.trans (hns b)⟩
  filter_upwards [h1, hev] with t t1 t2
  rw [calculateSails_eq hm (ss t) (fun b => (t2 b).1) (fun b => (t2 b).2.1) (fun b => (t2 b).2.2)]
  exact t1

/-- **C126.** If the settings of all sails of a set (mounting points, chords, camber, its position, twist, heel, leeway), the
density and the wind tend to those of a set that can be calculated, then all sets near enough can be calculated, and all
results tend to those of that set — unless a panel of it lies exactly on the boundary of a vortex core or has exactly the
smallest admissible area, or a pressure point lies exactly at the water level of an exponential profile. -/
theorem C126_sails {m : ℕ} (hm : 0 < m) (nc ns : ℕ) (ss : T → Fin m → SailInput × (ℕ → ℝ)) (ss0 : Fin m → SailInput × (ℕ → ℝ))
    (N : ∀ b, NearSail l (fun t => ss t b) (ss0 b)) (hnc : ∀ b, (ss0 b).1.nc = nc) (hns : ∀ b, (ss0 b).1.ns = ns)
    (rho : T → ℝ) (rho0 : ℝ) (hr : Tendsto rho l (𝓝 rho0)) (w : T → WindObj) (w0 : WindObj) (hw : NearWind l w w0) (g : ℝ)
    (r0 : Vlm) (h : calculateSails (List.ofFn fun b => (ss0 b).1) nc ns rho0 g w0 = .ok r0)
    (hoff : OffSwitches r0.input r0.vars) (hlevel : ∀ p ∈ r0.vars, ¬ AtWaterLevel w0.profile |p.cp.z|) :
    ∃ r : T → Vlm, (∀ᶠ t in l, calculateSails (List.ofFn fun b => (ss t b).1) nc ns (rho t) g (w t) = .ok (r t)) ∧
      ConvArrays l (fun t => (r t).out) r0.out := by
  obtain ⟨r, h1, h2, -⟩ := near_sails hm nc ns ss ss0 N hnc hns rho rho0 hr w w0 hw g r0 h hoff hlevel
  exact ⟨r, h1, h2⟩

/-- The lattice of an upright flat sail is away from all switches. -/
theorem flat_offSwitches {s0 : SailInput} {θ0 : ℕ → ℝ} {chord τ : ℝ} (F : FlatSail s0 θ0 chord τ)
    (hbig : 2e-4 < chord / s0.nc * ((s0.head.z - s0.tack.z) / s0.ns)) (hstrip : 2e-8 < (s0.head.z - s0.tack.z) / s0.ns)
    {set : SailSet} (hp' : set.panels = blockPanels s0.nc s0.ns (FlatSail.blocks s0 θ0)) (g rho0 : ℝ) (w0 : WindObj) (W : ℝ → V3) :
    OffSwitches (FlatSail.result set g rho0 s0 θ0 w0 W).input (FlatSail.result set g rho0 s0 θ0 w0 W).vars := by
  have P := F.planar hbig.le
  have hδ := P.pos
  have hheight : ∀ b j, b < (FlatSail.blocks s0 θ0).length → j < s0.ns → FlatSail.rows s0 b (j + 1) - FlatSail.rows s0 b j =
      (s0.head.z - s0.tack.z) / s0.ns := fun b j _ _ => by rw [F.rows_succ, add_sub_cancel_left]
  constructor
  · exact P.offCores hheight hstrip hbig g
  · intro q hq
    have hq' : q ∈ blockPanels s0.nc s0.ns (FlatSail.blocks s0 θ0) := by rw [← hp']; exact hq
    obtain ⟨k, hk⟩ := List.mem_iff_getElem?.1 hq'
    have hlt : k < (FlatSail.blocks s0 θ0).length * (s0.nc * s0.ns) := by
      rw [← blockPanels_length]
      exact (List.getElem?_eq_some_iff.1 hk).1
    obtain ⟨b, i, j, hb, hi, hj, rfl⟩ := panelNo_surj hlt
    have hbl := blocks_get (FlatSail.blocks s0 θ0) panelOf hb hi hj
    have e1 : (blockPanels s0.nc s0.ns (FlatSail.blocks s0 θ0))[panelNo s0.nc s0.ns b i j]? = some (panelOf (FlatSail.blocks s0 θ0)[b] i j) := hbl
    rw [e1] at hk
    injection hk with hk
    rw [← hk, P.panelOf_eq hb hi hj, PlanarBlocks.panelArea_rect P.frame (by nlinarith) (P.lt b j hb hj), hheight b j hb hj,
      show ((i : ℝ) + 1) * (chord / s0.nc) - i * (chord / s0.nc) = chord / s0.nc by ring]
    intro e
    rw [e] at hbig
    norm_num at hbig

/-- **C126**, for sails that are nearly flat rectangles: if the settings of a sail, the density and the wind tend to those of an
upright flat rectangular sail in a wind of constant direction not from behind (panels larger than `2e-4`, strips higher than
`2e-8`, the water level of an exponential profile not between tack and head), then near enough the solver returns — whatever the
camber, twist, heel, taper and rake — its results tend to those of the flat sail, and all circulations have the sign they have
in the flat sail. -/
theorem C126_nearly_flat {s0 : SailInput} {θ0 : ℕ → ℝ} {chord τ : ℝ} (F : FlatSail s0 θ0 chord τ)
    (hbig : 2e-4 < chord / s0.nc * ((s0.head.z - s0.tack.z) / s0.ns)) (hstrip : 2e-8 < (s0.head.z - s0.tack.z) / s0.ns)
    {w0 : WindObj} {u : V3} {M : ℝ} (hw0 : WindAlong w0 u M s0.tack.z s0.head.z)
    (hfront : 0 ≤ u.dot (leechDirection s0.csys.leewayDeg τ))
    (hlevel : ∀ h, s0.tack.z < h → h < s0.head.z → ¬ AtWaterLevel w0.profile h) {rho0 g : ℝ} (hrho : rho0 ≠ 0) (hg : g ≠ 0)
    (s : T → SailInput × (ℕ → ℝ)) (N : NearSail l s (s0, θ0)) (rho : T → ℝ) (hr : Tendsto rho l (𝓝 rho0)) (w : T → WindObj)
    (hw : NearWind l w w0) :
    ∃ (r0 : Vlm) (r : T → Vlm), calculateSails [s0] s0.nc s0.ns rho0 g w0 = .ok r0 ∧
      (∀ᶠ t in l, calculateSails [(s t).1] s0.nc s0.ns (rho t) g (w t) = .ok (r t)) ∧
      ConvArrays l (fun t => (r t).out) r0.out ∧
      (0 < u.dot (sailNormal s0.csys.leewayDeg τ) → ∀ᶠ t in l, ∀ γ ∈ (r t).out.gamma, g * γ < 0) ∧
      (u.dot (sailNormal s0.csys.leewayDeg τ) < 0 → ∀ᶠ t in l, ∀ γ ∈ (r t).out.gamma, 0 < g * γ) := by
  obtain ⟨sail, hs, -⟩ := sailGeometry_ok F.ok
  obtain ⟨set, hset⟩ : ∃ set, sailSet [sail] = .ok set := ⟨_, if_neg (by simp)⟩
  have hw0' := hw0
  obtain ⟨hu1, huz, hwind⟩ := hw0'
  choose! W lam hW hl hM hWl using hwind
  have hsolved := F.solved hbig.le hs hset hu1 huz hW hWl hl hfront hrho hg
  set r0 := FlatSail.result set g rho0 s0 θ0 w0 W with hr0
  have P := F.planar hbig.le
  have hcalc : calculateSails [s0] s0.nc s0.ns rho0 g w0 = .ok r0 := by
    unfold calculateSails
    rw [show [s0].mapM sailGeometry = .ok [sail] by rw [List.mapM_cons, hs]; rfl]
    simp only [Bind.bind, Except.bind]
    rw [hset]
    exact hsolved
  have hf : List.Forall₂ (BuiltFrom s0.nc s0.ns) [(s0, θ0)] [sail] := List.Forall₂.cons ⟨F.ok, rfl, rfl, hs⟩ List.Forall₂.nil
  obtain ⟨hp, -, -⟩ := sailSet_blocks hf hset
  have hp' : set.panels = blockPanels s0.nc s0.ns (FlatSail.blocks s0 θ0) := hp
  have hδ := P.pos
  have hoff : OffSwitches r0.input r0.vars := flat_offSwitches F hbig hstrip hp' g rho0 w0 W
  have hlev : ∀ p ∈ r0.vars, ¬ AtWaterLevel w0.profile |p.cp.z| := by
    intro p hpm
    obtain ⟨b, i, j, hb, hi, hj, rfl⟩ := PlanarBlocks.mem_vars hpm
    have hz : |(meshVars g s0.nc (FlatSail.blocks s0 θ0)[b] i j).cp.z| = FlatSail.midHeight s0 b j := by
      rw [(P.meshVars_eq g hb hi hj).2.2.1]
      simp [planePt, FlatSail.origin, leechDirection, FlatSail.midHeight]
    rw [hz]
    obtain ⟨m1, m2⟩ := F.midHeight_mem (by simpa [FlatSail.blocks] using hb) hj
    exact hlevel _ m1 m2
  obtain ⟨r, h1, h2⟩ := C126_sails (m := 1) one_pos s0.nc s0.ns (fun t _ => s t) (fun _ => (s0, θ0)) (fun _ => N) (fun _ => rfl)
    (fun _ => rfl) rho rho0 hr w w0 hw g r0 (by simpa using hcalc) hoff hlev
  simp only [List.ofFn_succ, List.ofFn_zero] at h1
  have hsign : ∀ σ : ℝ, (∀ γ ∈ r0.out.gamma, 0 < σ * γ) → ∀ᶠ t in l, ∀ γ ∈ (r t).out.gamma, 0 < σ * γ := by
    intro σ hσ
    have hev : ∀ᶠ t in l, ∀ k : Fin r0.out.gamma.length, 0 < σ * (r t).out.gamma.getD k 0 := by
      rw [eventually_all]
      intro k
      have hk : 0 < σ * r0.out.gamma.getD k 0 := by
        rw [List.getD_eq_getElem?_getD, List.getElem?_eq_getElem k.isLt, Option.getD_some]
        exact hσ _ (List.getElem_mem _)
      exact ((h2.gamma k).const_mul σ).eventually_const_lt hk
    filter_upwards [hev, h2.lengths] with t t1 t2 γ hγ
    obtain ⟨k, hk, rfl⟩ := List.getElem_of_mem hγ
    have := t1 ⟨k, by rw [← t2.1]; exact hk⟩
    simp only [List.getD_eq_getElem?_getD, List.getElem?_eq_getElem hk, Option.getD_some] at this
    exact this
  obtain ⟨r0', hr0', -, hbounds⟩ := C110_solver F hbig.le hs hset hw0 hfront hrho hg
  rw [hsolved] at hr0'
  obtain rfl : r0 = r0' := Except.ok.inj hr0'
  refine ⟨r0, r, hcalc, h1, h2, fun hn => ?_, fun hn => ?_⟩
  · refine (hsign (-g) fun γ hγ => ?_).mono fun t ht γ hγ => ?_
    · have := (hbounds γ hγ).1 hn
      linarith
    · have := ht γ hγ
      linarith
  · exact hsign g fun γ hγ => (hbounds γ hγ).2.1 hn

/-- The flat sail of the examples with a camber that tends to zero. -/
theorem demo_cambered : NearSail (𝓝[≥] (0 : ℝ)) (fun t => (demoSail 2 [t, t] [0.5, 0.5] none none, fun _ => 0))
    (demoSail 2 [0, 0] [0.5, 0.5] none none, fun _ => 0) where
  ok := by
    have h1 : ∀ᶠ t in 𝓝[≥] (0 : ℝ), t < 0.3 := nhdsWithin_le_nhds (gt_mem_nhds (by norm_num))
    filter_upwards [h1, self_mem_nhdsWithin] with t t1 t2
    apply demoSail_ok <;> norm_num
    · exact ⟨t2, by norm_num at t1; linarith⟩
    · exact ⟨t2, by norm_num at t1; linarith⟩
    · exact Or.inr ⟨Or.inl rfl, fun _ => rfl⟩
  ok0 := demoSail_flat.ok
  nc := Eventually.of_forall fun _ => rfl
  ns := Eventually.of_forall fun _ => rfl
  tack := conv_const _
  head := conv_const _
  chords := fun _ => tendsto_const_nhds
  camber := by
    intro r
    have h : Tendsto (fun t : ℝ => t) (𝓝[≥] 0) (𝓝 0) := nhdsWithin_le_nhds
    rcases r with _ | _ | r
    · exact h
    · exact h
    · exact tendsto_const_nhds
  distance := fun _ => tendsto_const_nhds
  twist := fun _ => tendsto_const_nhds
  heel := tendsto_const_nhds
  leeway := tendsto_const_nhds

/-- Non-vacuity: with a small camber that sail can be calculated, and all its circulations are positive. -/
example : ∀ᶠ t in 𝓝[≥] (0 : ℝ), ∃ r, calculateSails [demoSail 2 [t, t] [0.5, 0.5] none none] 2 1 1.2 (-1) ⟨60, 3, 0, .flat⟩ = .ok r ∧
    ∀ γ ∈ r.out.gamma, 0 < γ := by
  have hn : (0 : ℝ) < V3.dot ⟨1 / 2, Real.sqrt 3 / 2, 0⟩
      (sailNormal (demoSail 2 [0, 0] [0.5, 0.5] none none).csys.leewayDeg 0) := by
    simp [V3.dot, sailNormal, demoSail]
  obtain ⟨r0, r, -, h2, -, h4, -⟩ := C126_nearly_flat demoSail_flat (by norm_num [demoSail]) (by norm_num [demoSail])
    (demoWind_along (v := 3) (by norm_num) _ _) (by simp [V3.dot, leechDirection, demoSail]) (by rintro h - - ⟨c, ref, wl, h, -⟩; cases h)
    (rho0 := 1.2) (g := -1) (by norm_num) (by norm_num) _ demo_cambered (fun _ => 1.2) tendsto_const_nhds (fun _ => ⟨60, 3, 0, .flat⟩)
    ⟨fun _ => rfl, tendsto_const_nhds, tendsto_const_nhds, tendsto_const_nhds⟩
  filter_upwards [h2, h4 hn] with t t1 t2
  refine ⟨r t, t1, fun γ hγ => ?_⟩
  have := t2 γ hγ
  linarith

end PySailing.Props
