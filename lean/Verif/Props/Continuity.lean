import Verif.Lemmas.Continuity
import Verif.Lemmas.Order
import Verif.Props.Mirror

/-!
# C100: nearby inputs give nearby results
-/

namespace PySailing.Props

open PySailing Spec Filter Topology

variable {T : Type} {l : Filter T}

/-- All result arrays have their final lengths and every entry tends to that of `o`. -/
structure ConvArrays (l : Filter T) (f : T → VlmArrays) (o : VlmArrays) : Prop where
  lengths : ∀ᶠ t in l, (f t).gamma.length = o.gamma.length ∧ (f t).force.length = o.force.length ∧
    (f t).pressure.length = o.pressure.length ∧ (f t).pCoeffs.length = o.pCoeffs.length
  gamma : ∀ k, Tendsto (fun t => (f t).gamma.getD k 0) l (𝓝 (o.gamma.getD k 0))
  vIndCtrl : ∀ k, Conv l (fun t => (f t).vIndCtrl.getD k 0) (o.vIndCtrl.getD k 0)
  vFsCtrl : ∀ k, Conv l (fun t => (f t).vFsCtrl.getD k 0) (o.vFsCtrl.getD k 0)
  force : ∀ k, Conv l (fun t => (f t).force.getD k 0) (o.force.getD k 0)
  vFsCp : ∀ k, Conv l (fun t => (f t).vFsCp.getD k 0) (o.vFsCp.getD k 0)
  vIndCp : ∀ k, Conv l (fun t => (f t).vIndCp.getD k 0) (o.vIndCp.getD k 0)
  pressure : ∀ k, Tendsto (fun t => (f t).pressure.getD k 0) l (𝓝 (o.pressure.getD k 0))
  pCoeffs : ∀ k, Tendsto (fun t => (f t).pCoeffs.getD k 0) l (𝓝 (o.pCoeffs.getD k 0))
  lift : ∀ k, Conv l (fun t => (f t).lift.getD k 0) (o.lift.getD k 0)
  drag : ∀ k, Conv l (fun t => (f t).drag.getD k 0) (o.drag.getD k 0)

theorem getD_ofFn {α : Type} {K : ℕ} (f : Fin K → α) (d : α) (k : ℕ) :
    (List.ofFn f).getD k d = if h : k < K then f ⟨k, h⟩ else d := by
  rw [List.getD_eq_getElem?_getD, List.getElem?_ofFn]
  split_ifs <;> rfl

theorem convArrays_of {K : ℕ} {f : T → VlmSolution K} {s : VlmSolution K} (h : ConvSol l f s) :
    ConvArrays l (fun t => (f t).arrays) s.arrays := by
  have hv : ∀ {x : T → Fin K → V3} {y : Fin K → V3}, (∀ i, Conv l (fun t => x t i) (y i)) →
      ∀ k, Conv l (fun t => (List.ofFn (x t)).getD k 0) ((List.ofFn y).getD k 0) := by
    intro x y h k
    simp only [getD_ofFn]
    split_ifs with hk
    · exact h _
    · exact conv_const 0
  have hs : ∀ {x : T → Fin K → ℝ} {y : Fin K → ℝ}, (∀ i, Tendsto (fun t => x t i) l (𝓝 (y i))) →
      ∀ k, Tendsto (fun t => (List.ofFn (x t)).getD k 0) l (𝓝 ((List.ofFn y).getD k 0)) := by
    intro x y h k
    simp only [getD_ofFn]
    split_ifs with hk
    · exact h _
    · exact tendsto_const_nhds
  exact {
    lengths := Eventually.of_forall fun t => by simp [VlmSolution.arrays]
    gamma := hs h.gamma
    vIndCtrl := hv h.vIndCtrl
    vFsCtrl := hv h.vFsCtrl
    force := hv h.force
    vFsCp := hv h.vFsCp
    vIndCp := hv h.vIndCp
    pressure := hs h.pressure
    pCoeffs := hs h.pCoeffs
    lift := hv h.lift
    drag := hv h.drag }

theorem ConvArrays.congr' {f g : T → VlmArrays} {o : VlmArrays} (h : ConvArrays l f o) (e : ∀ᶠ t in l, f t = g t) :
    ConvArrays l g o := by
  have hv : ∀ {x : VlmArrays → List V3} {k : ℕ} {y : V3}, Conv l (fun t => (x (f t)).getD k 0) y →
      Conv l (fun t => (x (g t)).getD k 0) y := fun h => h.congr' (e.mono fun t e => by rw [e])
  have hs : ∀ {x : VlmArrays → List ℝ} {k : ℕ} {y : ℝ}, Tendsto (fun t => (x (f t)).getD k 0) l (𝓝 y) →
      Tendsto (fun t => (x (g t)).getD k 0) l (𝓝 y) := fun h => h.congr' (e.mono fun t e => by rw [e])
  exact {
    lengths := by filter_upwards [h.lengths, e] with t t1 t2; rw [← t2]; exact t1
    gamma := fun k => hs (x := VlmArrays.gamma) (h.gamma k)
    vIndCtrl := fun k => hv (x := VlmArrays.vIndCtrl) (h.vIndCtrl k)
    vFsCtrl := fun k => hv (x := VlmArrays.vFsCtrl) (h.vFsCtrl k)
    force := fun k => hv (x := VlmArrays.force) (h.force k)
    vFsCp := fun k => hv (x := VlmArrays.vFsCp) (h.vFsCp k)
    vIndCp := fun k => hv (x := VlmArrays.vIndCp) (h.vIndCp k)
    pressure := fun k => hs (x := VlmArrays.pressure) (h.pressure k)
    pCoeffs := fun k => hs (x := VlmArrays.pCoeffs) (h.pCoeffs k)
    lift := fun k => hv (x := VlmArrays.lift) (h.lift k)
    drag := fun k => hv (x := VlmArrays.drag) (h.drag k) }

/-- The input lies on none of the surfaces where the program switches: no control point or pressure point on the
boundary of a vortex core, no panel with exactly the smallest admissible area. -/
structure OffSwitches (a : VlmInput) (vars : List PanelVars) : Prop where
  cores : ∀ v ∈ vars, ∀ w ∈ vars, OffCores v.ctrP w ∧ OffCores v.cp w
  areas : ∀ q ∈ a.panels, panelArea q ≠ 1e-14

/-- The meshes `f t 0, f t 1, …` as input of `Vlm`. -/
noncomputable def meshInput (nc ns : ℕ) {n : ℕ} (f : Fin n → ℕ → ℕ → V3) (rho g : ℝ) (w : WindObj) : VlmInput :=
  ⟨blockPanels nc ns (List.ofFn f), nc, ns, rho, w, trailingFlags nc ns n, leadingFlags nc ns n, g⟩

theorem panelVars_conv {q : T → Panel} {q0 : Panel} (h1 : Conv l (fun t => (q t).p1) q0.p1)
    (h2 : Conv l (fun t => (q t).p2) q0.p2) (h3 : Conv l (fun t => (q t).p3) q0.p3)
    (h4 : Conv l (fun t => (q t).p4) q0.p4) (hn : normalRaw q0 ≠ 0) {A D : T → V3} {A0 D0 : V3} (hA : Conv l A A0)
    (hD : Conv l D D0) (g : ℝ) : ConvPanel l (fun t => panelVars g (q t) (A t) (D t)) (panelVars g q0 A0 D0) := by
  have hraw : Conv l (fun t => normalRaw (q t)) (normalRaw q0) := (h3.sub h1).cross (h4.sub h2)
  have hle := Conv.const_smul (1 / 2) (h2.add h3)
  have hte := Conv.const_smul (1 / 2) (h1.add h4)
  have hB : Conv l (fun t => quarterB (q t)) (quarterB q0) := h2.add (Conv.const_smul _ (h1.sub h2))
  have hC : Conv l (fun t => quarterC (q t)) (quarterC q0) := h3.add (Conv.const_smul _ (h4.sub h3))
  exact {
    normal := Conv.smul (tendsto_const_nhds.div hraw.norm (V3.norm_pos hn).ne') hraw
    ctrP := hle.add (Conv.const_smul _ (hte.sub hle))
    cp := hle.add (Conv.const_smul _ (hte.sub hle))
    A := hA
    B := hB
    C := hC
    D := hD
    span := Conv.const_smul g (hC.sub hB) }

/-- Replacing the index type. -/
theorem vlmSolve_arrays (a : VlmInput) (vars : List PanelVars) (V : List V3) {K : ℕ} (h : vars.length = K) (o : VlmArrays) :
    (∃ sol, vlmSolve a vars V = .ok sol ∧ o = sol.arrays) ↔
      ∃ sol, vlmCore (fun i : Fin K => vars[i]'(by rw [h]; exact i.isLt)) (fun i => (getPanelsArea a.panels).getD i 0)
        (fun i => a.te.getD i false) (fun i => a.le.getD i false) a.ns a.rho a.g (fun i => V.getD i 0) = .ok sol ∧
        o = sol.arrays := by
  subst h
  rfl

/-- **C100.** `Vlm` is continuous: if the nodes of the meshes, the winds at the panels and the density tend to those of
an input for which `Vlm` returns, then `Vlm` returns for all inputs near enough, and all its results tend to those of
that input — unless the input lies exactly on the boundary of a vortex core or on the area threshold. -/
theorem C100_continuous (nc ns n : ℕ) (hnc : 0 < nc) (hns : 0 < ns) (f : T → Fin n → ℕ → ℕ → V3)
    (f0 : Fin n → ℕ → ℕ → V3) (hf : ∀ b i j, Conv l (fun t => f t b i j) (f0 b i j)) (rho : T → ℝ) (rho0 : ℝ)
    (hr : Tendsto rho l (𝓝 rho0)) (V : T → List V3) (V0 : List V3)
    (hV : ∀ k, Conv l (fun t => (V t).getD k 0) (V0.getD k 0)) (g : ℝ) (w : WindObj) (o : VlmArrays)
    (h : vlmWithWinds (meshInput nc ns f0 rho0 g w) V0 = .ok o)
    (hoff : ∀ vars, calculateVlmVariables (blockPanels nc ns (List.ofFn f0)) (trailingFlags nc ns n) g nc ns = .ok vars →
      OffSwitches (meshInput nc ns f0 rho0 g w) vars) :
    ∃ out : T → VlmArrays, (∀ᶠ t in l, vlmWithWinds (meshInput nc ns (f t) (rho t) g w) (V t) = .ok (out t)) ∧
      ConvArrays l out o := by
  classical
  obtain ⟨vars0, hv0, hsol⟩ := (vlmWithWinds_ok_iff _ _ _).1 h
  have off := hoff vars0 hv0
  rcases Nat.eq_zero_or_pos n with hn | hn
  · subst hn
    simp only [meshInput, List.ofFn_zero, blockPanels, List.map_nil, List.flatten_nil, calculateVlmVariables] at hv0
    rw [if_neg (Nat.mul_pos hnc hns).ne'] at hv0
    simp [arraySplit, Bind.bind, Except.bind] at hv0
  have hbl : ∀ f : Fin n → ℕ → ℕ → V3, List.ofFn f ≠ [] := fun f => by simp; omega
  have hblocks : ∀ f : Fin n → ℕ → ℕ → V3, _ := fun f => calculateVlmVariables_blocks g hnc hns (List.ofFn f) (hbl f)
  simp only [List.length_ofFn] at hblocks
  let vs : (Fin n → ℕ → ℕ → V3) → List PanelVars := fun f => ((List.ofFn f).map fun pts => (List.range nc).flatMap fun i =>
      (List.range ns).map fun j => meshVars g nc pts i j).flatten
  have hvs0 : vars0 = vs f0 := by
    simp only [meshInput] at hv0
    rw [hblocks f0] at hv0
    split_ifs at hv0
    injection hv0 with hv0
    exact hv0.symm
  have hget : ∀ (f : Fin n → ℕ → ℕ → V3) (b : Fin n) i j, i < nc → j < ns →
      (vs f)[panelNo nc ns b i j]? = some (meshVars g nc (f b) i j) := by
    intro f b i j hi hj
    have h1 := blocks_get (List.ofFn f) (meshVars g nc) (b := b.val) (by simp) hi hj
    simp only [List.getElem_ofFn] at h1
    exact h1
  have hpan : ∀ (f : Fin n → ℕ → ℕ → V3) (b : Fin n) i j, i < nc → j < ns →
      (blockPanels nc ns (List.ofFn f))[panelNo nc ns b i j]? = some (panelOf (f b) i j) := by
    intro f b i j hi hj
    have h1 := blocks_get (List.ofFn f) panelOf (b := b.val) (by simp) hi hj
    simp only [List.getElem_ofFn] at h1
    exact h1
  have hlenp : ∀ f : Fin n → ℕ → ℕ → V3, (blockPanels nc ns (List.ofFn f)).length = n * (nc * ns) := fun f => by
    rw [blockPanels_length, List.length_ofFn]
  have hnd0 : ∀ q ∈ blockPanels nc ns (List.ofFn f0), normalRaw q ≠ 0 := by
    have := (calculateVlmVariables_ok hv0).2.1
    intro q hq hz
    exact this q hq hz
  have hnd0' : ∀ (b : Fin n) i j, i < nc → j < ns → normalRaw (panelOf (f0 b) i j) ≠ 0 := fun b i j hi hj =>
    hnd0 _ (List.mem_of_getElem? (hpan f0 b i j hi hj))
  have hraw : ∀ (b : Fin n) i j, Conv l (fun t => normalRaw (panelOf (f t b) i j)) (normalRaw (panelOf (f0 b) i j)) :=
    fun b i j => ((hf b _ _).sub (hf b _ _)).cross ((hf b _ _).sub (hf b _ _))
  have hlenv : ∀ f : Fin n → ℕ → ℕ → V3, (vs f).length = n * (nc * ns) := fun f => by
    simp only [vs]
    rw [List.length_flatten, List.map_map]
    simp [Function.comp_def]
  have hvt : ∀ᶠ t in l, calculateVlmVariables (blockPanels nc ns (List.ofFn (f t))) (trailingFlags nc ns n) g nc ns =
      .ok (vs (f t)) := by
    have : ∀ᶠ t in l, ∀ b : Fin n, ∀ i : Fin nc, ∀ j : Fin ns, normalRaw (panelOf (f t b) i j) ≠ 0 := by
      simp only [eventually_all]
      exact fun b i j => (hraw b i j).eventually_ne (hnd0' b i j i.isLt j.isLt)
    refine this.mono fun t ht => ?_
    rw [hblocks (f t), if_neg]
    rintro ⟨q, hq, hz⟩
    obtain ⟨k, hk, rfl⟩ := List.getElem_of_mem hq
    have hk' := hk
    rw [hlenp] at hk'
    obtain ⟨b, i, j, hb, hi, hj, rfl⟩ := panelNo_surj hk'
    obtain ⟨_, e⟩ := List.getElem?_eq_some_iff.1 (hpan (f t) ⟨b, hb⟩ i j hi hj)
    simp only [] at hz e
    rw [e] at hz
    exact ht ⟨b, hb⟩ ⟨i, hi⟩ ⟨j, hj⟩ hz
  subst hvs0
  obtain ⟨s, hs, rfl⟩ := (vlmSolve_arrays _ _ _ (hlenv f0) o).1 hsol
  have hmv : ∀ (b : Fin n) i j, i < nc → j < ns →
      ConvPanel l (fun t => meshVars g nc (f t b) i j) (meshVars g nc (f0 b) i j) := by
    intro b i j hi hj
    have hn0 := hnd0' b i j hi hj
    unfold meshVars
    split_ifs
    · exact panelVars_conv (hf b _ _) (hf b _ _) (hf b _ _) (hf b _ _) hn0
        ((hf b _ _).add (Conv.const_smul _ ((hf b _ _).sub (hf b _ _))))
        ((hf b _ _).add (Conv.const_smul _ ((hf b _ _).sub (hf b _ _)))) g
    · exact panelVars_conv (hf b _ _) (hf b _ _) (hf b _ _) (hf b _ _) hn0
        ((hf b _ _).add (Conv.const_smul _ ((hf b _ _).sub (hf b _ _))))
        ((hf b _ _).add (Conv.const_smul _ ((hf b _ _).sub (hf b _ _)))) g
  have hel : ∀ (f : Fin n → ℕ → ℕ → V3) (k : Fin (n * (nc * ns))) (b : Fin n) i j, i < nc → j < ns →
      k.val = panelNo nc ns b i j → (vs f)[k.val]'(by rw [hlenv]; exact k.isLt) = meshVars g nc (f b) i j := by
    intro f k b i j hi hj hk
    have := hget f b i j hi hj
    rw [← hk] at this
    exact (List.getElem?_eq_some_iff.1 this).2
  have hL : ∀ k : Fin (n * (nc * ns)), ConvPanel l (fun t => (vs (f t))[k.val]'(by rw [hlenv]; exact k.isLt))
      ((vs f0)[k.val]'(by rw [hlenv]; exact k.isLt)) := by
    intro k
    obtain ⟨b, i, j, hb, hi, hj, hk⟩ := panelNo_surj k.isLt
    simp only [fun f => hel f k ⟨b, hb⟩ i j hi hj hk]
    exact hmv ⟨b, hb⟩ i j hi hj
  have harea : ∀ k : Fin (n * (nc * ns)), Tendsto (fun t => (getPanelsArea (blockPanels nc ns (List.ofFn (f t)))).getD k 0) l
      (𝓝 ((getPanelsArea (blockPanels nc ns (List.ofFn f0))).getD k 0)) := by
    intro k
    obtain ⟨b, i, j, hb, hi, hj, hk⟩ := panelNo_surj k.isLt
    have e : ∀ f : Fin n → ℕ → ℕ → V3, (getPanelsArea (blockPanels nc ns (List.ofFn f))).getD k 0 =
        panelArea (panelOf (f ⟨b, hb⟩) i j) := fun f => by
      have := hpan f ⟨b, hb⟩ i j hi hj
      rw [getPanelsArea, List.getD_eq_getElem?_getD, List.getElem?_map, hk]
      simp only [] at this
      rw [this]
      rfl
    simp only [e]
    unfold panelArea
    exact (tendsto_const_nhds.add (((((hf ⟨b, hb⟩ _ _).sub (hf ⟨b, hb⟩ _ _)).cross
      ((hf ⟨b, hb⟩ _ _).sub (hf ⟨b, hb⟩ _ _))).norm).const_mul 0.5)).add (((((hf ⟨b, hb⟩ _ _).sub (hf ⟨b, hb⟩ _ _)).cross
      ((hf ⟨b, hb⟩ _ _).sub (hf ⟨b, hb⟩ _ _))).norm).const_mul 0.5)
  obtain ⟨F, hF, hFc⟩ := core_conv (l := l) hL harea _ _ _ hr g (fun k => hV k) hs
    (by
      intro k
      obtain ⟨b, i, j, hb, hi, hj, hk⟩ := panelNo_surj k.isLt
      have := hpan f0 ⟨b, hb⟩ i j hi hj
      have hm := off.areas _ (List.mem_of_getElem? this)
      rw [getPanelsArea, List.getD_eq_getElem?_getD, List.getElem?_map, hk]
      simp only [] at this ⊢
      rw [this]
      exact hm)
    (fun i j => off.cores _ (List.getElem_mem _) _ (List.getElem_mem _))
  refine ⟨fun t => (F t).arrays, ?_, convArrays_of hFc⟩
  filter_upwards [hvt, hF] with t t1 t2
  exact (vlmWithWinds_ok_iff _ _ _).2 ⟨vs (f t), t1, (vlmSolve_arrays _ _ _ (hlenv (f t)) _).2 ⟨F t, t2, rfl⟩⟩

/-- The true wind at a height is the reference speed times a factor that depends on the profile only. -/
theorem trueWindAt_factor (w : WindObj) (h : ℝ) {W : V3} (hW : w.trueWindAt h = .ok W) :
    ∃ f, ∀ w' : WindObj, w'.profile = w.profile → w'.trueWindAt h = .ok (w'.lengthToXyz (w'.twsRef * f)) := by
  unfold WindObj.trueWindAt at hW
  cases hp : w.profile with
  | flat => exact ⟨1, fun w' e => by unfold WindObj.trueWindAt; rw [e]; simp⟩
  | log r ref =>
    rw [hp] at hW
    match r, ref with
    | some r, some ref =>
      simp only [Bind.bind, Except.bind] at hW
      cases hf : WindObj.logFactor r ref h with
      | error e => rw [hf] at hW; cases hW
      | ok f => exact ⟨f, fun w' e => by unfold WindObj.trueWindAt; rw [e]; simp only [hf, Bind.bind, Except.bind]⟩
    | none, _ => cases hW
    | some _, none => cases hW
  | exp c ref wl =>
    rw [hp] at hW
    match c, ref, wl with
    | some c, some ref, some wl =>
      simp only [Bind.bind, Except.bind] at hW
      cases hf : WindObj.expFactor c ref wl h with
      | error e => rw [hf] at hW; cases hW
      | ok f => exact ⟨f, fun w' e => by unfold WindObj.trueWindAt; rw [e]; simp only [hf, Bind.bind, Except.bind]⟩
    | none, _, _ => cases hW
    | some _, none, _ => cases hW
    | some _, some _, none => cases hW

/-- **C100**, for the wind: on the same sails, if direction and speed of the true wind and the speed of the yacht tend to
those of an input for which `Vlm` returns, then `Vlm` returns for all winds near enough, and all its results tend to
those of that input. -/
theorem C100_wind (a : VlmInput) (r : Vlm) (h : vlm a = .ok r) (hoff : OffSwitches a r.vars) (w : T → WindObj)
    (hp : ∀ t, (w t).profile = a.wind.profile) (hα : Tendsto (fun t => (w t).alphaDeg) l (𝓝 a.wind.alphaDeg))
    (hs : Tendsto (fun t => (w t).twsRef) l (𝓝 a.wind.twsRef)) (hy : Tendsto (fun t => (w t).vYacht) l (𝓝 a.wind.vYacht)) :
    ∃ r' : T → Vlm, (∀ᶠ t in l, vlm { a with wind := w t } = .ok (r' t)) ∧ ConvArrays l (fun t => (r' t).out) r.out := by
  obtain ⟨-, har, hv, hin, hsol⟩ := (vlm_ok_iff a r).1 h
  obtain ⟨W0, hW0, hi⟩ := inlet_pointwise hin
  have hcps := ((inletConditions_ok_iff _ _ _ _).1 hin).1
  have hex : ∀ p : V3, ∃ f, p ∈ r.vars.map PanelVars.cp → ∀ w' : WindObj, w'.profile = a.wind.profile →
      w'.trueWindAt |p.z| = .ok (w'.lengthToXyz (w'.twsRef * f)) := fun p => by
    by_cases hm : p ∈ r.vars.map PanelVars.cp
    · obtain ⟨f, hf⟩ := trueWindAt_factor _ _ (hW0 p hm)
      exact ⟨f, fun _ => hf⟩
    · exact ⟨0, fun h => absurd h hm⟩
  choose f hf using hex
  have hW : ∀ p ∈ r.vars.map PanelVars.cp, W0 p = a.wind.lengthToXyz (a.wind.twsRef * f p) := fun p hm => by
    have h1 := hf p hm a.wind rfl
    rw [hW0 p hm] at h1
    exact Except.ok.inj h1
  have hint : ∀ t, inletConditions (w t) a.rho (r.vars.map PanelVars.cp) = .ok (inletOf (w t) a.rho (r.vars.map PanelVars.cp)
      ((r.vars.map PanelVars.cp).map fun p => (w t).lengthToXyz ((w t).twsRef * f p))) := fun t =>
    inletConditions_of _ hcps (mapM_ok fun p hm => hf p hm (w t) (hp t))
  have hang : Tendsto (fun t => (w t).alpha) l (𝓝 a.wind.alpha) := by
    unfold WindObj.alpha deg2rad
    exact hα.mul_const _
  have hconv : ∀ p, Conv l (fun t => (w t).appInfs ((w t).lengthToXyz ((w t).twsRef * f p)))
      (a.wind.appInfs (a.wind.lengthToXyz (a.wind.twsRef * f p))) := fun p =>
    ⟨((hs.mul_const _).mul (Real.continuous_cos.continuousAt.tendsto.comp hang)).add hy,
      (hs.mul_const _).mul (Real.continuous_sin.continuousAt.tendsto.comp hang), tendsto_const_nhds⟩
  have hV : ∀ k : Fin r.vars.length, Conv l (fun t => (((r.vars.map PanelVars.cp).map fun p =>
      (w t).lengthToXyz ((w t).twsRef * f p)).map (w t).appInfs).getD k 0) (r.inlet.vAppInfs.getD k 0) := fun k => by
    rw [hi]
    simp only [inletOf, List.getD_eq_getElem?_getD, List.getElem?_map, List.getElem?_eq_getElem k.isLt, Option.map_some,
      Option.getD_some]
    rw [hW _ (List.mem_map.2 ⟨_, List.getElem_mem k.isLt, rfl⟩)]
    exact hconv _
  have hc : ∀ v : V3, Conv l (fun _ : T => v) v := conv_const
  obtain ⟨F, hF, hFc⟩ := core_conv (l := l) (L := fun _ i => r.vars[i]) (L0 := fun i => r.vars[i])
    (fun i => ⟨hc _, hc _, hc _, hc _, hc _, hc _, hc _, hc _⟩)
    (areas := fun _ i => (getPanelsArea a.panels).getD i 0) (fun i => tendsto_const_nhds) _ _ _
    (rho := fun _ => a.rho) tendsto_const_nhds a.g hV hsol
    (by
      intro k
      have hk : k.val < a.panels.length := by rw [← (calculateVlmVariables_ok hv).1]; exact k.isLt
      rw [getPanelsArea, List.getD_eq_getElem?_getD, List.getElem?_map, List.getElem?_eq_getElem hk]
      exact hoff.areas _ (List.getElem_mem hk))
    (fun i j => hoff.cores _ (List.getElem_mem _) _ (List.getElem_mem _))
  refine ⟨fun t => ⟨{ a with wind := w t }, getPanelsArea a.panels, r.vars, inletOf (w t) a.rho
    (r.vars.map PanelVars.cp) ((r.vars.map PanelVars.cp).map fun p => (w t).lengthToXyz ((w t).twsRef * f p)), F t⟩, ?_,
    convArrays_of hFc⟩
  exact hF.mono fun t ht => (vlm_ok_iff _ _).2 ⟨rfl, rfl, hv, hint t, ht⟩

theorem off_of_dots {p a b : V3} (h1 : (p - a).dot (p - a) ≠ 1e-16) (h2 : (p - b).dot (p - b) ≠ 1e-16)
    (h3 : (V3.cross (p - a) (p - b)).dot (V3.cross (p - a) (p - b)) ≠ 1e-8) : ¬ OnCoreBoundary p a b := by
  rintro (h | h | h)
  · apply h1; rw [← V3.norm_sq, h]; norm_num
  · apply h2; rw [← V3.norm_sq, h]; norm_num
  · apply h3; rw [← V3.norm_sq, h]

/-- The sail of one panel lies on none of the switching surfaces. -/
theorem demo_offSwitches : OffSwitches Demo.input [Demo.vars (-1)] := by
  constructor
  · intro v hv w hw
    simp only [List.mem_singleton] at hv hw
    subst hv hw
    refine ⟨⟨?_, ?_, ?_, ?_⟩, ⟨?_, ?_, ?_, ?_⟩⟩ <;> apply off_of_dots <;> simp [Demo.vars, V3.dot] <;> norm_num
  · intro q hq
    have h := Demo.area
    have : panelArea q ∈ getPanelsArea [Demo.panel] := List.mem_map.2 ⟨q, hq, rfl⟩
    rw [h, List.mem_singleton] at this
    rw [this]
    norm_num

/-- `C100_wind` applies to the sail of one panel, in a wind that veers. -/
example : ∃ r r' : ℝ → Vlm, (∀ᶠ t in 𝓝 0, vlm { Demo.input with wind := { Demo.wind with alphaDeg := 90 + t } } = .ok (r' t)) ∧
    ConvArrays (𝓝 0) (fun t => (r' t).out) (r 0).out ∧ vlm Demo.input = .ok (r 0) := by
  obtain ⟨r, h, hV, hv⟩ := Demo.vlm_ok
  have hoff : OffSwitches Demo.input r.vars := by rw [hv]; exact demo_offSwitches
  obtain ⟨r', h1, h2⟩ := C100_wind (l := 𝓝 (0 : ℝ)) Demo.input r h hoff (fun t => { Demo.wind with alphaDeg := 90 + t })
    (fun _ => rfl) (by
      have : Tendsto (fun t : ℝ => 90 + t) (𝓝 0) (𝓝 (90 + 0)) := tendsto_const_nhds.add tendsto_id
      rw [add_zero] at this
      exact this) tendsto_const_nhds tendsto_const_nhds
  exact ⟨fun _ => r, r', h1, h2, h⟩

/-- `C100_continuous` applies to the sail of one panel, stretched. -/
example : ∃ o out, vlmWithWinds Demo.input [Demo.V] = .ok o ∧
    (∀ᶠ t in 𝓝 (0 : ℝ), vlmWithWinds (meshInput 1 1 (fun _ : Fin 1 => fun r k => Demo.pts r k + t • ⟨k, k, r⟩) 1 (-1) Demo.wind)
      [Demo.V] = .ok (out t)) ∧ ConvArrays (𝓝 (0 : ℝ)) out o := by
  obtain ⟨r, h, hV, hv⟩ := Demo.vlm_ok
  have hin : meshInput 1 1 (fun _ : Fin 1 => Demo.pts) 1 (-1) Demo.wind = Demo.input := by
    simp [meshInput, Demo.input, blockPanels, panelGrid, trailingFlags, leadingFlags, blockFlags]
    exact Demo.panelOf_pts
  have ho := vlm_withWinds h
  rw [hV] at ho
  obtain ⟨out, h1, h2⟩ := C100_continuous (l := 𝓝 (0 : ℝ)) 1 1 1 one_pos one_pos
    (fun t _ r k => Demo.pts r k + t • ⟨k, k, r⟩) (fun _ => Demo.pts)
    (fun b i j => by
      have h0 : Conv (𝓝 (0 : ℝ)) (fun t : ℝ => Demo.pts i j + t • (⟨j, j, i⟩ : V3)) (Demo.pts i j + (0 : ℝ) • ⟨j, j, i⟩) :=
        (conv_const _).add (Conv.smul tendsto_id (conv_const _))
      rw [zero_smul, add_zero] at h0
      exact h0) (fun _ => 1) 1 tendsto_const_nhds (fun _ => [Demo.V]) [Demo.V] (fun k => conv_const _) (-1) Demo.wind r.out
    (by rw [hin]; exact ho) (by
      intro vars hvars
      rw [hin]
      have h3 := ((vlm_ok_iff _ _).1 h).2.2.1
      have e : calculateVlmVariables (meshInput 1 1 (fun _ : Fin 1 => Demo.pts) 1 (-1) Demo.wind).panels
          (meshInput 1 1 (fun _ : Fin 1 => Demo.pts) 1 (-1) Demo.wind).te (-1) 1 1 = .ok vars := hvars
      rw [hin] at e
      have e2 : (Except.ok vars : Py (List PanelVars)) = .ok r.vars := e.symm.trans h3
      injection e2 with e2
      rw [e2, hv]
      exact demo_offSwitches)
  exact ⟨r.out, out, ho, h1, h2⟩

/-- The exclusion in `C100_continuous` is needed: at the boundary of its core the velocity induced by a filament jumps
from zero to a speed of more than a thousand times the circulation. -/
theorem C100_jump : (∀ y : ℝ, 0 < y → y < 1e-4 → vortexLine ⟨1 / 2, y, 0⟩ 0 ⟨1, 0, 0⟩ 1 = 0) ∧
    1000 < |(vortexLine ⟨1 / 2, 1e-4, 0⟩ 0 ⟨1, 0, 0⟩ 1).z| := by
  constructor
  · intro y h0 h1
    apply vortexLine_core
    right; right
    rw [V3.norm_sq]
    simp [V3.dot]
    nlinarith
  · have hr1 : ((⟨1 / 2, 1e-4, 0⟩ : V3) - 0).dot ((⟨1 / 2, 1e-4, 0⟩ : V3) - 0) = 0.25000001 := by
      simp [V3.dot]; norm_num
    have hr2 : ((⟨1 / 2, 1e-4, 0⟩ : V3) - ⟨1, 0, 0⟩).dot ((⟨1 / 2, 1e-4, 0⟩ : V3) - ⟨1, 0, 0⟩) = 0.25000001 := by
      simp [V3.dot]; norm_num
    have hn : ∀ v : V3, v.dot v = 0.25000001 → v.norm = Real.sqrt 0.25000001 := fun v h => by rw [V3.norm, h]
    have hs0 : (0.5 : ℝ) < Real.sqrt 0.25000001 := Real.lt_sqrt_of_sq_lt (by norm_num)
    have hs1 : Real.sqrt 0.25000001 < (0.51 : ℝ) := (Real.sqrt_lt' (by norm_num)).2 (by norm_num)
    have hcr : V3.cross ((⟨1 / 2, 1e-4, 0⟩ : V3) - 0) ((⟨1 / 2, 1e-4, 0⟩ : V3) - ⟨1, 0, 0⟩) = ⟨0, 0, 1e-4⟩ := by
      ext <;> simp <;> norm_num
    have hcn : (⟨0, 0, 1e-4⟩ : V3).norm ^ 2 = 1e-8 := by rw [V3.norm_sq]; simp [V3.dot]; norm_num
    have hout : ¬ coreTest ⟨1 / 2, 1e-4, 0⟩ 0 ⟨1, 0, 0⟩ := by
      unfold coreTest
      rw [hn _ hr1, hn _ hr2, hcr, hcn]
      push Not
      refine ⟨?_, ?_, le_refl _⟩ <;> linarith
    rw [vortexLine_out 1 hout, hn _ hr1, hn _ hr2, hcr, hcn]
    have hpi := Real.pi_le_four
    have hpi0 := Real.pi_pos
    set s := Real.sqrt 0.25000001
    have e : ((1 / (4 * Real.pi)) • ((⟨1, 0, 0⟩ : V3) - 0).dot ((1 / s) • ((⟨1 / 2, 1e-4, 0⟩ : V3) - 0) -
        (1 / s) • ((⟨1 / 2, 1e-4, 0⟩ : V3) - ⟨1, 0, 0⟩)) • ((1 / 1e-8 : ℝ) • (⟨0, 0, 1e-4⟩ : V3))).z =
        2500 / (Real.pi * s) := by
      have : s ≠ 0 := by linarith
      simp [V3.dot]
      field_simp
      norm_num
    rw [e, abs_of_pos (by positivity), lt_div_iff₀ (by positivity)]
    nlinarith [mul_pos hpi0 (by linarith : (0 : ℝ) < s)]

end PySailing.Props
