import Verif.Lemmas.ArithSailWind

/-!
# Limits of rounded sails (C132): the calculation for a set of sails
-/

namespace PySailing

open Spec Filter Topology

variable {T : Type} {l : Filter T}

theorem sideTe_eq (nc ns : ℕ) :
    sideTe nc ns = (List.range nc).flatMap fun i => (List.range ns).map fun _ => decide (i + 1 = nc) := by
  unfold sideTe
  apply grid_congr
  intro i j _ _
  by_cases hi : i + 1 = nc <;> simp [hi]

theorem sideLe_eq (nc ns : ℕ) :
    sideLe nc ns = (List.range nc).flatMap fun i => (List.range ns).map fun _ => decide (i = 0 ∧ 2 ≤ nc) := by
  unfold sideLe
  apply grid_congr
  intro i j hi _
  by_cases h1 : i + 1 = nc
  · simp [h1]; omega
  · by_cases h0 : i = 0
    · have : 2 ≤ nc := by omega
      simp [h0, this]; omega
    · simp [h0]

/-- The sail set of given geometries. -/
theorem sailSet_geomOf {nc ns : ℕ} {PQ : List ((ℕ → ℕ → V3) × (ℕ → ℕ → V3))} {sails : List SailGeom}
    (h : List.Forall₂ (fun pq g => GeomOf nc ns pq.1 pq.2 g) PQ sails) (h0 : sails ≠ []) :
    ∃ set, sailSet sails = .ok set ∧ set.panels = blockPanels nc ns (PQ.map Prod.fst ++ PQ.map Prod.snd) ∧
      set.te = trailingFlags nc ns (PQ.length + PQ.length) ∧ set.le = leadingFlags nc ns (PQ.length + PQ.length) := by
  have hab : ((sails.map SailGeom.panelsAbove).flatten = blockPanels nc ns (PQ.map Prod.fst)) ∧
      ((sails.map SailGeom.panelsUnder).flatten = blockPanels nc ns (PQ.map Prod.snd)) ∧
      ((sails.map SailGeom.te).flatten = trailingFlags nc ns PQ.length) ∧
      ((sails.map SailGeom.le).flatten = leadingFlags nc ns PQ.length) := by
    clear h0
    induction h with
    | nil => simp [blockPanels, trailingFlags, leadingFlags, blockFlags]
    | cons hb _ ih =>
      obtain ⟨i1, i2, i3, i4⟩ := ih
      simp only [List.map_cons, List.flatten_cons, i1, i2, i3, i4, hb.above, hb.under, hb.te, hb.le, sideTe_eq, sideLe_eq]
      refine ⟨rfl, rfl, ?_, ?_⟩
      · simp only [trailingFlags, blockFlags, List.length_cons, List.replicate_succ, List.flatten_cons]
      · simp only [leadingFlags, blockFlags, List.length_cons, List.replicate_succ, List.flatten_cons]
  obtain ⟨h1, h2, h3, h4⟩ := hab
  refine ⟨_, if_neg h0, ?_⟩
  simp only [h1, h2, h3, h4]
  exact ⟨blockPanels_append _ _ _ _, blockFlags_append _ _ _ _ _, blockFlags_append _ _ _ _ _⟩

theorem addCases_list {α : Type} {m : ℕ} (f g : Fin m → α) :
    List.ofFn f ++ List.ofFn g = List.ofFn (Fin.addCases f g : Fin (m + m) → α) := by
  rw [List.ofFn_add]
  congr 1
  · congr 1; funext b
    exact (Fin.addCases_left (motive := fun _ => α) b).symm
  · congr 1; funext b
    exact (Fin.addCases_right (motive := fun _ => α) b).symm

theorem blockPanels_getD {nc ns n : ℕ} (F : Fin n → ℕ → ℕ → V3) {b i j : ℕ} (hb : b < n) (hi : i < nc) (hj : j < ns) :
    (blockPanels nc ns (List.ofFn F)).getD (panelNo nc ns b i j) sparePanel = panelOf (F ⟨b, hb⟩) i j := by
  have hb' : b < (List.ofFn F).length := by simpa using hb
  have h1 := blocks_get (List.ofFn F) panelOf hb' hi hj
  have e1 : (blockPanels nc ns (List.ofFn F))[panelNo nc ns b i j]? = some (panelOf (List.ofFn F)[b] i j) := h1
  rw [List.getD_eq_getElem?_getD, e1, Option.getD_some, List.getElem_ofFn]

theorem blockPanels_conv {nc ns n : ℕ} {F : T → Fin n → ℕ → ℕ → V3} {F0 : Fin n → ℕ → ℕ → V3}
    (h : ∀ b r k, r ≤ ns → k ≤ nc → Conv l (fun t => F t b r k) (F0 b r k)) (k : ℕ) :
    ConvCorners l (fun t => (blockPanels nc ns (List.ofFn (F t))).getD k sparePanel)
      ((blockPanels nc ns (List.ofFn F0)).getD k sparePanel) := by
  by_cases hk : k < n * (nc * ns)
  · obtain ⟨b, i, j, hb, hi, hj, rfl⟩ := panelNo_surj hk
    simp only [blockPanels_getD _ hb hi hj]
    exact ⟨h _ _ _ (by omega) (by omega), h _ _ _ (by omega) (by omega), h _ _ _ (by omega) (by omega), h _ _ _ (by omega) (by omega)⟩
  · have e : ∀ F : Fin n → ℕ → ℕ → V3, (blockPanels nc ns (List.ofFn F)).getD k sparePanel = sparePanel := fun F => by
      rw [List.getD_eq_getElem?_getD, List.getElem?_eq_none (by rw [blockPanels_length, List.length_ofFn]; omega)]
      rfl
    simp only [e]
    exact ⟨conv_const _, conv_const _, conv_const _, conv_const _⟩

namespace Spec.RefinedSail

variable {growth : ℕ → ℝ} {A : T → SailArith} {u : T → ℝ}

/-- Limit of the calculation for a set of sails, step by step. -/
theorem setOfSails (R : RefinedSail l growth A u) {m : ℕ} (hm : 0 < m) (nc ns : ℕ) {ss : T → Fin m → SailInput}
    {ss0 : Fin m → SailInput × (ℕ → ℝ)} (S : ∀ b, TendsSail l A (fun t => ss t b) (ss0 b).1)
    (ok : ∀ b, SailOk (ss0 b).1 (ss0 b).2) (hnc : ∀ b, (ss0 b).1.nc = nc) (hns : ∀ b, (ss0 b).1.ns = ns)
    {rho : T → ℝ} {rho0 : ℝ} (hr : Tendsto rho l (𝓝 rho0)) {w : T → WindObj} {w0 : WindObj} (hw : NearWind l w w0) (g : ℝ)
    {r0 : Vlm} (h : Spec.calculateSails (List.ofFn fun b => (ss0 b).1) nc ns rho0 g w0 = .ok r0)
    (hoff : Props.OffSwitches r0.input r0.vars) (hlevel : ∀ p ∈ r0.vars, ¬ AtWaterLevel w0.profile |p.cp.z|) :
    ∃ (V : T → List V3) (f : T → VlmSolution r0.vars.length) (cps : T → List V3),
      (∀ᶠ t in l, ∃ (gm : Fin m → SailGeom) (set : SailSet) (vars : List PanelVars), (∀ b, (A t).sailGeometry (ss t b) = .ok (gm b)) ∧
        sailSet (List.ofFn gm) = .ok set ∧ (A t).calculateVlmVariables set.panels set.te g nc ns = .ok vars ∧
        vars.map PanelVars.cp = cps t ∧ (A t).vlm ⟨set.panels, nc, ns, rho t, w t, set.te, set.le, g⟩ = .ok (V t, (f t).arrays) ∧
        (V t).length = r0.inlet.vAppInfs.length) ∧
      (∀ t, (cps t).length = r0.vars.length) ∧
      (∀ k, Conv l (fun t => (cps t).getD k 0) ((r0.vars.map PanelVars.cp).getD k 0)) ∧
      (∀ k, Conv l (fun t => (V t).getD k 0) (r0.inlet.vAppInfs.getD k 0)) ∧ ConvSol l f r0.sol := by
  choose P Q hG hC using fun b => R.sailGeometry (S b) (ok b)
  rw [Props.calculateSails_eq hm ss0 ok hnc hns] at h
  obtain ⟨hin, -, hv0, -⟩ := (vlm_ok_iff _ _).1 h
  rw [hin] at hoff
  let F : T → Fin (m + m) → ℕ → ℕ → V3 := fun t => Fin.addCases (fun b => P b t) (fun b => Q b t)
  have hF : ∀ b r k, r ≤ ns → k ≤ nc → Conv l (fun t => F t b r k) (Props.sailBlocks ns ss0 b r k) := fun b r k hr hk => by
    unfold Props.sailBlocks
    rw [if_pos hr]
    refine Fin.addCases (fun b => ?_) (fun b => ?_) b
    · simp only [F, Fin.addCases_left]
      exact (hC b r k (by rw [hns b]; exact hr) (by rw [hnc b]; exact hk)).1
    · simp only [F, Fin.addCases_right]
      exact (hC b r k (by rw [hns b]; exact hr) (by rw [hnc b]; exact hk)).2
  obtain ⟨V, f, h1, h2, h3⟩ := R.vlm (a := fun t => Props.meshInput nc ns (F t) (rho t) g (w t))
    (a0 := Props.meshInput nc ns (Props.sailBlocks ns ss0) rho0 g w0) (fun _ => rfl) (fun _ => rfl) (fun _ => rfl) (fun _ => rfl)
    (fun _ => rfl) (fun t => by simp only [Props.meshInput, blockPanels_length, List.length_ofFn]) (blockPanels_conv hF) hr hw h
    hoff.cores hoff.areas hlevel
  obtain ⟨vs, v1, v2, v3⟩ := R.base.vlmVariables (a := fun t => Props.meshInput nc ns (F t) (rho t) g (w t))
    (a0 := Props.meshInput nc ns (Props.sailBlocks ns ss0) rho0 g w0) (fun _ => rfl) (fun _ => rfl) (fun _ => rfl) (fun _ => rfl)
    (fun t => by simp only [Props.meshInput, blockPanels_length, List.length_ofFn]) (blockPanels_conv hF) hv0
  refine ⟨V, f, fun t => (vs t).map PanelVars.cp, ?_, fun t => by rw [List.length_map, v2 t], v3, h2, h3⟩
  filter_upwards [h1, eventually_all.2 hG, v1] with t t1 t2 t3
  choose gm g1 g2 using t2
  obtain ⟨set, e0, e1, e2, e3⟩ := sailSet_geomOf (nc := nc) (ns := ns) (PQ := List.ofFn fun b => (P b t, Q b t)) (sails := List.ofFn gm)
    (by
      rw [List.forall₂_iff_get]
      refine ⟨by simp, fun i hi1 hi2 => ?_⟩
      simp only [List.get_ofFn]
      have := g2 (Fin.cast (by simp) ⟨i, hi1⟩)
      rw [hnc, hns] at this
      exact this) (by simp; omega)
  refine ⟨gm, set, vs t, g1, e0, ?_, rfl, ?_, t1.2⟩
  · rw [e1, e2, List.map_ofFn, List.map_ofFn, addCases_list, List.length_ofFn]
    exact t3
  · rw [e1, e2, e3, List.map_ofFn, List.map_ofFn, addCases_list, List.length_ofFn]
    exact t1.1

theorem mapM_ofFn {m : ℕ} {f : SailInput → Py SailGeom} {ss : Fin m → SailInput} {gm : Fin m → SailGeom} (h : ∀ b, f (ss b) = .ok (gm b)) :
    (List.ofFn ss).mapM f = .ok (List.ofFn gm) := by
  rcases Nat.eq_zero_or_pos m with rfl | hm
  · simp; rfl
  have : (List.ofFn ss).mapM f = .ok ((List.ofFn ss).map fun s =>
      match f s with | .ok g => g | .error _ => gm ⟨0, hm⟩) := mapM_ok fun s hs => by
    obtain ⟨b, rfl⟩ := List.mem_ofFn.1 hs
    rw [h b]
  rw [this, List.map_ofFn]
  congr 2
  funext b
  simp only [Function.comp, h b]

/-- Limit of the calculation for a set of sails. -/
theorem calculateSails (R : RefinedSail l growth A u) {m : ℕ} (hm : 0 < m) (nc ns : ℕ) {ss : T → Fin m → SailInput}
    {ss0 : Fin m → SailInput × (ℕ → ℝ)} (S : ∀ b, TendsSail l A (fun t => ss t b) (ss0 b).1)
    (ok : ∀ b, SailOk (ss0 b).1 (ss0 b).2) (hnc : ∀ b, (ss0 b).1.nc = nc) (hns : ∀ b, (ss0 b).1.ns = ns)
    {rho : T → ℝ} {rho0 : ℝ} (hr : Tendsto rho l (𝓝 rho0)) {w : T → WindObj} {w0 : WindObj} (hw : NearWind l w w0) (g : ℝ)
    {r0 : Vlm} (h : Spec.calculateSails (List.ofFn fun b => (ss0 b).1) nc ns rho0 g w0 = .ok r0)
    (hoff : Props.OffSwitches r0.input r0.vars) (hlevel : ∀ p ∈ r0.vars, ¬ AtWaterLevel w0.profile |p.cp.z|) :
    ∃ (V : T → List V3) (f : T → VlmSolution r0.vars.length),
      (∀ᶠ t in l, (A t).calculateSails (List.ofFn (ss t)) nc ns (rho t) g (w t) = .ok (V t, (f t).arrays) ∧
        (V t).length = r0.inlet.vAppInfs.length) ∧
      (∀ k, Conv l (fun t => (V t).getD k 0) (r0.inlet.vAppInfs.getD k 0)) ∧ ConvSol l f r0.sol := by
  obtain ⟨V, f, cps, h1, -, -, h2, h3⟩ := R.setOfSails hm nc ns S ok hnc hns hr hw g h hoff hlevel
  refine ⟨V, f, h1.mono fun t ⟨gm, st, vars, e1, e2, _, _, e3, e4⟩ => ⟨?_, e4⟩, h2, h3⟩
  unfold SailArith.calculateSails
  rw [mapM_ofFn e1]
  simp only [Bind.bind, Except.bind]
  rw [e2]
  exact e3

end Spec.RefinedSail

/-- Sails within `u` of a sail, with `u` tending to zero. -/
theorem Spec.tendsSail_of {A : T → SailArith} {u : T → ℝ} (hu : Tendsto u l (𝓝 0)) (h0 : ∀ t, 0 ≤ u t) {s : T → SailInput} {s0 : SailInput}
    (h : ∀ t, NearSailInput (u t) (s t) s0) (hr : ∀ t, InRange (A t) (s t)) : TendsSail l A s s0 := by
  have z : ∀ t, |(0 : ℝ) - 0| ≤ u t := fun t => by simpa using h0 t
  have hl : ∀ {x : T → List ℝ} {x0 : List ℝ}, (∀ t, NearList (u t) (x t) x0) →
      (∀ t, (x t).length = x0.length) ∧ ∀ r, Tendsto (fun t => (x t).getD r 0) l (𝓝 (x0.getD r 0)) := fun hx =>
    ⟨fun t => (hx t).length_eq, fun r => tendsto_near hu fun t => forall₂_getD (hx t) r 0 0 (z t)⟩
  obtain ⟨c1, c2⟩ := hl fun t => (h t).chords
  obtain ⟨d1, d2⟩ := hl fun t => (h t).camber
  obtain ⟨e1, e2⟩ := hl fun t => (h t).distance
  refine ⟨.of_forall fun t => (h t).nc, .of_forall fun t => (h t).ns, .of_forall fun t => (h t).mode, conv_near hu fun t => (h t).tack, conv_near hu fun t => (h t).head,
    tendsto_near hu fun t => (h t).heel, tendsto_near hu fun t => (h t).leeway, .of_forall c1, .of_forall d1, .of_forall e1, c2, d2, e2, ?_, .of_forall hr⟩
  cases h0 : s0.twist with
  | none =>
    refine Or.inl ⟨rfl, .of_forall fun t => ?_⟩
    have := (h t).twist
    rw [h0] at this
    cases hs : (s t).twist with
    | none => rfl
    | some x => rw [hs] at this; cases this
  | some tw0 =>
    have hs : ∀ t, ∃ tw, (s t).twist = some tw ∧ NearList (u t) tw tw0 := fun t => by
      have := (h t).twist
      rw [h0] at this
      cases hs : (s t).twist with
      | none => rw [hs] at this; cases this
      | some x =>
        rw [hs] at this
        cases this with
        | some hx => exact ⟨x, rfl, hx⟩
    choose tw k1 k2 using hs
    obtain ⟨f1, f2⟩ := hl k2
    exact Or.inr ⟨tw0, tw, rfl, f2, .of_forall fun t => ⟨k1 t, f1 t⟩⟩

end PySailing
