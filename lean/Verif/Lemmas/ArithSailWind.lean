import Verif.Lemmas.ArithSailGeometry
import Verif.Lemmas.ArithWingLimit

/-!
# Limits of rounded sails (C132): winds, sail set, solver
-/

namespace PySailing

open Spec Filter Topology

variable {T : Type} {l : Filter T}

namespace Spec.RefinedSail

variable {growth : ℕ → ℝ} {A : T → SailArith} {u : T → ℝ}

/-! ### winds -/

theorem logFactor (R : RefinedSail l growth A u) {h : T → ℝ} {h0 r ref x0 : ℝ} (hh : Tendsto h l (𝓝 h0))
    (e : WindObj.logFactor r ref h0 = .ok x0) :
    ∃ x : T → ℝ, (∀ᶠ t in l, (A t).logFactor r ref (h t) = .ok (x t)) ∧ Tendsto x l (𝓝 x0) := by
  have B := R.base
  unfold WindObj.logFactor at e
  split_ifs at e with h1 h2 h3 h4 h5
  all_goals injection e with e
  all_goals subst e
  all_goals have c1 := B.div hh (tendsto_const_nhds (x := r)) h1
  all_goals have c2 := B.div (tendsto_const_nhds (x := ref) (f := l)) (tendsto_const_nhds (x := r)) h1
  all_goals have g1 : 0 < h0 / r := not_le.1 h2
  · have href : ref = 0 := (div_eq_zero_iff.1 h4).resolve_right h1
    refine ⟨fun _ => 0, ?_, tendsto_const_nhds⟩
    filter_upwards [c1.eventually_const_lt g1, R.acc] with t t1 t2
    have hz : (A t).div ref r = 0 := by rw [href]; exact t2.zero_div r
    unfold SailArith.logFactor
    rw [if_neg h1, if_neg (not_le.2 t1), if_neg (by rw [hz]; exact lt_irrefl _), if_pos hz]
  · have g2 : 0 < ref / r := lt_of_le_of_ne (not_lt.1 h3) (Ne.symm h4)
    have g3 : Real.log (ref / r) ≠ 0 := Real.log_ne_zero_of_pos_of_ne_one g2 h5
    have c3 := R.log c2 g2
    refine ⟨_, ?_, B.div (R.log c1 g1) c3 g3⟩
    filter_upwards [c1.eventually_const_lt g1, c2.eventually_const_lt g2, c3.eventually_ne g3] with t t1 t2 t3
    unfold SailArith.logFactor
    rw [if_neg h1, if_neg (not_le.2 t1), if_neg (not_lt.2 t2.le), if_neg t2.ne', if_neg t3]

theorem expFactor (R : RefinedSail l growth A u) {h : T → ℝ} {h0 c ref wl x0 : ℝ} (hh : Tendsto h l (𝓝 h0)) (hne : h0 - wl ≠ 0)
    (e : WindObj.expFactor c ref wl h0 = .ok x0) :
    ∃ x : T → ℝ, (∀ᶠ t in l, (A t).expFactor c ref wl (h t) = .ok (x t)) ∧ Tendsto x l (𝓝 x0) := by
  have B := R.base
  have cs := B.sub hh (tendsto_const_nhds (x := wl))
  unfold WindObj.expFactor at e
  by_cases h1 : ref = 0
  · rw [if_pos h1] at e
    split_ifs at e with h2 h3
    all_goals injection e with e
    all_goals subst e
    · refine ⟨fun _ => 1, .of_forall fun t => ?_, tendsto_const_nhds⟩
      unfold SailArith.expFactor
      rw [if_pos h1, if_pos h2]
    · refine ⟨fun _ => 0, (cs.eventually_ne hne).mono fun t ht => ?_, tendsto_const_nhds⟩
      unfold SailArith.expFactor
      rw [if_pos h1, if_neg h2, if_pos ⟨h3.1, ht⟩]
  · rw [if_neg h1] at e
    have cd := B.div cs (tendsto_const_nhds (x := ref)) h1
    have hb : (h0 - wl) / ref ≠ 0 := div_ne_zero hne h1
    simp only at e
    split_ifs at e with h2 h3 h4
    all_goals injection e with e
    all_goals subst e
    · refine ⟨fun _ => 1, .of_forall fun t => ?_, tendsto_const_nhds⟩
      unfold SailArith.expFactor
      rw [if_neg h1]
      simp only [if_pos h2]
    · rcases lt_or_gt_of_ne hb with hn | hp
      · have hint : ∃ n : ℤ, c = n := by
          by_contra hc
          exact h3 ⟨hn, hc⟩
        refine ⟨_, ?_, R.pow cd (Or.inr ⟨hb, hint⟩)⟩
        filter_upwards [cd.eventually_ne hb] with t t1
        unfold SailArith.expFactor
        rw [if_neg h1]
        simp only
        rw [if_neg h2, if_neg (fun hh => hh.2 hint), if_neg (fun hh => t1 hh.1)]
      · refine ⟨_, ?_, R.pow cd (Or.inl hp)⟩
        filter_upwards [cd.eventually_const_lt hp] with t t1
        unfold SailArith.expFactor
        rw [if_neg h1]
        simp only
        rw [if_neg h2, if_neg (fun hh => absurd hh.1 (not_lt.2 t1.le)), if_neg (fun hh => t1.ne' hh.1)]

theorem lengthToXyz (R : RefinedSail l growth A u) {w : T → WindObj} {w0 : WindObj} (hw : NearWind l w w0) {x : T → ℝ} {x0 : ℝ}
    (hx : Tendsto x l (𝓝 x0)) : Conv l (fun t => (A t).lengthToXyz (w t) (x t)) (w0.lengthToXyz x0) :=
  ⟨R.base.mul hx (R.full.cos (R.full.deg2rad hw.alpha)), R.base.mul hx (R.full.sin (R.full.deg2rad hw.alpha)), tendsto_const_nhds⟩

theorem trueWindAt (R : RefinedSail l growth A u) {w : T → WindObj} {w0 : WindObj} (hw : NearWind l w w0) {h : T → ℝ} {h0 : ℝ}
    (hh : Tendsto h l (𝓝 h0)) {v0 : V3} (e : w0.trueWindAt h0 = .ok v0) (hl : ¬ AtWaterLevel w0.profile h0) :
    ∃ v : T → V3, (∀ᶠ t in l, (A t).trueWindAt (w t) (h t) = .ok (v t)) ∧ Conv l v v0 := by
  have hprof := hw.profile
  cases hP : w0.profile with
  | flat =>
    simp only [WindObj.trueWindAt, hP] at e
    injection e with e
    subst e
    refine ⟨_, .of_forall fun t => ?_, R.lengthToXyz hw hw.speed⟩
    unfold SailArith.trueWindAt
    rw [hprof t, hP]
  | log a b =>
    simp only [WindObj.trueWindAt, hP] at e
    rcases a with _ | r
    · cases b <;> cases e
    rcases b with _ | ref
    · cases e
    simp only at e
    cases hf : WindObj.logFactor r ref h0 with
    | error er => rw [hf] at e; cases e
    | ok x0 =>
    rw [hf] at e
    injection e with e
    subst e
    obtain ⟨x, x1, x2⟩ := R.logFactor hh hf
    refine ⟨_, x1.mono fun t ht => ?_, R.lengthToXyz hw (R.base.mul hw.speed x2)⟩
    unfold SailArith.trueWindAt
    rw [hprof t, hP]
    simp only [ht]
    rfl
  | exp a b c =>
    simp only [WindObj.trueWindAt, hP] at e
    rcases a with _ | co
    · cases b <;> cases c <;> cases e
    rcases b with _ | ref
    · cases c <;> cases e
    rcases c with _ | wl
    · cases e
    have hne : h0 - wl ≠ 0 := fun hz => hl ⟨_, _, wl, hP, sub_eq_zero.1 hz⟩
    simp only at e
    cases hf : WindObj.expFactor co ref wl h0 with
    | error er => rw [hf] at e; cases e
    | ok x0 =>
    rw [hf] at e
    injection e with e
    subst e
    obtain ⟨x, x1, x2⟩ := R.expFactor hh hne hf
    refine ⟨_, x1.mono fun t ht => ?_, R.lengthToXyz hw (R.base.mul hw.speed x2)⟩
    unfold SailArith.trueWindAt
    rw [hprof t, hP]
    simp only [ht]
    rfl

/-- Winds at converging points. -/
theorem windsAt (R : RefinedSail l growth A u) {w : T → WindObj} {w0 : WindObj} (hw : NearWind l w w0) {cps : T → List V3}
    {cps0 : List V3} (hlen : ∀ t, (cps t).length = cps0.length) (hcp : ∀ k, Conv l (fun t => (cps t).getD k 0) (cps0.getD k 0))
    (hne : cps0 ≠ []) {W : V3 → V3} (hW : ∀ p ∈ cps0, w0.trueWindAt |p.z| = .ok (W p))
    (hlevel : ∀ p ∈ cps0, ¬ AtWaterLevel w0.profile |p.z|) :
    ∃ V : T → List V3, (∀ᶠ t in l, (A t).windsAt (w t) (cps t) = .ok (V t) ∧ (V t).length = cps0.length) ∧
      ∀ k, Conv l (fun t => (V t).getD k 0) ((cps0.map fun p => w0.appInfs (W p)).getD k 0) := by
  have hpt : ∀ k : Fin cps0.length, ∃ v : T → V3,
      (∀ᶠ t in l, (A t).trueWindAt (w t) |((cps t).getD k 0).z| = .ok (v t)) ∧ Conv l v (W (cps0[k])) := fun k => by
    have hm : cps0[k] ∈ cps0 := List.getElem_mem _
    have he : cps0.getD k 0 = cps0[k] := by
      rw [List.getD_eq_getElem?_getD, List.getElem?_eq_getElem k.isLt]
      rfl
    have hc := hcp k
    rw [he] at hc
    exact R.trueWindAt hw hc.z.abs (hW _ hm) (hlevel _ hm)
  choose v hv hvc using hpt
  refine ⟨fun t => List.ofFn fun k => (A t).appInfs (w t) (v k t), ?_, fun k => ?_⟩
  · filter_upwards [eventually_all.2 hv] with t ht
    refine ⟨?_, by simp⟩
    have hmap : (cps t).mapM (fun p => (A t).trueWindAt (w t) |p.z|) = .ok (List.ofFn fun k => v k t) := by
      have hg : ∀ p ∈ cps t, (A t).trueWindAt (w t) |p.z| =
          .ok (match (A t).trueWindAt (w t) |p.z| with | .ok v => v | .error _ => 0) := by
        intro p hp
        obtain ⟨k, hk, rfl⟩ := List.getElem_of_mem hp
        have := ht ⟨k, by rw [← hlen t]; exact hk⟩
        rw [List.getD_eq_getElem?_getD, List.getElem?_eq_getElem hk, Option.getD_some] at this
        rw [this]
      rw [mapM_ok hg]
      congr 1
      apply List.ext_getElem
      · simp [hlen t]
      · intro k k1 k2
        rw [List.length_map] at k1
        have := ht ⟨k, by rw [← hlen t]; exact k1⟩
        rw [List.getD_eq_getElem?_getD, List.getElem?_eq_getElem k1, Option.getD_some] at this
        simp only [List.getElem_map, this, List.getElem_ofFn]
    unfold SailArith.windsAt
    rw [hmap]
    simp only [Bind.bind, Except.bind]
    rw [if_neg (by
      intro e
      have := congrArg List.length e
      simp only [List.length_ofFn, List.length_nil] at this
      exact hne (List.eq_nil_of_length_eq_zero this)), List.map_ofFn]
    rfl
  · have e : (cps0.map fun p => w0.appInfs (W p)) = List.ofFn fun k : Fin cps0.length => w0.appInfs (W cps0[k]) := by
      apply List.ext_getElem <;> simp
    rw [e]
    simp only [RefinedFull.ofFn_getD]
    split_ifs with hk
    · have hc := hvc ⟨k, hk⟩
      exact ⟨R.base.add hc.x hw.yacht, hc.y, hc.z⟩
    · exact conv_const 0

end Spec.RefinedSail

namespace Spec.Refined

variable {growth : ℕ → ℝ} {A : T → Arith} {u : T → ℝ}

/-- Limit of the panel variables. -/
theorem vlmVariables (R : Refined l growth A u) {a : T → VlmInput} {a0 : VlmInput} (hnc : ∀ t, (a t).nc = a0.nc)
    (hns : ∀ t, (a t).ns = a0.ns) (hte : ∀ t, (a t).te = a0.te) (hg : ∀ t, (a t).g = a0.g)
    (hlen : ∀ t, (a t).panels.length = a0.panels.length)
    (hpan : ∀ k, ConvCorners l (fun t => (a t).panels.getD k sparePanel) (a0.panels.getD k sparePanel)) {vars : List PanelVars}
    (hvars : calculateVlmVariables a0.panels a0.te a0.g a0.nc a0.ns = .ok vars) :
    ∃ vs : T → List PanelVars,
      (∀ᶠ t in l, (A t).calculateVlmVariables (a t).panels (a t).te (a t).g (a t).nc (a t).ns = .ok (vs t)) ∧
      (∀ t, (vs t).length = vars.length) ∧
      ∀ k, Conv l (fun t => ((vs t).map PanelVars.cp).getD k 0) ((vars.map PanelVars.cp).getD k 0) := by
  obtain ⟨h1, h2, -⟩ := calculateVlmVariables_ok hvars
  rw [calculateVlmVariables_variablesOf, variablesOf_rows _ _ _ _ h2] at hvars
  cases hJ : variablesOf (fun i : ℕ => (i, none)) (fun i n => (i, some n)) (fun _ => False) (List.range a0.panels.length)
      a0.te a0.nc a0.ns with
  | error e => rw [hJ] at hvars; cases hvars
  | ok J =>
  rw [hJ] at hvars
  injection hvars with hvars
  subst hvars
  have hn0 : ∀ k, PySailing.normalRaw (a0.panels.getD k sparePanel) ≠ 0 := by
    intro k
    by_cases hk : k < a0.panels.length
    · rw [List.getD_eq_getElem?_getD, List.getElem?_eq_getElem hk, Option.getD_some]
      exact h2 _ (List.getElem_mem hk)
    · rw [List.getD_eq_getElem?_getD, List.getElem?_eq_none (not_lt.1 hk), Option.getD_none]
      exact sparePanel_normal
  have hrow : ∀ o : ℕ × Option ℕ, ConvPanel l (fun t => rowOf
      (fun q => (A t).panelVars a0.g q ((A t).behindA q) ((A t).behindD q))
      (fun q n => (A t).panelVars a0.g q ((A t).quarterB n) ((A t).quarterC n)) (a t).panels o)
      (rowOf (fun q => PySailing.panelVars a0.g q (PySailing.behindA q) (PySailing.behindD q))
        (fun q n => PySailing.panelVars a0.g q (PySailing.quarterB n) (PySailing.quarterC n)) a0.panels o) := by
    rintro ⟨k, o⟩
    cases o with
    | none => exact R.panelVars (hpan k) (hn0 k) (R.behindA (hpan k)) (R.behindD (hpan k)) a0.g
    | some n => exact R.panelVars (hpan k) (hn0 k) (R.quarterB (hpan n)) (R.quarterC (hpan n)) a0.g
  refine ⟨fun t => J.map (rowOf (fun q => (A t).panelVars a0.g q ((A t).behindA q) ((A t).behindD q))
      (fun q n => (A t).panelVars a0.g q ((A t).quarterB n) ((A t).quarterC n)) (a t).panels), ?_,
    fun t => by rw [List.length_map, List.length_map], fun k => ?_⟩
  · have hbad : ∀ᶠ t in l, ∀ k : Fin a0.panels.length, (A t).norm ((A t).normalRaw ((a t).panels.getD k sparePanel)) ≠ 0 :=
      eventually_all.2 fun k => (R.norm (R.normalRaw (hpan k))).eventually_ne (V3.norm_pos (hn0 k)).ne'
    filter_upwards [hbad] with t t2
    unfold Arith.calculateVlmVariables
    rw [hg t, hnc t, hns t, hte t, variablesOf_rows _ _ _ _ (by
      intro q hq
      obtain ⟨k, hk, rfl⟩ := List.getElem_of_mem hq
      have := t2 ⟨k, by rw [← hlen t]; exact hk⟩
      rw [List.getD_eq_getElem?_getD, List.getElem?_eq_getElem hk, Option.getD_some] at this
      exact this), hlen t, hJ]
    rfl
  · simp only [List.map_map, List.getD_eq_getElem?_getD, List.getElem?_map]
    cases J[k]? with
    | none => exact conv_const 0
    | some o => exact (hrow o).cp

end Spec.Refined

namespace Spec.RefinedSail

variable {growth : ℕ → ℝ} {A : T → SailArith} {u : T → ℝ}

/-- Limit of the solver, winds included. -/
theorem vlm (R : RefinedSail l growth A u) {a : T → VlmInput} {a0 : VlmInput} (hnc : ∀ t, (a t).nc = a0.nc)
    (hns : ∀ t, (a t).ns = a0.ns) (hte : ∀ t, (a t).te = a0.te) (hle : ∀ t, (a t).le = a0.le) (hg : ∀ t, (a t).g = a0.g)
    (hlen : ∀ t, (a t).panels.length = a0.panels.length)
    (hpan : ∀ k, ConvCorners l (fun t => (a t).panels.getD k sparePanel) (a0.panels.getD k sparePanel))
    (hrho : Tendsto (fun t => (a t).rho) l (𝓝 a0.rho)) (hw : NearWind l (fun t => (a t).wind) a0.wind) {r0 : Vlm}
    (h : PySailing.vlm a0 = .ok r0) (hcores : ∀ v ∈ r0.vars, ∀ v' ∈ r0.vars, OffCores v.ctrP v' ∧ OffCores v.cp v')
    (hareas : ∀ q ∈ a0.panels, PySailing.panelArea q ≠ 1e-14)
    (hlevel : ∀ p ∈ r0.vars, ¬ AtWaterLevel a0.wind.profile |p.cp.z|) :
    ∃ (V : T → List V3) (f : T → VlmSolution r0.vars.length),
      (∀ᶠ t in l, (A t).vlm (a t) = .ok (V t, (f t).arrays) ∧ (V t).length = r0.inlet.vAppInfs.length) ∧
      (∀ k, Conv l (fun t => (V t).getD k 0) (r0.inlet.vAppInfs.getD k 0)) ∧ ConvSol l f r0.sol := by
  obtain ⟨-, -, hv0, hin, hsol⟩ := (vlm_ok_iff _ _).1 h
  have hne := ((inletConditions_ok_iff _ _ _ _).1 hin).1
  obtain ⟨W, hW, hi⟩ := inlet_pointwise hin
  obtain ⟨vs, v1, v2, v3⟩ := R.base.vlmVariables hnc hns hte hg hlen hpan hv0
  obtain ⟨V, w1, w2⟩ := R.windsAt hw (cps := fun t => (vs t).map PanelVars.cp) (cps0 := r0.vars.map PanelVars.cp)
    (fun t => by rw [List.length_map, List.length_map, v2 t]) v3 hne hW (fun p hp => by
      obtain ⟨q, hq, rfl⟩ := List.mem_map.1 hp
      exact hlevel q hq)
  have hV0 : r0.inlet.vAppInfs = (r0.vars.map PanelVars.cp).map fun p => a0.wind.appInfs (W p) := by
    rw [hi]
    simp only [inletOf, List.map_map]
    rfl
  rw [← hV0] at w2
  obtain ⟨f, f1, f2⟩ := R.base.vlmWithWinds hnc hns hte hle hg hlen hpan hrho w2 hv0 rfl hsol hcores hareas
  refine ⟨V, f, ?_, w2, f2⟩
  filter_upwards [v1, w1, f1] with t t1 t2 t3
  refine ⟨?_, by simp only [t2.2, hV0, List.length_map]⟩
  unfold Arith.vlmWithWinds at t3
  unfold SailArith.vlm
  rw [t1] at t3 ⊢
  simp only [nanTrap, Bind.bind, Except.bind] at t3 ⊢
  rw [t2.1]
  simp only
  cases hc : (A t).vlmCore (fun i : Fin (vs t).length => (vs t)[i]) (fun i => ((a t).panels.map (A t).panelArea).getD i 0)
      (fun i => (a t).te.getD i false) (fun i => (a t).le.getD i false) (a t).ns (a t).rho (a t).g (fun i => (V t).getD i 0) with
  | error e => rw [hc] at t3; cases t3
  | ok s =>
    rw [hc] at t3
    simp only at t3 ⊢
    rw [Except.ok.inj t3]

end Spec.RefinedSail

end PySailing
