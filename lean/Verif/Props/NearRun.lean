import Verif.Lemmas.NearBook
import Verif.Lemmas.NearRun
import Verif.Props.FlatSail
import Verif.Props.NearSail
import Verif.Props.Sheet

/-!
# C133: nearby `variables.py` give nearby workbooks
-/

namespace PySailing.Props

open PySailing PySailing.Spec Filter Topology

variable {T : Type} {l : Filter T}

theorem hull_clr {sheer base : ℝ} {c : Csys} {clr : V3} {hull : Hull} (h : hullGeometry sheer base c clr = .ok hull) :
    hull.clr = c.leeway.mulVec (c.heeling.mulVec clr) := by
  unfold hullGeometry at h
  cases hf : vlmAirfoil 0.01 0.0 0.28 51 with
  | error e => rw [hf] at h; cases h
  | ok f =>
    rw [hf] at h
    cases h
    rfl

theorem prepare_data {c : Config} (h : WellFormed c) {p : Prepared} (hp : prepare fitpackSpline c = .ok p) :
    p.csys = ⟨c.heelDeg, c.leewayDeg, c.vRef⟩ ∧
    sailSetOf fitpackSpline c.solver c.rig (some (mainData c)) (some (jibData c)) ⟨c.heelDeg, c.leewayDeg, c.vRef⟩ = .ok p.set ∧
    p.hull.clr = p.csys.leeway.mulVec (p.csys.heeling.mulVec c.clrUpright) ∧
    vlm (c.vlmInput p.set (windGetProfile c.wind)) = .ok p.vlm ∧
    ∃ res, inviscidFlow p.set.sails p.csys p.vlm.flowArrays = .ok res ∧ p.flow = (FlowObject.new res).estimateKeel p.hull.clr := by
  obtain ⟨main, jib, base, e1, e2, e3, -, -, hset, -, hh, hv, hr⟩ := prepare_ok hp
  have h1 : mainSailInit c.main = .ok (mainData c) := withTwist_default h.main_twist 12 5
  have h2 : jibSailInit c.jib = .ok (jibData c) := withTwist_default h.jib_twist 15 7
  rw [h1] at e1; rw [h2] at e2
  cases e1; cases e2
  have hcs : p.csys = ⟨c.heelDeg, c.leewayDeg, c.vRef⟩ := by
    rw [C59_csys_constructor_total] at e3
    exact (Except.ok.inj e3).symm
  refine ⟨hcs, ?_, hull_clr hh, hv, hr⟩
  rw [← hcs]; exact hset

theorem built_calculate {c : Config} {m : ℕ} {ss : Fin m → SailInput × (ℕ → ℝ)} {set : SailSet} (B : Built c m ss set) (rho g : ℝ) (w : WindObj) :
    calculateSails (List.ofFn fun b => (ss b).1) c.solver.nc c.solver.ns rho g w =
      vlm ⟨set.panels, c.solver.nc, c.solver.ns, rho, w, set.te, set.le, g⟩ := by
  have h1 : (List.ofFn fun b => (ss b).1).mapM sailGeometry = .ok set.sails := by
    have h := B.sails
    generalize set.sails = gs at h
    have e : (List.ofFn fun b => (ss b).1) = (List.ofFn ss).map Prod.fst := by rw [List.map_ofFn]; rfl
    rw [e]
    clear e B
    generalize List.ofFn ss = xs at h
    induction h with
    | nil => rfl
    | cons hb _ ih =>
      rw [List.map_cons, List.mapM_cons, hb.2.2.2, ih]
      rfl
  unfold calculateSails
  rw [h1]
  simp only [Bind.bind, Except.bind]
  rw [sailSetOf_sails B.built]

theorem built_mesh {c : Config} {m : ℕ} {ss : Fin m → SailInput × (ℕ → ℝ)} {set : SailSet} (B : Built c m ss set) :
    set.sails.length = m ∧ (∀ b, (ss b).1.nc = c.solver.nc) ∧ (∀ b, (ss b).1.ns = c.solver.ns) ∧
      ∀ b : Fin m, (set.sails.map fun s => s.tackMounting.z).getD b 0 = (ss b).1.tack.z := by
  have h := B.sails
  have hl : set.sails.length = m := by rw [← h.length_eq, List.length_ofFn]
  have hget : ∀ b : Fin m, BuiltFrom c.solver.nc c.solver.ns (ss b) (set.sails[b.val]'(by rw [hl]; exact b.isLt)) := fun b => by
    have := h.get (i := b.val) (by simp) (by rw [hl]; exact b.isLt)
    simpa using this
  refine ⟨hl, fun b => (hget b).2.1, fun b => (hget b).2.2.1, fun b => ?_⟩
  rw [List.getD_eq_getElem?_getD, List.getElem?_map, List.getElem?_eq_getElem (by rw [hl]; exact b.isLt)]
  simp only [Option.map_some, Option.getD_some]
  rw [sailGeometry_tack (hget b).2.2.2]

/-- The prepared calculation of nearby configurations. -/
theorem near_prepared {c : T → Config} {c0 : Config} (N : NearConfig l c c0) (h : ∀ᶠ t in l, WellFormed (c t)) (h0 : WellFormed c0)
    {p0 : Prepared} (hp0 : prepare fitpackSpline c0 = .ok p0) (hoff : OffSwitches p0.vlm.input p0.vlm.vars)
    (hlevel : ∀ v ∈ p0.vlm.vars, ¬ AtWaterLevel (windGetProfile c0.wind).profile |v.cp.z|) :
    ∃ p : T → Prepared, (∀ᶠ t in l, prepare fitpackSpline (c t) = .ok (p t)) ∧ ConvArrays l (fun t => (p t).vlm.out) p0.vlm.out ∧
      (∀ k, Conv l (fun t => row ((p t).vlm.vars.map PanelVars.cp) k) (row (p0.vlm.vars.map PanelVars.cp) k)) ∧
      (∀ᶠ t in l, ∀ v ∈ (p t).vlm.vars, (windGetProfile (c t).wind).trueWindAt |v.cp.z| =
        .ok ((windGetProfile (c t).wind).lengthToXyz ((windGetProfile (c t).wind).twsRef *
          heightFactor (windGetProfile c0.wind).profile |v.cp.z|))) ∧
      ∀ b, b < p0.set.sails.length → Tendsto (fun t => ((p t).set.sails.map fun s => s.tackMounting.z).getD b 0) l
        (𝓝 ((p0.set.sails.map fun s => s.tackMounting.z).getD b 0)) := by
  classical
  obtain ⟨m, hm, ss, ss0, set0, hN, B0, hB⟩ := nearSails N h h0
  obtain ⟨hcs0, hset0, -, hv0, -⟩ := prepare_data h0 hp0
  have hset : set0 = p0.set := by
    have := B0.built
    rw [hset0] at this
    exact (Except.ok.inj this).symm
  subst hset
  obtain ⟨hl0, hnc, hns, htack0⟩ := built_mesh B0
  have hcalc := built_calculate B0 c0.rho (-1) (windGetProfile c0.wind)
  obtain ⟨r, h1, h2, h3, h4⟩ := near_sails hm c0.solver.nc c0.solver.ns ss ss0 hN hnc hns (fun t => (c t).rho) c0.rho N.rho
    (fun t => windGetProfile (c t).wind) (windGetProfile c0.wind) (nearConfig_wind N) (-1) p0.vlm (by rw [hcalc]; exact hv0) hoff hlevel
  have hall : ∀ᶠ t in l, ∃ p : Prepared, prepare fitpackSpline (c t) = .ok p ∧ p.vlm = r t ∧ Built (c t) m (ss t) p.set := by
    filter_upwards [h1, h, hB] with t t1 t2 t3
    obtain ⟨set, B⟩ := t3
    obtain ⟨base, hbase⟩ := Option.ne_none_iff_exists'.1 t2.base
    have e1 : mainSailInit (c t).main = .ok (mainData (c t)) := withTwist_default t2.main_twist 12 5
    have e2 : jibSailInit (c t).jib = .ok (jibData (c t)) := withTwist_default t2.jib_twist 15 7
    rw [← N.solver t] at t1
    have hr : vlm ((c t).vlmInput set (windGetProfile (c t).wind)) = .ok (r t) := by
      rw [← t1]
      exact (built_calculate B (c t).rho (-1) (windGetProfile (c t).wind)).symm
    obtain ⟨p, q1, -, q3, q4⟩ := prepare_of e1 e2 (windPostInit_ok t2.wind) (wellFormed_validation t2) B.built hbase hr
    refine ⟨p, q1, q4, ?_⟩
    rw [q3]; exact B
  obtain ⟨p, hp⟩ : ∃ p : T → Prepared, ∀ᶠ t in l, prepare fitpackSpline (c t) = .ok (p t) ∧ (p t).vlm = r t ∧ Built (c t) m (ss t) (p t).set := by
    refine ⟨fun t => if hc : _ then Exists.choose (p := fun p : Prepared => prepare fitpackSpline (c t) = Except.ok p ∧ p.vlm = r t ∧
      Built (c t) m (ss t) p.set) hc else p0, hall.mono fun t ht => ?_⟩
    simp only [dif_pos ht]
    exact ht.choose_spec
  refine ⟨p, hp.mono fun t ht => ht.1, h2.congr' (hp.mono fun t ht => by rw [ht.2.1]),
    fun k => (h3 k).congr' (hp.mono fun t ht => by rw [ht.2.1]), ?_, fun b hb => ?_⟩
  · filter_upwards [h4, hp] with t t1 t2
    rw [t2.2.1]; exact t1
  · rw [hl0] at hb
    have e0 := htack0 ⟨b, hb⟩
    simp only at e0
    rw [e0]
    refine (hN ⟨b, hb⟩).tack.z.congr' (hp.mono fun t ht => ?_)
    have := (built_mesh ht.2.2).2.2.2 ⟨b, hb⟩
    simp only at this
    beta_reduce
    rw [this]

theorem vecCells_conv {ok : String → Prop} (key : String) {v : T → V3} {v0 : V3} (h : Conv l v v0) :
    ConvCells l ok (fun t => vecCells key (v t)) (vecCells key v0) := by
  unfold vecCells
  exact .cons (fun _ => nearCell_num h.x) <| .cons (fun _ => nearCell_num h.y) <| .cons (fun _ => nearCell_num h.z) .nil

/-- The row of a panel in nearby tables. -/
theorem panelCells_conv {r : T → Vlm} {r0 : Vlm} (C : ConvArrays l (fun t => (r t).out) r0.out)
    (hcp : ∀ k, Conv l (fun t => row ((r t).vars.map PanelVars.cp) k) (row (r0.vars.map PanelVars.cp) k)) {q : ℕ}
    (hz : (row (r0.vars.map PanelVars.cp) q).z ≠ 0) {csys : T → Csys} {csys0 : Csys}
    (hh : Tendsto (fun t => (csys t).heelDeg) l (𝓝 csys0.heelDeg)) (hl : Tendsto (fun t => (csys t).leewayDeg) l (𝓝 csys0.leewayDeg))
    (hv : Conv l (fun t => (csys t).vRef) csys0.vRef) {sail : T → SailGeom} {sail0 : SailGeom} (hname : ∀ᶠ t in l, (sail t).name = sail0.name)
    (htack : Tendsto (fun t => (sail t).tackMounting.z) l (𝓝 sail0.tackMounting.z)) {top : T → ℝ} {top0 : ℝ} (htop : Tendsto top l (𝓝 top0))
    (hne : top0 ≠ sail0.tackMounting.z) {tws : T → V3} {tws0 : V3} (htws : Conv l tws tws0) {w : T → WindObj} {w0 : WindObj}
    (hw : NearWind l w w0) (hin : ∀ᶠ t in l, (r t).input.wind = w t) (hin0 : r0.input.wind = w0) :
    ConvCells l (fun name => ¬ (((name = "AWA_fs_COG_deg" ∨ name = "AWA_fs_COW_deg") ∧ (row r0.out.vFsCp q).x = 0) ∨
        ((name = "AWA_infs_COG_deg" ∨ name = "AWA_infs_COW_deg") ∧ (w0.appInfs tws0).y = 0 ∧ (w0.appInfs tws0).x ≤ 0)))
      (fun t => panelCells (r t) (csys t) (csys t) (sail t) (top t) (tws t) q) (panelCells r0 csys0 csys0 sail0 top0 tws0 q) := by
  have happ : Conv l (fun t => (r t).input.wind.appInfs (tws t)) (r0.input.wind.appInfs tws0) := by
    rw [hin0]
    exact (appInfs_conv hw htws).congr' (hin.mono fun t ht => by rw [ht])
  have hup := reverse_conv hl hh (hcp q) hz
  have hF : Conv l (fun t => row (r t).out.force q) (row r0.out.force q) := C.force q
  have hV : Conv l (fun t => row (r t).out.vFsCp q) (row r0.out.vFsCp q) := C.vFsCp q
  have hI : Conv l (fun t => row (r t).out.vIndCp q) (row r0.out.vIndCp q) := C.vIndCp q
  unfold panelCells
  refine .append (.append (.append (.append (.append (.append (.append (.append (.append (.append (.append (.append
    (.cons (fun _ => nearCell_num (C.gamma q)) .nil)
    (vecCells_conv _ hI)) (.cons (fun _ => nearCell_num hI.norm) .nil)) (vecCells_conv _ hV))
    (.cons (fun _ => nearCell_num hV.norm) <| .cons (fun ho => ?_) <| .cons (fun ho => ?_) <|
      .cons (fun _ => nearCell_num (C.pressure q)) .nil))
    (vecCells_conv _ hF)) (vecCells_conv _ ((arm_conv hv (hcp q) hz).cross hF))) (vecCells_conv _ (leeway_conv hl hF)))
    (vecCells_conv _ (hcp q))) (vecCells_conv _ htws)) (.cons (fun _ => nearCell_num htws.norm) .nil)) (vecCells_conv _ happ)) ?_
  · exact nearCell_ratio hV.y hV.x (fun e => ho (.inl ⟨.inl rfl, e⟩)) fun h => rad2deg_tendsto h
  · exact nearCell_ratio hV.y hV.x (fun e => ho (.inl ⟨.inr rfl, e⟩)) (g := fun t y => rad2deg y - (csys t).leewayDeg)
      (g0 := fun y => rad2deg y - csys0.leewayDeg) fun h => (rad2deg_tendsto h).sub hl
  · refine .cons (fun _ => nearCell_num happ.norm) <| .cons (fun ho => nearCell_num (rad2deg_tendsto (arctan2_tendsto happ.y happ.x fun h =>
      ho (.inr ⟨.inl rfl, ?_⟩)))) <| .cons (fun ho => nearCell_num ((rad2deg_tendsto (arctan2_tendsto happ.y happ.x fun h =>
      ho (.inr ⟨.inr rfl, ?_⟩))).sub hl)) <| .cons (fun _ => nearCell_num hup.z) <|
      .cons (fun _ => nearCell_num ((hup.z.sub htack).div (htop.sub htack) (sub_ne_zero.2 hne))) <|
      .cons (fun _ => nearCell_const (hname.mono fun t ht => by rw [ht])) .nil
    · rw [hin0] at h; exact h
    · rw [hin0] at h; exact h

theorem rowVec_some {d : PyDict} {key : String} {v : V3} (h : rowVec d key = some v) :
    d (key ++ ".x") = some v.x ∧ d (key ++ ".y") = some v.y ∧ d (key ++ ".z") = some v.z := by
  unfold rowVec at h
  split at h
  · rename_i x y z h1 h2 h3
    cases h
    exact ⟨h1, h2, h3⟩
  · cases h

/-- The integrals of nearby calculations. -/
theorem integrals_conv {sails : T → List SailGeom} {sails0 : List SailGeom} {M : ℕ} {csys : T → Csys} {csys0 : Csys}
    (hl : Tendsto (fun t => (csys t).leewayDeg) l (𝓝 csys0.leewayDeg)) (hv : Conv l (fun t => (csys t).vRef) csys0.vRef)
    {r : T → Vlm} {r0 : Vlm} (C : ConvArrays l (fun t => (r t).out) r0.out)
    (hcp : ∀ k, Conv l (fun t => row ((r t).vars.map PanelVars.cp) k) (row (r0.vars.map PanelVars.cp) k))
    (hz : ∀ k, k < sails0.length * M → (row (r0.vars.map PanelVars.cp) k).z ≠ 0)
    (hnodup : (sails0.map SailGeom.name).Nodup) (hnames : ∀ᶠ t in l, (sails t).map SailGeom.name = sails0.map SailGeom.name)
    (hsh : ∀ᶠ t in l, Shaped (sails t) M (r t).flowArrays) (hsh0 : Shaped sails0 M r0.flowArrays) {res : T → FlowResults} {res0 : FlowResults}
    (hres : ∀ᶠ t in l, inviscidFlow (sails t) (csys t) (r t).flowArrays = .ok (res t)) (hres0 : inviscidFlow sails0 csys0 r0.flowArrays = .ok res0)
    {clr : T → V3} {clr0 : V3} (hclr : Conv l clr clr0) :
    ConvDict l (fun t => ((FlowObject.new (res t)).estimateKeel (clr t)).toDfIntegral)
      ((FlowObject.new res0).estimateKeel clr0).toDfIntegral := by
  have hF : ∀ k, Conv l (fun t => row (r t).flowArrays.force k) (row r0.flowArrays.force k) := fun k => C.force k
  have hM : ∀ k, k < sails0.length * M → Conv l (fun t => V3.cross (armFrom (csys t).vRef (row (r t).flowArrays.cp k)) (row (r t).flowArrays.force k))
      (V3.cross (armFrom csys0.vRef (row r0.flowArrays.cp k)) (row r0.flowArrays.force k)) :=
    fun k hk => (arm_conv hv (hcp k) (hz k hk)).cross (hF k)
  obtain ⟨res', e0, f1, -, f3, -, -, f6, -, -, f9, f10, f11, f12⟩ := inviscidFlow_ok hsh0.nonempty csys0 _ hsh0.force hsh0.cp
  rw [hres0] at e0
  cases e0
  have key : ∀ᶠ t in l, (sails t).map SailGeom.name = sails0.map SailGeom.name ∧ (res t).csys = csys t ∧
      (res t).forceTotal = ∑ k ∈ Finset.range (sails0.length * M), row (r t).flowArrays.force k ∧
      (res t).momentTotal = ∑ k ∈ Finset.range (sails0.length * M), V3.cross (armFrom (csys t).vRef (row (r t).flowArrays.cp k))
        (row (r t).flowArrays.force k) ∧
      (res t).forceClTotal = (csys t).leeway.mulVec (res t).forceTotal ∧
      (res t).momentClTotal = (csys t).leeway.mulVec (res t).momentTotal ∧
      (∀ b (hb : b < sails0.length), rowVec (res t).dyn (keyF sails0[b].name) = some (sailSum M b (row (r t).flowArrays.force)) ∧
        rowVec (res t).dyn (keyM sails0[b].name) = some (sailSum M b fun k =>
          V3.cross (armFrom (csys t).vRef (row (r t).flowArrays.cp k)) (row (r t).flowArrays.force k))) ∧
      (∀ k, (∀ s ∈ sails0, ∀ e ∈ [".x", ".y", ".z"], k ≠ keyF s.name ++ e ∧ k ≠ keyM s.name ++ e) → (res t).dyn k = none) := by
    filter_upwards [hnames, hsh, hres] with t hn hs hr
    obtain ⟨res', e, g1, -, g3, -, -, g6, -, -, g9, g10, g11, g12⟩ := inviscidFlow_ok hs.nonempty (csys t) _ hs.force hs.cp
    rw [hr] at e
    cases e
    have hlen : (sails t).length = sails0.length := by simpa using congrArg List.length hn
    have hname : ∀ b (hb : b < sails0.length), ((sails t)[b]'(by omega)).name = sails0[b].name := fun b hb => by
      have := List.getElem_of_eq hn (i := b) (by simp; omega)
      simpa using this
    rw [hlen] at g3 g6
    refine ⟨hn, g1, g3, g6, g9, g10, fun b hb => ?_, fun k hk => g12 k fun s hs' => ?_⟩
    · rw [← hname b hb]
      refine g11 b (by omega) fun c hc hbc => ?_
      rw [hname c (by omega), hname b hb]
      intro e
      have := (List.Nodup.getElem_inj_iff hnodup (i := c) (j := b) (hi := by simp; omega) (hj := by simp; omega)).1 (by simpa using e)
      omega
    · have : s.name ∈ sails0.map SailGeom.name := by rw [← hn]; exact List.mem_map_of_mem hs'
      obtain ⟨s', h1, h2⟩ := List.mem_map.1 this
      rw [← h2]
      exact hk s' h1
  have c1 : Conv l (fun t => (res t).forceTotal) res0.forceTotal := by
    rw [f3]
    exact (Conv.sum _ fun k _ => hF k).congr' (key.mono fun t ht => ht.2.2.1.symm)
  have c2 : Conv l (fun t => (res t).momentTotal) res0.momentTotal := by
    rw [f6]
    exact (Conv.sum _ fun k hk => hM k (Finset.mem_range.1 hk)).congr' (key.mono fun t ht => ht.2.2.2.1.symm)
  have c3 : Conv l (fun t => (res t).forceClTotal) res0.forceClTotal := by
    rw [f9]
    exact (leeway_conv hl c1).congr' (key.mono fun t ht => ht.2.2.2.2.1.symm)
  have c4 : Conv l (fun t => (res t).momentClTotal) res0.momentClTotal := by
    rw [f10]
    exact (leeway_conv hl c2).congr' (key.mono fun t ht => ht.2.2.2.2.2.1.symm)
  have c5 : Conv l (fun t => V3.cross (clr t) (-(res t).forceTotal)) (V3.cross clr0 (-res0.forceTotal)) := hclr.cross ⟨c1.x.neg, c1.y.neg, c1.z.neg⟩
  have c6 : Conv l (fun t => (res t).csys.leeway.mulVec (V3.cross (clr t) (-(res t).forceTotal)))
      (res0.csys.leeway.mulVec (V3.cross clr0 (-res0.forceTotal))) := by
    rw [f1]
    exact (leeway_conv hl c5).congr' (key.mono fun t ht => by rw [ht.2.1])
  have hnd : ∀ b (hb : b < sails0.length), ∀ c (hc : c < sails0.length), b < c → sails0[c].name ≠ sails0[b].name := fun b hb c hc hbc e => by
    have := (List.Nodup.getElem_inj_iff hnodup (i := c) (j := b) (hi := by simp; omega) (hj := by simp; omega)).1 (by simpa using e)
    omega
  have hdyn : ConvDict l (fun t => (res t).dyn) res0.dyn := by
    intro k
    by_cases hk : ∀ s ∈ sails0, ∀ e ∈ [".x", ".y", ".z"], k ≠ keyF s.name ++ e ∧ k ≠ keyM s.name ++ e
    · rw [f12 k hk]
      exact key.mono fun t ht => ht.2.2.2.2.2.2.2 k hk
    · push Not at hk
      obtain ⟨s, hs, e, he, hk⟩ := hk
      obtain ⟨b, hb, rfl⟩ := List.getElem_of_mem hs
      have hbM : ∀ k ∈ Finset.range M, b * M + k < sails0.length * M := fun k hk => by
        have := Finset.mem_range.1 hk
        calc b * M + k < b * M + M := by omega
          _ = (b + 1) * M := by ring
          _ ≤ _ := Nat.mul_le_mul_right _ hb
      have cF : Conv l (fun t => sailSum M b (row (r t).flowArrays.force)) (sailSum M b (row r0.flowArrays.force)) :=
        Conv.sum _ fun k _ => hF _
      have cM : Conv l (fun t => sailSum M b fun k => V3.cross (armFrom (csys t).vRef (row (r t).flowArrays.cp k)) (row (r t).flowArrays.force k))
          (sailSum M b fun k => V3.cross (armFrom csys0.vRef (row r0.flowArrays.cp k)) (row r0.flowArrays.force k)) :=
        Conv.sum _ fun k hk => hM _ (hbM k hk)
      have gen : ∀ {name : String} {v : T → V3} {v0 : V3}, Conv l v v0 → (∀ᶠ t in l, rowVec (res t).dyn name = some (v t)) →
          rowVec res0.dyn name = some v0 → NearNumber l (fun t => (res t).dyn (name ++ e)) (res0.dyn (name ++ e)) := by
        intro name v v0 hc h1 h2
        obtain ⟨x0, y0, z0⟩ := rowVec_some h2
        simp only [List.mem_cons, List.not_mem_nil, or_false] at he
        rcases he with rfl | rfl | rfl
        · rw [x0]; exact ⟨_, h1.mono fun t ht => (rowVec_some ht).1, hc.x⟩
        · rw [y0]; exact ⟨_, h1.mono fun t ht => (rowVec_some ht).2.1, hc.y⟩
        · rw [z0]; exact ⟨_, h1.mono fun t ht => (rowVec_some ht).2.2, hc.z⟩
      obtain ⟨g1, g2⟩ := f11 b hb fun c hc hbc => hnd b hb c hc hbc
      by_cases hkF : k = keyF sails0[b].name ++ e
      · rw [hkF]
        exact gen cF (key.mono fun t ht => (ht.2.2.2.2.2.2.1 b hb).1) g1
      · rw [hk hkF]
        exact gen cM (key.mono fun t ht => (ht.2.2.2.2.2.2.1 b hb).2) g2
  unfold FlowObject.toDfIntegral FlowObject.estimateKeel FlowObject.new
  exact (((((ConvDict.empty.setVec _ c1).setVec _ c3).setVec _ c2).setMomentCow _ c4).update
    ((((ConvDict.empty.setVec _ c5).setMomentCow _ c6).setVec _ (c2.add c5)).setMomentCow _ (c4.add c6))).update hdyn

theorem row_mem_vars {vs : List PanelVars} {q : ℕ} (hq : q < vs.length) : ∃ v ∈ vs, row (vs.map PanelVars.cp) q = v.cp := by
  refine ⟨vs[q], List.getElem_mem hq, ?_⟩
  unfold row
  rw [List.getD_eq_getElem?_getD, List.getElem?_map, List.getElem?_eq_getElem hq]
  rfl

theorem cell_none_column {t : Frame} {name : String} (h : name ∉ t.map Prod.fst) (q : ℕ) : t.cell name q = none := by
  unfold Frame.cell
  rw [List.find?_eq_none.2 fun c hc => by
    simp only [decide_eq_true_eq]
    exact fun e => h (e ▸ List.mem_map_of_mem hc)]
  rfl

theorem cell_none_row {t : Frame} {n q : ℕ} (h : ∀ c ∈ t, c.2.length = n) (hq : n ≤ q) (name : String) : t.cell name q = none := by
  unfold Frame.cell
  cases hf : t.find? fun c => c.1 = name with
  | none => rfl
  | some c =>
    rw [Option.bind_some]
    exact List.getElem?_eq_none (by rw [h c (List.mem_of_find?_eq_some hf)]; exact hq)

/-- The highest upright pressure point of sail `b`, the sails having `M` panels each. -/
noncomputable def highest (csys : Csys) (cps : List V3) (n : ℕ) {M : ℕ} (hM : 0 < M) (b : ℕ) : ℝ :=
  (Finset.range M).sup' (Finset.nonempty_range_iff.2 hM.ne') fun k =>
    max (csys.reverseRotationsWithMirror (row cps (b * M + k))).z (csys.reverseRotationsWithMirror (row cps (n * M + (b * M + k)))).z

/-- What is known of the table of a calculation. -/
structure TableOf (c : Config) (p : Prepared) (n : ℕ) {M : ℕ} (hM : 0 < M) (s : SavedResults) : Prop where
  saved : saveResults p.vlm p.csys p.flow p.set.sails p.csys = .ok s
  lengths : ∀ x ∈ s.components, x.2.length = n * M
  rows : ∀ b (hb : b < p.set.sails.length) k, k < M → ∃ tws,
    (windGetProfile c.wind).trueWindAt |(row (p.vlm.vars.map PanelVars.cp) (b * M + k)).z| = .ok tws ∧
    s.components.map Prod.fst = (panelCells p.vlm p.csys p.csys p.set.sails[b]
      (highest p.csys (p.vlm.vars.map PanelVars.cp) n hM b) tws (b * M + k)).map Prod.fst ∧
    ∀ x ∈ panelCells p.vlm p.csys p.csys p.set.sails[b] (highest p.csys (p.vlm.vars.map PanelVars.cp) n hM b) tws (b * M + k),
      s.components.cell x.1 (b * M + k) = some x.2

theorem tableOf {c : Config} {M : ℕ} (hM : 0 < M) (hMc : c.solver.nc * c.solver.ns = M) (h : WellFormed c) {p : Prepared}
    (hp : prepare fitpackSpline c = .ok p) {n : ℕ} (hn : p.set.sails.length = n) {ic : List (String × ℝ)}
    (hic : windIntegral (windGetProfile c.wind) p.csys = .ok ic)
    (hne : ∀ b (hb : b < p.set.sails.length), highest p.csys (p.vlm.vars.map PanelVars.cp) n hM b ≠ p.set.sails[b].tackMounting.z) :
    ∃ s, TableOf c p n hM s := by
  obtain ⟨hcs, hset, -, hv, res, hres, hflow⟩ := prepare_data h hp
  obtain ⟨-, hsh, -⟩ := sailSetOf_shape hset
  have hw : p.vlm.inlet.winds = windGetProfile c.wind := by
    obtain ⟨hi, -, -⟩ := vlm_inlet hv
    rw [((inletConditions_ok_iff _ _ _ _).1 hi).2.2]
    rfl
  subst hn
  obtain ⟨s, h1, h2, h3⟩ := C49_components _ _ hv p.set.sails M p.set (sailSetOf_sails hset) rfl
    (fun g hg => by rw [(hsh g hg).1, hMc]) (fun g hg => by rw [(hsh g hg).2.1, hMc]) p.csys p.csys res hres p.flow (by rw [hflow]; rfl)
    ic (by rw [hw]; exact hic) (highest p.csys (p.vlm.vars.map PanelVars.cp) p.set.sails.length hM)
    (fun b hb => isGreatest_sup' hM _ _) hne
  refine ⟨s, h1, h2, fun b hb k hk => ?_⟩
  obtain ⟨tws, P, -, -, q1, q2, q3⟩ := h3 b hb k hk
  exact ⟨tws, q1, q2, q3⟩

/-- **C133.** If every number in `variables.py` (but those that define the shape of the wind profile) tends to its number in a
file for which the program writes a workbook, and the files are well formed with the same mesh and choice of sails, then the
program writes a workbook for all files near enough, with the same columns, rows and quantities, and every number in its three
sheets tends to its number — the angles of velocities where `arctan` does not jump.  Excluded are limits in which a panel lies
exactly on the boundary of a vortex core or has exactly the smallest admissible area, or a pressure point lies exactly on the
water surface or at the water level of an exponential profile. -/
theorem C133_nearby {c : T → Config} {c0 : Config} (N : NearConfig l c c0) (h : ∀ᶠ t in l, WellFormed (c t)) (h0 : WellFormed c0)
    {p0 : Prepared} (hp0 : prepare fitpackSpline c0 = .ok p0) (hoff : OffSwitches p0.vlm.input p0.vlm.vars)
    (hlevel : ∀ v ∈ p0.vlm.vars, ¬ AtWaterLevel (windGetProfile c0.wind).profile |v.cp.z|)
    (hsurface : ∀ v ∈ p0.vlm.vars, v.cp.z ≠ 0)
    {t0 : SavedResults} (ht0 : .workbook (some t0) ∈ (run fitpackSpline c0).1) :
    ∃ t : T → SavedResults, (∀ᶠ x in l, .workbook (some (t x)) ∈ (run fitpackSpline (c x)).1) ∧ NearWorkbook l t t0 := by
  classical
  obtain ⟨p, hp, C, hcp, hgood, htack⟩ := near_prepared N h h0 hp0 hoff hlevel
  obtain ⟨p0', hp0', hs0⟩ := run_workbook ht0
  rw [hp0] at hp0'
  cases hp0'
  obtain ⟨hnn, hM, -, -⟩ := prepared_shape hp0
  obtain ⟨hcs0, hset0, hclr0, hv0, res0, hres0, hflow0⟩ := prepare_data h0 hp0
  obtain ⟨hnames0, hsh0, hlen0, -⟩ := sailSetOf_shape hset0
  set M := c0.solver.nc * c0.solver.ns with hMdef
  set n := p0.set.sails.length with hn
  have hnpos : 0 < n := by omega
  have hW := nearConfig_wind N
  have hvl0 : p0.vlm.vars.length = 2 * (n * M) := by rw [(vlm_lengths hv0).2.1]; exact hlen0
  have hz0 : ∀ k, k < 2 * (n * M) → (row (p0.vlm.vars.map PanelVars.cp) k).z ≠ 0 := fun k hk => by
    obtain ⟨v, hv, e⟩ := row_mem_vars (vs := p0.vlm.vars) (q := k) (by rw [hvl0]; exact hk)
    rw [e]; exact hsurface v hv
  -- names and coordinate systems
  have hcs : ∀ᶠ t in l, (p t).csys = ⟨(c t).heelDeg, (c t).leewayDeg, (c t).vRef⟩ := by
    filter_upwards [h, hp] with t t1 t2
    exact (prepare_data t1 t2).1
  have hheel : Tendsto (fun t => (p t).csys.heelDeg) l (𝓝 p0.csys.heelDeg) := by
    rw [hcs0]; exact N.heel.congr' (hcs.mono fun t ht => by beta_reduce; rw [ht])
  have hleeway : Tendsto (fun t => (p t).csys.leewayDeg) l (𝓝 p0.csys.leewayDeg) := by
    rw [hcs0]; exact N.leeway.congr' (hcs.mono fun t ht => by beta_reduce; rw [ht])
  have hvref : Conv l (fun t => (p t).csys.vRef) p0.csys.vRef := by
    rw [hcs0]; exact N.vRef.congr' (hcs.mono fun t ht => by rw [ht])
  have hnames : ∀ᶠ t in l, (p t).set.sails.map SailGeom.name = p0.set.sails.map SailGeom.name := by
    filter_upwards [h, hp] with t t1 t2
    obtain ⟨-, q, -⟩ := prepare_data t1 t2
    obtain ⟨q1, -⟩ := sailSetOf_shape q
    rw [N.rig.sailsDef t] at q1
    rcases q1 with ⟨a1, a2⟩ | ⟨a1, a2⟩ | ⟨a1, a2⟩ <;> rcases hnames0 with ⟨b1, b2⟩ | ⟨b1, b2⟩ | ⟨b1, b2⟩ <;> rw [a2, b2] <;>
      exact absurd (a1.symm.trans b1) (by decide)
  have hlens : ∀ᶠ t in l, (p t).set.sails.length = n := hnames.mono fun t ht => by
    simpa using congrArg List.length ht
  have hnodup : (p0.set.sails.map SailGeom.name).Nodup := by
    rcases hnames0 with ⟨-, b2⟩ | ⟨-, b2⟩ | ⟨-, b2⟩ <;> rw [b2] <;> decide
  -- the integrals
  obtain ⟨hint0, hinlet0⟩ := saveResults_integrals hs0
  have hw0 : p0.vlm.inlet.winds = windGetProfile c0.wind := by
    obtain ⟨hi, -, -⟩ := vlm_inlet hv0
    rw [((inletConditions_ok_iff _ _ _ _).1 hi).2.2]
    rfl
  rw [hw0] at hinlet0
  obtain ⟨ic, hic, hicn, hicv⟩ := windIntegral_near hW hleeway hinlet0
  have hres : ∀ t, ∃ res, (WellFormed (c t) ∧ prepare fitpackSpline (c t) = .ok (p t)) →
      inviscidFlow (p t).set.sails (p t).csys (p t).vlm.flowArrays = .ok res ∧
        (p t).flow = (FlowObject.new res).estimateKeel (p t).hull.clr := fun t => by
    by_cases hc : WellFormed (c t) ∧ prepare fitpackSpline (c t) = .ok (p t)
    · obtain ⟨-, -, -, -, res, q⟩ := prepare_data hc.1 hc.2
      exact ⟨res, fun _ => q⟩
    · exact ⟨res0, fun h => absurd h hc⟩
  choose res hres using hres
  have hgoodt : ∀ᶠ t in l, WellFormed (c t) ∧ prepare fitpackSpline (c t) = .ok (p t) := h.and hp
  have hclr : Conv l (fun t => (p t).hull.clr) p0.hull.clr := by
    rw [hclr0]
    refine (leeway_conv hleeway (heeling_conv hheel N.clr)).congr' (hgoodt.mono fun t ht => ?_)
    rw [(prepare_data ht.1 ht.2).2.2.1]
  have hI := integrals_conv (M := M) hleeway hvref C hcp (fun k hk => hz0 k (by rw [← hn] at hk; omega)) hnodup hnames
    (hgoodt.mono fun t ht => by
      obtain ⟨-, q, -, hv, -⟩ := prepare_data ht.1 ht.2
      obtain ⟨q1, -, q3, -⟩ := sailSetOf_shape q
      refine vlm_shaped hv (fun e => ?_) (by rw [hMdef, ← N.solver t]; exact q3)
      rw [e] at q1; simp at q1)
    (vlm_shaped hv0 (fun e => by rw [hn, e] at hnpos; simp at hnpos) hlen0) (hgoodt.mono fun t ht => (hres t ht).1) hres0 hclr
  -- the highest points
  have hhigh : ∀ b, b < n → Tendsto (fun t => highest (p t).csys ((p t).vlm.vars.map PanelVars.cp) n hM b) l
      (𝓝 (highest p0.csys (p0.vlm.vars.map PanelVars.cp) n hM b)) := fun b hb => by
    have hbM : ∀ k, k < M → b * M + k < n * M := fun k hk => by
      calc b * M + k < b * M + M := by omega
        _ = (b + 1) * M := by ring
        _ ≤ _ := Nat.mul_le_mul_right _ hb
    exact sup'_tendsto hM (fun k hk => (reverse_conv hleeway hheel (hcp _) (hz0 _ (by have := hbM k hk; omega))).z)
      (fun k hk => (reverse_conv hleeway hheel (hcp _) (hz0 _ (by have := hbM k hk; omega))).z)
  have hne0 : ∀ b (hb : b < n), highest p0.csys (p0.vlm.vars.map PanelVars.cp) n hM b ≠ p0.set.sails[b].tackMounting.z := fun b hb => by
    have hs := hs0
    unfold saveResults at hs
    rw [hw0, hinlet0] at hs
    simp only [Bind.bind, Except.bind] at hs
    split at hs
    · cases hs
    rename_i g hg
    obtain ⟨top, g1, g2⟩ := cpGirthsAll_top (m := M) (fun e => by rw [hn, e] at hnpos; simp at hnpos) hM
      (by rw [List.length_map, hvl0]) hg hb
    have e : top = highest p0.csys (p0.vlm.vars.map PanelVars.cp) n hM b := g1.unique (isGreatest_sup' hM _ _)
    rwa [← e]
  have htack' : ∀ b (hb : b < n), Tendsto (fun t => ((p t).set.sails[b]?.getD p0.set.sails[b]).tackMounting.z) l
      (𝓝 p0.set.sails[b].tackMounting.z) := fun b hb => by
    have e := htack b hb
    have e0 : (p0.set.sails.map fun s => s.tackMounting.z).getD b 0 = p0.set.sails[b].tackMounting.z := by
      rw [List.getD_eq_getElem?_getD, List.getElem?_map, List.getElem?_eq_getElem hb]; rfl
    rw [e0] at e
    refine e.congr' (hlens.mono fun t ht => ?_)
    beta_reduce
    rw [List.getD_eq_getElem?_getD, List.getElem?_map, List.getElem?_eq_getElem (by rw [ht]; exact hb)]
    rfl
  have hne : ∀ᶠ t in l, ∀ b : Fin n, highest (p t).csys ((p t).vlm.vars.map PanelVars.cp) n hM b ≠
      ((p t).set.sails[b.val]?.getD p0.set.sails[b.val]).tackMounting.z := by
    rw [eventually_all]
    intro b
    filter_upwards [((hhigh b b.isLt).sub (htack' b b.isLt)).eventually_ne (sub_ne_zero.2 (hne0 b b.isLt))] with t ht
    exact sub_ne_zero.1 ht
  -- the tables
  obtain ⟨T0, hT0⟩ := tableOf hM rfl h0 hp0 rfl hinlet0 hne0
  have hT00 : T0 = t0 := by
    have := hT0.saved
    rw [hs0] at this
    exact (Except.ok.inj this).symm
  subst hT00
  have hex : ∀ᶠ t in l, ∃ s, TableOf (c t) (p t) n hM s := by
    filter_upwards [hgoodt, hlens, hne] with t t1 t2 t3
    refine tableOf hM (by rw [N.solver t]) t1.1 t1.2 t2 (hic t) fun b hb => ?_
    have := t3 ⟨b, by omega⟩
    simp only [List.getElem?_eq_getElem hb, Option.getD_some] at this
    exact this
  obtain ⟨tb, htb⟩ : ∃ tb : T → SavedResults, ∀ᶠ t in l, TableOf (c t) (p t) n hM (tb t) := by
    refine ⟨fun t => if hc : ∃ s, TableOf (c t) (p t) n hM s then hc.choose else T0, hex.mono fun t ht => ?_⟩
    simp only [dif_pos ht]
    exact ht.choose_spec
  refine ⟨tb, ?_, ?_⟩
  · filter_upwards [hp, htb] with t t1 t2
    exact workbook_mem t1 t2.saved
  -- rows of the tables
  let tws : ℕ → T → V3 := fun q t => (windGetProfile (c t).wind).lengthToXyz ((windGetProfile (c t).wind).twsRef *
    heightFactor (windGetProfile c0.wind).profile |(row ((p t).vlm.vars.map PanelVars.cp) q).z|)
  let tws0 : ℕ → V3 := fun q => (windGetProfile c0.wind).lengthToXyz ((windGetProfile c0.wind).twsRef *
    heightFactor (windGetProfile c0.wind).profile |(row (p0.vlm.vars.map PanelVars.cp) q).z|)
  have hrow0 : ∀ b (hb : b < n) k, k < M →
      WindNear (windGetProfile c0.wind).profile |(row (p0.vlm.vars.map PanelVars.cp) (b * M + k)).z| ∧
      T0.components.map Prod.fst = (panelCells p0.vlm p0.csys p0.csys p0.set.sails[b]
        (highest p0.csys (p0.vlm.vars.map PanelVars.cp) n hM b) (tws0 (b * M + k)) (b * M + k)).map Prod.fst ∧
      ∀ x ∈ panelCells p0.vlm p0.csys p0.csys p0.set.sails[b] (highest p0.csys (p0.vlm.vars.map PanelVars.cp) n hM b)
        (tws0 (b * M + k)) (b * M + k), T0.components.cell x.1 (b * M + k) = some x.2 := by
    intro b hb k hk
    obtain ⟨w, e1, e2, e3⟩ := hT0.rows b hb k hk
    have hbM : b * M + k < n * M := by
      calc b * M + k < b * M + M := by omega
        _ = (b + 1) * M := by ring
        _ ≤ _ := Nat.mul_le_mul_right _ hb
    obtain ⟨v, hv, ev⟩ := row_mem_vars (vs := p0.vlm.vars) (q := b * M + k) (by rw [hvl0]; omega)
    have hnear : WindNear (windGetProfile c0.wind).profile |(row (p0.vlm.vars.map PanelVars.cp) (b * M + k)).z| :=
      windNear_of e1 (by rw [ev]; exact hlevel v hv)
    have ew : w = tws0 (b * M + k) := by
      rw [(heightFactor_near hnear).1.self_of_nhds _ rfl] at e1
      exact (Except.ok.inj e1).symm
    rw [ew] at e2 e3
    exact ⟨hnear, e2, e3⟩
  have hrow : ∀ᶠ t in l, ∀ b (hb : b < n) k, k < M →
      (tb t).components.map Prod.fst = (panelCells (p t).vlm (p t).csys (p t).csys ((p t).set.sails[b]?.getD p0.set.sails[b])
        (highest (p t).csys ((p t).vlm.vars.map PanelVars.cp) n hM b) (tws (b * M + k) t) (b * M + k)).map Prod.fst ∧
      ∀ x ∈ panelCells (p t).vlm (p t).csys (p t).csys ((p t).set.sails[b]?.getD p0.set.sails[b])
        (highest (p t).csys ((p t).vlm.vars.map PanelVars.cp) n hM b)
        (tws (b * M + k) t) (b * M + k), (tb t).components.cell x.1 (b * M + k) = some x.2 := by
    filter_upwards [htb, hlens, hgood, hgoodt] with t t1 t2 t3 t4 b hb k hk
    obtain ⟨w, e1, e2, e3⟩ := t1.rows b (by omega) k hk
    have hbM : b * M + k < n * M := by
      calc b * M + k < b * M + M := by omega
        _ = (b + 1) * M := by ring
        _ ≤ _ := Nat.mul_le_mul_right _ hb
    obtain ⟨-, q, -, hv, -⟩ := prepare_data t4.1 t4.2
    obtain ⟨-, -, q3, -⟩ := sailSetOf_shape q
    have hvl : (p t).vlm.vars.length = 2 * (n * M) := by
      rw [(vlm_lengths hv).2.1, hMdef, ← N.solver t, ← t2]; exact q3
    obtain ⟨v, hv, ev⟩ := row_mem_vars (vs := (p t).vlm.vars) (q := b * M + k) (by rw [hvl]; omega)
    have ew : w = tws (b * M + k) t := by
      have := t3 v hv
      rw [← ev, e1] at this
      exact Except.ok.inj this
    rw [List.getElem?_eq_getElem (by omega), Option.getD_some, ← ew]
    exact ⟨e2, e3⟩
  have hcells : ∀ b (hb : b < n) k (hk : k < M), ConvCells l (fun name =>
      ¬ (((name = "AWA_fs_COG_deg" ∨ name = "AWA_fs_COW_deg") ∧ (row p0.vlm.out.vFsCp (b * M + k)).x = 0) ∨
        ((name = "AWA_infs_COG_deg" ∨ name = "AWA_infs_COW_deg") ∧ ((windGetProfile c0.wind).appInfs (tws0 (b * M + k))).y = 0 ∧
          ((windGetProfile c0.wind).appInfs (tws0 (b * M + k))).x ≤ 0)))
      (fun t => panelCells (p t).vlm (p t).csys (p t).csys ((p t).set.sails[b]?.getD p0.set.sails[b])
        (highest (p t).csys ((p t).vlm.vars.map PanelVars.cp) n hM b) (tws (b * M + k) t) (b * M + k))
      (panelCells p0.vlm p0.csys p0.csys p0.set.sails[b]
        (highest p0.csys (p0.vlm.vars.map PanelVars.cp) n hM b) (tws0 (b * M + k)) (b * M + k)) := by
    intro b hb k hk
    have hbM : b * M + k < n * M := by
      calc b * M + k < b * M + M := by omega
        _ = (b + 1) * M := by ring
        _ ≤ _ := Nat.mul_le_mul_right _ hb
    refine panelCells_conv C hcp (hz0 _ (by omega)) hheel hleeway hvref ?_ (htack' b hb) (hhigh b hb) (hne0 b hb)
      (lengthToXyz_conv hW (hW.speed.mul ((heightFactor_near (hrow0 b hb k hk).1).2.tendsto.comp (abs_z_conv (hcp _))))) hW ?_
      (by rw [(vlm_lengths hv0).1]; rfl)
    · filter_upwards [hnames, hlens] with t t1 t2
      rw [List.getElem?_eq_getElem (by omega), Option.getD_some]
      have := List.getElem_of_eq t1 (i := b) (by simp; omega)
      simpa using this
    · filter_upwards [hgoodt] with t ht
      obtain ⟨-, -, -, hv, -⟩ := prepare_data ht.1 ht.2
      rw [(vlm_lengths hv).1]; rfl
  have hcols : ∀ᶠ t in l, (tb t).components.map Prod.fst = T0.components.map Prod.fst := by
    filter_upwards [hrow] with t ht
    rw [(ht 0 hnpos 0 hM).1, (hrow0 0 hnpos 0 hM).2.1]
    exact (hcells 0 hnpos 0 hM).names t
  refine ⟨hcols, ?_, ?_, ?_, ?_, ?_⟩
  · filter_upwards [hcols, htb] with t t1 t2
    have e1 : ∀ {F : Frame}, (∀ x ∈ F, x.2.length = n * M) → F.map (fun x => x.2.length) = List.replicate F.length (n * M) := fun hF =>
      List.eq_replicate_iff.2 ⟨by simp, fun y hy => by
        obtain ⟨x, hx, rfl⟩ := List.mem_map.1 hy
        exact hF x hx⟩
    rw [e1 t2.lengths, e1 hT0.lengths]
    have : (tb t).components.length = T0.components.length := by simpa using congrArg List.length t1
    rw [this]
  · intro name q hj
    by_cases hq : q < n * M
    · have hbq : q / M < n := Nat.div_lt_of_lt_mul (by rw [mul_comm]; exact hq)
      have hkq : q % M < M := Nat.mod_lt _ hM
      have eq : q / M * M + q % M = q := Nat.div_add_mod' q M
      by_cases hname : name ∈ T0.components.map Prod.fst
      · obtain ⟨-, r1, r2⟩ := hrow0 _ hbq _ hkq
        have hcl := hcells _ hbq _ hkq
        rw [eq] at r1 r2 hcl
        rw [r1] at hname
        obtain ⟨⟨name', x0⟩, hx, e⟩ := List.mem_map.1 hname
        simp only at e
        subst e
        have hok : ¬ (((name' = "AWA_fs_COG_deg" ∨ name' = "AWA_fs_COW_deg") ∧ (row p0.vlm.out.vFsCp q).x = 0) ∨
            ((name' = "AWA_infs_COG_deg" ∨ name' = "AWA_infs_COW_deg") ∧ ((windGetProfile c0.wind).appInfs (tws0 q)).y = 0 ∧
              ((windGetProfile c0.wind).appInfs (tws0 q)).x ≤ 0)) := by
          have hwin : p0.vlm.input.wind = windGetProfile c0.wind := by rw [(vlm_lengths hv0).1]; rfl
          intro hc
          apply hj
          rcases hc with ⟨hc1, hc2⟩ | ⟨hc1, hc2, hc3⟩
          · refine .inl ⟨hc1, ?_⟩
            have := r2 ("V_app_fs_COG.x", .num (row p0.vlm.out.vFsCp q).x) (by simp [panelCells, vecCells])
            rw [hc2] at this
            exact this
          · have hy := r2 ("V_app_infs_COG.y", .num ((windGetProfile c0.wind).appInfs (tws0 q)).y) (by simp [panelCells, vecCells, hwin])
            have hx := r2 ("V_app_infs_COG.x", .num ((windGetProfile c0.wind).appInfs (tws0 q)).x) (by simp [panelCells, vecCells, hwin])
            rw [hc2] at hy
            exact .inr ⟨hc1, hy, _, hc3, hx⟩
        obtain ⟨x, x1, x2⟩ := hcl.mem hx hok
        have e0 := r2 _ hx
        simp only at e0
        rw [e0]
        refine NearCell.congr' x2 ?_
        filter_upwards [hrow] with t ht
        have := (ht _ hbq _ hkq).2
        rw [eq] at this
        exact (this _ (x1 t)).symm
      · rw [cell_none_column hname]
        exact nearCell_const (hcols.mono fun t ht => cell_none_column (by rw [ht]; exact hname) q)
    · rw [cell_none_row hT0.lengths (by rw [← hn]; omega)]
      exact nearCell_const (htb.mono fun t ht => cell_none_row ht.lengths (by omega) name)
  · intro key
    rw [hint0, hflow0]
    refine NearNumber.congr' (hI key) ?_
    filter_upwards [hgoodt, htb] with t t1 t2
    rw [(saveResults_integrals t2.saved).1, (hres t t1).2]
  · filter_upwards [htb, hgoodt] with t t1 t2
    have e := (saveResults_integrals t1.saved).2
    have hw : (p t).vlm.inlet.winds = windGetProfile (c t).wind := by
      obtain ⟨-, -, -, hv, -⟩ := prepare_data t2.1 t2.2
      obtain ⟨hi, -, -⟩ := vlm_inlet hv
      rw [((inletConditions_ok_iff _ _ _ _).1 hi).2.2]
      rfl
    rw [hw, hic t] at e
    rw [← Except.ok.inj e]
    exact hicn t
  · intro name hj
    refine NearNumber.congr' (hicv name hj) ?_
    filter_upwards [htb, hgoodt] with t t1 t2
    have e := (saveResults_integrals t1.saved).2
    have hw : (p t).vlm.inlet.winds = windGetProfile (c t).wind := by
      obtain ⟨-, -, -, hv, -⟩ := prepare_data t2.1 t2.2
      obtain ⟨hi, -, -⟩ := vlm_inlet hv
      rw [((inletConditions_ok_iff _ _ _ _).1 hi).2.2]
      rfl
    rw [hw, hic t] at e
    rw [← Except.ok.inj e]

/-- The calculation of a run with a flat upright main sail: all that C133 asks of the lattice. -/
theorem flat_solved {c0 : Config} {luff chord τ : ℝ} (h : FlatMain c0 luff chord τ)
    (hbig : 2e-4 < chord / c0.solver.nc * (luff / c0.solver.ns)) (hstrip : 2e-8 < luff / c0.solver.ns) (hrho : c0.rho ≠ 0) {u : V3} {M : ℝ}
    (hw : WindAlong (windGetProfile c0.wind) u M (c0.rig.sheer + c0.rig.boom) (c0.rig.sheer + c0.rig.boom + luff))
    (hfront : 0 ≤ u.dot (leechDirection c0.leewayDeg τ)) :
    ∃ p0 t0, prepare fitpackSpline c0 = .ok p0 ∧ OffSwitches p0.vlm.input p0.vlm.vars ∧
      (∀ v ∈ p0.vlm.vars, c0.rig.sheer + c0.rig.boom < |v.cp.z| ∧ |v.cp.z| < c0.rig.sheer + c0.rig.boom + luff) ∧ (∀ v ∈ p0.vlm.vars, v.cp.z ≠ 0) ∧
      .workbook (some t0) ∈ (run fitpackSpline c0).1 := by
  obtain ⟨⟨s0, θ0⟩, sail, set, F, e1, e2, hcs, htz, hhz, hs, hset, hso⟩ := h.sail
  simp only at F e1 e2 hcs htz hhz hs
  have hwf := h.wellFormed
  rw [← e1, ← e2, show luff = s0.head.z - s0.tack.z by rw [htz, hhz]; ring] at hbig
  rw [← e2, show luff = s0.head.z - s0.tack.z by rw [htz, hhz]; ring] at hstrip
  rw [← hhz, ← htz] at hw
  obtain ⟨hu1, huz, hwind⟩ := hw
  choose! W lam hW hl hM hWl using hwind
  have hsolved := F.solved hbig.le hs hset hu1 huz hW hWl hl (by rw [hcs]; exact hfront) hrho (g := -1) (by norm_num)
  set r0 := FlatSail.result set (-1) c0.rho s0 θ0 (windGetProfile c0.wind) W with hr0
  have P := F.planar hbig.le
  have hf : List.Forall₂ (BuiltFrom s0.nc s0.ns) [(s0, θ0)] [sail] := List.Forall₂.cons ⟨F.ok, rfl, rfl, hs⟩ List.Forall₂.nil
  obtain ⟨hp, -, -⟩ := sailSet_blocks hf hset
  have hp' : set.panels = blockPanels s0.nc s0.ns (FlatSail.blocks s0 θ0) := hp
  have hoff : OffSwitches r0.input r0.vars := flat_offSwitches F hbig hstrip hp' (-1) c0.rho _ W
  have hz : ∀ v ∈ r0.vars, s0.tack.z < |v.cp.z| ∧ |v.cp.z| < s0.head.z := by
    intro p hpm
    obtain ⟨b, i, j, hb, hi, hj, rfl⟩ := PlanarBlocks.mem_vars hpm
    have hz : |(meshVars (-1) s0.nc (FlatSail.blocks s0 θ0)[b] i j).cp.z| = FlatSail.midHeight s0 b j := by
      rw [(P.meshVars_eq (-1) hb hi hj).2.2.1]
      simp [planePt, FlatSail.origin, leechDirection, FlatSail.midHeight]
    rw [hz]
    exact F.midHeight_mem (by simpa [FlatSail.blocks] using hb) hj
  have ht0 := F.ok.tack_z
  obtain ⟨base, hbase⟩ := Option.ne_none_iff_exists'.1 hwf.base
  obtain ⟨p0, hp0, q1, q2, q3⟩ := prepare_of (withTwist_default hwf.main_twist 12 5) (withTwist_default hwf.jib_twist 15 7)
    (windPostInit_ok hwf.wind) (wellFormed_validation hwf) hso hbase (r := r0) (by rw [e1, e2] at hsolved; exact hsolved)
  obtain ⟨hnn, hM', -, -⟩ := prepared_shape hp0
  have hsails : set.sails = [sail] := by
    unfold sailSet at hset
    rw [if_neg (by simp)] at hset
    cases hset
    rfl
  obtain ⟨g, hg, -, -, -, htm, -⟩ := sailGeometry_ok F.ok
  obtain rfl : sail = g := by rw [hs] at hg; exact Except.ok.inj hg
  have hmem : meshVars (-1) s0.nc (s0.aboveTwisted θ0) 0 0 ∈ r0.vars := by
    show _ ∈ PlanarBlocks.vars (-1) s0.nc s0.ns (FlatSail.blocks s0 θ0)
    unfold PlanarBlocks.vars
    refine List.mem_flatten.2 ⟨_, List.mem_map.2 ⟨_, List.mem_cons_self, rfl⟩, ?_⟩
    exact List.mem_flatMap.2 ⟨0, List.mem_range.2 F.ok.nc_pos, List.mem_map.2 ⟨0, List.mem_range.2 F.ok.ns_pos, rfl⟩⟩
  obtain ⟨ic, hic⟩ := windIntegral_ok (hW ((s0.tack.z + s0.head.z) / 2) (by linarith [F.up]) (by linarith [F.up])) h.reference p0.csys
  have hne : ∀ b (hb : b < p0.set.sails.length), highest p0.csys (p0.vlm.vars.map PanelVars.cp) 1 hM' b ≠ p0.set.sails[b].tackMounting.z := by
    intro b hb
    have hb0 : b = 0 := by rw [q2, hsails] at hb; simpa using hb
    subst hb0
    have hb' : 0 < (FlatSail.blocks s0 θ0).length := by simp [FlatSail.blocks]
    have hzv : 0 < (meshVars (-1) s0.nc (s0.aboveTwisted θ0) 0 0).cp.z := by
      have e : (meshVars (-1) s0.nc (s0.aboveTwisted θ0) 0 0).cp.z = (FlatSail.rows s0 0 0 + FlatSail.rows s0 0 (0 + 1)) / 2 := by
        have := (P.meshVars_eq (-1) hb' F.ok.nc_pos F.ok.ns_pos).2.2.1
        have e' : (FlatSail.blocks s0 θ0)[0] = s0.aboveTwisted θ0 := rfl
        rw [e'] at this
        rw [this]
        simp [planePt, FlatSail.origin, leechDirection]
      have h1 := F.rows_mem (r := 0) (by omega)
      have h2 := F.rows_mono 0 (Nat.lt_succ_self 0)
      rw [e]
      linarith
    have hgt := (hz _ hmem).1
    rw [abs_of_pos hzv] at hgt
    have hset' : p0.set.sails[0].tackMounting.z = s0.tack.z := by
      have : p0.set.sails[0] = sail := by
        simp only [q2, hsails, List.getElem_cons_zero]
      rw [this, htm]
    rw [hset']
    apply ne_of_gt
    refine lt_of_lt_of_le hgt ?_
    have hrev : (p0.csys.reverseRotationsWithMirror (meshVars (-1) s0.nc (s0.aboveTwisted θ0) 0 0).cp).z =
        (meshVars (-1) s0.nc (s0.aboveTwisted θ0) 0 0).cp.z := by
      have hh : p0.csys.heelDeg = 0 := by rw [q1]; exact h.upright
      unfold Csys.reverseRotationsWithMirror
      simp only [Csys.reverseLeeway_mulVec, Csys.reverseHeeling_mulVec, hh]
      rw [if_pos hzv]
      simp [deg2rad]
    rw [q3]
    obtain ⟨q, hq, eq⟩ := List.getElem_of_mem hmem
    have hrow : row (r0.vars.map PanelVars.cp) q = (meshVars (-1) s0.nc (s0.aboveTwisted θ0) 0 0).cp := by
      unfold row
      rw [List.getD_eq_getElem?_getD, List.getElem?_map, List.getElem?_eq_getElem hq, eq]
      rfl
    have hql : q < 2 * (c0.solver.nc * c0.solver.ns) := by
      have e : r0.vars.length = set.panels.length := (vlm_lengths hsolved).2.1
      rw [hp', blockPanels_length, e1, e2] at e
      have e' : (FlatSail.blocks s0 θ0).length = 2 := rfl
      rw [e'] at e
      omega
    unfold highest
    by_cases hlt : q < c0.solver.nc * c0.solver.ns
    · refine le_trans ?_ (Finset.le_sup' _ (Finset.mem_range.2 hlt))
      refine le_trans ?_ (le_max_left _ _)
      rw [zero_mul, zero_add, hrow, hrev]
    · refine le_trans ?_ (Finset.le_sup' _ (Finset.mem_range.2 (show q - c0.solver.nc * c0.solver.ns < _ by omega)))
      refine le_trans ?_ (le_max_right _ _)
      rw [zero_mul, zero_add, one_mul, show c0.solver.nc * c0.solver.ns + (q - c0.solver.nc * c0.solver.ns) = q by omega, hrow, hrev]
  obtain ⟨t0, hT⟩ := tableOf hM' rfl hwf hp0 (by rw [q2, hsails]; rfl) hic hne
  refine ⟨p0, t0, hp0, by rw [q3]; exact hoff, ?_, ?_, workbook_mem hp0 hT.saved⟩
  · rw [q3, ← hhz, ← htz]
    exact hz
  · rw [q3]
    intro v hv e
    have := (hz v hv).1
    rw [e, abs_zero] at this
    linarith

/-- A flat upright main sail with its foot above the water meets all that C133 asks of the limit. -/
theorem flat_limit {c0 : Config} {luff chord τ : ℝ} (h : FlatMain c0 luff chord τ)
    (hbig : 2e-4 < chord / c0.solver.nc * (luff / c0.solver.ns)) (hstrip : 2e-8 < luff / c0.solver.ns) (hrho : c0.rho ≠ 0) {u : V3} {M : ℝ}
    (hw : WindAlong (windGetProfile c0.wind) u M (c0.rig.sheer + c0.rig.boom) (c0.rig.sheer + c0.rig.boom + luff))
    (hfront : 0 ≤ u.dot (leechDirection c0.leewayDeg τ))
    (hlevel : ∀ h, c0.rig.sheer + c0.rig.boom < h → h < c0.rig.sheer + c0.rig.boom + luff →
      ¬ AtWaterLevel (windGetProfile c0.wind).profile h) :
    ∃ p0 t0, prepare fitpackSpline c0 = .ok p0 ∧ OffSwitches p0.vlm.input p0.vlm.vars ∧
      (∀ v ∈ p0.vlm.vars, ¬ AtWaterLevel (windGetProfile c0.wind).profile |v.cp.z|) ∧ (∀ v ∈ p0.vlm.vars, v.cp.z ≠ 0) ∧
      .workbook (some t0) ∈ (run fitpackSpline c0).1 := by
  obtain ⟨p0, t0, h1, h2, h3, h4, h5⟩ := flat_solved h hbig hstrip hrho hw hfront
  exact ⟨p0, t0, h1, h2, fun v hv => hlevel _ (h3 v hv).1 (h3 v hv).2, h4, h5⟩

/-- **C133**, nearly flat main sails: if the limit is an upright flat main sail (panels larger than `2e-4`) in a wind of constant
direction that does not come from behind, nothing has to be known about its calculation: it writes a workbook, so do all nearby
configurations, and their workbooks tend to it. -/
theorem C133_nearly_flat {c : T → Config} {c0 : Config} (N : NearConfig l c c0) (hwf : ∀ᶠ t in l, WellFormed (c t)) {luff chord τ : ℝ}
    (h : FlatMain c0 luff chord τ) (hbig : 2e-4 < chord / c0.solver.nc * (luff / c0.solver.ns)) (hstrip : 2e-8 < luff / c0.solver.ns)
    (hrho : c0.rho ≠ 0) {u : V3} {M : ℝ}
    (hw : WindAlong (windGetProfile c0.wind) u M (c0.rig.sheer + c0.rig.boom) (c0.rig.sheer + c0.rig.boom + luff))
    (hfront : 0 ≤ u.dot (leechDirection c0.leewayDeg τ))
    (hlevel : ∀ h, c0.rig.sheer + c0.rig.boom < h → h < c0.rig.sheer + c0.rig.boom + luff →
      ¬ AtWaterLevel (windGetProfile c0.wind).profile h) :
    ∃ (t0 : SavedResults) (t : T → SavedResults), .workbook (some t0) ∈ (run fitpackSpline c0).1 ∧
      (∀ᶠ x in l, .workbook (some (t x)) ∈ (run fitpackSpline (c x)).1) ∧ NearWorkbook l t t0 := by
  obtain ⟨p0, t0, h1, h2, h3, h4, h5⟩ := flat_limit h hbig hstrip hrho hw hfront hlevel
  obtain ⟨t, h6, h7⟩ := C133_nearby N hwf h.wellFormed h1 h2 h3 h4 h5
  exact ⟨t0, t, h5, h6, h7⟩

/-- The configuration of `rectangle_variables.py` with some camber and other angles of leeway, wind and twist. -/
noncomputable def rectangleNear (camber angle : ℝ) : Config :=
  { rectangleConfig with
    leewayDeg := angle
    wind := { rectangleConfig.wind with alphaDeg := 1 + angle }
    main := ⟨some (shippedMainGirths.map fun x => -10 + angle * x), some shippedMainGirths, some (List.replicate 7 1),
      some (List.replicate 7 (camber * 0.01)), some (List.replicate 7 0.5)⟩ }

theorem nearArray_const (x : Option (List ℝ)) : NearArray l (fun _ => x) x := by
  cases x with
  | none => exact .of_forall fun _ => rfl
  | some a => exact ⟨fun _ => a, .of_forall fun _ => ⟨rfl, rfl⟩, fun _ _ => tendsto_const_nhds⟩

theorem rectangleNear_wellFormed {camber angle : ℝ} (h0 : 0 ≤ camber) (h1 : camber ≤ 30) :
    WellFormed (rectangleNear camber angle) := by
  have W := rectangle_wellFormed
  exact { W with
    main_twist := .inl (by simp [rectangleNear])
    main := fun hm => ⟨(W.main hm).1, _, _, _, _, _, C108_uniform (uniform_main (camber := camber * 0.01) (Or.inr rfl) rfl rfl
      (by simp [shippedMainGirths]) (by positivity) (by norm_num; linarith))⟩
    wind := by simp [WindIncomplete, rectangleNear, rectangleConfig] }

/-- **C133**, a concrete case: the results of the shipped settings file `rectangle_variables.py` change continuously with the
camber and the angles of leeway, wind and twist. -/
theorem C133_rectangle : ∃ (t0 : SavedResults) (t : ℝ × ℝ → SavedResults),
    .workbook (some t0) ∈ (run fitpackSpline rectangleConfig).1 ∧
    (∀ᶠ x in 𝓝[{x : ℝ × ℝ | 0 ≤ x.1}] (0, 0), .workbook (some (t x)) ∈ (run fitpackSpline (rectangleNear x.1 x.2)).1) ∧
    NearWorkbook (𝓝[{x : ℝ × ℝ | 0 ≤ x.1}] (0, 0)) t t0 := by
  have t1 : Tendsto (fun x : ℝ × ℝ => x.1) (𝓝[{x : ℝ × ℝ | 0 ≤ x.1}] (0, 0)) (𝓝 0) := tendsto_nhdsWithin_of_tendsto_nhds continuous_fst.continuousAt
  have t2 : Tendsto (fun x : ℝ × ℝ => x.2) (𝓝[{x : ℝ × ℝ | 0 ≤ x.1}] (0, 0)) (𝓝 0) := tendsto_nhdsWithin_of_tendsto_nhds continuous_snd.continuousAt
  have N : NearConfig (𝓝[{x : ℝ × ℝ | 0 ≤ x.1}] (0, 0)) (fun x => rectangleNear x.1 x.2) rectangleConfig := {
    heel := tendsto_const_nhds
    leeway := t2
    rho := tendsto_const_nhds
    alpha := by simpa [rectangleNear, rectangleConfig] using t2.const_add 1
    speed := tendsto_const_nhds
    yacht := tendsto_const_nhds
    profile := fun _ => rfl
    solver := fun _ => rfl
    rig := ⟨nearNumber_const _, nearNumber_const _, nearNumber_const _,
      nearNumber_const _, tendsto_const_nhds, tendsto_const_nhds, tendsto_const_nhds, tendsto_const_nhds, fun _ => rfl⟩
    main := {
      twist := by
        refine ⟨fun x => shippedMainGirths.map fun y => -10 + x.2 * y, .of_forall fun _ => ⟨rfl, by simp⟩, fun i hi => ?_⟩
        simp only [List.length_map] at hi
        simp only [List.getD_eq_getElem?_getD, List.getElem?_map, List.getElem?_eq_getElem hi, Option.map_some, Option.getD_some]
        exact (t2.mul_const _).const_add _
      girths := nearArray_const _
      chords := nearArray_const _
      camber := by
        refine ⟨fun x => List.replicate 7 (x.1 * 0.01), .of_forall fun _ => ⟨rfl, by simp⟩, fun i hi => ?_⟩
        simp only [List.length_replicate] at hi
        simp only [List.getD_eq_getElem?_getD, List.getElem?_replicate, if_pos hi, Option.getD_some]
        exact t1.mul_const _
      distance := nearArray_const _ }
    jib := ⟨nearArray_const _, nearArray_const _, nearArray_const _, nearArray_const _, nearArray_const _⟩
    vRef := ⟨tendsto_const_nhds, tendsto_const_nhds, tendsto_const_nhds⟩
    clr := ⟨tendsto_const_nhds, tendsto_const_nhds, tendsto_const_nhds⟩ }
  obtain ⟨u, M, h1, h2⟩ := rectangle_wind
  refine C133_nearly_flat N ?_ rectangle_flat (by norm_num [rectangleConfig]) (by norm_num [rectangleConfig]) (by norm_num [rectangleConfig])
    (h1 _ _) h2 ?_
  · filter_upwards [self_mem_nhdsWithin, t1.eventually_le_const (show (0 : ℝ) < 30 by norm_num)] with x x1 x2
    exact rectangleNear_wellFormed x1 x2
  · rintro h - - ⟨a, b, d, e, -⟩
    simp [windGetProfile, rectangleConfig] at e

end PySailing.Props
