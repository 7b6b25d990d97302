import Verif.Lemmas.ArithRunBook
import Verif.Lemmas.ArithRunExact
import Verif.Lemmas.RoundingRun
import Verif.Props.ArithSail
import Verif.Props.NearRun

/-!
# C134: a run of the program with machine numbers
-/

namespace PySailing.Props

open PySailing PySailing.Spec Filter Topology

variable {T : Type} {l : Filter T} {growth : ℕ → ℝ} {condition : ℕ → ℝ → ℝ} {A : T → RunArith} {u : T → ℝ}

theorem nearNumber_of_close (hu : Tendsto u l (𝓝 0)) {x : T → Option ℝ} {x0 : Option ℝ} (h : ∀ t, CloseNumber (u t) (x t) x0) : NearNumber l x x0 := by
  cases x0 with
  | none =>
    refine .of_forall fun t => ?_
    have := h t
    cases hx : x t with
    | none => rfl
    | some a => rw [hx] at this; cases this
  | some a =>
    have key : ∀ t, ∃ y, x t = some y ∧ |y - a| ≤ u t := fun t => by
      have := h t
      cases hx : x t with
      | none => rw [hx] at this; cases this
      | some y => rw [hx] at this; cases this with | some h => exact ⟨y, rfl, h⟩
    choose y hy hn using key
    exact ⟨y, .of_forall hy, tendsto_near hu hn⟩

theorem nearArray_of_close (hu : Tendsto u l (𝓝 0)) (h0 : ∀ t, 0 ≤ u t) {x : T → Option (List ℝ)} {x0 : Option (List ℝ)}
    (h : ∀ t, CloseArray (u t) (x t) x0) : NearArray l x x0 := by
  cases x0 with
  | none =>
    refine .of_forall fun t => ?_
    have := h t
    cases hx : x t with
    | none => rfl
    | some a => rw [hx] at this; cases this
  | some a =>
    have key : ∀ t, ∃ y, x t = some y ∧ NearList (u t) y a := fun t => by
      have := h t
      cases hx : x t with
      | none => rw [hx] at this; cases this
      | some y => rw [hx] at this; cases this with | some h => exact ⟨y, rfl, h⟩
    choose y hy hn using key
    exact ⟨y, .of_forall fun t => ⟨hy t, (hn t).length_eq⟩, fun i _ =>
      tendsto_near hu fun t => forall₂_getD (hn t) i 0 0 (by simpa using h0 t)⟩

theorem nearSailConf_of_close (hu : Tendsto u l (𝓝 0)) (h0 : ∀ t, 0 ≤ u t) {s : T → SailConf} {s0 : SailConf}
    (h : ∀ t, CloseSailConf (u t) (s t) s0) : NearSailConf l s s0 :=
  ⟨nearArray_of_close hu h0 fun t => (h t).twist, nearArray_of_close hu h0 fun t => (h t).girths,
    nearArray_of_close hu h0 fun t => (h t).chords, nearArray_of_close hu h0 fun t => (h t).camber,
    nearArray_of_close hu h0 fun t => (h t).distance⟩

theorem nearConfig_of_close (hu : Tendsto u l (𝓝 0)) (h0 : ∀ t, 0 ≤ u t) {c : T → Config} {c0 : Config}
    (h : ∀ t, CloseConfig (u t) (c t) c0) : NearConfig l c c0 where
  heel := tendsto_near hu fun t => (h t).heel
  leeway := tendsto_near hu fun t => (h t).leeway
  rho := tendsto_near hu fun t => (h t).rho
  alpha := tendsto_near hu fun t => (h t).alpha
  speed := tendsto_near hu fun t => (h t).speed
  yacht := tendsto_near hu fun t => (h t).yacht
  profile t := (h t).profile
  solver t := (h t).solver
  rig := ⟨nearNumber_of_close hu fun t => (h t).rig.mainLuff, nearNumber_of_close hu fun t => (h t).rig.jibLuff,
    nearNumber_of_close hu fun t => (h t).rig.height, nearNumber_of_close hu fun t => (h t).rig.base,
    tendsto_near hu fun t => (h t).rig.sheer, tendsto_near hu fun t => (h t).rig.boom, tendsto_near hu fun t => (h t).rig.rake,
    tendsto_near hu fun t => (h t).rig.mastLOA, fun t => (h t).rig.sailsDef⟩
  main := nearSailConf_of_close hu h0 fun t => (h t).main
  jib := nearSailConf_of_close hu h0 fun t => (h t).jib
  vRef := conv_near hu fun t => (h t).vRef
  clr := conv_near hu fun t => (h t).clr

theorem mapM_names : ∀ {ss : List SailInput} {gs : List SailGeom}, ss.mapM sailGeometry = .ok gs →
    gs.map SailGeom.name = ss.map SailInput.name
  | [], gs, h => by cases h; rfl
  | s :: ss, gs, h => by
    rw [List.mapM_cons] at h
    cases hg : sailGeometry s with
    | error e => rw [hg] at h; cases h
    | ok g =>
      cases hr : ss.mapM sailGeometry with
      | error e => rw [hg, hr] at h; cases h
      | ok r =>
        rw [hg, hr] at h
        cases h
        rw [List.map_cons, List.map_cons, mapM_names hr]
        rw [← ExactSail.sailGeometry] at hg
        rw [SailArith.sailGeometry_name hg]

theorem integrals_names (B : RunArith) {ss ss' : List SailGeom} (h : ss.map SailGeom.name = ss'.map SailGeom.name) (Y : M3) (v clr : V3)
    (cps F : List V3) : B.integrals ss Y v clr cps F = B.integrals ss' Y v clr cps F := by
  have hl : ss.length = ss'.length := by simpa using congrArg List.length h
  unfold RunArith.integrals
  rw [hl]
  simp only [RefinedRun.flowSails_names B _ _ _ h]

/-- The limit of rounded runs. -/
theorem rounded_prepare (R : RefinedRun l growth condition A u) {c : T → Config} {c0 : Config} (N : NearConfig l c c0) (h0 : WellFormed c0)
    (hx : c0.rig.sailsDef ≠ "main" → ∀ b h, c0.rig.base = some b → c0.rig.height = some h → (forestay c0.rig.rakeDeg b h).x ≠ 0)
    (hrange : ∀ᶠ t in l, ComputedInRange (A t) (c t)) {p0 : Prepared} (hp0 : prepare fitpackSpline c0 = .ok p0)
    (hoff : OffSwitches p0.vlm.input p0.vlm.vars) (hlevel : ∀ v ∈ p0.vlm.vars, ¬ AtWaterLevel (windGetProfile c0.wind).profile |v.cp.z|)
    (hz : ∀ v ∈ p0.vlm.vars, v.cp.z ≠ 0) :
    ∃ (V : T → List V3) (f : T → VlmSolution p0.vlm.vars.length) (d : T → PyDict),
      (∀ᶠ t in l, (A t).prepare (c t) = .ok (V t, (f t).arrays, d t) ∧ (V t).length = p0.vlm.inlet.vAppInfs.length) ∧
      (∀ k, Conv l (fun t => (V t).getD k 0) (p0.vlm.inlet.vAppInfs.getD k 0)) ∧ ConvSol l f p0.vlm.sol ∧ UDict l d p0.flow.toDfIntegral := by
  obtain ⟨main, hm, hMN⟩ := R.withTwist N.main h0.main_twist 12 5
  obtain ⟨jib, hj, hJN⟩ := R.withTwist N.jib h0.jib_twist 15 7
  obtain ⟨M, hM, M1, -, M3'⟩ := R.csysInit (c := fun t => ⟨(c t).heelDeg, (c t).leewayDeg, (c t).vRef⟩)
    (c0 := ⟨c0.heelDeg, c0.leewayDeg, c0.vRef⟩) N.heel N.leeway
  have hcheck := checks_ok N h0 hMN hJN
  obtain ⟨hcs0, hset0, hclr0, hv0, res0, hres0, hflow0⟩ := prepare_data h0 hp0
  obtain ⟨m, hm0, ss, ss0, names, S, hmap, hsetOf⟩ := R.sails N h0 hx hrange hm hMN hj hJN hset0
  have hcalc : calculateSails (List.ofFn fun b => (ss0 b).1) c0.solver.nc c0.solver.ns c0.rho (-1) (windGetProfile c0.wind) = .ok p0.vlm := by
    unfold calculateSails
    rw [hmap]
    simp only [Bind.bind, Except.bind]
    rw [sailSetOf_sails hset0]
    exact hv0
  obtain ⟨V, f, cps, h1, h2, h3, h4, h5⟩ := R.sail.setOfSails hm0 c0.solver.nc c0.solver.ns (fun b => (S b).tends) (fun b => (S b).ok)
    (fun b => (S b).nc_eq) (fun b => (S b).ns_eq) N.rho (nearConfig_wind N) (-1) hcalc hoff hlevel
  have hwind : ∀ t, windPostInit (c t).wind = .ok () := fun t => by
    have := windPostInit_ok h0.wind
    rw [N.profile t]
    exact this
  have hnames0 : p0.set.sails.map SailGeom.name = List.ofFn names := by
    rw [mapM_names hmap, List.map_ofFn]
    congr 1
    funext b
    exact (S b).name_eq
  obtain ⟨base, hb⟩ := Option.ne_none_iff_exists'.1 h0.base
  obtain ⟨bs, b1, -⟩ := nearNumber_some N.rig.base hb
  have hcps : ConvVL l cps p0.vlm.flowArrays.cp := ⟨.of_forall fun t => by rw [h2 t]; simp [Vlm.flowArrays], h3⟩
  have hF : ConvVL l (fun t => (f t).arrays.force) p0.vlm.flowArrays.force := by
    refine convVL_of (.of_forall fun t => ?_) fun k hk => ?_
    · simp [Vlm.flowArrays, Vlm.out, VlmSolution.arrays]
    · have hk' : k < p0.vlm.vars.length := by simpa [Vlm.flowArrays, Vlm.out, VlmSolution.arrays] using hk
      simpa [Vlm.flowArrays, Vlm.out, VlmSolution.arrays, hk'] using h5.force ⟨k, hk'⟩
  have hint : exactRun.integrals p0.set.sails p0.csys.leeway p0.csys.vRef p0.hull.clr p0.vlm.flowArrays.cp p0.vlm.flowArrays.force =
      .ok p0.flow.toDfIntegral := by
    rw [ExactRun.integrals, hres0, hflow0]
    rfl
  have hY : ConvM l (fun t => (M t).2.2) p0.csys.leeway := by rw [hcs0]; exact M3'
  have hclr : Conv l (fun t => (A t).mulVec (M t).2.2 ((A t).mulVec (M t).1 (c t).clrUpright)) p0.hull.clr := by
    rw [hclr0, hcs0]
    exact R.full.mulVec M3' (R.full.mulVec M1 N.clr)
  obtain ⟨d, d1, d2⟩ := R.integrals (sails := fun _ => p0.set.sails) (.of_forall fun _ => rfl) hY (v := fun t => (c t).vRef)
    (by rw [hcs0]; exact N.vRef) hclr hcps hF (fun k hk => by
      obtain ⟨v, v1, v2⟩ := row_mem_vars (vs := p0.vlm.vars) (q := k) (by simpa [Vlm.flowArrays] using hk)
      have : (p0.vlm.flowArrays.cp.getD k 0) = v.cp := v2
      rw [this]
      exact hz v v1) hint
  refine ⟨V, f, d, ?_, h4, h5, d2⟩
  filter_upwards [hm, hj, hM, hcheck, hsetOf, h1, b1, d1] with t t1 t2 t3 t4 t5 t6 t7 t8
  obtain ⟨gm, set, vars, e1, e2, e3, e4, e5, e6⟩ := t6
  refine ⟨?_, e6⟩
  have hsails : set.sails = List.ofFn gm := by
    unfold sailSet at e2
    split_ifs at e2
    cases e2; rfl
  have hnames : set.sails.map SailGeom.name = p0.set.sails.map SailGeom.name := by
    rw [hsails, hnames0, List.map_ofFn]
    congr 1
    funext b
    exact (SailArith.sailGeometry_name (e1 b)).trans ((S b).names t)
  have hgeo : (A t).prepareGeometry (c t) = .ok (M t, set, (A t).mulVec (M t).2.2 ((A t).mulVec (M t).1 (c t).clrUpright)) := by
    unfold RunArith.prepareGeometry
    simp only [t1, t2, t3, hwind t, t4, t5 gm e1, e2, t7, need, Bind.bind, Except.bind]
  unfold RunArith.prepare
  rw [hgeo]
  simp only [Bind.bind, Except.bind]
  rw [N.solver t, e3]
  have e5' : (A t).vlm ((c t).vlmInput set (windGetProfile (c t).wind)) = .ok (V t, (f t).arrays) := by
    unfold Config.vlmInput
    rw [N.solver t]
    exact e5
  simp only [nanTrap, e5']
  rw [e4, integrals_names (A t) hnames, t8]

theorem range_step (R : RefinedRun l growth condition A u) {s : SolverConf} (hns : 0 < s.ns) {c : T → SailConf} {c0 : SailConf}
    (hc : NearSailConf l c c0) {gi0 ch0 tw0 ca0 di0 : List ℝ} (G : GoodSail s.interpolation c0 gi0 ch0 tw0 ca0 di0)
    (hr : ∀ ch tw ca di, interpolatedSail fitpackSpline s c0 = .ok (ch, tw, ca, di) → (∀ m ∈ ca, 0 < m ∧ m < 0.3) ∧ ∀ p ∈ di, p < 0.9) :
    ∀ᶠ t in l, ∀ ch tw ca di, (A t).interpolatedSail s (c t) = .ok (ch, tw, ca, di) →
      (∀ m ∈ ca, 0 ≤ m ∧ m ≤ (A t).lit 0.3) ∧ ∀ p ∈ di, p ≤ (A t).lit 0.9 := by
  obtain ⟨ch', tw', ca', di', hi, -⟩ := interpolatedSail_ok fitpackSpline s (Or.inr rfl) hns G
  obtain ⟨v1, v2, v3, v4, hv, q1, q2, q3, q4⟩ := R.interpolatedSail hns hc G hi
  obtain ⟨r1, r2⟩ := hr _ _ _ _ hi
  have l3 := R.base.lit 0.3
  have l9 := R.base.lit 0.9
  have e1 : ∀ᶠ t in l, ∀ k : Fin ca'.length, 0 ≤ (v3 t).getD k 0 ∧ (v3 t).getD k 0 ≤ (A t).lit 0.3 := eventually_all.2 fun k => by
    have hm := r1 (ca'.getD k 0) (by rw [getD_of_lt k.2]; exact List.getElem_mem _)
    filter_upwards [(q3.2 k).eventually_const_lt hm.1, (q3.2 k).eventually_lt l3 hm.2] with t t1 t2
    exact ⟨t1.le, t2.le⟩
  have e2 : ∀ᶠ t in l, ∀ k : Fin di'.length, (v4 t).getD k 0 ≤ (A t).lit 0.9 := eventually_all.2 fun k => by
    have hm := r2 (di'.getD k 0) (by rw [getD_of_lt k.2]; exact List.getElem_mem _)
    filter_upwards [(q4.2 k).eventually_lt l9 hm] with t t1
    exact t1.le
  filter_upwards [hv, q3.1, q4.1, e1, e2] with t t1 t2 t3 t4 t5 ch tw ca di h
  rw [t1] at h
  cases h
  constructor
  · intro m hm
    obtain ⟨k, hk, rfl⟩ := List.getElem_of_mem hm
    have := t4 ⟨k, by omega⟩
    rwa [getD_of_lt hk] at this
  · intro m hm
    obtain ⟨k, hk, rfl⟩ := List.getElem_of_mem hm
    have := t5 ⟨k, by omega⟩
    rwa [getD_of_lt hk] at this

/-- Computed camber is in range, if the exact one is in the interior. -/
theorem rounded_inRange (R : RefinedRun l growth condition A u) {c : T → Config} {c0 : Config} (N : NearConfig l c c0) (h0 : WellFormed c0)
    (hr : WellInRange c0) : ∀ᶠ t in l, ComputedInRange (A t) (c t) := by
  obtain ⟨main, hm, hMN⟩ := R.withTwist N.main h0.main_twist 12 5
  obtain ⟨jib, hj, hJN⟩ := R.withTwist N.jib h0.jib_twist 15 7
  have hns := h0.ns_pos
  have hJ : ∀ᶠ t in l, c0.rig.sailsDef ≠ "main" → ∀ ch tw ca di, (A t).interpolatedSail c0.solver (jib t) = .ok (ch, tw, ca, di) →
      (∀ m ∈ ca, 0 ≤ m ∧ m ≤ (A t).lit 0.3) ∧ ∀ p ∈ di, p ≤ (A t).lit 0.9 := by
    by_cases hd : c0.rig.sailsDef = "main"
    · exact .of_forall fun _ h => absurd hd h
    · obtain ⟨-, gi, ch, tw, ca, di, G⟩ := h0.jib hd
      exact (range_step R hns hJN G (hr.jib hd)).mono fun t ht _ => ht
  have hM : ∀ᶠ t in l, c0.rig.sailsDef ≠ "jib" → ∀ ch tw ca di, (A t).interpolatedSail c0.solver (main t) = .ok (ch, tw, ca, di) →
      (∀ m ∈ ca, 0 ≤ m ∧ m ≤ (A t).lit 0.3) ∧ ∀ p ∈ di, p ≤ (A t).lit 0.9 := by
    by_cases hd : c0.rig.sailsDef = "jib"
    · exact .of_forall fun _ h => absurd hd h
    · obtain ⟨-, gi, ch, tw, ca, di, G⟩ := h0.main hd
      exact (range_step R hns hMN G (hr.main hd)).mono fun t ht _ => ht
  filter_upwards [hm, hj, hJ, hM] with t t1 t2 t3 t4
  have hsd : (c t).rig.sailsDef = c0.rig.sailsDef := N.rig.sailsDef t
  constructor
  · intro hd jib' s e1 e2
    rw [t2] at e1
    cases e1
    rw [N.solver t] at e2
    unfold RunArith.jibInput at e2
    cases hi : (A t).interpolatedSail c0.solver (jib t) with
    | error e => rw [hi] at e2; cases e2
    | ok r =>
      obtain ⟨ch, tw, ca, di⟩ := r
      rw [hi] at e2
      have key := t3 (by rw [← hsd]; exact hd) _ _ _ _ hi
      simp only [Bind.bind, Except.bind] at e2
      repeat' split at e2
      all_goals first
        | (cases e2; done)
        | (cases e2; exact key)
  · intro hd jib' s e1 e2
    rw [t1] at e1
    cases e1
    rw [N.solver t] at e2
    unfold RunArith.mainInput at e2
    cases hi : (A t).interpolatedSail c0.solver (main t) with
    | error e => rw [hi] at e2; cases e2
    | ok r =>
      obtain ⟨ch, tw, ca, di⟩ := r
      rw [hi] at e2
      have key := t4 (by rw [← hsd]; exact hd) _ _ _ _ hi
      simp only [Bind.bind, Except.bind] at e2
      repeat' split at e2
      all_goals first
        | (cases e2; done)
        | (cases e2; exact key)

/-- **C134**: with exact operations the run of `Model/ArithRun.lean` is the run of `Model/Main.lean`. -/
theorem C134_exact (c : Config) :
    exactRun.prepare c = (prepare fitpackSpline c).map fun p => (p.vlm.inlet.vAppInfs, p.vlm.out, p.flow.toDfIntegral) :=
  ExactRun.prepare c

/-- **C134.** Where well-formed settings can be calculated with exact operations, they can be calculated with rounded operations —
from `variables.py` to the sheet `Integrals` —, if the operations are accurate enough and the settings are read accurately enough,
and apparent winds, results of the solver, forces and moments are as close to the exact ones as one likes.  Excluded are switches
exactly at a boundary: panels on the boundary of a vortex core or of smallest admissible area, pressure points exactly at the water
level, a forestay exactly vertical; computed camber and its position are to be in the admissible range. -/
theorem C134_limit (growth : ℕ → ℝ) (condition : ℕ → ℝ → ℝ) {c0 : Config} (h0 : WellFormed c0)
    (hx : c0.rig.sailsDef ≠ "main" → ∀ b h, c0.rig.base = some b → c0.rig.height = some h → (forestay c0.rig.rakeDeg b h).x ≠ 0)
    {p0 : Prepared} (hp0 : prepare fitpackSpline c0 = .ok p0) (hoff : OffSwitches p0.vlm.input p0.vlm.vars)
    (hlevel : ∀ v ∈ p0.vlm.vars, ¬ AtWaterLevel (windGetProfile c0.wind).profile |v.cp.z|) (hz : ∀ v ∈ p0.vlm.vars, v.cp.z ≠ 0)
    {ε : ℝ} (hε : 0 < ε) :
    ∃ u₀ > 0, ∀ u ≤ u₀, ∀ A, AccurateRun growth condition A u → ∀ c, CloseConfig u c c0 → ComputedInRange A c →
      ∃ V o d, A.prepare c = .ok (V, o, d) ∧ List.Forall₂ (NearV ε) V p0.vlm.inlet.vAppInfs ∧ NearArrays ε o p0.vlm.out ∧
        CloseIntegrals ε d p0.flow.toDfIntegral := by
  by_contra hc
  push Not at hc
  choose u hu A hA c hcl hr hbad using fun n : ℕ => hc (1 / ((n : ℝ) + 1)) (by positivity)
  have hpos : ∀ n, 0 ≤ u n := fun n => (hA n).pos.le
  have hlim : Tendsto u atTop (𝓝 0) := squeeze_zero hpos hu tendsto_one_div_add_atTop_nhds_zero_nat
  have R : RefinedRun atTop growth condition A u := ⟨.of_forall hA, hlim⟩
  obtain ⟨V, f, d, h1, h2, h3, h4⟩ := rounded_prepare R (nearConfig_of_close hlim hpos hcl) h0 hx (.of_forall hr) hp0 hoff hlevel hz
  have hv : ∀ᶠ n in atTop, ∀ k : Fin p0.vlm.inlet.vAppInfs.length, NearV ε ((V n).getD k 0) (p0.vlm.inlet.vAppInfs.getD k 0) :=
    eventually_all.2 fun k => by
      filter_upwards [eventually_le hε (h2 k).x, eventually_le hε (h2 k).y, eventually_le hε (h2 k).z] with n n1 n2 n3
      exact ⟨n1, n2, n3⟩
  obtain ⟨n, k1, k2, k3, k4⟩ := (h1.and (hv.and ((eventually_nearArrays hε h3).and (h4 ε hε)))).exists
  exact hbad n _ _ _ k1.1 (forall₂_of_getD 0 0 k1.2 k2) k3 k4

/-- **C134**, computed camber: sufficiently accurate operations leave camber and its position in the admissible range, if the exact
values are in its interior. -/
theorem C134_range (growth : ℕ → ℝ) (condition : ℕ → ℝ → ℝ) {c0 : Config} (h0 : WellFormed c0) (hr : WellInRange c0) :
    ∃ u₀ > 0, ∀ u ≤ u₀, ∀ A, AccurateRun growth condition A u → ∀ c, CloseConfig u c c0 → ComputedInRange A c := by
  by_contra hc
  push Not at hc
  choose u hu A hA c hcl hbad using fun n : ℕ => hc (1 / ((n : ℝ) + 1)) (by positivity)
  have hpos : ∀ n, 0 ≤ u n := fun n => (hA n).pos.le
  have hlim : Tendsto u atTop (𝓝 0) := squeeze_zero hpos hu tendsto_one_div_add_atTop_nhds_zero_nat
  have R : RefinedRun atTop growth condition A u := ⟨.of_forall hA, hlim⟩
  obtain ⟨n, hn⟩ := (rounded_inRange R (nearConfig_of_close hlim hpos hcl) h0 hr).exists
  exact hbad n hn

/-- **C134**, roundings: rounding every single result with relative error `u`, adding up from left to right, applying rotation
matrices one after the other and rounding exact rotation matrices and splines is an accurate arithmetic. -/
theorem C134_rounding {u : ℝ} {rnd : ℝ → ℝ} (R : MachineRounding u rnd) (h0 : rnd 0 = 0) {growth : ℕ → ℝ}
    (hg : ∀ n : ℕ, 15 * ((n : ℝ) + 1) ≤ growth n) {condition : ℕ → ℝ → ℝ} (hc : ∀ n B, 1 + B ≤ condition n B) {solve : LinearSolver}
    (hs : BackwardStable growth solve (10 * u)) : AccurateRun growth condition (roundedRun rnd solve) (10 * u) :=
  R.accurateRun h0 hg hc hs

/-- **C134**, binary digits: with `p` binary digits and a backward stable solution of the linear system, for all sufficiently
large `p`. -/
theorem C134_digits {c0 : Config} (h0 : WellFormed c0)
    (hx : c0.rig.sailsDef ≠ "main" → ∀ b h, c0.rig.base = some b → c0.rig.height = some h → (forestay c0.rig.rakeDeg b h).x ≠ 0)
    {p0 : Prepared} (hp0 : prepare fitpackSpline c0 = .ok p0) (hoff : OffSwitches p0.vlm.input p0.vlm.vars)
    (hlevel : ∀ v ∈ p0.vlm.vars, ¬ AtWaterLevel (windGetProfile c0.wind).profile |v.cp.z|) (hz : ∀ v ∈ p0.vlm.vars, v.cp.z ≠ 0)
    {growth : ℕ → ℝ} (hg : ∀ n : ℕ, 15 * ((n : ℝ) + 1) ≤ growth n) {ε : ℝ} (hε : 0 < ε) :
    ∃ p₀ : ℕ, ∀ p ≥ p₀, ∀ solve, BackwardStable growth solve (10 * (1 / 2) ^ p) → ∀ c, CloseConfig (10 * (1 / 2) ^ p) c c0 →
      ComputedInRange (roundedRun (binaryRound p) solve) c →
      ∃ V o d, (roundedRun (binaryRound p) solve).prepare c = .ok (V, o, d) ∧ List.Forall₂ (NearV ε) V p0.vlm.inlet.vAppInfs ∧
        NearArrays ε o p0.vlm.out ∧ CloseIntegrals ε d p0.flow.toDfIntegral := by
  obtain ⟨u₀, hu0, hu⟩ := C134_limit growth (fun _ B => 1 + B) h0 hx hp0 hoff hlevel hz hε
  obtain ⟨p₀, hp⟩ := exists_pow_lt_of_lt_one (show (0 : ℝ) < u₀ / 10 by positivity) (show (1 / 2 : ℝ) < 1 by norm_num)
  refine ⟨max p₀ 7, fun p hpp solve hs c h1 h2 => ?_⟩
  have h4 : (1 / 2 : ℝ) ^ p ≤ (1 / 2) ^ p₀ := pow_le_pow_of_le_one (by norm_num) (by norm_num) ((le_max_left _ _).trans hpp)
  exact hu (10 * (1 / 2) ^ p) (by linarith) _
    (C134_rounding (binaryRound_machine ((le_max_right _ _).trans hpp)) (binaryRound_zero p) hg (fun _ _ => le_rfl) hs) c h1 h2

/-- **C134**, nearly flat main sails, without assumption on the exact calculation: settings near those of an upright flat main sail
(panels larger than `2e-4`) in a wind of constant direction that does not come from behind. -/
theorem C134_nearly_flat (growth : ℕ → ℝ) (condition : ℕ → ℝ → ℝ) {c0 : Config} {luff chord τ : ℝ} (h : FlatMain c0 luff chord τ)
    (hbig : 2e-4 < chord / c0.solver.nc * (luff / c0.solver.ns)) (hstrip : 2e-8 < luff / c0.solver.ns) (hrho : c0.rho ≠ 0) {v : V3} {M : ℝ}
    (hw : WindAlong (windGetProfile c0.wind) v M (c0.rig.sheer + c0.rig.boom) (c0.rig.sheer + c0.rig.boom + luff))
    (hfront : 0 ≤ v.dot (leechDirection c0.leewayDeg τ))
    (hlevel : ∀ h, c0.rig.sheer + c0.rig.boom < h → h < c0.rig.sheer + c0.rig.boom + luff →
      ¬ AtWaterLevel (windGetProfile c0.wind).profile h) :
    ∃ p0, prepare fitpackSpline c0 = .ok p0 ∧ ∀ ε > 0, ∃ u₀ > 0, ∀ u ≤ u₀, ∀ A, AccurateRun growth condition A u →
      ∀ c, CloseConfig u c c0 → ComputedInRange A c →
      ∃ V o d, A.prepare c = .ok (V, o, d) ∧ List.Forall₂ (NearV ε) V p0.vlm.inlet.vAppInfs ∧ NearArrays ε o p0.vlm.out ∧
        CloseIntegrals ε d p0.flow.toDfIntegral := by
  obtain ⟨p0, -, h1, h2, h3, h4, -⟩ := flat_limit h hbig hstrip hrho hw hfront hlevel
  exact ⟨p0, h1, fun ε hε => C134_limit growth condition h.wellFormed (fun hn => absurd h.sails hn) h1 h2 h3 h4 hε⟩

theorem closeArray_refl {ε : ℝ} (hε : 0 ≤ ε) (x : Option (List ℝ)) : CloseArray ε x x := by
  cases x with
  | none => exact Option.Rel.none
  | some a => exact Option.Rel.some (List.forall₂_same.2 fun x _ => by simpa using hε)

theorem closeConfig_refl {ε : ℝ} (hε : 0 ≤ ε) (c : Config) : CloseConfig ε c c := by
  have z : ∀ x : ℝ, |x - x| ≤ ε := fun x => by simpa using hε
  have s : ∀ s : SailConf, CloseSailConf ε s s := fun s => ⟨closeArray_refl hε _, closeArray_refl hε _, closeArray_refl hε _,
    closeArray_refl hε _, closeArray_refl hε _⟩
  exact ⟨z _, z _, z _, z _, z _, z _, rfl, rfl, ⟨closeNumber_refl hε _, closeNumber_refl hε _, closeNumber_refl hε _,
    closeNumber_refl hε _, z _, z _, z _, z _, rfl⟩, s _, s _, nearV_refl hε _, nearV_refl hε _⟩

theorem spline_replicate {xNew gi v : List ℝ} {x : ℝ} (h : fitpackSpline xNew gi (List.replicate gi.length x) = .ok v) : ∀ y ∈ v, y = x := by
  unfold fitpackSpline at h
  split_ifs at h with h1 h2 h3 h4
  cases h
  intro y hy
  obtain ⟨t, -, rfl⟩ := List.mem_map.1 hy
  push Not at h3 h4
  have hinc : ∀ i, i + 1 < gi.length → gi.getD i 0 < gi.getD (i + 1) 0 := fun i hi => lt_of_le_of_ne (h3 i hi) (h4 i hi).symm
  have hc := cubic_isSpline (m := gi.length - 1) (xs := fun i => gi.getD i 0)
    (ys := fun i => (List.replicate gi.length x).getD i 0) x 0 0 0 (by
      intro i hi
      have hi' : i < gi.length := by omega
      simp [List.getD_eq_getElem?_getD, hi'])
  have e := (splineThrough_isSpline (m := gi.length - 1) (xs := fun i => gi.getD i 0)
    (ys := fun i => (List.replicate gi.length x).getD i 0) (by omega) (fun i hi => hinc i (by omega))).unique (by omega)
    (fun i hi => hinc i (by omega)) hc
  rw [e]
  simp

/-- The camber of `rectangle_variables.py` stays in range. -/
theorem rectangle_inRange {u : ℝ} {rnd : ℝ → ℝ} (R : MachineRounding u rnd) (h0 : rnd 0 = 0) (solve : LinearSolver) :
    ComputedInRange (roundedRun rnd solve) rectangleConfig where
  jib h := absurd rfl h
  main _ main s h1 h2 := by
    have e : main = rectangleConfig.main := by
      simp only [RunArith.withTwist, rectangleConfig] at h1
      exact (Except.ok.inj h1).symm
    subst e
    unfold RunArith.mainInput at h2
    have hu := R.pos
    have hs := R.small
    cases hi : (roundedRun rnd solve).interpolatedSail rectangleConfig.solver rectangleConfig.main with
    | error e => rw [hi] at h2; cases h2
    | ok r =>
      rw [hi] at h2
      have hr : (∀ m ∈ r.2.2.1, m = rnd 0) ∧ ∀ m ∈ r.2.2.2, m = rnd 0.5 := by
        have key : ∀ {x : ℝ} {v : List ℝ}, (roundedRun rnd solve).interpolateGirths "spline" shippedMainGirths
            (List.replicate 7 x) 17 = .ok v → ∀ m ∈ v, m = rnd x := by
          intro x v h m hm
          have h' : (fitpackSpline ((roundedRun rnd solve).linspace01 17) shippedMainGirths (List.replicate 7 x)).map (List.map rnd) = .ok v := by
            rw [← h]
            simp [RunArith.interpolateGirths, roundedRun]
          cases hf : fitpackSpline ((roundedRun rnd solve).linspace01 17) shippedMainGirths (List.replicate 7 x) with
          | error e => rw [hf] at h'; cases h'
          | ok v' =>
            rw [hf] at h'
            cases h'
            obtain ⟨y, hy, rfl⟩ := List.mem_map.1 hm
            rw [spline_replicate (gi := shippedMainGirths) (by simpa [shippedMainGirths] using hf) y hy]
        unfold RunArith.interpolatedSail at hi
        simp only [rectangleConfig, needArray, Bind.bind, Except.bind, zero_mul] at hi
        repeat' split at hi
        all_goals first
          | (cases hi; done)
          | skip
        cases hi
        exact ⟨key (by assumption), key (by assumption)⟩
      obtain ⟨ch, tw, ca, di⟩ := r
      simp only [Bind.bind, Except.bind, rectangleConfig, need] at h2
      cases h2
      have near : ∀ x : ℝ, |x| ≤ 1 → |rnd x - x| ≤ 2 / 100 := fun x hx => by
        have h1 := R.near x (hx.trans (by rw [le_div_iff₀ (by positivity)]; nlinarith))
        have h2 : u * |x| ≤ u := by nlinarith
        nlinarith
      refine ⟨fun m hm => ?_, fun m hm => ?_⟩
      · rw [hr.1 m hm, h0]
        exact ⟨le_rfl, R.nonneg _ (by norm_num)⟩
      · rw [hr.2 m hm]
        have a1 := abs_le.1 (near 0.5 (by rw [abs_of_pos (by norm_num)]; norm_num))
        have a2 := abs_le.1 (near 0.9 (by rw [abs_of_pos (by norm_num)]; norm_num))
        show rnd 0.5 ≤ rnd 0.9
        linarith [a1.2, a2.1]

/-- **C134**, a concrete case: the shipped settings file `rectangle_variables.py`, calculated with many binary digits (with
elimination for the linear system, see C128), yields the sheet `Integrals` of the exact calculation up to `1e-6`. -/
theorem C134_rectangle : ∃ p0, prepare fitpackSpline rectangleConfig = .ok p0 ∧ ∃ p₀ : ℕ, ∀ p ≥ p₀,
    ∃ V o d, (roundedRun (binaryRound p) (roundedSolve (binaryRound p))).prepare rectangleConfig = .ok (V, o, d) ∧
      List.Forall₂ (NearV 1e-6) V p0.vlm.inlet.vAppInfs ∧ NearArrays 1e-6 o p0.vlm.out ∧ CloseIntegrals 1e-6 d p0.flow.toDfIntegral := by
  obtain ⟨v, M, w1, w2⟩ := rectangle_wind
  obtain ⟨p0, hp0, h⟩ := C134_nearly_flat (fun n => 15 * ((n : ℝ) + 1)) (fun _ B => 1 + B) rectangle_flat (by norm_num [rectangleConfig])
    (by norm_num [rectangleConfig]) (by norm_num [rectangleConfig]) (w1 _ _) w2 (by
      rintro h - - ⟨a, b, d, e, -⟩
      simp [windGetProfile, rectangleConfig] at e)
  refine ⟨p0, hp0, ?_⟩
  obtain ⟨u₀, h0, hu⟩ := h 1e-6 (by norm_num)
  obtain ⟨p₀, hp⟩ := exists_pow_lt_of_lt_one (show (0 : ℝ) < u₀ / 10 by positivity) (show (1 / 2 : ℝ) < 1 by norm_num)
  refine ⟨max p₀ 7, fun p hpp => ?_⟩
  have h1 : (1 / 2 : ℝ) ^ p ≤ (1 / 2) ^ p₀ := pow_le_pow_of_le_one (by norm_num) (by norm_num) ((le_max_left _ _).trans hpp)
  have h7 : 7 ≤ p := (le_max_right _ _).trans hpp
  have hpos : (0 : ℝ) ≤ 10 * (1 / 2) ^ p := by positivity
  refine hu (10 * (1 / 2) ^ p) (by linarith) _ (C134_rounding (binaryRound_machine h7) (binaryRound_zero p) (fun _ => le_rfl) (fun _ _ => le_rfl)
    (BackwardStable.mono (fun n => by have : (0 : ℝ) ≤ n := Nat.cast_nonneg n; linarith) hpos (C128_stable_routine h7))) _ (closeConfig_refl hpos _)
    (rectangle_inRange (binaryRound_machine h7) (binaryRound_zero p) _)

/-- `C134_range` applies: the rectangle with a camber of five percent. -/
example (growth : ℕ → ℝ) (condition : ℕ → ℝ → ℝ) : ∃ u₀ > 0, ∀ u ≤ u₀, ∀ A, AccurateRun growth condition A u →
    ∀ c, CloseConfig u c (rectangleNear 5 3) → ComputedInRange A c := by
  refine C134_range growth condition (rectangleNear_wellFormed (by norm_num) (by norm_num)) ⟨fun h => absurd rfl h, fun _ ch tw ca di h => ?_⟩
  have key : ∀ {x : ℝ} {v : List ℝ}, interpolateGirths fitpackSpline "spline" shippedMainGirths (List.replicate 7 x) 17 = .ok v →
      ∀ m ∈ v, m = x := by
    intro x v h
    have h' : fitpackSpline (linspace01 17) shippedMainGirths (List.replicate 7 x) = .ok v := by
      rw [← h]
      simp [interpolateGirths]
    exact spline_replicate (gi := shippedMainGirths) (by simpa [shippedMainGirths] using h')
  unfold interpolatedSail at h
  simp only [rectangleNear, rectangleConfig, mainData, withDefaultTwist, needArray, Bind.bind, Except.bind] at h
  repeat' split at h
  all_goals first
    | (cases h; done)
    | skip
  cases h
  refine ⟨fun m hm => ?_, fun m hm => ?_⟩
  · rw [key (x := 5 * 0.01) (by assumption) m hm]
    norm_num
  · rw [key (x := 0.5) (by assumption) m hm]
    norm_num

end PySailing.Props
