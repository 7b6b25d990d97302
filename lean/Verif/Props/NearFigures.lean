import Verif.Lemmas.NearFigures
import Verif.Props.NearRun
import Verif.Props.Plotter
import Verif.Props.Figures

/-!
# C144: nearby `variables.py` give nearby figures
-/

namespace PySailing.Props

open PySailing PySailing.Spec Filter Topology

variable {T : Type} {l : Filter T}

/-- Points of the upright sail of nearby sails. -/
theorem upright_conv {s : T → SailInput × (ℕ → ℝ)} {s0 : SailInput × (ℕ → ℝ)} (N : NearSail l s s0) {r : ℕ} (hr : r ≤ s0.1.ns) (k : ℕ) :
    Conv l (fun t => uprightPoints (s t).1 r k) (uprightPoints s0.1 r k) := by
  obtain ⟨d0, d1⟩ := N.dist_mem hr
  unfold uprightPoints
  refine (sailPoint_conv N.tack N.head s0.1.nc s0.1.ns (N.chords r) (N.distance r) (N.camber r) d0 d1 k).congr' ?_
  filter_upwards [N.nc, N.ns] with t h2 h3
  rw [h2, h3]

theorem uprightImage_conv {s : T → SailInput × (ℕ → ℝ)} {s0 : SailInput × (ℕ → ℝ)} (N : NearSail l s s0) {r : ℕ} (hr : r ≤ s0.1.ns)
    (k : ℕ) : Conv l (fun t => uprightImagePoints (s t).1 r k) (uprightImagePoints s0.1 r k) := by
  obtain ⟨d0, d1⟩ := N.dist_mem hr
  have c1 : Tendsto (fun t => (s t).1.chords.reverse.getD r 0) l (𝓝 (s0.1.chords.reverse.getD r 0)) := by
    rw [reverse_getD N.ok0.valid.chords_len hr]
    refine (N.chords (s0.1.ns - r)).congr' ?_
    filter_upwards [N.ok, N.ns] with t h1 h3
    rw [reverse_getD h1.valid.chords_len (by rw [h3]; exact hr), h3]
  have c2 : Tendsto (fun t => (s t).1.camber.reverse.getD r 0) l (𝓝 (s0.1.camber.reverse.getD r 0)) := by
    rw [reverse_getD N.ok0.camber_len hr]
    refine (N.camber (s0.1.ns - r)).congr' ?_
    filter_upwards [N.ok, N.ns] with t h1 h3
    rw [reverse_getD h1.camber_len (by rw [h3]; exact hr), h3]
  unfold uprightImagePoints
  refine (sailPoint_conv (mirror_conv N.head) (mirror_conv N.tack) s0.1.nc s0.1.ns c1 (N.distance r) c2 d0 d1 k).congr' ?_
  filter_upwards [N.nc, N.ns] with t h2 h3
  rw [h2, h3]

/-- Points of blocks of nearby sails. -/
theorem blocks_conv {m : ℕ} {ss : T → Fin m → SailInput × (ℕ → ℝ)} {ss0 : Fin m → SailInput × (ℕ → ℝ)} {ns : ℕ}
    (pts pts' : SailInput × (ℕ → ℝ) → ℕ → ℕ → V3)
    (h : ∀ b, ∀ r ≤ ns, ∀ k, Conv l (fun t => pts (ss t b) r k) (pts (ss0 b) r k))
    (h' : ∀ b, ∀ r ≤ ns, ∀ k, Conv l (fun t => pts' (ss t b) r k) (pts' (ss0 b) r k)) :
    TendList l (fun (f : T → ℕ → ℕ → V3) f0 => ∀ r ≤ ns, ∀ k, Conv l (fun t => f t r k) (f0 r k))
      (fun t => (List.ofFn (ss t)).map pts ++ (List.ofFn (ss t)).map pts') ((List.ofFn ss0).map pts ++ (List.ofFn ss0).map pts') := by
  have key : ∀ g : SailInput × (ℕ → ℝ) → ℕ → ℕ → V3, (∀ b, ∀ r ≤ ns, ∀ k, Conv l (fun t => g (ss t b) r k) (g (ss0 b) r k)) →
      TendList l (fun (f : T → ℕ → ℕ → V3) f0 => ∀ r ≤ ns, ∀ k, Conv l (fun t => f t r k) (f0 r k))
        (fun t => (List.ofFn (ss t)).map g) ((List.ofFn ss0).map g) := by
    intro g hg
    refine ⟨List.ofFn fun b => (fun t => g (ss t b), g (ss0 b)), ?_, .of_forall fun t => ?_, ?_⟩
    · simp [List.map_ofFn, Function.comp_def]
    · simp [List.map_ofFn, Function.comp_def]
    · intro z hz
      obtain ⟨b, rfl⟩ := (List.mem_ofFn' _ _).1 hz
      exact hg b
  exact (key pts h).append (key pts' h')

/-- Wind at points that tend to a point. -/
theorem trueWind_conv {w : T → WindObj} {w0 : WindObj} (hw : NearWind l w w0) {p : T → V3} {p0 : V3} (hp : Conv l p p0)
    (hl : ¬ AtWaterLevel w0.profile |p0.z|) :
    PyConv l (Conv l) (fun t => (w t).trueWindAt |(p t).z|) (w0.trueWindAt |p0.z|) := by
  intro v0 h0
  obtain ⟨h1, h2⟩ := heightFactor_near (windNear_of h0 hl)
  have hz := abs_z_conv hp
  refine ⟨fun t => (w t).lengthToXyz ((w t).twsRef * heightFactor w0.profile |(p t).z|), ?_, ?_⟩
  · filter_upwards [hz.eventually h1] with t ht
    exact ht _ (hw.profile t)
  · have e := h1.self_of_nhds w0 rfl
    rw [h0] at e
    rw [Except.ok.inj e]
    exact lengthToXyz_conv hw (hw.speed.mul (h2.tendsto.comp hz))

/-- What the figures are made of, for nearby configurations. -/
theorem near_vlm {c : T → Config} {c0 : Config} (N : NearConfig l c c0) (h : ∀ᶠ t in l, WellFormed (c t)) (h0 : WellFormed c0)
    {p0 : Prepared} (hp0 : prepare fitpackSpline c0 = .ok p0) (hoff : OffSwitches p0.vlm.input p0.vlm.vars)
    (hlevel : ∀ v ∈ p0.vlm.vars, ¬ AtWaterLevel (windGetProfile c0.wind).profile |v.cp.z|) :
    ∃ p : T → Prepared, (∀ᶠ t in l, prepare fitpackSpline (c t) = .ok (p t)) ∧ NearVlm l (fun t => (p t).vlm) p0.vlm ∧
      TendList l (ConvPanel l) (fun t => (p t).set.zeroMesh) p0.set.zeroMesh ∧
      TendList l (Tends l) (fun t => (p t).vlm.out.pCoeffs) p0.vlm.out.pCoeffs ∧
      TendList l (ConvPanel l) (fun t => (p t).set.panels) p0.set.panels ∧
      TendList l (Conv l) (fun t => (p t).vlm.inlet.twsAtCp) p0.vlm.inlet.twsAtCp ∧ ConvArrays l (fun t => (p t).vlm.out) p0.vlm.out := by
  obtain ⟨p, hp, C, hcp, -, -⟩ := near_prepared N h h0 hp0 hoff hlevel
  obtain ⟨m, -, ss, ss0, set0, hN, B0, hB⟩ := nearSails N h h0
  obtain ⟨-, hset0, -, hv0, -⟩ := prepare_data h0 hp0
  have e0 : set0 = p0.set := by
    have := B0.built
    rw [hset0] at this
    exact (Except.ok.inj this).symm
  subst e0
  have hB' : ∀ᶠ t in l, Built (c t) m (ss t) (p t).set ∧ vlm ((c t).vlmInput (p t).set (windGetProfile (c t).wind)) = .ok (p t).vlm := by
    filter_upwards [hB, h, hp] with t ⟨set, B⟩ t2 t3
    obtain ⟨-, hset, -, hv, -⟩ := prepare_data t2 t3
    have := B.built
    rw [hset] at this
    obtain rfl := Except.ok.inj this
    exact ⟨B, hv⟩
  obtain ⟨-, -, hns, -⟩ := built_mesh B0
  have hpan0 := (sailSet_blocks B0.sails (sailSetOf_sails hset0)).1
  have hpan : ∀ᶠ t in l, (p t).set.panels = blockPanels c0.solver.nc c0.solver.ns
      ((List.ofFn (ss t)).map abovePoints ++ (List.ofFn (ss t)).map underPoints) := hB'.mono fun t ht => by
    have := (sailSet_blocks ht.1.sails (sailSetOf_sails ht.1.built)).1
    rwa [N.solver t] at this
  have hP : TendList l (ConvPanel l) (fun t => (p t).set.panels) p0.set.panels := by
    rw [hpan0]
    refine TendList.congr' (blockPanels_tend _ _ (blocks_conv _ _ (fun b r hr k => ?_) fun b r hr k => ?_)) (hpan.mono fun t ht => ht.symm)
    · exact (hN b).above_conv (by rw [hns b]; exact hr) k
    · exact (hN b).under_conv (by rw [hns b]; exact hr) k
  have hZ : TendList l (ConvPanel l) (fun t => (p t).set.zeroMesh) p0.set.zeroMesh := by
    rw [zeroMesh_blocks B0.sails (sailSetOf_sails hset0)]
    refine TendList.congr' (blockPanels_tend _ _ (blocks_conv (ss := ss) (fun s => uprightPoints s.1) (fun s => uprightImagePoints s.1)
      (fun b r hr k => ?_) fun b r hr k => ?_)) (hB'.mono fun t ht => ?_)
    · exact upright_conv (hN b) (by rw [hns b]; exact hr) k
    · exact uprightImage_conv (hN b) (by rw [hns b]; exact hr) k
    · rw [zeroMesh_blocks ht.1.sails (sailSetOf_sails ht.1.built), N.solver t]
  obtain ⟨hi0, hvl0, -⟩ := vlm_lengths hv0
  have hin : ∀ᶠ t in l, (p t).vlm.input = (c t).vlmInput (p t).set (windGetProfile (c t).wind) ∧
      (p t).vlm.vars.length = (p t).set.panels.length := hB'.mono fun t ht => by
    obtain ⟨q1, q2, -⟩ := vlm_lengths ht.2
    exact ⟨q1, q2⟩
  have hcps : TendList l (Conv l) (fun t => (p t).vlm.vars.map PanelVars.cp) (p0.vlm.vars.map PanelVars.cp) := by
    refine TendList.of_getD 0 ?_ hcp
    filter_upwards [hin, hP.lengths] with t t1 t2
    rw [List.length_map, List.length_map, t1.2, t2, hvl0]
    rfl
  have hW := nearConfig_wind N
  have hcps' : TendList l (fun a a0 => Conv l a a0 ∧ ¬ AtWaterLevel (windGetProfile c0.wind).profile |a0.z|)
      (fun t => (p t).vlm.vars.map PanelVars.cp) (p0.vlm.vars.map PanelVars.cp) := by
    obtain ⟨zs, z1, z2, z3⟩ := hcps
    refine ⟨zs, z1, z2, fun z hz => ⟨z3 z hz, ?_⟩⟩
    have : z.2 ∈ p0.vlm.vars.map PanelVars.cp := by rw [z1]; exact List.mem_map_of_mem hz
    obtain ⟨v, hv, e⟩ := List.mem_map.1 this
    rw [← e]
    exact hlevel v hv
  have happ : TendList l (Conv l) (fun t => (p t).vlm.inlet.vAppInfs) p0.vlm.inlet.vAppInfs ∧
      TendList l (Conv l) (fun t => (p t).vlm.inlet.twsAtCp) p0.vlm.inlet.twsAtCp := by
    obtain ⟨-, -, -, hinl0, -⟩ := (vlm_ok_iff _ _).1 hv0
    obtain ⟨-, i2, i3⟩ := (inletConditions_ok_iff _ _ _ _).1 hinl0
    obtain ⟨ws, w1, w2⟩ := (hcps'.mapM (f := fun t q => (windGetProfile (c t).wind).trueWindAt |q.z|)
      (f0 := fun q => (windGetProfile c0.wind).trueWindAt |q.z|) fun a a0 ha => trueWind_conv hW ha.1 ha.2) _ i2
    have e : ∀ᶠ t in l, ws t = (p t).vlm.inlet.twsAtCp := by
      filter_upwards [w1, hB'] with t t1 t2
      obtain ⟨-, -, -, hinl, -⟩ := (vlm_ok_iff _ _).1 t2.2
      have := ((inletConditions_ok_iff _ _ _ _).1 hinl).2.1.symm.trans t1
      exact (Except.ok.inj this).symm
    refine ⟨?_, w2.congr' e⟩
    rw [i3]
    refine TendList.congr' (w2.map fun a a0 ha => appInfs_conv hW ha) ?_
    filter_upwards [e, hB'] with t t1 t2
    obtain ⟨-, -, -, hinl, -⟩ := (vlm_ok_iff _ _).1 t2.2
    rw [((inletConditions_ok_iff _ _ _ _).1 hinl).2.2, t1]
    rfl
  have hlen : ∀ r : Vlm, r.out.lift.length = r.out.gamma.length ∧ r.out.drag.length = r.out.gamma.length := fun r => by
    simp [Vlm.out, VlmSolution.arrays]
  refine ⟨p, hp, ⟨?_, ?_, ?_, ?_, ?_, hcps, happ.1, ?_, ?_⟩, hZ, ?_, hP, happ.2, C⟩
  · filter_upwards [hin, hP.lengths] with t t1 t2
    rw [t1.1, hi0]; exact t2
  · filter_upwards [hin] with t t1
    rw [t1.1, hi0]
    show (c t).solver.ns = c0.solver.ns
    rw [N.solver t]
  · filter_upwards [hin] with t t1
    rw [t1.1, hi0]
    show (c t).solver.nc = c0.solver.nc
    rw [N.solver t]
  · rw [hi0]
    refine N.rho.congr' (hin.mono fun t t1 => ?_)
    beta_reduce
    rw [t1.1]
    rfl
  · rw [((vlm_ok_iff _ _).1 hv0).2.1]
    refine TendList.congr' (hP.map (f := fun _ => panelArea) (f0 := panelArea) fun q q0 hq => panelArea_conv hq) (hB'.mono fun t ht => ?_)
    rw [((vlm_ok_iff _ _).1 ht.2).2.1]
    rfl
  · exact TendList.of_getD 0 (C.lengths.mono fun t ht => by rw [(hlen _).1, (hlen _).1]; exact ht.1) C.lift
  · exact TendList.of_getD 0 (C.lengths.mono fun t ht => by rw [(hlen _).2, (hlen _).2]; exact ht.1) C.drag
  · exact TendList.of_getD 0 (C.lengths.mono fun t ht => ht.2.2.2) C.pCoeffs

/-- A pressure point off the water surface lies on a panel whose edges are not both on it. -/
theorem off_edges {a : VlmInput} {r : Vlm} (hv : vlm a = .ok r) {v : PanelVars} (hm : v ∈ r.vars) (hz : v.cp.z ≠ 0) :
    v.leMid.z ≠ 0 ∨ v.teMid.z ≠ 0 := by
  obtain ⟨-, -, hvars, -, -⟩ := (vlm_ok_iff _ _).1 hv
  obtain ⟨hl, -, hk⟩ := calculateVlmVariables_ok hvars
  obtain ⟨k, hk', rfl⟩ := List.getElem_of_mem hm
  obtain ⟨A, D, e⟩ := hk k (by omega)
  rw [List.getElem?_eq_getElem hk'] at e
  rw [Option.some.inj e] at hz ⊢
  by_contra hc
  push Not at hc
  apply hz
  have e1 : (panelVars a.g a.panels[k] A D).cp.z = (panelVars a.g a.panels[k] A D).leMid.z + 0.25 * ((panelVars a.g a.panels[k] A D).teMid.z -
      (panelVars a.g a.panels[k] A D).leMid.z) := rfl
  rw [e1, hc.1, hc.2]
  ring

/-- **C144.**  If every number in `variables.py` (but those that define the shape of the wind profile) tends to its number in a
file for which the program solves the lattice, and the files are well formed with the same mesh and choice of sails, then the
program runs to its end for the limit and for all files near enough; the outlines and values of its map of pressure coefficients tend to those of the
limit; and if the limit has a plot of section coefficients then so have all files near enough, under the same name and with the same
labels, and the dots tend to the dots of the limit.  Excluded are limits in which a panel lies exactly on the boundary of a vortex
core or has exactly the smallest admissible area, or a pressure point lies exactly on the water surface or at the water level of an
exponential profile. -/
theorem C144_figures {c : T → Config} {c0 : Config} (N : NearConfig l c c0) (h : ∀ᶠ t in l, WellFormed (c t)) (h0 : WellFormed c0)
    {p0 : Prepared} (hp0 : prepare fitpackSpline c0 = .ok p0) (hoff : OffSwitches p0.vlm.input p0.vlm.vars)
    (hlevel : ∀ v ∈ p0.vlm.vars, ¬ AtWaterLevel (windGetProfile c0.wind).profile |v.cp.z|)
    (hsurface : ∀ v ∈ p0.vlm.vars, v.cp.z ≠ 0) (hw : ReferenceAboveWater c0.wind) :
    (run fitpackSpline c0).2 = .ok () ∧ (∀ᶠ t in l, (run fitpackSpline (c t)).2 = .ok ()) ∧
    (∀ m0, .cpMap m0 ∈ (run fitpackSpline c0).1 → ∃ m : T → List (List (ℝ × ℝ) × ℝ),
      (∀ᶠ t in l, .cpMap (m t) ∈ (run fitpackSpline (c t)).1) ∧ NearMap l m m0) ∧
    ∀ name f0, .sectionPlot name (some f0) ∈ (run fitpackSpline c0).1 → ∃ f : T → Figure,
      (∀ᶠ t in l, .sectionPlot name (some (f t)) ∈ (run fitpackSpline (c t)).1) ∧ NearFigure l f f0 := by
  obtain ⟨p, hp, V, hZ, hC, -⟩ := near_vlm N h h0 hp0 hoff hlevel
  obtain ⟨-, -, -, hv0, -⟩ := prepare_data h0 hp0
  obtain ⟨-, -, hne⟩ := vlm_inlet hv0
  obtain ⟨v, hvm⟩ := List.exists_mem_of_ne_nil _ hne
  have hr0 := (C72_completes_partial fitpackSpline c0 p0 hp0 ⟨v, hvm, off_edges hv0 hvm (hsurface v hvm)⟩ hw).1
  have hz : ∀ᶠ t in l, ∃ q ∈ (p t).vlm.vars, q.cp.z ≠ 0 := by
    obtain ⟨zs, z1, z2, z3⟩ := V.cps
    have : v.cp ∈ p0.vlm.vars.map PanelVars.cp := List.mem_map_of_mem hvm
    rw [z1] at this
    obtain ⟨z, hz, e⟩ := List.mem_map.1 this
    have hne : z.2.z ≠ 0 := by rw [e]; exact hsurface v hvm
    filter_upwards [z2, (z3 z hz).z.eventually_ne hne] with t t1 t2
    have : z.1 t ∈ (p t).vlm.vars.map PanelVars.cp := by
      rw [t1]; exact List.mem_map_of_mem hz
    obtain ⟨q, hq, e'⟩ := List.mem_map.1 this
    exact ⟨q, hq, by rw [e']; exact t2⟩
  have hr : ∀ᶠ t in l, (run fitpackSpline (c t)).2 = .ok () := by
    filter_upwards [hz, h, hp] with t ⟨q, hq, hqz⟩ t2 t3
    obtain ⟨-, -, -, hv, -⟩ := prepare_data t2 t3
    refine (C72_completes_partial fitpackSpline (c t) (p t) t3 ⟨q, hq, off_edges hv hq hqz⟩ ?_).1
    rw [N.profile t]
    exact hw
  have mem : ∀ {d : Config} {q : Prepared} (_ : prepare fitpackSpline d = .ok q) (_ : (run fitpackSpline d).2 = .ok ()) (e : Effect),
      .ok e ∈ outputSteps d q → e ∈ (run fitpackSpline d).1 := by
    intro d q hq hd e he
    unfold run at hd ⊢
    rw [hq] at hd ⊢
    exact mem_emit_of_ok hd he
  have other : ∀ {α : Type} {x : Py α} {g : α → Effect} {e : Effect}, (∀ a, g a ≠ e) → ¬ Except.ok e = x.map g := by
    intro α x g e hne he
    cases x with
    | error e => cases he
    | ok a => exact hne a (Except.ok.inj he).symm
  refine ⟨hr0, hr, fun m0 hm0 => ?_, fun name f0 hf0 => ?_⟩
  · obtain ⟨q, hq, hs⟩ := mem_run hm0
    obtain rfl := Except.ok.inj (hp0.symm.trans hq)
    have hm0 : plotCp p0.set.zeroMesh p0.vlm.out.pCoeffs = .ok m0 := by
      unfold outputSteps at hs
      simp only [List.mem_cons, List.not_mem_nil, or_false] at hs
      rcases hs with h1 | h1 | h1 | h1 | h1 | h1
      · exact absurd h1 (other fun a => by simp)
      · cases h1
      · exact absurd h1 (other fun a => by simp)
      · cases hx : plotCp p0.set.zeroMesh p0.vlm.out.pCoeffs with
        | error e => rw [hx] at h1; cases h1
        | ok a => rw [hx] at h1; cases h1; rfl
      · obtain ⟨f, e, -⟩ := sectionPlotStep_kind h1.symm
        cases e
      · obtain ⟨f, e, -⟩ := sectionPlotStep_kind h1.symm
        cases e
    obtain ⟨m, h1, h2⟩ := plotCp_conv hZ hC m0 hm0
    refine ⟨m, ?_, h2⟩
    filter_upwards [hp, hr, h1] with t t1 t2 t3
    refine mem t1 t2 _ ?_
    simp [outputSteps, t3, Except.map]
  · obtain ⟨q, hq, hs⟩ := mem_run hf0
    obtain rfl := Except.ok.inj (hp0.symm.trans hq)
    have key : ∀ (x : CoeffPlotData → List (List ℝ)) (colors : List String),
        (∀ d d0, NearPlotData l d d0 → TendList l (TendList l (Tends l)) (fun t => x (d t)) (x d0)) →
        sectionPlotStep (coeffPlotData p0.vlm c0.solver.nc c0.solver.ns) x name colors = .ok (.sectionPlot name (some f0)) →
        ∃ f : T → Figure, NearFigure l f f0 ∧ ∀ᶠ t in l,
          sectionPlotStep (coeffPlotData (p t).vlm (c t).solver.nc (c t).solver.ns) x name colors = .ok (.sectionPlot name (some (f t))) := by
      intro x colors hx hstep
      obtain ⟨f, e, hf⟩ := sectionPlotStep_kind hstep
      cases e
      obtain ⟨D0, hD0, hF0⟩ := hf f0 rfl
      obtain ⟨D, hD, hDn⟩ := coeffPlotData_conv V _ _ D0 hD0
      obtain ⟨F, hF, hFn⟩ := plotSectionCoeff_conv (hx _ _ hDn) hDn.z name colors f0 hF0
      refine ⟨F, hFn, ?_⟩
      filter_upwards [hD, hF] with t t1 t2
      rw [N.solver t]
      unfold sectionPlotStep
      rw [t1]
      simp only [nanAsNone, Bind.bind, Except.bind]
      rw [t2]
      rfl
    unfold outputSteps at hs
    simp only [List.mem_cons, List.not_mem_nil, or_false] at hs
    have fin : ∀ f : T → Figure, (∀ᶠ t in l, .ok (.sectionPlot name (some (f t))) ∈ outputSteps (c t) (p t)) →
        ∀ᶠ t in l, .sectionPlot name (some (f t)) ∈ (run fitpackSpline (c t)).1 := fun f hf => by
      filter_upwards [hf, hp, hr] with t t1 t2 t3
      exact mem t2 t3 _ t1
    rcases hs with h1 | h1 | h1 | h1 | h1 | h1
    · exact absurd h1 (other fun a => by simp)
    · cases h1
    · exact absurd h1 (other fun a => by simp)
    · exact absurd h1 (other fun a => by simp)
    · obtain ⟨f, e, -⟩ := sectionPlotStep_kind h1.symm
      have e' : name = "lift" := by injection e
      subst e'
      obtain ⟨f, hf, hfm⟩ := key _ _ (fun d d0 hd => hd.drag) h1.symm
      exact ⟨f, fin f (hfm.mono fun t ht => by simp [outputSteps, ht]), hf⟩
    · obtain ⟨f, e, -⟩ := sectionPlotStep_kind h1.symm
      have e' : name = "drag" := by injection e
      subst e'
      obtain ⟨f, hf, hfm⟩ := key _ _ (fun d d0 hd => hd.lift) h1.symm
      exact ⟨f, fin f (hfm.mono fun t ht => by simp [outputSteps, ht]), hf⟩

/-- **C144**, nearly flat main sails: if the limit is an upright flat main sail (panels larger than `2e-4`) in a wind of constant
direction that does not come from behind, nothing has to be known about its calculation. -/
theorem C144_nearly_flat {c : T → Config} {c0 : Config} (N : NearConfig l c c0) (hwf : ∀ᶠ t in l, WellFormed (c t)) {luff chord τ : ℝ}
    (h : FlatMain c0 luff chord τ) (hbig : 2e-4 < chord / c0.solver.nc * (luff / c0.solver.ns)) (hstrip : 2e-8 < luff / c0.solver.ns)
    (hrho : c0.rho ≠ 0) {u : V3} {M : ℝ}
    (hw : WindAlong (windGetProfile c0.wind) u M (c0.rig.sheer + c0.rig.boom) (c0.rig.sheer + c0.rig.boom + luff))
    (hfront : 0 ≤ u.dot (leechDirection c0.leewayDeg τ))
    (hlevel : ∀ h, c0.rig.sheer + c0.rig.boom < h → h < c0.rig.sheer + c0.rig.boom + luff →
      ¬ AtWaterLevel (windGetProfile c0.wind).profile h) :
    (run fitpackSpline c0).2 = .ok () ∧ (∀ᶠ t in l, (run fitpackSpline (c t)).2 = .ok ()) ∧
    (∀ m0, .cpMap m0 ∈ (run fitpackSpline c0).1 → ∃ m : T → List (List (ℝ × ℝ) × ℝ),
      (∀ᶠ t in l, .cpMap (m t) ∈ (run fitpackSpline (c t)).1) ∧ NearMap l m m0) ∧
    ∀ name f0, .sectionPlot name (some f0) ∈ (run fitpackSpline c0).1 → ∃ f : T → Figure,
      (∀ᶠ t in l, .sectionPlot name (some (f t)) ∈ (run fitpackSpline (c t)).1) ∧ NearFigure l f f0 := by
  obtain ⟨p0, t0, h1, h2, h3, h4, -⟩ := flat_limit h hbig hstrip hrho hw hfront hlevel
  exact C144_figures N hwf h.wellFormed h1 h2 h3 h4 h.reference

theorem demo_flat : FlatMain Demo.config 1 1 0 where
  mode := by simp [Demo.config, twistModes]
  ns_pos := le_rfl
  nc_pos := le_rfl
  upright := rfl
  sails := rfl
  rake := rfl
  base := by simp [Demo.config, demoRig]
  luff_eq := rfl
  luff_pos := one_pos
  foot := by norm_num [Demo.config, demoRig]
  chord_pos := one_pos
  jib_twist := Or.inl (by simp [Demo.config, demoConf])
  data := ⟨[0, 1], 1 / 2, {
    girths_eq := rfl, chords_eq := rfl, twist_eq := rfl, camber_eq := rfl, distance_eq := rfl, nonempty := by simp
    kind_ok := Or.inl rfl
    increasing := fun i hi => by
      obtain rfl : i = 0 := by simpa using hi
      simp
    chords_len := rfl, twist_len := rfl, camber_range := by norm_num, position_range := by norm_num }⟩
  wind := by simp [WindIncomplete, Demo.config]
  reference := by simp [ReferenceAboveWater, Demo.config]

/-- The one panel sail with some camber, leeway and twist, and another direction of the wind. -/
noncomputable def demoNear (camber angle : ℝ) : Config :=
  { Demo.config with
    leewayDeg := angle
    wind := { Demo.config.wind with alphaDeg := 90 + angle }
    main := ⟨some [angle, angle], some [0, 1], some [1, 1], some [camber, camber], some [1 / 2, 1 / 2]⟩ }

theorem demoNear_wellFormed {camber angle : ℝ} (h0 : 0 ≤ camber) (h1 : camber ≤ 0.3) : WellFormed (demoNear camber angle) := by
  have W := demo_flat.wellFormed
  exact { W with
    main_twist := .inl (by simp [demoNear])
    main := fun hm => ⟨(W.main hm).1, _, _, _, _, _, C108_uniform (girths := [0, 1]) (chords := [1, 1]) (twist := [angle, angle])
      (camber := camber) (position := 1 / 2) {
        girths_eq := rfl, chords_eq := rfl, twist_eq := rfl, camber_eq := rfl, distance_eq := rfl, nonempty := by simp
        kind_ok := Or.inl rfl
        increasing := fun i hi => by
          obtain rfl : i = 0 := by simpa using hi
          simp
        chords_len := rfl, twist_len := rfl, camber_range := ⟨h0, h1⟩, position_range := by norm_num }⟩
    wind := by simp [WindIncomplete, demoNear, Demo.config] }

/-- The configurations `demoNear` tend to the one panel sail. -/
theorem demoNear_near : NearConfig (𝓝[{x : ℝ × ℝ | 0 ≤ x.1}] (0, 0)) (fun x => demoNear x.1 x.2) Demo.config := by
  have t1 : Tendsto (fun x : ℝ × ℝ => x.1) (𝓝[{x : ℝ × ℝ | 0 ≤ x.1}] (0, 0)) (𝓝 0) := tendsto_nhdsWithin_of_tendsto_nhds continuous_fst.continuousAt
  have t2 : Tendsto (fun x : ℝ × ℝ => x.2) (𝓝[{x : ℝ × ℝ | 0 ≤ x.1}] (0, 0)) (𝓝 0) := tendsto_nhdsWithin_of_tendsto_nhds continuous_snd.continuousAt
  have pair : ∀ {f : ℝ × ℝ → ℝ}, Tendsto f (𝓝[{x : ℝ × ℝ | 0 ≤ x.1}] (0, 0)) (𝓝 0) →
      NearArray (𝓝[{x : ℝ × ℝ | 0 ≤ x.1}] (0, 0)) (fun x => some [f x, f x]) (some [0, 0]) := fun {f} hf => by
    refine ⟨fun x => [f x, f x], .of_forall fun _ => ⟨rfl, rfl⟩, fun i hi => ?_⟩
    have : i = 0 ∨ i = 1 := by
      simp only [List.length_cons, List.length_nil] at hi
      omega
    rcases this with rfl | rfl <;> exact hf
  exact {
    heel := tendsto_const_nhds
    leeway := t2
    rho := tendsto_const_nhds
    alpha := by simpa [demoNear, Demo.config] using t2.const_add 90
    speed := tendsto_const_nhds
    yacht := tendsto_const_nhds
    profile := fun _ => rfl
    solver := fun _ => rfl
    rig := ⟨nearNumber_const _, nearNumber_const _, nearNumber_const _,
      nearNumber_const _, tendsto_const_nhds, tendsto_const_nhds, tendsto_const_nhds, tendsto_const_nhds, fun _ => rfl⟩
    main := ⟨pair t2, nearArray_const _, nearArray_const _, pair t1, nearArray_const _⟩
    jib := ⟨nearArray_const _, nearArray_const _, nearArray_const _, nearArray_const _, nearArray_const _⟩
    vRef := ⟨tendsto_const_nhds, tendsto_const_nhds, tendsto_const_nhds⟩
    clr := ⟨tendsto_const_nhds, tendsto_const_nhds, tendsto_const_nhds⟩ }

/-- **C144**, a concrete case: the map of pressure coefficients and both plots of section coefficients of the one panel sail change
continuously with the camber and the angles of leeway, wind and twist. -/
theorem C144_demo : ∃ m0 f1 f2 m F1 F2, .cpMap m0 ∈ (run fitpackSpline Demo.config).1 ∧
    .sectionPlot "lift" (some f1) ∈ (run fitpackSpline Demo.config).1 ∧ .sectionPlot "drag" (some f2) ∈ (run fitpackSpline Demo.config).1 ∧
    (∀ᶠ x in 𝓝[{x : ℝ × ℝ | 0 ≤ x.1}] (0, 0), .cpMap (m x) ∈ (run fitpackSpline (demoNear x.1 x.2)).1 ∧
      .sectionPlot "lift" (some (F1 x)) ∈ (run fitpackSpline (demoNear x.1 x.2)).1 ∧
      .sectionPlot "drag" (some (F2 x)) ∈ (run fitpackSpline (demoNear x.1 x.2)).1) ∧
    NearMap (𝓝[{x : ℝ × ℝ | 0 ≤ x.1}] (0, 0)) m m0 ∧ NearFigure (𝓝[{x : ℝ × ℝ | 0 ≤ x.1}] (0, 0)) F1 f1 ∧
    NearFigure (𝓝[{x : ℝ × ℝ | 0 ≤ x.1}] (0, 0)) F2 f2 := by
  have t1 : Tendsto (fun x : ℝ × ℝ => x.1) (𝓝[{x : ℝ × ℝ | 0 ≤ x.1}] (0, 0)) (𝓝 0) := tendsto_nhdsWithin_of_tendsto_nhds continuous_fst.continuousAt
  have e90 : (90 : ℝ) * (Real.pi / 180) = Real.pi / 2 := by ring
  have hV : (⟨1, 1, 0⟩ : V3) = ⟨Demo.config.wind.twsRef * Real.cos (Demo.config.wind.alphaDeg * (Real.pi / 180)) + Demo.config.wind.sog,
      Demo.config.wind.twsRef * Real.sin (Demo.config.wind.alphaDeg * (Real.pi / 180)), 0⟩ := by
    simp [Demo.config, e90]
  have hne : (⟨1, 1, 0⟩ : V3) ≠ 0 := fun e => by
    have := congrArg V3.x e
    simp at this
  have hn := V3.norm_pos hne
  obtain ⟨hr, -, hmap, hplot⟩ := C144_nearly_flat demoNear_near (by
      filter_upwards [self_mem_nhdsWithin, t1.eventually_le_const (show (0 : ℝ) < 0.3 by norm_num)] with x x1 x2
      exact demoNear_wellFormed x1 x2) demo_flat (by norm_num [Demo.config]) (by norm_num [Demo.config]) (by norm_num [Demo.config])
    (windAlong_flat (w := Demo.config.wind) rfl hV hne _ _) (by
      simp only [V3.dot, leechDirection, Demo.config, V3.smul_x, V3.smul_y, V3.smul_z]
      norm_num
      exact hn.le) (by
      rintro h - - ⟨a, b, d, e, -⟩
      simp [windGetProfile, Demo.config] at e)
  obtain ⟨⟨f1, hf1⟩, f2, hf2⟩ := demo_sectionPlots fitpackSpline
  obtain ⟨m0, hm0⟩ : ∃ m, .cpMap m ∈ (run fitpackSpline Demo.config).1 := by
    obtain ⟨p, hp, hc, hvl, hv, hV'⟩ := Demo.prepared fitpackSpline
    obtain ⟨-, -, -, hz⟩ := prepared_shape hp
    have : p.set.zeroMesh.length = p.vlm.out.pCoeffs.length := by
      obtain ⟨main, jib, base, -, -, -, -, -, -, -, -, hv', -⟩ := prepare_ok hp
      have h2 : p.vlm.vars.length = p.set.panels.length := (vlm_lengths hv').2.1
      rw [hz, ← h2]
      simp [Vlm.out, VlmSolution.arrays]
    exact ⟨_, demo_run_mem hp (by
      simp only [outputSteps, List.mem_cons]
      refine Or.inr (Or.inr (Or.inr (Or.inl ?_)))
      rw [plotCp, if_pos this]
      rfl)⟩
  obtain ⟨m, hm, hmn⟩ := hmap m0 hm0
  obtain ⟨F1, hF1, hn1⟩ := hplot _ f1 hf1
  obtain ⟨F2, hF2, hn2⟩ := hplot _ f2 hf2
  refine ⟨m0, f1, f2, m, F1, F2, hm0, hf1, hf2, ?_, hmn, hn1, hn2⟩
  filter_upwards [hm, hF1, hF2] with x x1 x2 x3
  exact ⟨x1, x2, x3⟩

end PySailing.Props
