import Verif.Lemmas.ArithRunCurve

/-!
# Limits of rounded runs (C134): sails and coordinate systems
-/

namespace PySailing

open Spec Filter Topology

variable {T : Type} {l : Filter T}

/-- The forestay is not parallel to the mast axis of the drawing: its sine is below one. -/
theorem forestay_sine_lt {b h r : ℝ} (hx : b - h * Real.cos r ≠ 0) :
    0 < b * b + h * h - 2 * b * h * Real.cos r ∧
    |h * Real.sin r / Real.sqrt (b * b + h * h - 2 * b * h * Real.cos r)| < 1 := by
  have hpos : 0 < (b - h * Real.cos r) ^ 2 := by positivity
  have hq : 0 < b * b + h * h - 2 * b * h * Real.cos r := by
    nlinarith [Real.sin_sq_add_cos_sq r, sq_nonneg (h * Real.sin r)]
  refine ⟨hq, ?_⟩
  have hs := Real.sqrt_pos.2 hq
  rw [abs_div, abs_of_pos hs, div_lt_one hs]
  refine Real.lt_sqrt_of_sq_lt ?_
  rw [sq_abs]
  nlinarith [Real.sin_sq_add_cos_sq r]

namespace Spec.RefinedRun

variable {growth : ℕ → ℝ} {condition : ℕ → ℝ → ℝ} {A : T → RunArith} {u : T → ℝ}

theorem rake (R : RefinedRun l growth condition A u) {f : T → SailFactory} {f0 : SailFactory}
    (hr : Tendsto (fun t => (f t).rakeDeg) l (𝓝 f0.rakeDeg)) : Tendsto (fun t => (A t).rake (f t)) l (𝓝 f0.rake) := R.full.deg2rad hr

theorem sheerXyz (R : RefinedRun l growth condition A u) {f : T → SailFactory} {f0 : SailFactory}
    (hr : Tendsto (fun t => (f t).rakeDeg) l (𝓝 f0.rakeDeg)) (hs : Tendsto (fun t => (f t).sheer) l (𝓝 f0.sheer)) :
    Conv l (fun t => (A t).sheerXyz (f t)) f0.sheerXyz :=
  ⟨R.base.mul hs.neg (R.full.cos (R.rake hr)), tendsto_const_nhds, R.base.mul hs (R.full.sin (R.rake hr))⟩

/-- Mounting points of the main sail. -/
theorem mainMounting (R : RefinedRun l growth condition A u) {f : T → SailFactory} {f0 : SailFactory}
    (hr : Tendsto (fun t => (f t).rakeDeg) l (𝓝 f0.rakeDeg)) (hs : Tendsto (fun t => (f t).sheer) l (𝓝 f0.sheer))
    {L b : T → ℝ} {L0 b0 : ℝ} (hL : Tendsto L l (𝓝 L0)) (hb : Tendsto b l (𝓝 b0)) :
    Conv l (fun t => ((A t).mainMounting (f t) (L t) (b t)).1) (f0.mainMounting L0 b0).1 ∧
    Conv l (fun t => ((A t).mainMounting (f t) (L t) (b t)).2) (f0.mainMounting L0 b0).2 := by
  have B := R.base
  have hc := R.full.cos (R.rake hr)
  have hi := R.full.sin (R.rake hr)
  have hS := R.sheerXyz hr hs
  have h1 := B.add hS.x (B.mul hb.neg hc)
  have h2 := B.add hS.z (B.mul hb hi)
  exact ⟨⟨h1, tendsto_const_nhds, h2⟩, ⟨B.sub h1 (B.mul hL hc), tendsto_const_nhds, B.add h2 (B.mul hL hi)⟩⟩

theorem arcsin (R : RefinedRun l growth condition A u) {x : T → ℝ} {x0 : ℝ} (hx : Tendsto x l (𝓝 x0)) (h0 : |x0| < 1) :
    Tendsto (fun t => (A t).arcsin (x t)) l (𝓝 (Real.arcsin x0)) :=
  rounds_conv R.lim R.base.pos ((R.acc.and (hx.abs.eventually_lt_const h0)).mono fun _ h => h.1.arcsin _ h.2.le)
    (Real.continuous_arcsin.continuousAt.tendsto.comp hx)

/-- Mounting points of the jib. -/
theorem jibMounting (R : RefinedRun l growth condition A u) {f : T → SailFactory} {f0 : SailFactory}
    (hr : Tendsto (fun t => (f t).rakeDeg) l (𝓝 f0.rakeDeg)) (hs : Tendsto (fun t => (f t).sheer) l (𝓝 f0.sheer))
    {L b h a : T → ℝ} {L0 b0 h0 a0 : ℝ} (hL : Tendsto L l (𝓝 L0)) (hb : Tendsto b l (𝓝 b0)) (hh : Tendsto h l (𝓝 h0))
    (ha : Tendsto a l (𝓝 a0)) (hsin : Real.sin f0.rake ≠ 0) (hx : b0 - h0 * Real.cos f0.rake ≠ 0) {m0 : V3 × V3}
    (hm : f0.jibMounting L0 b0 h0 a0 = .ok m0) :
    ∃ m : T → V3 × V3, (∀ᶠ t in l, (A t).jibMounting (f t) (L t) (b t) (h t) (a t) = .ok (m t)) ∧
      Conv l (fun t => (m t).1) m0.1 ∧ Conv l (fun t => (m t).2) m0.2 := by
  have B := R.base
  obtain ⟨hq, hs1⟩ := forestay_sine_lt hx
  have hc := R.full.cos (R.rake hr)
  have hi := R.full.sin (R.rake hr)
  have hS := R.sheerXyz hr hs
  have hQ : Tendsto (fun t => (A t).forestaySquare (f t) (b t) (h t)) l (𝓝 (b0 * b0 + h0 * h0 - 2 * b0 * h0 * Real.cos f0.rake)) :=
    B.sub (B.add (B.mul hb hb) (B.mul hh hh)) (B.mul (B.mul (B.mul (B.lit 2) hb) hh) hc)
  have hF := R.full.sqrt hQ hq
  have hF0 := (Real.sqrt_pos.2 hq).ne'
  have hs2 := B.div (B.mul hh hi) hF hF0
  have hA := R.arcsin hs2 hs1
  have t1 := B.sub (B.add hb.neg hS.x) (B.div ha hi hsin)
  have t2 := B.add t1 (B.mul hL (R.full.cos hA))
  have t3 := B.add hS.z (B.mul hL (R.full.sin hA))
  unfold SailFactory.jibMounting at hm
  simp only [if_neg hF0, if_neg hsin] at hm
  cases hm
  refine ⟨fun t =>
    let angle := (A t).arcsin ((A t).div ((A t).mul (h t) ((A t).sin ((A t).rake (f t)))) ((A t).sqrt ((A t).forestaySquare (f t) (b t) (h t))))
    let tack : V3 := ⟨(A t).sub ((A t).add (-b t) ((A t).sheerXyz (f t)).x) ((A t).div (a t) ((A t).sin ((A t).rake (f t)))), 0,
      ((A t).sheerXyz (f t)).z⟩
    (tack, ⟨(A t).add tack.x ((A t).mul (L t) ((A t).cos angle)), 0, (A t).add tack.z ((A t).mul (L t) ((A t).sin angle))⟩), ?_,
    ⟨t1, tendsto_const_nhds, hS.z⟩, ⟨t2, tendsto_const_nhds, t3⟩⟩
  filter_upwards [hQ.eventually_const_lt hq, hF.eventually_ne hF0, hi.eventually_ne hsin, hs2.abs.eventually_lt_const hs1] with t q1 q2 q3 q4
  unfold RunArith.jibMounting
  simp only
  rw [if_neg (by rintro (h | h); exacts [absurd h q1.not_gt, q2 h]), if_neg q3, if_neg q4.not_gt]

/-! ## Coordinate systems -/

theorem rotvec (R : RefinedRun l growth condition A u) {k : V3} (hk : k.dot k = 1) {θ : T → ℝ} {θ0 : ℝ} (hθ : Tendsto θ l (𝓝 θ0)) :
    ConvM l (fun t => (A t).rotvec k (θ t)) (rotationMatrixCore k θ0) := by
  have hk0 : k ≠ 0 := fun h => by rw [h] at hk; simp [V3.dot] at hk
  have hu : Tendsto (fun t => u t * (1 + |θ t|)) l (𝓝 0) := by simpa using R.lim.mul (hθ.abs.const_add 1)
  have hex : ConvM l (fun t => rotationMatrixCore k (θ t)) (rotationMatrixCore k θ0) := by
    have c : ∀ f : M3 → ℝ, Continuous (fun θ => f (rotationMatrixCore k θ)) → Tendsto (fun t => f (rotationMatrixCore k (θ t))) l
        (𝓝 (f (rotationMatrixCore k θ0))) := fun f hf => hf.continuousAt.tendsto.comp hθ
    refine ⟨⟨c (·.r0.x) ?_, c (·.r0.y) ?_, c (·.r0.z) ?_⟩, ⟨c (·.r1.x) ?_, c (·.r1.y) ?_, c (·.r1.z) ?_⟩,
      ⟨c (·.r2.x) ?_, c (·.r2.y) ?_, c (·.r2.z) ?_⟩⟩
    all_goals
      simp only [rotationMatrixCore, PySailing.quatMatrix]
      fun_prop
  have key : ∀ᶠ t in l, NearV (u t * (1 + |θ t|)) ((A t).rotvec k (θ t)).r0 (rotationMatrixCore k (θ t)).r0 ∧
      NearV (u t * (1 + |θ t|)) ((A t).rotvec k (θ t)).r1 (rotationMatrixCore k (θ t)).r1 ∧
      NearV (u t * (1 + |θ t|)) ((A t).rotvec k (θ t)).r2 (rotationMatrixCore k (θ t)).r2 := by
    filter_upwards [R.acc, R.full.below hθ] with t t1 t2
    have := t1.rotvec k (θ t) hk t2
    rwa [scipyMatrix_eq k hk] at this
  have one : ∀ {x y : T → ℝ} {y0 : ℝ}, (∀ᶠ t in l, |x t - y t| ≤ u t * (1 + |θ t|)) → Tendsto y l (𝓝 y0) → Tendsto x l (𝓝 y0) := by
    intro x y y0 h1 h2
    have : Tendsto (fun t => x t - y t) l (𝓝 0) := squeeze_zero_norm' h1 hu
    simpa using this.add h2
  have vec : ∀ {x y : T → V3} {y0 : V3}, (∀ᶠ t in l, NearV (u t * (1 + |θ t|)) (x t) (y t)) → Conv l y y0 → Conv l x y0 := fun h1 h2 =>
    ⟨one (h1.mono fun _ h => h.1) h2.x, one (h1.mono fun _ h => h.2.1) h2.y, one (h1.mono fun _ h => h.2.2) h2.z⟩
  exact ⟨vec (key.mono fun _ h => h.1) hex.r0, vec (key.mono fun _ h => h.2.1) hex.r1, vec (key.mono fun _ h => h.2.2) hex.r2⟩

theorem matAlmostEq (R : RefinedRun l growth condition A u) {M N : T → M3} {M0 : M3} (hM : ConvM l M M0) (hN : ConvM l N M0) :
    ∀ᶠ t in l, (A t).matAlmostEq (M t) (N t) := by
  have S := R.sail
  filter_upwards [S.almostEq hM.r0.x hN.r0.x, S.almostEq hM.r0.y hN.r0.y, S.almostEq hM.r0.z hN.r0.z,
    S.almostEq hM.r1.x hN.r1.x, S.almostEq hM.r1.y hN.r1.y, S.almostEq hM.r1.z hN.r1.z,
    S.almostEq hM.r2.x hN.r2.x, S.almostEq hM.r2.y hN.r2.y, S.almostEq hM.r2.z hN.r2.z] with t a b c d e f g h i
  exact ⟨⟨a, b, c⟩, ⟨d, e, f⟩, ⟨g, h, i⟩⟩

/-- The matrices of the yacht; the comparison with scipy's finally succeeds. -/
theorem csysInit (R : RefinedRun l growth condition A u) {c : T → Csys} {c0 : Csys}
    (h1 : Tendsto (fun t => (c t).heelDeg) l (𝓝 c0.heelDeg)) (h2 : Tendsto (fun t => (c t).leewayDeg) l (𝓝 c0.leewayDeg)) :
    ∃ M : T → M3 × M3 × M3, (∀ᶠ t in l, (A t).csysInit (c t) = .ok (M t)) ∧ ConvM l (fun t => (M t).1) c0.heeling ∧
      ConvM l (fun t => (M t).2.1) c0.reverseHeeling ∧ ConvM l (fun t => (M t).2.2) c0.leeway := by
  obtain ⟨M, hM, m1, m2, m3⟩ := R.sail.csysMatrices h1 h2
  obtain ⟨N, hN, n1⟩ := R.full.rotationMatrix (conv_const Csys.ez) ExactSail.ez_ne (R.full.deg2rad h2.neg)
  have hx : Csys.ex.dot Csys.ex = 1 := by simp [Csys.ex, V3.dot]
  have hz : Csys.ez.dot Csys.ez = 1 := by simp [Csys.ez, V3.dot]
  refine ⟨M, ?_, m1, m2, m3⟩
  filter_upwards [hM, hN, R.matAlmostEq m1 (R.rotvec hx (R.full.deg2rad h1.neg)), R.matAlmostEq m2 (R.rotvec hx (R.full.deg2rad h1)),
    R.matAlmostEq m3 (R.rotvec hz (R.full.deg2rad h2)), R.matAlmostEq n1 (R.rotvec hz (R.full.deg2rad h2.neg))] with t t1 t2 a b d e
  unfold RunArith.csysInit
  rw [t1, t2]
  exact if_pos ⟨a, b, d, e⟩

/-! ## Sails -/

/-- A sail as the program calculates it from configurations that tend to a configuration: its arguments tend to those of a
well-formed sail. -/
structure SailLimit (l : Filter T) (A : T → RunArith) (nc ns : ℕ) (name : String) (s : T → SailInput) (s0 : SailInput × (ℕ → ℝ)) : Prop where
  tends : TendsSail l (fun t => (A t).toSailArith) s s0.1
  ok : SailOk s0.1 s0.2
  nc_eq : s0.1.nc = nc
  ns_eq : s0.1.ns = ns
  name_eq : s0.1.name = name
  names : ∀ t, (s t).name = name

/-- The jib. -/
theorem jib (R : RefinedRun l growth condition A u) {c : T → Config} {c0 : Config} (N : NearConfig l c c0) (h0 : WellFormed c0)
    (hd : c0.rig.sailsDef ≠ "main")
    (hx : ∀ b h, c0.rig.base = some b → c0.rig.height = some h → (forestay c0.rig.rakeDeg b h).x ≠ 0)
    (hrange : ∀ᶠ t in l, ComputedInRange (A t) (c t)) {jib : T → SailConf}
    (hj : ∀ᶠ t in l, (A t).withTwist (c t).jib 15 7 = .ok (jib t)) (hN : NearSailConf l jib (jibData c0)) :
    ∃ (s : T → SailInput) (s0 : SailInput × (ℕ → ℝ)), SailLimit l A c0.solver.nc c0.solver.ns "jib" s s0 ∧
      sailJib fitpackSpline c0.solver c0.rig (some (jibData c0)) ⟨c0.heelDeg, c0.leewayDeg, c0.vRef⟩ = sailGeometry s0.1 ∧
      ∀ᶠ t in l, (A t).jibInput (c t).solver (c t).rig (jib t) ⟨(c t).heelDeg, (c t).leewayDeg, (c t).vRef⟩ = .ok (s t) := by
  obtain ⟨hr, gi, ch, tw, ca, di, G⟩ := h0.jib hd
  have hns := h0.ns_pos
  have hmode := h0.mode
  simp only [twistModes, List.mem_cons, List.not_mem_nil, or_false] at hmode
  obtain ⟨ch', tw', ca', di', hi, l1, l2, l3, l4, r3, r4, -⟩ := interpolatedSail_ok fitpackSpline c0.solver (Or.inr rfl) hns G
  obtain ⟨luff, hl, hl0⟩ := hr.luff
  obtain ⟨base, hb, hb0⟩ := hr.base
  obtain ⟨height, hh, hh0⟩ := hr.height
  have hsh := hr.sheer
  have hs := hr.rake
  have fz : (forestay c0.rig.rakeDeg base height).z = height * Real.sin (deg2rad c0.rig.rakeDeg) := by
    simp [forestay, mastDirection]
  have hfz : 0 < (forestay c0.rig.rakeDeg base height).z := by rw [fz]; positivity
  have hf : forestay c0.rig.rakeDeg base height ≠ 0 := by
    intro h0; rw [h0] at hfz; simp at hfz
  have hn := V3.norm_pos hf
  set csys0 : Csys := ⟨c0.heelDeg, c0.leewayDeg, c0.vRef⟩ with hcs
  have hm : (c0.rig.factory c0.solver csys0).jibMounting luff base height c0.rig.mastLOA =
      .ok (jibTack c0.rig base, jibHead c0.rig luff base height) :=
    Props.jibMounting_eq (c0.rig.factory c0.solver csys0) luff base height c0.rig.mastLOA hs hf
  have hD0 : 0 < luff / (forestay c0.rig.rakeDeg base height).norm := by positivity
  have hok := sailOk_interpolated (tack := jibTack c0.rig base) (head := jibHead c0.rig luff base height)
    (csys := csys0) (mode := c0.solver.lltTwist) (name := "jib") hns h0.nc_pos l1 l2 l3 l4 r3 r4 hmode
    (by simp [jibTack, mastDirection]) (by simp [jibHead, jibTack, mastDirection])
    (by
      rcases hsh with hsh | ⟨hsh, h0⟩
      · left; simp [jibTack, mastDirection]; positivity
      · right; exact ⟨by simp [jibTack, hsh], h0⟩)
    (by have h1 : 0 ≤ c0.rig.sheer * Real.sin (deg2rad c0.rig.rakeDeg) := by
          rcases hsh with hsh | ⟨hsh, -⟩
          · positivity
          · rw [hsh, zero_mul]
        have h2 := mul_pos hD0 hfz
        simp only [jibHead, jibTack, mastDirection, V3.add_z, V3.sub_z, V3.smul_z]; linarith)
    (by have h2 := mul_pos hD0 hfz
        simp only [jibHead, V3.add_z, V3.smul_z]
        intro e; linarith) h0.heel
  -- the rounded sail
  obtain ⟨v1, v2, v3, v4, hv, q1, q2, q3, q4⟩ := R.interpolatedSail hns hN G hi
  obtain ⟨L, L1, L2⟩ := nearNumber_some N.rig.jibLuff hl
  obtain ⟨b, b1, b2⟩ := nearNumber_some N.rig.base hb
  obtain ⟨H, H1, H2⟩ := nearNumber_some N.rig.height hh
  have hx' : base - height * Real.cos (c0.rig.factory c0.solver csys0).rake ≠ 0 := by
    have := hx base height hb hh
    simp only [forestay, mastDirection, V3.sub_x, V3.smul_x] at this
    intro e; apply this
    have e' : base - height * Real.cos (deg2rad c0.rig.rakeDeg) = 0 := e
    linarith
  obtain ⟨m, m1, m2, m3⟩ := R.jibMounting (f := fun t => (c t).rig.factory (c t).solver ⟨(c t).heelDeg, (c t).leewayDeg, (c t).vRef⟩)
    (f0 := c0.rig.factory c0.solver csys0) N.rig.rake N.rig.sheer L2 b2 H2 N.rig.mastLOA hs.ne' hx' hm
  refine ⟨fun t => ⟨(m t).2, (m t).1, ⟨(c t).heelDeg, (c t).leewayDeg, (c t).vRef⟩, (c t).solver.ns, (c t).solver.nc, v1 t, some (v2 t),
    some (c t).solver.lltTwist, v3 t, v4 t, "jib"⟩, (⟨_, _⟩ : SailInput × (ℕ → ℝ)), ⟨?_, hok, rfl, rfl, rfl, fun _ => rfl⟩, ?_, ?_⟩
  rotate_right
  · filter_upwards [hv, L1, b1, H1, m1] with t t1 t2 t3 t4 t5
    unfold RunArith.jibInput
    rw [N.solver t] at t5 ⊢
    simp only [t1, t2, t3, t4, need, Bind.bind, Except.bind, t5]
  rotate_right
  · unfold sailJib
    simp only [attr, need, Bind.bind, Except.bind, SailFactory.makeJib, hi, hl, hb, hh, hm]
    rfl
  · refine ⟨.of_forall fun t => by rw [N.solver t], .of_forall fun t => by rw [N.solver t], .of_forall fun t => by rw [N.solver t], m2, m3,
      N.heel, N.leeway, q1.1, q3.1, q4.1, q1.2, q3.2, q4.2, Or.inr ⟨tw', v2, rfl, q2.2, q2.1.mono fun t h => ⟨rfl, h⟩⟩, ?_⟩
    filter_upwards [hrange, hj, hv, L1, b1, H1, m1] with t r1 r2 t1 t2 t3 t4 t5
    refine r1.jib (by rw [N.rig.sailsDef t]; exact hd) _ _ r2 ?_
    unfold RunArith.jibInput
    rw [N.solver t] at t5 ⊢
    simp only [t1, t2, t3, t4, need, Bind.bind, Except.bind, t5]

/-- The main sail. -/
theorem mainSail (R : RefinedRun l growth condition A u) {c : T → Config} {c0 : Config} (N : NearConfig l c c0) (h0 : WellFormed c0)
    (hd : c0.rig.sailsDef ≠ "jib") (hrange : ∀ᶠ t in l, ComputedInRange (A t) (c t)) {main : T → SailConf}
    (hj : ∀ᶠ t in l, (A t).withTwist (c t).main 12 5 = .ok (main t)) (hN : NearSailConf l main (mainData c0)) :
    ∃ (s : T → SailInput) (s0 : SailInput × (ℕ → ℝ)), SailLimit l A c0.solver.nc c0.solver.ns "main_sail" s s0 ∧
      sailMain fitpackSpline c0.solver c0.rig (some (mainData c0)) ⟨c0.heelDeg, c0.leewayDeg, c0.vRef⟩ = sailGeometry s0.1 ∧
      ∀ᶠ t in l, (A t).mainInput (c t).solver (c t).rig (main t) ⟨(c t).heelDeg, (c t).leewayDeg, (c t).vRef⟩ = .ok (s t) := by
  obtain ⟨hr, gi, ch, tw, ca, di, G⟩ := h0.main hd
  have hns := h0.ns_pos
  have hmode := h0.mode
  simp only [twistModes, List.mem_cons, List.not_mem_nil, or_false] at hmode
  obtain ⟨ch', tw', ca', di', hi, l1, l2, l3, l4, r3, r4, -⟩ := interpolatedSail_ok fitpackSpline c0.solver (Or.inr rfl) hns G
  obtain ⟨luff, hl, hl0⟩ := hr.luff
  have hb := hr.boom
  have hs := hr.rake
  set csys0 : Csys := ⟨c0.heelDeg, c0.leewayDeg, c0.vRef⟩ with hcs
  have hok := sailOk_interpolated (tack := (c0.rig.sheer + c0.rig.boom) • mastDirection c0.rig.rakeDeg)
    (head := (c0.rig.sheer + c0.rig.boom + luff) • mastDirection c0.rig.rakeDeg) (csys := csys0)
    (mode := c0.solver.lltTwist) (name := "main_sail") hns h0.nc_pos l1 l2 l3 l4 r3 r4 hmode
    (by simp [mastDirection]) (by simp [mastDirection])
    (by
      rcases hb with hb | ⟨hb, h0⟩
      · left; simp [mastDirection]; positivity
      · right; exact ⟨by rw [hb]; simp, h0⟩)
    (by
      have : 0 < c0.rig.sheer + c0.rig.boom + luff := by rcases hb with hb | ⟨hb, -⟩ <;> linarith
      simp only [mastDirection, V3.smul_z]; exact mul_pos this hs)
    (by simp only [mastDirection, V3.smul_z]; nlinarith [mul_pos hl0 hs]) h0.heel
  have hm : (c0.rig.factory c0.solver csys0).mainMounting luff c0.rig.boom =
      ((c0.rig.sheer + c0.rig.boom) • mastDirection c0.rig.rakeDeg, (c0.rig.sheer + c0.rig.boom + luff) • mastDirection c0.rig.rakeDeg) := by
    refine Prod.ext ?_ ?_ <;> ext <;>
      simp [SailFactory.mainMounting, SailFactory.sheerXyz, SailFactory.rake, RigConf.factory, mastDirection] <;> ring
  obtain ⟨v1, v2, v3, v4, hv, q1, q2, q3, q4⟩ := R.interpolatedSail hns hN G hi
  obtain ⟨L, L1, L2⟩ := nearNumber_some N.rig.mainLuff hl
  obtain ⟨m2, m3⟩ := R.mainMounting (f := fun t => (c t).rig.factory (c t).solver ⟨(c t).heelDeg, (c t).leewayDeg, (c t).vRef⟩)
    (f0 := c0.rig.factory c0.solver csys0) N.rig.rake N.rig.sheer L2 N.rig.boom
  rw [hm] at m2 m3
  refine ⟨fun t =>
    let m := (A t).mainMounting ((c t).rig.factory (c t).solver ⟨(c t).heelDeg, (c t).leewayDeg, (c t).vRef⟩) (L t) (c t).rig.boom
    ⟨m.2, m.1, ⟨(c t).heelDeg, (c t).leewayDeg, (c t).vRef⟩, (c t).solver.ns, (c t).solver.nc, v1 t, some (v2 t),
    some (c t).solver.lltTwist, v3 t, v4 t, "main_sail"⟩, (⟨_, _⟩ : SailInput × (ℕ → ℝ)), ⟨?_, hok, rfl, rfl, rfl, fun _ => rfl⟩, ?_, ?_⟩
  rotate_right
  · filter_upwards [hv, L1] with t t1 t2
    unfold RunArith.mainInput
    rw [N.solver t]
    simp only [t1, t2, need, Bind.bind, Except.bind]
  rotate_right
  · unfold sailMain
    simp only [attr, need, Bind.bind, Except.bind, SailFactory.makeMainSail, hi, hl, hm]
    rfl
  · refine ⟨.of_forall fun t => by rw [N.solver t], .of_forall fun t => by rw [N.solver t], .of_forall fun t => by rw [N.solver t], m2, m3,
      N.heel, N.leeway, q1.1, q3.1, q4.1, q1.2, q3.2, q4.2, Or.inr ⟨tw', v2, rfl, q2.2, q2.1.mono fun t h => ⟨rfl, h⟩⟩, ?_⟩
    filter_upwards [hrange, hj, hv, L1] with t r1 r2 t1 t2
    refine r1.main (by rw [N.rig.sailsDef t]; exact hd) _ _ r2 ?_
    unfold RunArith.mainInput
    rw [N.solver t]
    simp only [t1, t2, need, Bind.bind, Except.bind]

/-- The sails of the yacht. -/
theorem sails (R : RefinedRun l growth condition A u) {c : T → Config} {c0 : Config} (N : NearConfig l c c0) (h0 : WellFormed c0)
    (hx : c0.rig.sailsDef ≠ "main" → ∀ b h, c0.rig.base = some b → c0.rig.height = some h → (forestay c0.rig.rakeDeg b h).x ≠ 0)
    (hrange : ∀ᶠ t in l, ComputedInRange (A t) (c t)) {main jib : T → SailConf}
    (hm : ∀ᶠ t in l, (A t).withTwist (c t).main 12 5 = .ok (main t)) (hMN : NearSailConf l main (mainData c0))
    (hj : ∀ᶠ t in l, (A t).withTwist (c t).jib 15 7 = .ok (jib t)) (hJN : NearSailConf l jib (jibData c0)) {set0 : SailSet}
    (hset : PySailing.sailSetOf fitpackSpline c0.solver c0.rig (some (mainData c0)) (some (jibData c0)) ⟨c0.heelDeg, c0.leewayDeg, c0.vRef⟩ =
      .ok set0) :
    ∃ m, 0 < m ∧ ∃ (ss : T → Fin m → SailInput) (ss0 : Fin m → SailInput × (ℕ → ℝ)) (names : Fin m → String),
      (∀ b, SailLimit l A c0.solver.nc c0.solver.ns (names b) (fun t => ss t b) (ss0 b)) ∧
      (List.ofFn fun b => (ss0 b).1).mapM PySailing.sailGeometry = .ok set0.sails ∧
      ∀ᶠ t in l, ∀ gm : Fin m → SailGeom, (∀ b, (A t).sailGeometry (ss t b) = .ok (gm b)) →
        (A t).sailSetOf (c t).solver (c t).rig (main t) (jib t) ⟨(c t).heelDeg, (c t).leewayDeg, (c t).vRef⟩ = sailSet (List.ofFn gm) := by
  have hd := h0.sails
  simp only [List.mem_cons, List.not_mem_nil, or_false] at hd
  have hsd : ∀ t, (c t).rig.sailsDef = c0.rig.sailsDef := N.rig.sailsDef
  have hsails : ∀ gs, sailSet gs = .ok set0 → set0.sails = gs := fun gs h => by
    unfold sailSet at h
    split_ifs at h
    cases h; rfl
  rcases hd with hd | hd | hd
  · obtain ⟨s, s0, S, e0, hs⟩ := R.jib N h0 (by rw [hd]; decide) (hx (by rw [hd]; decide)) hrange hj hJN
    refine ⟨1, one_pos, fun t _ => s t, fun _ => s0, fun _ => "jib", fun _ => S, ?_, ?_⟩
    · unfold PySailing.sailSetOf selectedJib selectedMain at hset
      rw [e0, if_pos (Or.inl hd), if_neg (by rw [hd]; decide)] at hset
      cases hg : PySailing.sailGeometry s0.1 with
      | error e => rw [hg] at hset; cases hset
      | ok g =>
        rw [hg] at hset
        rw [hsails [g] hset]
        simp only [List.ofFn_succ, List.ofFn_zero, List.mapM_cons, hg]
        rfl
    · filter_upwards [hs] with t t1 gm hg
      have e := hg 0
      simp [RunArith.sailSetOf, (hsd t).trans hd, t1, Bind.bind, Except.bind, Except.map, e]
  · obtain ⟨s, s0, S, e0, hs⟩ := R.mainSail N h0 (by rw [hd]; decide) hrange hm hMN
    refine ⟨1, one_pos, fun t _ => s t, fun _ => s0, fun _ => "main_sail", fun _ => S, ?_, ?_⟩
    · unfold PySailing.sailSetOf selectedJib selectedMain at hset
      rw [e0, if_neg (by rw [hd]; decide), if_pos (Or.inl hd)] at hset
      cases hg : PySailing.sailGeometry s0.1 with
      | error e => rw [hg] at hset; cases hset
      | ok g =>
        rw [hg] at hset
        rw [hsails [g] hset]
        simp only [List.ofFn_succ, List.ofFn_zero, List.mapM_cons, hg]
        rfl
    · filter_upwards [hs] with t t1 gm hg
      have e := hg 0
      simp [RunArith.sailSetOf, (hsd t).trans hd, t1, Bind.bind, Except.bind, Except.map, e]
  · obtain ⟨s, s0, S, e0, hs⟩ := R.jib N h0 (by rw [hd]; decide) (hx (by rw [hd]; decide)) hrange hj hJN
    obtain ⟨s', s0', S', e0', hs'⟩ := R.mainSail N h0 (by rw [hd]; decide) hrange hm hMN
    refine ⟨2, two_pos, fun t => ![s t, s' t], ![s0, s0'], !["jib", "main_sail"], fun b => ?_, ?_, ?_⟩
    · fin_cases b
      · exact S
      · exact S'
    · unfold PySailing.sailSetOf selectedJib selectedMain at hset
      rw [e0, e0', if_pos (Or.inr hd), if_pos (Or.inr hd)] at hset
      cases hg : PySailing.sailGeometry s0.1 with
      | error e => rw [hg] at hset; cases hset
      | ok g =>
        cases hg' : PySailing.sailGeometry s0'.1 with
        | error e => rw [hg, hg'] at hset; cases hset
        | ok g' =>
          rw [hg, hg'] at hset
          rw [hsails [g, g'] hset]
          have e : (List.ofFn fun b : Fin 2 => ((![s0, s0'] : Fin 2 → SailInput × (ℕ → ℝ)) b).1) = [s0.1, s0'.1] := by
            simp [List.ofFn_succ]
          rw [e]
          simp only [List.mapM_cons, hg, hg']
          rfl
    · filter_upwards [hs, hs'] with t t1 t2 gm hg
      have g0 : (A t).sailGeometry (s t) = .ok (gm 0) := hg 0
      have g1 : (A t).sailGeometry (s' t) = .ok (gm 1) := hg 1
      have e : List.ofFn gm = [gm 0, gm 1] := by simp [List.ofFn_succ]
      rw [e]
      simp [RunArith.sailSetOf, (hsd t).trans hd, t1, t2, Bind.bind, Except.bind, Except.map, g0, g1]

end Spec.RefinedRun

theorem SailArith.sailGeometry_name {A : SailArith} {s : SailInput} {g : SailGeom} (h : A.sailGeometry s = .ok g) : g.name = s.name := by
  unfold SailArith.sailGeometry at h
  simp only [Bind.bind, Except.bind] at h
  repeat' split at h
  all_goals first
    | (cases h; done)
    | (cases h; rfl)

/-- The checks of the input data. -/
theorem checks_ok {c : T → Config} {c0 : Config} (N : NearConfig l c c0) (h0 : WellFormed c0) {main jib : T → SailConf}
    (hMN : NearSailConf l main (mainData c0)) (hJN : NearSailConf l jib (jibData c0)) :
    ∀ᶠ t in l, sailPostInit (c t).rig (some (main t)) (some (jib t)) = .ok () := by
  have arrays : ∀ {s : T → SailConf} {s0 : SailConf} {kind : String} {gi ch tw ca di : List ℝ}, NearSailConf l s s0 →
      GoodSail kind s0 gi ch tw ca di → ∀ᶠ t in l, ArraysComplete (s t) := by
    intro s s0 kind gi0 ch0 tw0 ca0 di0 h G
    obtain ⟨gi, gi1, -⟩ := nearArray_some h.girths G.girths_eq
    obtain ⟨tw, tw1, -⟩ := nearArray_some h.twist G.twist_eq
    obtain ⟨ca, ca1, -⟩ := nearArray_some h.camber G.camber_eq
    obtain ⟨di, di1, -⟩ := nearArray_some h.distance G.distance_eq
    filter_upwards [gi1, tw1, ca1, di1] with t t1 t2 t3 t4
    exact ⟨gi t, tw t, ca t, di t, t1.1, t2.1, t3.1, t4.1, by rw [t2.2, t1.2, G.twist_len], by rw [t3.2, t1.2, G.camber_len],
      by rw [t4.2, t1.2, G.distance_len]⟩
  have J : c0.rig.sailsDef ≠ "main" → ∀ᶠ t in l, JibComplete (c t).rig (jib t) := fun hd => by
    obtain ⟨hr, gi, ch, tw, ca, di, hg⟩ := h0.jib hd
    obtain ⟨a, ha, -⟩ := hr.luff
    obtain ⟨b, hb, -⟩ := hr.base
    obtain ⟨d, hh, -⟩ := hr.height
    obtain ⟨L, L1, -⟩ := nearNumber_some N.rig.jibLuff ha
    obtain ⟨B, B1, -⟩ := nearNumber_some N.rig.base hb
    obtain ⟨H, H1, -⟩ := nearNumber_some N.rig.height hh
    filter_upwards [L1, B1, H1, arrays hJN hg] with t t1 t2 t3 t4
    exact ⟨⟨_, _, _, t2, t3, t1⟩, t4⟩
  have M : c0.rig.sailsDef ≠ "jib" → ∀ᶠ t in l, MainComplete (c t).rig (main t) := fun hd => by
    obtain ⟨hr, gi, ch, tw, ca, di, hg⟩ := h0.main hd
    obtain ⟨a, ha, -⟩ := hr.luff
    obtain ⟨L, L1, -⟩ := nearNumber_some N.rig.mainLuff ha
    filter_upwards [L1, arrays hMN hg] with t t1 t2
    exact ⟨⟨_, t1⟩, t2⟩
  have hd := h0.sails
  simp only [List.mem_cons, List.not_mem_nil, or_false] at hd
  have hsd : ∀ t, (c t).rig.sailsDef = c0.rig.sailsDef := N.rig.sailsDef
  rcases hd with hd | hd | hd
  · filter_upwards [J (by rw [hd]; decide)] with t t1
    exact ((Props.C53_validation_partial (c t).rig).1 ((hsd t).trans hd) _ _).1 t1
  · filter_upwards [M (by rw [hd]; decide)] with t t1
    exact ((Props.C53_validation_partial (c t).rig).2.1 ((hsd t).trans hd) _ _).1 t1
  · filter_upwards [J (by rw [hd]; decide), M (by rw [hd]; decide)] with t t1 t2
    exact ((Props.C53_validation_partial (c t).rig).2.2 ((hsd t).trans hd) _ _).1 ⟨t1, t2⟩

end PySailing
