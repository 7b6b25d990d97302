import Verif.Spec.NearRun
import Verif.Lemmas.CurveConv
import Verif.Lemmas.NearSail
import Verif.Props.NearSail
import Verif.Props.Sheet

/-!
# Nearby configurations: sails
-/

namespace PySailing

open Spec Filter Topology

variable {T : Type} {l : Filter T}

theorem nearNumber_some {x : T → Option ℝ} {x0 : Option ℝ} (h : NearNumber l x x0) {a : ℝ} (h0 : x0 = some a) :
    ∃ f : T → ℝ, (∀ᶠ t in l, x t = some (f t)) ∧ Tendsto f l (𝓝 a) := by
  subst h0; exact h

theorem nearArray_some {x : T → Option (List ℝ)} {x0 : Option (List ℝ)} (h : NearArray l x x0) {a : List ℝ} (h0 : x0 = some a) :
    ∃ f : T → List ℝ, (∀ᶠ t in l, x t = some (f t) ∧ (f t).length = a.length) ∧
      ∀ i, i < a.length → Tendsto (fun t => (f t).getD i 0) l (𝓝 (a.getD i 0)) := by
  subst h0; exact h

/-- The default twist tends to the default twist. -/
theorem nearTwist {s : T → SailConf} {s0 : SailConf} (h : NearSailConf l s s0) (a b : ℝ) :
    NearSailConf l (fun t => withDefaultTwist a b (s t)) (withDefaultTwist a b s0) := by
  refine ⟨?_, h.girths, h.chords, h.camber, h.distance⟩
  have h1 := h.twist
  have h2 := h.girths
  unfold withDefaultTwist
  simp only
  cases e : s0.twist with
  | some x =>
    obtain ⟨f, f1, f2⟩ := nearArray_some h1 e
    refine ⟨f, f1.mono fun t ht => ⟨by beta_reduce; rw [ht.1]; rfl, ht.2⟩, f2⟩
  | none =>
    rw [e] at h1
    have h1 : ∀ᶠ t in l, (s t).twist = none := h1
    cases eg : s0.girths with
    | none =>
      rw [eg] at h2
      have h2 : ∀ᶠ t in l, (s t).girths = none := h2
      show ∀ᶠ t in l, _ = none
      filter_upwards [h1, h2] with t t1 t2
      rw [t1, t2]; rfl
    | some g =>
      obtain ⟨f, f1, f2⟩ := nearArray_some h2 eg
      refine ⟨fun t => (f t).map fun x => a * x + b, ?_, fun i hi => ?_⟩
      · filter_upwards [h1, f1] with t t1 t2
        refine ⟨by rw [t1, t2.1]; rfl, ?_⟩
        simp only [List.length_map]; exact t2.2
      · rw [List.length_map] at hi
        have e0 : (g.map fun x => a * x + b).getD i 0 = a * g.getD i 0 + b := by
          simp [List.getD_eq_getElem?_getD, List.getElem?_eq_getElem hi]
        rw [e0]
        refine (((f2 i hi).const_mul a).add_const b).congr' ?_
        filter_upwards [f1] with t t1
        have hi' : i < (f t).length := by rw [t1.2]; exact hi
        simp [List.getD_eq_getElem?_getD, List.getElem?_eq_getElem hi']

/-- The curve of an array read at a fixed height. -/
theorem nearCurve {kind : String} {gi da : T → List ℝ} {gi0 da0 : List ℝ} (hne : gi0 ≠ [])
    (hkind : kind = "linear" ∨ (kind = "spline" ∧ 4 ≤ gi0.length)) (hlen : ∀ᶠ t in l, (gi t).length = gi0.length)
    (hgi : ∀ i, i < gi0.length → Tendsto (fun t => (gi t).getD i 0) l (𝓝 (gi0.getD i 0))) (hdl : da0.length = gi0.length)
    (hda : ∀ i, i < da0.length → Tendsto (fun t => (da t).getD i 0) l (𝓝 (da0.getD i 0)))
    (hinc : ∀ᶠ t in l, ∀ i, i + 1 < (gi t).length → (gi t).getD i 0 < (gi t).getD (i + 1) 0)
    (hinc0 : ∀ i, i + 1 < gi0.length → gi0.getD i 0 < gi0.getD (i + 1) 0) {x : ℝ} {v : T → ℝ} {v0 : ℝ}
    (h : ∀ᶠ t in l, CurveValue kind ((gi t).length - 1) (fun i => (gi t).getD i 0) (fun i => (da t).getD i 0) x (v t))
    (h0 : CurveValue kind (gi0.length - 1) (fun i => gi0.getD i 0) (fun i => da0.getD i 0) x v0) : Tendsto v l (𝓝 v0) := by
  have hpos := List.length_pos_iff.2 hne
  refine curve_conv (x := x) (kind := kind) (m := gi0.length - 1) (xs := fun t i => (gi t).getD i 0) (ys := fun t i => (da t).getD i 0)
    (xs0 := fun i => gi0.getD i 0) (ys0 := fun i => da0.getD i 0) ?_ (fun i hi => hgi i (by omega)) (fun i hi => hda i (by omega)) ?_ ?_ ?_ h0
  · rcases hkind with h | ⟨h, h4⟩
    · exact Or.inl h
    · exact Or.inr ⟨h, by omega⟩
  · filter_upwards [hinc, hlen] with t t1 t2 i hi
    exact t1 i (by omega)
  · exact fun i hi => hinc0 i (by omega)
  · filter_upwards [h, hlen] with t t1 t2
    rw [t2] at t1
    exact t1

/-- The twist cut off after the last row. -/
noncomputable def cutTwist (s : SailInput × (ℕ → ℝ)) : SailInput × (ℕ → ℝ) := (s.1, fun r => if r ≤ s.1.ns then s.2 r else 0)

theorem cutTwist_ok {s : SailInput × (ℕ → ℝ)} (h : SailOk s.1 s.2) : SailOk (cutTwist s).1 (cutTwist s).2 := by
  refine ⟨⟨h.ns_pos, h.nc_pos, h.valid, h.camber_len, h.pos, ?_, h.tack_y, h.head_y, h.tack_z, h.head_z, h.sloped, h.heel⟩, h.foot⟩
  rcases h.twist with ⟨tw, mode, h1, h2, h3, h4, h5⟩ | ⟨h1, h2⟩
  · refine Or.inl ⟨tw, mode, h1, h2, h3, h4, fun r hr => ?_⟩
    rw [h5 r hr]
    have hr' : r ≤ s.1.ns := hr
    simp [cutTwist, hr']
  · refine Or.inr ⟨h1, fun r => ?_⟩
    simp [cutTwist, h2]

/-- Sails designed from configurations that tend to a configuration tend to the sail designed from it. -/
theorem nearDesigned {kind : String} {ns nc : ℕ} (hns : 1 ≤ ns) {csys : T → Csys} {csys0 : Csys} {c : T → SailConf} {c0 : SailConf}
    (hc : NearSailConf l c c0) (hheel : Tendsto (fun t => (csys t).heelDeg) l (𝓝 csys0.heelDeg))
    (hlee : Tendsto (fun t => (csys t).leewayDeg) l (𝓝 csys0.leewayDeg)) {tack head : T → V3} {tack0 head0 : V3}
    (ht : Conv l tack tack0) (hh : Conv l head head0) {s : T → SailInput × (ℕ → ℝ)} {s0 : SailInput × (ℕ → ℝ)}
    (hok : ∀ᶠ t in l, SailOk (s t).1 (s t).2) (hok0 : SailOk s0.1 s0.2)
    (hd : ∀ᶠ t in l, ∃ gi ch tw ca di, GoodSail kind (c t) gi ch tw ca di ∧
      DesignedSail kind ns nc (csys t) gi ch tw ca di (tack t) (head t) (s t))
    (hd0 : ∃ gi ch tw ca di, GoodSail kind c0 gi ch tw ca di ∧ DesignedSail kind ns nc csys0 gi ch tw ca di tack0 head0 s0) :
    NearSail l (fun t => cutTwist (s t)) (cutTwist s0) := by
  obtain ⟨gi0, ch0, tw0, ca0, di0, G0, D0⟩ := hd0
  obtain ⟨gi, gi1, gi2⟩ := nearArray_some hc.girths G0.girths_eq
  obtain ⟨ch, ch1, ch2⟩ := nearArray_some hc.chords G0.chords_eq
  obtain ⟨tw, tw1, tw2⟩ := nearArray_some hc.twist G0.twist_eq
  obtain ⟨ca, ca1, ca2⟩ := nearArray_some hc.camber G0.camber_eq
  obtain ⟨di, di1, di2⟩ := nearArray_some hc.distance G0.distance_eq
  have key : ∀ᶠ t in l, GoodSail kind (c t) (gi t) (ch t) (tw t) (ca t) (di t) ∧
      DesignedSail kind ns nc (csys t) (gi t) (ch t) (tw t) (ca t) (di t) (tack t) (head t) (s t) := by
    filter_upwards [hd, gi1, ch1, tw1, ca1, di1] with t ht g1 g2 g3 g4 g5
    obtain ⟨gi', ch', tw', ca', di', G, D⟩ := ht
    have e1 := Option.some.inj (G.girths_eq.symm.trans g1.1)
    have e2 := Option.some.inj (G.chords_eq.symm.trans g2.1)
    have e3 := Option.some.inj (G.twist_eq.symm.trans g3.1)
    have e4 := Option.some.inj (G.camber_eq.symm.trans g4.1)
    have e5 := Option.some.inj (G.distance_eq.symm.trans g5.1)
    subst e1 e2 e3 e4 e5
    exact ⟨G, D⟩
  have hinc := key.mono fun t h => h.1.increasing
  have hlen : ∀ᶠ t in l, (gi t).length = gi0.length := gi1.mono fun t h => h.2
  have curve : ∀ {da : T → List ℝ} {da0 : List ℝ}, da0.length = gi0.length →
      (∀ i, i < da0.length → Tendsto (fun t => (da t).getD i 0) l (𝓝 (da0.getD i 0))) → ∀ {x : ℝ} {v : T → ℝ} {v0 : ℝ},
      (∀ᶠ t in l, CurveValue kind ((gi t).length - 1) (fun i => (gi t).getD i 0) (fun i => (da t).getD i 0) x (v t)) →
      CurveValue kind (gi0.length - 1) (fun i => gi0.getD i 0) (fun i => da0.getD i 0) x v0 → Tendsto v l (𝓝 v0) :=
    fun h1 h2 => nearCurve G0.nonempty G0.kind_ok hlen gi2 h1 h2 hinc G0.increasing
  have sampled : ∀ {da v : T → List ℝ} {da0 v0 : List ℝ}, da0.length = gi0.length →
      (∀ i, i < da0.length → Tendsto (fun t => (da t).getD i 0) l (𝓝 (da0.getD i 0))) →
      (∀ᶠ t in l, Sampled kind ns (gi t) (da t) (v t)) → Sampled kind ns gi0 da0 v0 → ∀ r,
      Tendsto (fun t => (v t).getD r 0) l (𝓝 (v0.getD r 0)) := by
    intro da v da0 v0 h1 h2 h3 h4 r
    by_cases hr : r ≤ ns
    · exact curve h1 h2 (h3.mono fun t ht => ht.2 r hr) (h4.2 r hr)
    · have e0 : v0.getD r 0 = 0 := by
        rw [List.getD_eq_getElem?_getD, List.getElem?_eq_none (by rw [h4.1]; omega)]; rfl
      rw [e0]
      refine (tendsto_const_nhds (x := (0 : ℝ))).congr' (h3.mono fun t ht => ?_)
      beta_reduce
      rw [List.getD_eq_getElem?_getD, List.getElem?_eq_none (by rw [ht.1]; omega)]; rfl
  refine ⟨hok.mono fun t h => cutTwist_ok h, cutTwist_ok hok0, ?_, ?_, ?_, ?_, ?_, ?_, ?_, ?_, ?_, ?_⟩
  · filter_upwards [key] with t h
    simp only [cutTwist]; rw [h.2.nc_eq, D0.nc_eq]
  · filter_upwards [key] with t h
    simp only [cutTwist]; rw [h.2.ns_eq, D0.ns_eq]
  · simp only [cutTwist]; rw [D0.tack_eq]
    exact ht.congr' (key.mono fun t h => h.2.tack_eq.symm)
  · simp only [cutTwist]; rw [D0.head_eq]
    exact hh.congr' (key.mono fun t h => h.2.head_eq.symm)
  · exact sampled G0.chords_len ch2 (key.mono fun t h => h.2.chords) D0.chords
  · exact sampled G0.camber_len ca2 (key.mono fun t h => h.2.camber) D0.camber
  · exact sampled G0.distance_len di2 (key.mono fun t h => h.2.distance) D0.distance
  · intro r
    simp only [cutTwist]
    by_cases hr : r ≤ ns
    · rw [D0.ns_eq, if_pos hr]
      refine (curve G0.twist_len tw2 (key.mono fun t h => h.2.twist r hr) (D0.twist r hr)).congr' (key.mono fun t h => ?_)
      beta_reduce
      rw [h.2.ns_eq, if_pos hr]
    · rw [D0.ns_eq, if_neg hr]
      refine (tendsto_const_nhds (x := (0 : ℝ))).congr' (key.mono fun t h => ?_)
      beta_reduce
      rw [h.2.ns_eq, if_neg hr]
  · simp only [cutTwist]; rw [D0.csys_eq]
    exact hheel.congr' (key.mono fun t h => by beta_reduce; rw [h.2.csys_eq])
  · simp only [cutTwist]; rw [D0.csys_eq]
    exact hlee.congr' (key.mono fun t h => by beta_reduce; rw [h.2.csys_eq])

/-! ## Mounting points -/

theorem mastDirection_conv {rake : T → ℝ} {rake0 : ℝ} (h : Tendsto rake l (𝓝 rake0)) :
    Conv l (fun t => mastDirection (rake t)) (mastDirection rake0) :=
  ⟨(Real.continuous_cos.continuousAt.tendsto.comp (deg2rad_tendsto h)).neg, tendsto_const_nhds,
    Real.continuous_sin.continuousAt.tendsto.comp (deg2rad_tendsto h)⟩

theorem forestay_conv {rake b h : T → ℝ} {rake0 b0 h0 : ℝ} (hr : Tendsto rake l (𝓝 rake0)) (hb : Tendsto b l (𝓝 b0))
    (hh : Tendsto h l (𝓝 h0)) : Conv l (fun t => forestay (rake t) (b t) (h t)) (forestay rake0 b0 h0) :=
  (Conv.smul hh (mastDirection_conv hr)).sub ⟨hb.neg, tendsto_const_nhds, tendsto_const_nhds⟩

theorem jibTack_conv {rig : T → RigConf} {rig0 : RigConf} (hr : NearRig l rig rig0) (hs : Real.sin (deg2rad rig0.rakeDeg) ≠ 0)
    {b : T → ℝ} {b0 : ℝ} (hb : Tendsto b l (𝓝 b0)) : Conv l (fun t => jibTack (rig t) (b t)) (jibTack rig0 b0) := by
  unfold jibTack
  refine (Conv.smul hr.sheer (mastDirection_conv hr.rake)).sub ⟨hb.add (hr.mastLOA.div ?_ hs), tendsto_const_nhds, tendsto_const_nhds⟩
  exact Real.continuous_sin.continuousAt.tendsto.comp (deg2rad_tendsto hr.rake)

theorem jibHead_conv {rig : T → RigConf} {rig0 : RigConf} (hr : NearRig l rig rig0) (hs : Real.sin (deg2rad rig0.rakeDeg) ≠ 0)
    {L b h : T → ℝ} {L0 b0 h0 : ℝ} (hL : Tendsto L l (𝓝 L0)) (hb : Tendsto b l (𝓝 b0)) (hh : Tendsto h l (𝓝 h0))
    (hn : (forestay rig0.rakeDeg b0 h0).norm ≠ 0) :
    Conv l (fun t => jibHead (rig t) (L t) (b t) (h t)) (jibHead rig0 L0 b0 h0) := by
  unfold jibHead
  have hf := forestay_conv hr.rake hb hh
  exact (jibTack_conv hr hs hb).add (Conv.smul (hL.div hf.norm hn) ⟨hf.x.abs, tendsto_const_nhds, hf.z⟩)

theorem forestay_norm_ne {rake b h : ℝ} (hs : 0 < Real.sin (deg2rad rake)) (hh : 0 < h) : (forestay rake b h).norm ≠ 0 := by
  refine (V3.norm_pos fun h0 => ?_).ne'
  have := congrArg V3.z h0
  simp [forestay, mastDirection] at this
  rcases this with h | h <;> linarith

/-! ## The sails of nearby configurations -/

theorem nearConfig_solver {c : T → Config} {c0 : Config} (N : NearConfig l c c0) (t : T) : (c t).solver = c0.solver := N.solver t

theorem nearConfig_profile {c : T → Config} {c0 : Config} (N : NearConfig l c c0) (t : T) :
    (windGetProfile (c t).wind).profile = (windGetProfile c0.wind).profile := by
  rw [N.profile t]; rfl

theorem nearConfig_wind {c : T → Config} {c0 : Config} (N : NearConfig l c c0) :
    NearWind l (fun t => windGetProfile (c t).wind) (windGetProfile c0.wind) :=
  ⟨nearConfig_profile N, N.alpha, N.speed, N.yacht⟩

theorem nearJib {c : T → Config} {c0 : Config} (N : NearConfig l c c0) (h0 : WellFormed c0) (hd : c0.rig.sailsDef ≠ "main")
    {s : T → SailInput × (ℕ → ℝ)} {s0 : SailInput × (ℕ → ℝ)} (hok : ∀ᶠ t in l, SailOk (s t).1 (s t).2) (hok0 : SailOk s0.1 s0.2)
    (hj : ∀ᶠ t in l, DesignedJib (c t).solver (c t).rig ⟨(c t).heelDeg, (c t).leewayDeg, (c t).vRef⟩ (jibData (c t)) (s t))
    (hj0 : DesignedJib c0.solver c0.rig ⟨c0.heelDeg, c0.leewayDeg, c0.vRef⟩ (jibData c0) s0) :
    NearSail l (fun t => cutTwist (s t)) (cutTwist s0) := by
  obtain ⟨luff0, base0, height0, gi0, ch0, tw0, ca0, di0, e1, e2, e3, G0, D0⟩ := hj0
  obtain ⟨L, L1, L2⟩ := nearNumber_some N.rig.jibLuff e1
  obtain ⟨B, B1, B2⟩ := nearNumber_some N.rig.base e2
  obtain ⟨H, H1, H2⟩ := nearNumber_some N.rig.height e3
  obtain ⟨R, -⟩ := h0.jib hd
  obtain ⟨hh, hh1, hh2⟩ := R.height
  have hpos : 0 < height0 := by rw [e3] at hh1; cases hh1; exact hh2
  refine nearDesigned h0.ns_pos (csys := fun t => ⟨(c t).heelDeg, (c t).leewayDeg, (c t).vRef⟩)
    (csys0 := ⟨c0.heelDeg, c0.leewayDeg, c0.vRef⟩) (nearTwist N.jib 15 7) N.heel N.leeway (jibTack_conv N.rig R.rake.ne' B2)
    (jibHead_conv N.rig R.rake.ne' L2 B2 H2 (forestay_norm_ne R.rake hpos)) hok hok0 ?_ ⟨gi0, ch0, tw0, ca0, di0, G0, D0⟩
  filter_upwards [hj, L1, B1, H1] with t ⟨luff, base, height, gi, ch, tw, ca, di, f1, f2, f3, G, D⟩ t1 t2 t3
  rw [t1] at f1; rw [t2] at f2; rw [t3] at f3
  cases f1; cases f2; cases f3
  rw [N.solver t] at G D
  exact ⟨gi, ch, tw, ca, di, G, D⟩

theorem nearMain {c : T → Config} {c0 : Config} (N : NearConfig l c c0) (h0 : WellFormed c0)
    {s : T → SailInput × (ℕ → ℝ)} {s0 : SailInput × (ℕ → ℝ)} (hok : ∀ᶠ t in l, SailOk (s t).1 (s t).2) (hok0 : SailOk s0.1 s0.2)
    (hj : ∀ᶠ t in l, DesignedMain (c t).solver (c t).rig ⟨(c t).heelDeg, (c t).leewayDeg, (c t).vRef⟩ (mainData (c t)) (s t))
    (hj0 : DesignedMain c0.solver c0.rig ⟨c0.heelDeg, c0.leewayDeg, c0.vRef⟩ (mainData c0) s0) :
    NearSail l (fun t => cutTwist (s t)) (cutTwist s0) := by
  obtain ⟨luff0, gi0, ch0, tw0, ca0, di0, e1, G0, D0⟩ := hj0
  obtain ⟨L, L1, L2⟩ := nearNumber_some N.rig.mainLuff e1
  have hb := N.rig.sheer.add N.rig.boom
  refine nearDesigned h0.ns_pos (csys := fun t => ⟨(c t).heelDeg, (c t).leewayDeg, (c t).vRef⟩)
    (csys0 := ⟨c0.heelDeg, c0.leewayDeg, c0.vRef⟩) (nearTwist N.main 12 5) N.heel N.leeway
    (Conv.smul hb (mastDirection_conv N.rig.rake)) (Conv.smul (hb.add L2) (mastDirection_conv N.rig.rake)) hok hok0 ?_
    ⟨gi0, ch0, tw0, ca0, di0, G0, D0⟩
  filter_upwards [hj, L1] with t ⟨luff, gi, ch, tw, ca, di, f1, G, D⟩ t1
  rw [t1] at f1
  cases f1
  rw [N.solver t] at G D
  exact ⟨gi, ch, tw, ca, di, G, D⟩

/-- The sails of a configuration, built. -/
structure Built (c : Config) (m : ℕ) (ss : Fin m → SailInput × (ℕ → ℝ)) (set : SailSet) : Prop where
  built : sailSetOf fitpackSpline c.solver c.rig (some (mainData c)) (some (jibData c)) ⟨c.heelDeg, c.leewayDeg, c.vRef⟩ = .ok set
  sails : List.Forall₂ (BuiltFrom c.solver.nc c.solver.ns) (List.ofFn ss) set.sails

theorem builtFrom_cut {nc ns : ℕ} {s : SailInput × (ℕ → ℝ)} {g : SailGeom} (h : BuiltFrom nc ns s g) : BuiltFrom nc ns (cutTwist s) g :=
  ⟨cutTwist_ok h.1, h.2.1, h.2.2.1, h.2.2.2⟩

theorem nearSails {c : T → Config} {c0 : Config} (N : NearConfig l c c0) (h : ∀ᶠ t in l, WellFormed (c t)) (h0 : WellFormed c0) :
    ∃ m, 0 < m ∧ ∃ (ss : T → Fin m → SailInput × (ℕ → ℝ)) (ss0 : Fin m → SailInput × (ℕ → ℝ)) (set0 : SailSet),
      (∀ b, NearSail l (fun t => ss t b) (ss0 b)) ∧ Built c0 m ss0 set0 ∧ ∀ᶠ t in l, ∃ set, Built (c t) m (ss t) set := by
  classical
  obtain ⟨rs0, set0, hset0, hb0, -, -, -, j0, m0, jm0⟩ := Props.wellFormed_set h0
  have hall : ∀ t, ∃ rs : List (SailInput × (ℕ → ℝ)), WellFormed (c t) → ∃ set,
      sailSetOf fitpackSpline (c t).solver (c t).rig (some (mainData (c t))) (some (jibData (c t)))
        ⟨(c t).heelDeg, (c t).leewayDeg, (c t).vRef⟩ = .ok set ∧
      List.Forall₂ (BuiltFrom (c t).solver.nc (c t).solver.ns) rs set.sails ∧
      ((c t).rig.sailsDef = "jib" → ∃ sj, rs = [sj] ∧
        DesignedJib (c t).solver (c t).rig ⟨(c t).heelDeg, (c t).leewayDeg, (c t).vRef⟩ (jibData (c t)) sj) ∧
      ((c t).rig.sailsDef = "main" → ∃ sm, rs = [sm] ∧
        DesignedMain (c t).solver (c t).rig ⟨(c t).heelDeg, (c t).leewayDeg, (c t).vRef⟩ (mainData (c t)) sm) ∧
      ((c t).rig.sailsDef = "jib_and_main" → ∃ sj sm, rs = [sj, sm] ∧
        DesignedJib (c t).solver (c t).rig ⟨(c t).heelDeg, (c t).leewayDeg, (c t).vRef⟩ (jibData (c t)) sj ∧
        DesignedMain (c t).solver (c t).rig ⟨(c t).heelDeg, (c t).leewayDeg, (c t).vRef⟩ (mainData (c t)) sm) := by
    intro t
    by_cases hw : WellFormed (c t)
    · obtain ⟨rs, set, h1, h2, -, -, -, h3, h4, h5⟩ := Props.wellFormed_set hw
      exact ⟨rs, fun _ => ⟨set, h1, h2, h3, h4, h5⟩⟩
    · exact ⟨[], fun h => absurd h hw⟩
  choose rs hrs using hall
  have hd := h0.sails
  simp only [List.mem_cons, List.not_mem_nil, or_false] at hd
  have hsd : ∀ t, (c t).rig.sailsDef = c0.rig.sailsDef := N.rig.sailsDef
  rcases hd with hd | hd | hd
  · obtain ⟨sj0, e0, D0⟩ := j0 hd
    rw [e0] at hb0
    obtain ⟨g0, gs0, b0, hnil, eg0⟩ := List.forall₂_cons_left_iff.1 hb0
    have key : ∀ᶠ t in l, ∃ set, sailSetOf fitpackSpline (c t).solver (c t).rig (some (mainData (c t))) (some (jibData (c t)))
        ⟨(c t).heelDeg, (c t).leewayDeg, (c t).vRef⟩ = .ok set ∧
        List.Forall₂ (BuiltFrom (c t).solver.nc (c t).solver.ns) [(rs t).headD sj0] set.sails ∧
        DesignedJib (c t).solver (c t).rig ⟨(c t).heelDeg, (c t).leewayDeg, (c t).vRef⟩ (jibData (c t)) ((rs t).headD sj0) := by
      filter_upwards [h] with t ht
      obtain ⟨set, h1, h2, h3, -, -⟩ := hrs t ht
      obtain ⟨sj, e, D⟩ := h3 (by rw [hsd t, hd])
      rw [e] at h2 ⊢
      exact ⟨set, h1, h2, D⟩
    have hok : ∀ᶠ t in l, SailOk ((rs t).headD sj0).1 ((rs t).headD sj0).2 := key.mono fun t ⟨set, h1, h2, h3⟩ => by
      obtain ⟨g, gs, b, -, -⟩ := List.forall₂_cons_left_iff.1 h2
      exact b.1
    refine ⟨1, one_pos, fun t _ => cutTwist ((rs t).headD sj0), fun _ => cutTwist sj0, set0, fun _ => ?_, ⟨hset0, ?_⟩, ?_⟩
    · exact nearJib N h0 (by rw [hd]; decide) hok b0.1 (key.mono fun t ⟨set, h1, h2, h3⟩ => h3) D0
    · rw [eg0]; simp only [List.ofFn_succ, List.ofFn_zero]
      exact List.Forall₂.cons (builtFrom_cut b0) hnil
    · filter_upwards [key] with t ⟨set, h1, h2, h3⟩
      refine ⟨set, h1, ?_⟩
      obtain ⟨g, gs, b, hn, e⟩ := List.forall₂_cons_left_iff.1 h2
      rw [e]; simp only [List.ofFn_succ, List.ofFn_zero]
      exact List.Forall₂.cons (builtFrom_cut b) hn
  · obtain ⟨sj0, e0, D0⟩ := m0 hd
    rw [e0] at hb0
    obtain ⟨g0, gs0, b0, hnil, eg0⟩ := List.forall₂_cons_left_iff.1 hb0
    have key : ∀ᶠ t in l, ∃ set, sailSetOf fitpackSpline (c t).solver (c t).rig (some (mainData (c t))) (some (jibData (c t)))
        ⟨(c t).heelDeg, (c t).leewayDeg, (c t).vRef⟩ = .ok set ∧
        List.Forall₂ (BuiltFrom (c t).solver.nc (c t).solver.ns) [(rs t).headD sj0] set.sails ∧
        DesignedMain (c t).solver (c t).rig ⟨(c t).heelDeg, (c t).leewayDeg, (c t).vRef⟩ (mainData (c t)) ((rs t).headD sj0) := by
      filter_upwards [h] with t ht
      obtain ⟨set, h1, h2, -, h3, -⟩ := hrs t ht
      obtain ⟨sj, e, D⟩ := h3 (by rw [hsd t, hd])
      rw [e] at h2 ⊢
      exact ⟨set, h1, h2, D⟩
    have hok : ∀ᶠ t in l, SailOk ((rs t).headD sj0).1 ((rs t).headD sj0).2 := key.mono fun t ⟨set, h1, h2, h3⟩ => by
      obtain ⟨g, gs, b, -, -⟩ := List.forall₂_cons_left_iff.1 h2
      exact b.1
    refine ⟨1, one_pos, fun t _ => cutTwist ((rs t).headD sj0), fun _ => cutTwist sj0, set0, fun _ => ?_, ⟨hset0, ?_⟩, ?_⟩
    · exact nearMain N h0 hok b0.1 (key.mono fun t ⟨set, h1, h2, h3⟩ => h3) D0
    · rw [eg0]; simp only [List.ofFn_succ, List.ofFn_zero]
      exact List.Forall₂.cons (builtFrom_cut b0) hnil
    · filter_upwards [key] with t ⟨set, h1, h2, h3⟩
      refine ⟨set, h1, ?_⟩
      obtain ⟨g, gs, b, hn, e⟩ := List.forall₂_cons_left_iff.1 h2
      rw [e]; simp only [List.ofFn_succ, List.ofFn_zero]
      exact List.Forall₂.cons (builtFrom_cut b) hn
  · obtain ⟨sj0, sm0, e0, D0, E0⟩ := jm0 hd
    rw [e0] at hb0
    obtain ⟨g0, gs0, b0, hrest, eg0⟩ := List.forall₂_cons_left_iff.1 hb0
    obtain ⟨g1, gs1, b1, hnil, eg1⟩ := List.forall₂_cons_left_iff.1 hrest
    have key : ∀ᶠ t in l, ∃ set, sailSetOf fitpackSpline (c t).solver (c t).rig (some (mainData (c t))) (some (jibData (c t)))
        ⟨(c t).heelDeg, (c t).leewayDeg, (c t).vRef⟩ = .ok set ∧
        List.Forall₂ (BuiltFrom (c t).solver.nc (c t).solver.ns) [(rs t).headD sj0, (rs t).tail.headD sm0] set.sails ∧
        DesignedJib (c t).solver (c t).rig ⟨(c t).heelDeg, (c t).leewayDeg, (c t).vRef⟩ (jibData (c t)) ((rs t).headD sj0) ∧
        DesignedMain (c t).solver (c t).rig ⟨(c t).heelDeg, (c t).leewayDeg, (c t).vRef⟩ (mainData (c t)) ((rs t).tail.headD sm0) := by
      filter_upwards [h] with t ht
      obtain ⟨set, h1, h2, -, -, h3⟩ := hrs t ht
      obtain ⟨sj, sm, e, D, E⟩ := h3 (by rw [hsd t, hd])
      rw [e] at h2 ⊢
      exact ⟨set, h1, h2, D, E⟩
    have hok : ∀ᶠ t in l, SailOk ((rs t).headD sj0).1 ((rs t).headD sj0).2 ∧
        SailOk ((rs t).tail.headD sm0).1 ((rs t).tail.headD sm0).2 := key.mono fun t ⟨set, h1, h2, h3⟩ => by
      obtain ⟨g, gs, b, hr, -⟩ := List.forall₂_cons_left_iff.1 h2
      obtain ⟨g', gs', b', -, -⟩ := List.forall₂_cons_left_iff.1 hr
      exact ⟨b.1, b'.1⟩
    refine ⟨2, two_pos, fun t => ![cutTwist ((rs t).headD sj0), cutTwist ((rs t).tail.headD sm0)], ![cutTwist sj0, cutTwist sm0], set0,
      fun b => ?_, ⟨hset0, ?_⟩, ?_⟩
    · fin_cases b
      · exact nearJib N h0 (by rw [hd]; decide) (hok.mono fun _ h => h.1) b0.1 (key.mono fun t ⟨set, h1, h2, h3, h4⟩ => h3) D0
      · exact nearMain N h0 (hok.mono fun _ h => h.2) b1.1 (key.mono fun t ⟨set, h1, h2, h3, h4⟩ => h4) E0
    · rw [eg0, eg1]; simp only [List.ofFn_succ, List.ofFn_zero]
      exact List.Forall₂.cons (builtFrom_cut b0) (List.Forall₂.cons (builtFrom_cut b1) hnil)
    · filter_upwards [key] with t ⟨set, h1, h2, h3⟩
      refine ⟨set, h1, ?_⟩
      obtain ⟨g, gs, b, hr, e⟩ := List.forall₂_cons_left_iff.1 h2
      obtain ⟨g', gs', b', hn, e'⟩ := List.forall₂_cons_left_iff.1 hr
      rw [e, e']; simp only [List.ofFn_succ, List.ofFn_zero]
      exact List.Forall₂.cons (builtFrom_cut b) (List.Forall₂.cons (builtFrom_cut b') hn)

end PySailing
