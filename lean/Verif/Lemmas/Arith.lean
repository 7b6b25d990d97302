import Verif.Spec.Arith
import Verif.Lemmas.Continuity
import Verif.Lemmas.LatticeVars

/-!
# Limits of rounded operations
-/

namespace PySailing

open Spec Filter Topology

variable {T : Type} {l : Filter T}

/-- The arithmetics `A t` become exact along `l`. -/
structure Spec.Refined (l : Filter T) (growth : ℕ → ℝ) (A : T → Arith) (u : T → ℝ) : Prop where
  acc : ∀ᶠ t in l, AccurateArith growth (A t) (u t)
  lim : Tendsto u l (𝓝 0)

theorem rounds_conv {u x e : T → ℝ} {x0 : ℝ} (hu : Tendsto u l (𝓝 0)) (hpos : ∀ᶠ t in l, 0 < u t)
    (h : ∀ᶠ t in l, Rounds (u t) (e t) (x t)) (hx : Tendsto x l (𝓝 x0)) : Tendsto e l (𝓝 x0) := by
  have h1 : Tendsto (fun t => u t * |x t|) l (𝓝 (0 * |x0|)) := hu.mul hx.abs
  rw [zero_mul] at h1
  have h2 : Tendsto (fun t => u t * (1 + |x t|)) l (𝓝 0) := by
    have := hu.mul (hx.abs.const_add 1)
    rwa [zero_mul] at this
  have h3 : Tendsto (fun t => e t - x t) l (𝓝 0) := by
    refine squeeze_zero_norm' ?_ h2
    filter_upwards [hpos, h, h1.eventually_lt_const one_pos] with t t1 t2 t3
    exact t2 (by rw [le_div_iff₀ t1, mul_comm]; exact t3.le)
  simpa using h3.add hx

namespace Spec.Refined

variable {growth : ℕ → ℝ} {A : T → Arith} {u : T → ℝ}

theorem pos (R : Refined l growth A u) : ∀ᶠ t in l, 0 < u t := R.acc.mono fun _ h => h.pos

theorem lit (R : Refined l growth A u) (c : ℝ) : Tendsto (fun t => (A t).lit c) l (𝓝 c) :=
  rounds_conv R.lim R.pos (R.acc.mono fun _ h => h.lit c) tendsto_const_nhds

theorem add (R : Refined l growth A u) {x y : T → ℝ} {x0 y0 : ℝ} (hx : Tendsto x l (𝓝 x0)) (hy : Tendsto y l (𝓝 y0)) :
    Tendsto (fun t => (A t).add (x t) (y t)) l (𝓝 (x0 + y0)) :=
  rounds_conv R.lim R.pos (R.acc.mono fun _ h => h.add _ _) (hx.add hy)

theorem sub (R : Refined l growth A u) {x y : T → ℝ} {x0 y0 : ℝ} (hx : Tendsto x l (𝓝 x0)) (hy : Tendsto y l (𝓝 y0)) :
    Tendsto (fun t => (A t).sub (x t) (y t)) l (𝓝 (x0 - y0)) :=
  rounds_conv R.lim R.pos (R.acc.mono fun _ h => h.sub _ _) (hx.sub hy)

theorem mul (R : Refined l growth A u) {x y : T → ℝ} {x0 y0 : ℝ} (hx : Tendsto x l (𝓝 x0)) (hy : Tendsto y l (𝓝 y0)) :
    Tendsto (fun t => (A t).mul (x t) (y t)) l (𝓝 (x0 * y0)) :=
  rounds_conv R.lim R.pos (R.acc.mono fun _ h => h.mul _ _) (hx.mul hy)

theorem div (R : Refined l growth A u) {x y : T → ℝ} {x0 y0 : ℝ} (hx : Tendsto x l (𝓝 x0)) (hy : Tendsto y l (𝓝 y0))
    (h0 : y0 ≠ 0) : Tendsto (fun t => (A t).div (x t) (y t)) l (𝓝 (x0 / y0)) := by
  refine rounds_conv R.lim R.pos ?_ (hx.div hy h0)
  filter_upwards [R.acc, hy.eventually_ne h0] with t t1 t2
  exact t1.div _ _ t2

theorem norm (R : Refined l growth A u) {v : T → V3} {v0 : V3} (hv : Conv l v v0) :
    Tendsto (fun t => (A t).norm (v t)) l (𝓝 v0.norm) :=
  rounds_conv R.lim R.pos (R.acc.mono fun _ h => h.norm _) hv.norm

theorem dot (R : Refined l growth A u) {v w : T → V3} {v0 w0 : V3} (hv : Conv l v v0) (hw : Conv l w w0) :
    Tendsto (fun t => (A t).dot (v t) (w t)) l (𝓝 (v0.dot w0)) := by
  have hn := hv.norm.mul hw.norm
  have h1 := R.lim.mul hn
  rw [zero_mul] at h1
  have h2 := R.lim.mul (hn.const_add 1)
  rw [zero_mul] at h2
  have h3 : Tendsto (fun t => (A t).dot (v t) (w t) - (v t).dot (w t)) l (𝓝 0) := by
    refine squeeze_zero_norm' ?_ h2
    filter_upwards [R.acc, h1.eventually_lt_const one_pos] with t t1 t2
    exact t1.dot _ _ (by rw [le_div_iff₀ t1.pos, mul_comm]; exact t2.le)
  simpa using h3.add (hv.dot hw)

theorem vadd (R : Refined l growth A u) {v w : T → V3} {v0 w0 : V3} (hv : Conv l v v0) (hw : Conv l w w0) :
    Conv l (fun t => (A t).vadd (v t) (w t)) (v0 + w0) := ⟨R.add hv.x hw.x, R.add hv.y hw.y, R.add hv.z hw.z⟩

theorem vsub (R : Refined l growth A u) {v w : T → V3} {v0 w0 : V3} (hv : Conv l v v0) (hw : Conv l w w0) :
    Conv l (fun t => (A t).vsub (v t) (w t)) (v0 - w0) := ⟨R.sub hv.x hw.x, R.sub hv.y hw.y, R.sub hv.z hw.z⟩

theorem vmul (R : Refined l growth A u) {s : T → ℝ} {s0 : ℝ} {v : T → V3} {v0 : V3} (hs : Tendsto s l (𝓝 s0)) (hv : Conv l v v0) :
    Conv l (fun t => (A t).vmul (s t) (v t)) (s0 • v0) := ⟨R.mul hs hv.x, R.mul hs hv.y, R.mul hs hv.z⟩

theorem vdiv (R : Refined l growth A u) {s : T → ℝ} {s0 : ℝ} {v : T → V3} {v0 : V3} (hv : Conv l v v0) (hs : Tendsto s l (𝓝 s0))
    (h0 : s0 ≠ 0) : Conv l (fun t => (A t).vdiv (v t) (s t)) ((1 / s0) • v0) := by
  have e : ∀ x : ℝ, x / s0 = 1 / s0 * x := fun x => by ring
  refine ⟨?_, ?_, ?_⟩
  · have := R.div hv.x hs h0
    rwa [e] at this
  · have := R.div hv.y hs h0
    rwa [e] at this
  · have := R.div hv.z hs h0
    rwa [e] at this

theorem cross (R : Refined l growth A u) {v w : T → V3} {v0 w0 : V3} (hv : Conv l v v0) (hw : Conv l w w0) :
    Conv l (fun t => (A t).cross (v t) (w t)) (V3.cross v0 w0) :=
  ⟨R.sub (R.mul hv.y hw.z) (R.mul hv.z hw.y), R.sub (R.mul hv.z hw.x) (R.mul hv.x hw.z), R.sub (R.mul hv.x hw.y) (R.mul hv.y hw.x)⟩

theorem fourPi (R : Refined l growth A u) : Tendsto (fun t => (A t).mul ((A t).lit 4) ((A t).lit Real.pi)) l (𝓝 (4 * Real.pi)) :=
  R.mul (R.lit _) (R.lit _)

theorem strength (R : Refined l growth A u) {g : T → ℝ} {g0 : ℝ} (hg : Tendsto g l (𝓝 g0)) :
    Tendsto (fun t => (A t).strength (g t)) l (𝓝 (g0 / (4 * Real.pi))) :=
  R.div hg R.fourPi (by have := Real.pi_pos; positivity)

/-- Rounded velocities of a filament tend to the exact one, off the boundary of the core. -/
theorem vortexLine (R : Refined l growth A u) {p a b : T → V3} {p0 a0 b0 : V3} (hp : Conv l p p0) (ha : Conv l a a0)
    (hb : Conv l b b0) (h : ¬ OnCoreBoundary p0 a0 b0) {g : T → ℝ} {g0 : ℝ} (hg : Tendsto g l (𝓝 g0)) :
    (∀ᶠ t in l, (A t).lineDefined (p t) (a t) (b t)) ∧
      Conv l (fun t => (A t).vortexLine (p t) (a t) (b t) (g t)) (vortexLine p0 a0 b0 g0) := by
  unfold OnCoreBoundary at h
  push Not at h
  obtain ⟨h1, h2, h3⟩ := h
  have hra := R.vsub hp ha
  have hrb := R.vsub hp hb
  have hc := R.cross hra hrb
  have hc2 := R.mul (R.norm hc) (R.norm hc)
  have hsq : Tendsto (fun t => (A t).norm ⟨(A t).mul ((A t).norm ((A t).cross ((A t).vsub (p t) (a t)) ((A t).vsub (p t) (b t))))
      ((A t).norm ((A t).cross ((A t).vsub (p t) (a t)) ((A t).vsub (p t) (b t)))), 0, 0⟩) l
      (𝓝 ((V3.cross (p0 - a0) (p0 - b0)).norm ^ 2)) := by
    have : Conv l (fun t => (⟨(A t).mul ((A t).norm ((A t).cross ((A t).vsub (p t) (a t)) ((A t).vsub (p t) (b t))))
      ((A t).norm ((A t).cross ((A t).vsub (p t) (a t)) ((A t).vsub (p t) (b t)))), 0, 0⟩ : V3))
      ⟨(V3.cross (p0 - a0) (p0 - b0)).norm * (V3.cross (p0 - a0) (p0 - b0)).norm, 0, 0⟩ :=
      ⟨hc2, tendsto_const_nhds, tendsto_const_nhds⟩
    have e := R.norm this
    have e2 : (⟨(V3.cross (p0 - a0) (p0 - b0)).norm * (V3.cross (p0 - a0) (p0 - b0)).norm, 0, 0⟩ : V3).norm =
        (V3.cross (p0 - a0) (p0 - b0)).norm ^ 2 := by
      simp only [V3.norm, V3.dot, mul_zero, add_zero]
      rw [Real.sqrt_mul_self (by positivity), pow_two]
    rwa [e2] at e
  have hl := R.lit 1e-8
  by_cases hcore : coreTest p0 a0 b0
  · have he : ∀ᶠ t in l, (A t).inCore (p t) (a t) (b t) := by
      rcases hcore with hcore | hcore | hcore
      · exact ((R.norm hra).eventually_lt hl hcore).mono fun t ht => .inl ht
      · exact ((R.norm hrb).eventually_lt hl hcore).mono fun t ht => .inr (.inl ht)
      · exact (hsq.eventually_lt hl hcore).mono fun t ht => .inr (.inr ht)
    refine ⟨he.mono fun t ht => .inl ht, ?_⟩
    rw [vortexLine_core g0 hcore]
    exact (conv_const 0).congr' (he.mono fun t ht => (if_pos ht).symm)
  · have hcore' := hcore
    simp only [coreTest, not_or, not_lt] at hcore'
    obtain ⟨k1, k2, k3⟩ := hcore'
    have k1 := lt_of_le_of_ne k1 (Ne.symm h1)
    have k2 := lt_of_le_of_ne k2 (Ne.symm h2)
    have k3 := lt_of_le_of_ne k3 (Ne.symm h3)
    have he : ∀ᶠ t in l, ¬ (A t).inCore (p t) (a t) (b t) := by
      simp only [Arith.inCore, not_or, not_lt]
      filter_upwards [hl.eventually_lt (R.norm hra) k1, hl.eventually_lt (R.norm hrb) k2, hl.eventually_lt hsq k3]
        with t t1 t2 t3
      exact ⟨t1.le, t2.le, t3.le⟩
    have n1 : (p0 - a0).norm ≠ 0 := by intro e; rw [e] at k1; norm_num at k1
    have n2 : (p0 - b0).norm ≠ 0 := by intro e; rw [e] at k2; norm_num at k2
    have n3 : (V3.cross (p0 - a0) (p0 - b0)).norm ^ 2 ≠ 0 := by intro e; rw [e] at k3; norm_num at k3
    rw [pow_two] at n3
    refine ⟨?_, ?_⟩
    · filter_upwards [hc2.eventually_ne n3, (R.norm hra).eventually_ne n1, (R.norm hrb).eventually_ne n2,
        R.fourPi.eventually_ne (by have := Real.pi_pos; positivity)] with t t1 t2 t3 t4
      exact .inr ⟨t1, t2, t3, t4⟩
    · rw [vortexLine_out g0 hcore, pow_two]
      refine Conv.congr' ?_ (he.mono fun t ht => (if_neg ht).symm)
      exact R.vmul (R.strength hg) (R.vmul (R.dot (R.vsub hb ha) (R.vsub (R.vdiv hra (R.norm hra) n1) (R.vdiv hrb (R.norm hrb) n2)))
        (R.vdiv hc hc2 n3))

theorem wake (R : Refined l growth A u) {P Q V : T → V3} {P0 Q0 V0 : V3} (hP : Conv l P P0) (hQ : Conv l Q Q0) (hV : Conv l V V0)
    (h : wakeDefined P0 Q0 V0) {g : T → ℝ} {g0 : ℝ} (hg : Tendsto g l (𝓝 g0)) :
    (∀ᶠ t in l, (A t).wakeDefined (P t) (Q t) (V t)) ∧
      Conv l (fun t => (A t).vortexInfiniteLine (P t) (Q t) (V t) (g t)) (vortexInfiniteLine P0 Q0 V0 g0) := by
  obtain ⟨h1, h2⟩ := h
  have hr := R.vsub hP hQ
  have hn := V3.norm_pos h1
  have hu := R.vdiv hV (R.norm hV) hn.ne'
  have hd : Tendsto (fun t => (A t).wakeDen (P t) (Q t) (V t)) l
      (𝓝 ((P0 - Q0).norm * ((P0 - Q0).norm - ((1 / V0.norm) • V0).dot (P0 - Q0)))) :=
    R.mul (R.norm hr) (R.sub (R.norm hr) (R.dot hu hr))
  refine ⟨?_, ?_⟩
  · filter_upwards [(R.norm hV).eventually_ne hn.ne', hd.eventually_ne h2,
      R.fourPi.eventually_ne (by have := Real.pi_pos; positivity)] with t t1 t2 t3
    exact ⟨t1, t2, t3⟩
  · exact R.vmul (R.strength hg) (R.vdiv (R.cross hu hr) hd h2)

variable {K : ℕ}

theorem velCoef (R : Refined l growth A u) {L : T → Fin K → PanelVars} {L0 : Fin K → PanelVars}
    (hL : ∀ i, ConvPanel l (fun t => L t i) (L0 i)) (te : Fin K → Bool) {V : T → Fin K → V3} {V0 : Fin K → V3}
    (hV : ∀ i, Conv l (fun t => V t i) (V0 i)) (g : ℝ) {p : T → V3} {p0 : V3} (hp : Conv l p p0) (j : Fin K)
    (hc : OffCores p0 (L0 j)) (hw : te j = true → wakeDefined p0 (L0 j).ring.A (V0 j) ∧ wakeDefined p0 (L0 j).ring.D (V0 j)) :
    Conv l (fun t => (A t).velCoef (L t) te (V t) g (p t) j) (velCoef L0 te V0 g p0 j) := by
  obtain ⟨h1, h2, h3, h4⟩ := hc
  have c := hL j
  have hg : Tendsto (fun _ : T => g) l (𝓝 g) := tendsto_const_nhds
  have e1 := (R.vortexLine hp c.A c.B h1 hg).2
  have e2 := (R.vortexLine hp c.B c.C h2 hg).2
  have e3 := (R.vortexLine hp c.C c.D h3 hg).2
  simp only [velCoef_eq, Arith.velCoef]
  cases hte : te j
  · simp only [Bool.false_eq_true, if_false, vortexRing, Arith.vortexRing]
    exact R.vadd (R.vadd (R.vadd e1 e2) e3) (R.vortexLine hp c.D c.A h4 hg).2
  · obtain ⟨w1, w2⟩ := hw hte
    simp only [if_true, vortexHorseshoeV2, Arith.vortexHorseshoeV2]
    exact R.vadd (R.vadd (R.vadd (R.vadd e1 e2) e3) (R.wake hp c.D (hV j) w2 hg).2)
      (R.wake hp c.A (hV j) w1 (R.mul (R.lit (-1)) hg)).2

theorem coefs (R : Refined l growth A u) {L : T → Fin K → PanelVars} {L0 : Fin K → PanelVars}
    (hL : ∀ i, ConvPanel l (fun t => L t i) (L0 i)) (te : Fin K → Bool) {V : T → Fin K → V3} {V0 : Fin K → V3}
    (hV : ∀ i, Conv l (fun t => V t i) (V0 i)) {pts : T → Fin K → V3} {pts0 : Fin K → V3}
    (hp : ∀ i, Conv l (fun t => pts t i) (pts0 i)) (hc : ∀ i j, OffCores (pts0 i) (L0 j))
    (hw : coefsDefined L0 te V0 pts0) : ∀ᶠ t in l, (A t).coefsDefined (L t) te (V t) (pts t) := by
  have hg : Tendsto (fun _ : T => (0 : ℝ)) l (𝓝 0) := tendsto_const_nhds
  unfold Arith.coefsDefined
  simp only [eventually_all]
  intro i j
  obtain ⟨h1, h2, h3, h4⟩ := hc i j
  have c := hL j
  have e5 : ∀ᶠ t in l, te j = true → (A t).wakeDefined (pts t i) (L t j).ring.D (V t j) ∧
      (A t).wakeDefined (pts t i) (L t j).ring.A (V t j) := by
    cases hj : te j
    · simp
    · obtain ⟨w1, w2⟩ := hw i j hj
      filter_upwards [(R.wake (hp i) c.D (hV j) w2 hg).1, (R.wake (hp i) c.A (hV j) w1 hg).1] with t t1 t2 _
      exact ⟨t1, t2⟩
  filter_upwards [(R.vortexLine (hp i) c.A c.B h1 hg).1, (R.vortexLine (hp i) c.B c.C h2 hg).1,
    (R.vortexLine (hp i) c.C c.D h3 hg).1, (R.vortexLine (hp i) c.D c.A h4 hg).1, e5] with t t1 t2 t3 t4 t5
  exact ⟨t1, t2, t3, fun _ => t4, t5⟩

theorem fold (R : Refined l growth A u) {γ : T → Fin K → ℝ} {γ0 : Fin K → ℝ} (hγ : ∀ i, Tendsto (fun t => γ t i) l (𝓝 (γ0 i)))
    {c : T → Fin K → V3} {c0 : Fin K → V3} (hc : ∀ j, Conv l (fun t => c t j) (c0 j)) (js : List (Fin K)) {s : T → V3} {s0 : V3}
    (hs : Conv l s s0) : Conv l (fun t => js.foldl (fun s j => (A t).vadd s ((A t).vmul (γ t j) (c t j))) (s t))
      (s0 + (js.map fun j => γ0 j • c0 j).sum) := by
  induction js generalizing s s0 with
  | nil => simpa using hs
  | cons j js ih =>
    have := ih (R.vadd hs (R.vmul (hγ j) (hc j)))
    simp only [List.foldl_cons, List.map_cons, List.sum_cons]
    rwa [add_assoc] at this

theorem induced (R : Refined l growth A u) {γ : T → Fin K → ℝ} {γ0 : Fin K → ℝ} (hγ : ∀ i, Tendsto (fun t => γ t i) l (𝓝 (γ0 i)))
    {c : T → Fin K → Fin K → V3} {c0 : Fin K → Fin K → V3} (hc : ∀ i j, Conv l (fun t => c t i j) (c0 i j)) (i : Fin K) :
    Conv l (fun t => (A t).calcInducedVelocity (c t) (γ t) i) (calcInducedVelocity c0 γ0 i) := by
  have := R.fold hγ (hc i) (List.finRange K) (conv_const 0)
  unfold calcInducedVelocity Arith.calcInducedVelocity
  rw [zero_add] at this
  have e : ∑ j, γ0 j • c0 i j = ((List.finRange K).map fun j => γ0 j • c0 i j).sum := by
    rw [← List.ofFn_eq_map, List.sum_ofFn]
  rw [e]
  exact this

/-- Solutions with small backward errors tend to the exact solution. -/
theorem solve (R : Refined l growth A u) {M : T → Matrix (Fin K) (Fin K) ℝ} {M0 : Matrix (Fin K) (Fin K) ℝ}
    (hM : Tendsto M l (𝓝 M0)) {b : T → Fin K → ℝ} {b0 : Fin K → ℝ} (hb : ∀ i, Tendsto (fun t => b t i) l (𝓝 (b0 i)))
    (h0 : M0.det ≠ 0) : ∃ γ : T → Fin K → ℝ, (∀ᶠ t in l, (A t).solve K (M t) (b t) = .ok (γ t)) ∧
      ∀ i, Tendsto (fun t => γ t i) l (𝓝 (M0⁻¹.mulVec b0 i)) := by
  classical
  have hdet : Tendsto (fun t => (M t).det) l (𝓝 M0.det) := ((Continuous.matrix_det continuous_id).tendsto _).comp hM
  have hadj : Tendsto (fun t => (M t).adjugate) l (𝓝 M0.adjugate) := ((Continuous.matrix_adjugate continuous_id).tendsto _).comp hM
  have hinv : ∀ i j, Tendsto (fun t => (M t)⁻¹ i j) l (𝓝 (M0⁻¹ i j)) := by
    intro i j
    simp only [Matrix.inv_def, Ring.inverse_eq_inv', Matrix.smul_apply, smul_eq_mul]
    exact (hdet.inv₀ h0).mul (tendsto_pi_nhds.1 (tendsto_pi_nhds.1 hadj i) j)
  have hij : ∀ i j, Tendsto (fun t => M t i j) l (𝓝 (M0 i j)) := fun i j => tendsto_pi_nhds.1 (tendsto_pi_nhds.1 hM i) j
  have hS : Tendsto (fun t => 1 + ∑ i, ∑ j, |M t i j|) l (𝓝 (1 + ∑ i, ∑ j, |M0 i j|)) :=
    tendsto_const_nhds.add (tendsto_finsetSum _ fun i _ => tendsto_finsetSum _ fun j _ => (hij i j).abs)
  have hS' : Tendsto (fun t => 1 + ∑ i, ∑ j, |(M t)⁻¹ i j|) l (𝓝 (1 + ∑ i, ∑ j, |M0⁻¹ i j|)) :=
    tendsto_const_nhds.add (tendsto_finsetSum _ fun i _ => tendsto_finsetSum _ fun j _ => (hinv i j).abs)
  have hB : Tendsto (fun t => ∑ i, |b t i|) l (𝓝 (∑ i, |b0 i|)) := tendsto_finsetSum _ fun i _ => (hb i).abs
  have c1 : Tendsto (fun t => u t * (growth K * (1 + ∑ i, ∑ j, |M t i j|) * (1 + ∑ i, ∑ j, |(M t)⁻¹ i j|))) l (𝓝 0) := by
    have := R.lim.mul ((hS.const_mul (growth K)).mul hS')
    rwa [zero_mul] at this
  have c2 : Tendsto (fun t => u t * ∑ i, |b t i|) l (𝓝 0) := by
    have := R.lim.mul hB
    rwa [zero_mul] at this
  have hret : ∀ᶠ t in l, ∃ γ, (A t).solve K (M t) (b t) = .ok γ ∧
      ∀ i, |(M t).mulVec γ i - b t i| ≤ u t * (growth K * (1 + ∑ i, ∑ j, |M t i j|) * (1 + ∑ j, |γ j|)) := by
    filter_upwards [R.acc, hdet.eventually_ne h0, c1.eventually_lt_const one_pos, c2.eventually_lt_const one_pos] with t t1 t2 t3 t4
    exact t1.solve K (M t) (b t) t2 t3.le t4.le
  have : ∀ t, ∃ γ, (∃ γ, (A t).solve K (M t) (b t) = .ok γ ∧
      ∀ i, |(M t).mulVec γ i - b t i| ≤ u t * (growth K * (1 + ∑ i, ∑ j, |M t i j|) * (1 + ∑ j, |γ j|))) →
      (A t).solve K (M t) (b t) = .ok γ ∧
      ∀ i, |(M t).mulVec γ i - b t i| ≤ u t * (growth K * (1 + ∑ i, ∑ j, |M t i j|) * (1 + ∑ j, |γ j|)) := fun t => by
    by_cases h : ∃ γ, (A t).solve K (M t) (b t) = .ok γ ∧
      ∀ i, |(M t).mulVec γ i - b t i| ≤ u t * (growth K * (1 + ∑ i, ∑ j, |M t i j|) * (1 + ∑ j, |γ j|))
    · exact ⟨h.choose, fun _ => h.choose_spec⟩
    · exact ⟨0, fun h' => absurd h' h⟩
  choose γ hγ using this
  refine ⟨γ, hret.mono fun t ht => (hγ t ht).1, ?_⟩
  -- the residuals
  set r : T → Fin K → ℝ := fun t i => (M t).mulVec (γ t) i - b t i with hr
  have hsol : ∀ᶠ t in l, ∀ i, γ t i = ∑ j, (M t)⁻¹ i j * (b t j + r t j) := by
    filter_upwards [hdet.eventually_ne h0] with t t1 i
    have e : (fun j => b t j + r t j) = (M t).mulVec (γ t) := by funext j; simp [hr]
    have : (M t)⁻¹.mulVec (fun j => b t j + r t j) = γ t := by
      rw [e, Matrix.mulVec_mulVec, Matrix.nonsing_inv_mul _ (isUnit_iff_ne_zero.2 t1), Matrix.one_mulVec]
    rw [← congrFun this i]
    rfl
  set N : T → ℝ := fun t => 1 + ∑ j, |γ t j| with hN
  have hN1 : ∀ t, 1 ≤ N t := fun t => by
    have : 0 ≤ ∑ j, |γ t j| := Finset.sum_nonneg fun _ _ => abs_nonneg _
    simp only [hN]; linarith
  have c0 : Tendsto (fun t => u t * (growth K * (1 + ∑ i, ∑ j, |M t i j|))) l (𝓝 0) := by
    have := R.lim.mul (hS.const_mul (growth K))
    rwa [zero_mul] at this
  -- the circulations are bounded
  set e0 : T → ℝ := fun t => u t * (growth K * (1 + ∑ i, ∑ j, |M t i j|)) with he0
  have hres : ∀ᶠ t in l, ∀ i, |r t i| ≤ e0 t * N t := hret.mono fun t ht i => by
    have := (hγ t ht).2 i
    calc _ ≤ _ := this
      _ = _ := by simp only [he0, hN]; ring
  have hbound : ∀ᶠ t in l, N t ≤ 2 * (1 + (∑ i, ∑ j, |(M t)⁻¹ i j|) * ∑ i, |b t i|) := by
    have c3 : Tendsto (fun t => (∑ i, ∑ j, |(M t)⁻¹ i j|) * e0 t) l (𝓝 0) := by
      have h1 : Tendsto (fun t => ∑ i, ∑ j, |(M t)⁻¹ i j|) l (𝓝 (∑ i, ∑ j, |M0⁻¹ i j|)) :=
        tendsto_finsetSum _ fun i _ => tendsto_finsetSum _ fun j _ => (hinv i j).abs
      have := h1.mul c0
      rwa [mul_zero] at this
    filter_upwards [hsol, hres, c3.eventually_le_const (u := 1 / 2) (by norm_num)] with t t1 t2 t3
    have hb1 : ∀ j, |b t j| ≤ ∑ i, |b t i| := fun j =>
      Finset.single_le_sum (f := fun i => |b t i|) (fun _ _ => abs_nonneg _) (Finset.mem_univ j)
    have h1 : ∑ i, |γ t i| ≤ (∑ i, ∑ j, |(M t)⁻¹ i j|) * (∑ i, |b t i| + e0 t * N t) := by
      rw [Finset.sum_mul]
      refine Finset.sum_le_sum fun i _ => ?_
      rw [t1 i, Finset.sum_mul]
      refine (Finset.abs_sum_le_sum_abs _ _).trans (Finset.sum_le_sum fun j _ => ?_)
      rw [abs_mul]
      refine mul_le_mul_of_nonneg_left ((abs_add_le _ _).trans (add_le_add (hb1 j) (t2 j))) (abs_nonneg _)
    have h2 : N t = 1 + ∑ i, |γ t i| := rfl
    have h3 : (∑ i, ∑ j, |(M t)⁻¹ i j|) * (e0 t * N t) ≤ 1 / 2 * N t := by
      rw [← mul_assoc]
      exact mul_le_mul_of_nonneg_right t3 (by linarith [hN1 t])
    nlinarith
  have hr0 : ∀ i, Tendsto (fun t => r t i) l (𝓝 0) := by
    intro i
    have h1 : Tendsto (fun t => |e0 t| * (2 * (1 + (∑ i, ∑ j, |(M t)⁻¹ i j|) * ∑ i, |b t i|))) l (𝓝 0) := by
      have h1 : Tendsto (fun t => ∑ i, ∑ j, |(M t)⁻¹ i j|) l (𝓝 (∑ i, ∑ j, |M0⁻¹ i j|)) :=
        tendsto_finsetSum _ fun i _ => tendsto_finsetSum _ fun j _ => (hinv i j).abs
      have h2 := c0.abs.mul (((h1.mul hB).const_add 1).const_mul 2)
      rwa [abs_zero, zero_mul] at h2
    refine squeeze_zero_norm' ?_ h1
    filter_upwards [hres, hbound] with t t1 t2
    rw [Real.norm_eq_abs]
    refine (t1 i).trans ?_
    have := hN1 t
    exact (mul_le_mul_of_nonneg_right (le_abs_self _) (by linarith)).trans (mul_le_mul_of_nonneg_left t2 (abs_nonneg _))
  intro i
  have : Tendsto (fun t => ∑ j, (M t)⁻¹ i j * (b t j + r t j)) l (𝓝 (∑ j, M0⁻¹ i j * (b0 j + 0))) :=
    tendsto_finsetSum _ fun j _ => (hinv i j).mul ((hb j).add (hr0 j))
  simp only [add_zero] at this
  refine Tendsto.congr' ?_ this
  filter_upwards [hsol] with t t1
  rw [t1 i]

end Spec.Refined

end PySailing
