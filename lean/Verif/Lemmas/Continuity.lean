import Verif.Lemmas.Solver
import Mathlib.Topology.Instances.Matrix
import Mathlib.Topology.Algebra.Order.Field
import Mathlib.Analysis.SpecialFunctions.Sqrt

/-!
# Convergence of vectors, kernels and solutions
-/

namespace PySailing

open Spec Filter Topology

variable {T : Type} {l : Filter T}

/-- The vectors `f t` tend to `v`. -/
structure Spec.Conv (l : Filter T) (f : T → V3) (v : V3) : Prop where
  x : Tendsto (fun t => (f t).x) l (𝓝 v.x)
  y : Tendsto (fun t => (f t).y) l (𝓝 v.y)
  z : Tendsto (fun t => (f t).z) l (𝓝 v.z)

/-- `p` lies on the boundary of the vortex core of the filament from `a` to `b`. -/
def Spec.OnCoreBoundary (p a b : V3) : Prop :=
  (p - a).norm = 1e-8 ∨ (p - b).norm = 1e-8 ∨ (V3.cross (p - a) (p - b)).norm ^ 2 = 1e-8

theorem conv_const (v : V3) : Conv l (fun _ => v) v := ⟨tendsto_const_nhds, tendsto_const_nhds, tendsto_const_nhds⟩

theorem Spec.Conv.add {f g : T → V3} {a b : V3} (hf : Conv l f a) (hg : Conv l g b) :
    Conv l (fun t => f t + g t) (a + b) := ⟨hf.x.add hg.x, hf.y.add hg.y, hf.z.add hg.z⟩

theorem Spec.Conv.sub {f g : T → V3} {a b : V3} (hf : Conv l f a) (hg : Conv l g b) :
    Conv l (fun t => f t - g t) (a - b) := ⟨hf.x.sub hg.x, hf.y.sub hg.y, hf.z.sub hg.z⟩

theorem Spec.Conv.smul {s : T → ℝ} {c : ℝ} {f : T → V3} {a : V3} (hs : Tendsto s l (𝓝 c)) (hf : Conv l f a) :
    Conv l (fun t => s t • f t) (c • a) := ⟨hs.mul hf.x, hs.mul hf.y, hs.mul hf.z⟩

theorem Spec.Conv.const_smul {f : T → V3} {a : V3} (c : ℝ) (hf : Conv l f a) : Conv l (fun t => c • f t) (c • a) :=
  Conv.smul tendsto_const_nhds hf

theorem Spec.Conv.cross {f g : T → V3} {a b : V3} (hf : Conv l f a) (hg : Conv l g b) :
    Conv l (fun t => V3.cross (f t) (g t)) (V3.cross a b) :=
  ⟨(hf.y.mul hg.z).sub (hf.z.mul hg.y), (hf.z.mul hg.x).sub (hf.x.mul hg.z), (hf.x.mul hg.y).sub (hf.y.mul hg.x)⟩

theorem Spec.Conv.dot {f g : T → V3} {a b : V3} (hf : Conv l f a) (hg : Conv l g b) :
    Tendsto (fun t => (f t).dot (g t)) l (𝓝 (a.dot b)) :=
  ((hf.x.mul hg.x).add (hf.y.mul hg.y)).add (hf.z.mul hg.z)

theorem Spec.Conv.norm {f : T → V3} {a : V3} (hf : Conv l f a) : Tendsto (fun t => (f t).norm) l (𝓝 a.norm) :=
  (hf.dot hf).sqrt

theorem Spec.Conv.sum {ι : Type} (s : Finset ι) {f : T → ι → V3} {a : ι → V3} (h : ∀ i ∈ s, Conv l (fun t => f t i) (a i)) :
    Conv l (fun t => ∑ i ∈ s, f t i) (∑ i ∈ s, a i) := by
  refine ⟨?_, ?_, ?_⟩
  · simp only [V3.sum_x]; exact tendsto_finsetSum _ fun i hi => (h i hi).x
  · simp only [V3.sum_y]; exact tendsto_finsetSum _ fun i hi => (h i hi).y
  · simp only [V3.sum_z]; exact tendsto_finsetSum _ fun i hi => (h i hi).z

theorem Spec.Conv.congr' {f g : T → V3} {a : V3} (hf : Conv l f a) (h : ∀ᶠ t in l, f t = g t) : Conv l g a :=
  ⟨hf.x.congr' (h.mono fun t e => by rw [e]), hf.y.congr' (h.mono fun t e => by rw [e]),
    hf.z.congr' (h.mono fun t e => by rw [e])⟩

theorem Spec.Conv.eventually_ne {f : T → V3} {a : V3} (hf : Conv l f a) (h : a ≠ 0) : ∀ᶠ t in l, f t ≠ 0 := by
  have := hf.norm.eventually_ne (V3.norm_pos h).ne'
  exact this.mono fun t ht e => ht (by rw [e, V3.norm_zero])

/-- The induced velocity of a filament depends continuously on its ends and the point, off the boundary of its core. -/
theorem vortexLine_conv {p a b : T → V3} {p0 a0 b0 : V3} (hp : Conv l p p0) (ha : Conv l a a0) (hb : Conv l b b0)
    (h : ¬ OnCoreBoundary p0 a0 b0) (g : ℝ) : Conv l (fun t => vortexLine (p t) (a t) (b t) g) (vortexLine p0 a0 b0 g) := by
  unfold OnCoreBoundary at h
  push Not at h
  obtain ⟨h1, h2, h3⟩ := h
  have hra := hp.sub ha
  have hrb := hp.sub hb
  have hc := hra.cross hrb
  have hc2 := hc.norm.pow 2
  by_cases hcore : coreTest p0 a0 b0
  · have he : ∀ᶠ t in l, coreTest (p t) (a t) (b t) := by
      rcases hcore with hcore | hcore | hcore
      · exact (hra.norm.eventually_lt_const hcore).mono fun t ht => .inl ht
      · exact (hrb.norm.eventually_lt_const hcore).mono fun t ht => .inr (.inl ht)
      · exact (hc2.eventually_lt_const hcore).mono fun t ht => .inr (.inr ht)
    rw [vortexLine_core g hcore]
    exact (conv_const 0).congr' (he.mono fun t ht => (vortexLine_core g ht).symm)
  · have hcore' := hcore
    simp only [coreTest, not_or, not_lt] at hcore'
    obtain ⟨k1, k2, k3⟩ := hcore'
    have k1 := lt_of_le_of_ne k1 (Ne.symm h1)
    have k2 := lt_of_le_of_ne k2 (Ne.symm h2)
    have k3 := lt_of_le_of_ne k3 (Ne.symm h3)
    have he : ∀ᶠ t in l, ¬ coreTest (p t) (a t) (b t) := by
      simp only [coreTest, not_or, not_lt]
      filter_upwards [hra.norm.eventually_const_lt k1, hrb.norm.eventually_const_lt k2, hc2.eventually_const_lt k3]
        with t t1 t2 t3
      exact ⟨t1.le, t2.le, t3.le⟩
    have n1 : (p0 - a0).norm ≠ 0 := by intro e; rw [e] at k1; norm_num at k1
    have n2 : (p0 - b0).norm ≠ 0 := by intro e; rw [e] at k2; norm_num at k2
    have n3 : (V3.cross (p0 - a0) (p0 - b0)).norm ^ 2 ≠ 0 := by intro e; rw [e] at k3; norm_num at k3
    rw [vortexLine_out g hcore]
    refine Conv.congr' ?_ (he.mono fun t ht => (vortexLine_out g ht).symm)
    refine Conv.const_smul _ (Conv.smul ((hb.sub ha).dot ((Conv.smul ?_ hra).sub (Conv.smul ?_ hrb))) (Conv.smul ?_ hc))
    · exact tendsto_const_nhds.div hra.norm n1
    · exact tendsto_const_nhds.div hrb.norm n2
    · exact tendsto_const_nhds.div hc2 n3

theorem wake_conv {P A V : T → V3} {P0 A0 V0 : V3} (hP : Conv l P P0) (hA : Conv l A A0) (hV : Conv l V V0)
    (h : wakeDefined P0 A0 V0) (g : ℝ) :
    (∀ᶠ t in l, wakeDefined (P t) (A t) (V t)) ∧
      Conv l (fun t => vortexInfiniteLine (P t) (A t) (V t) g) (vortexInfiniteLine P0 A0 V0 g) := by
  obtain ⟨h1, h2⟩ := h
  have hr := hP.sub hA
  have hu : Conv l (fun t => (1 / (V t).norm) • V t) ((1 / V0.norm) • V0) :=
    Conv.smul (tendsto_const_nhds.div hV.norm (V3.norm_pos h1).ne') hV
  have hd := hr.norm.mul (hr.norm.sub (hu.dot hr))
  refine ⟨?_, ?_⟩
  · filter_upwards [hV.eventually_ne h1, hd.eventually_ne h2] with t t1 t2
    exact ⟨t1, t2⟩
  · unfold vortexInfiniteLine
    exact Conv.const_smul _ (Conv.smul (tendsto_const_nhds.div hd h2) (hu.cross hr))

variable {K : ℕ}

/-- The panel variables `L t` tend to `v`. -/
structure Spec.ConvPanel (l : Filter T) (L : T → PanelVars) (v : PanelVars) : Prop where
  normal : Conv l (fun t => (L t).normal) v.normal
  ctrP : Conv l (fun t => (L t).ctrP) v.ctrP
  cp : Conv l (fun t => (L t).cp) v.cp
  A : Conv l (fun t => (L t).ring.A) v.ring.A
  B : Conv l (fun t => (L t).ring.B) v.ring.B
  C : Conv l (fun t => (L t).ring.C) v.ring.C
  D : Conv l (fun t => (L t).ring.D) v.ring.D
  span : Conv l (fun t => (L t).span) v.span

/-- `p` is not on the boundary of the core of a filament of the vortex of panel `v`. -/
def Spec.OffCores (p : V3) (v : PanelVars) : Prop :=
  ¬ OnCoreBoundary p v.ring.A v.ring.B ∧ ¬ OnCoreBoundary p v.ring.B v.ring.C ∧ ¬ OnCoreBoundary p v.ring.C v.ring.D ∧
    ¬ OnCoreBoundary p v.ring.D v.ring.A

theorem velCoef_conv {L : T → Fin K → PanelVars} {L0 : Fin K → PanelVars} (hL : ∀ i, ConvPanel l (fun t => L t i) (L0 i))
    (te : Fin K → Bool) {V : T → Fin K → V3} {V0 : Fin K → V3} (hV : ∀ i, Conv l (fun t => V t i) (V0 i)) (g : ℝ)
    {p : T → V3} {p0 : V3} (hp : Conv l p p0) (j : Fin K) (hc : OffCores p0 (L0 j))
    (hw : te j = true → wakeDefined p0 (L0 j).ring.A (V0 j) ∧ wakeDefined p0 (L0 j).ring.D (V0 j)) :
    Conv l (fun t => velCoef (L t) te (V t) g (p t) j) (velCoef L0 te V0 g p0 j) := by
  obtain ⟨h1, h2, h3, h4⟩ := hc
  have c := hL j
  have e1 := vortexLine_conv hp c.A c.B h1 g
  have e2 := vortexLine_conv hp c.B c.C h2 g
  have e3 := vortexLine_conv hp c.C c.D h3 g
  simp only [velCoef_eq]
  cases hte : te j
  · simp only [Bool.false_eq_true, if_false, vortexRing]
    exact ((e1.add e2).add e3).add (vortexLine_conv hp c.D c.A h4 g)
  · obtain ⟨w1, w2⟩ := hw hte
    simp only [if_true, vortexHorseshoeV2]
    exact (((e1.add e2).add e3).add (wake_conv hp c.D (hV j) w2 g).2).add (wake_conv hp c.A (hV j) w1 (-1 * g)).2

theorem coefs_conv {L : T → Fin K → PanelVars} {L0 : Fin K → PanelVars} (hL : ∀ i, ConvPanel l (fun t => L t i) (L0 i))
    (te : Fin K → Bool) {V : T → Fin K → V3} {V0 : Fin K → V3} (hV : ∀ i, Conv l (fun t => V t i) (V0 i))
    {pts : T → Fin K → V3} {pts0 : Fin K → V3} (hp : ∀ i, Conv l (fun t => pts t i) (pts0 i))
    (hw : clearOfWakes L0 te V0 pts0) : ∀ᶠ t in l, clearOfWakes (L t) te (V t) (pts t) := by
  rw [← coefsDefined_iff] at hw
  simp only [← coefsDefined_iff]
  unfold coefsDefined at hw ⊢
  simp only [eventually_all]
  intro i j hj
  obtain ⟨w1, w2⟩ := hw i j hj
  exact (wake_conv (hp i) (hL j).A (hV j) w1 0).1.and (wake_conv (hp i) (hL j).D (hV j) w2 0).1

/-- All results tend to those of `s`. -/
structure Spec.ConvSol (l : Filter T) (f : T → VlmSolution K) (s : VlmSolution K) : Prop where
  gamma : ∀ i, Tendsto (fun t => (f t).gamma i) l (𝓝 (s.gamma i))
  vIndCtrl : ∀ i, Conv l (fun t => (f t).vIndCtrl i) (s.vIndCtrl i)
  vFsCtrl : ∀ i, Conv l (fun t => (f t).vFsCtrl i) (s.vFsCtrl i)
  force : ∀ i, Conv l (fun t => (f t).force i) (s.force i)
  vFsCp : ∀ i, Conv l (fun t => (f t).vFsCp i) (s.vFsCp i)
  vIndCp : ∀ i, Conv l (fun t => (f t).vIndCp i) (s.vIndCp i)
  pressure : ∀ i, Tendsto (fun t => (f t).pressure i) l (𝓝 (s.pressure i))
  pCoeffs : ∀ i, Tendsto (fun t => (f t).pCoeffs i) l (𝓝 (s.pCoeffs i))
  lift : ∀ i, Conv l (fun t => (f t).lift i) (s.lift i)
  drag : ∀ i, Conv l (fun t => (f t).drag i) (s.drag i)

theorem panelForce_conv {L : T → Fin K → PanelVars} {L0 : Fin K → PanelVars}
    (hL : ∀ i, ConvPanel l (fun t => L t i) (L0 i)) (le : Fin K → Bool) (ns : ℕ) {rho : T → ℝ} {rho0 : ℝ}
    (hr : Tendsto rho l (𝓝 rho0)) {γ : T → Fin K → ℝ} {γ0 : Fin K → ℝ} (hγ : ∀ i, Tendsto (fun t => γ t i) l (𝓝 (γ0 i)))
    {V : T → Fin K → V3} {V0 : Fin K → V3} (hV : ∀ i, Conv l (fun t => V t i) (V0 i)) (i : Fin K) :
    Conv l (fun t => panelForce (L t) le ns (rho t) (γ t) (V t) i) (panelForce L0 le ns rho0 γ0 V0 i) := by
  unfold panelForce
  refine Conv.smul hr ((hV i).cross (Conv.smul ?_ (hL i).span))
  unfold gammaForForce
  split_ifs
  · exact hγ i
  · exact (hγ i).sub (hγ _)

/-- The solution depends continuously on panels, winds and density. -/
theorem core_conv {L : T → Fin K → PanelVars} {L0 : Fin K → PanelVars} (hL : ∀ i, ConvPanel l (fun t => L t i) (L0 i))
    {areas : T → Fin K → ℝ} {areas0 : Fin K → ℝ} (ha : ∀ i, Tendsto (fun t => areas t i) l (𝓝 (areas0 i)))
    (te le : Fin K → Bool) (ns : ℕ) {rho : T → ℝ} {rho0 : ℝ} (hr : Tendsto rho l (𝓝 rho0)) (g : ℝ)
    {V : T → Fin K → V3} {V0 : Fin K → V3} (hV : ∀ i, Conv l (fun t => V t i) (V0 i)) {s : VlmSolution K}
    (h : vlmCore L0 areas0 te le ns rho0 g V0 = .ok s) (ha0 : ∀ i, areas0 i ≠ 1e-14)
    (hc : ∀ i j, OffCores (L0 i).ctrP (L0 j) ∧ OffCores (L0 i).cp (L0 j)) :
    ∃ f : T → VlmSolution K, (∀ᶠ t in l, vlmCore (L t) (areas t) te le ns (rho t) g (V t) = .ok (f t)) ∧ ConvSol l f s := by
  obtain ⟨wp, ix, rfl⟩ := (vlmCore_ok_iff _ _ _ _ _ _ _ _ _).1 h
  have hctr : ∀ i, Conv l (fun t => (L t i).ctrP) (L0 i).ctrP := fun i => (hL i).ctrP
  have hcp : ∀ i, Conv l (fun t => (L t i).cp) (L0 i).cp := fun i => (hL i).cp
  have w1 := (coefsDefined_iff _ _ _ _).2 wp.ctr
  have w2 := (coefsDefined_iff _ _ _ _).2 wp.cp
  have v1 : ∀ i j, Conv l (fun t => velCoef (L t) te (V t) g (L t i).ctrP j) (velCoef L0 te V0 g (L0 i).ctrP j) :=
    fun i j => velCoef_conv hL te hV g (hctr i) j (hc i j).1 (w1 i j)
  have v2 : ∀ i j, Conv l (fun t => velCoef (L t) te (V t) g (L t i).cp j) (velCoef L0 te V0 g (L0 i).cp j) :=
    fun i j => velCoef_conv hL te hV g (hcp i) j (hc i j).2 (w2 i j)
  have hM : Tendsto (fun t => influence (L t) te (V t) g) l (𝓝 (influence L0 te V0 g)) := by
    refine tendsto_pi_nhds.2 fun i => tendsto_pi_nhds.2 fun j => ?_
    simp only [influence_eq]
    exact (v1 i j).dot (hL i).normal
  have hdet : Tendsto (fun t => (influence (L t) te (V t) g).det) l (𝓝 (influence L0 te V0 g).det) :=
    ((Continuous.matrix_det continuous_id).tendsto _).comp hM
  have hadj : Tendsto (fun t => (influence (L t) te (V t) g).adjugate) l (𝓝 (influence L0 te V0 g).adjugate) :=
    ((Continuous.matrix_adjugate continuous_id).tendsto _).comp hM
  have hγ : ∀ i, Tendsto (fun t => coreGamma (L t) te g (V t) i) l (𝓝 (coreGamma L0 te g V0 i)) := by
    intro i
    unfold coreGamma
    simp only [Matrix.inv_def, Ring.inverse_eq_inv', Matrix.mulVec, dotProduct, Matrix.smul_apply, smul_eq_mul]
    refine tendsto_finsetSum _ fun j _ => ?_
    refine ((hdet.inv₀ wp.regular).mul ?_).mul ((hV j).dot (hL j).normal).neg
    exact tendsto_pi_nhds.1 (tendsto_pi_nhds.1 hadj i) j
  have l1 : ∀ i, Conv l (fun t => latticeVelocity (L t) te (V t) g (coreGamma (L t) te g (V t)) (L t i).ctrP)
      (latticeVelocity L0 te V0 g (coreGamma L0 te g V0) (L0 i).ctrP) := fun i => by
    simp only [latticeVelocity_eq]
    exact Conv.sum _ fun j _ => Conv.smul (hγ j) (v1 i j)
  have l2 : ∀ i, Conv l (fun t => latticeVelocity (L t) te (V t) g (coreGamma (L t) te g (V t)) (L t i).cp)
      (latticeVelocity L0 te V0 g (coreGamma L0 te g V0) (L0 i).cp) := fun i => by
    simp only [latticeVelocity_eq]
    exact Conv.sum _ fun j _ => Conv.smul (hγ j) (v2 i j)
  have f1 := panelForce_conv hL le ns hr hγ (fun i => (hV i).add (l2 i))
  have hane : ∀ i, areas0 i ≠ 0 := fun i e => by have := wp.areas i; rw [e] at this; norm_num at this
  have hp : ∀ i, Tendsto (fun t => (solOf (L t) (areas t) te le ns (rho t) g (V t) (coreGamma (L t) te g (V t))).pressure i) l
      (𝓝 ((solOf L0 areas0 te le ns rho0 g V0 (coreGamma L0 te g V0)).pressure i)) := fun i =>
    ((f1 i).dot (hL i).normal).div (ha i) (hane i)
  refine ⟨fun t => solOf (L t) (areas t) te le ns (rho t) g (V t) (coreGamma (L t) te g (V t)), ?_, ?_⟩
  · have e1 := coefs_conv hL te hV hctr wp.ctr
    have e2 := coefs_conv hL te hV hcp wp.cp
    have e3 := hdet.eventually_ne wp.regular
    have e4 : ∀ᶠ t in l, ∀ i, 1e-14 ≤ areas t i := eventually_all.2 fun i =>
      ((ha i).eventually_const_lt (lt_of_le_of_ne (wp.areas i) (ha0 i).symm)).mono fun _ h => h.le
    have e5 : ∀ᶠ t in l, 0 < K → rho t ≠ 0 := by
      by_cases hK : 0 < K
      · exact (hr.eventually_ne (wp.rho hK)).mono fun _ h _ => h
      · exact Eventually.of_forall fun _ h => absurd h hK
    have e6 : ∀ᶠ t in l, ∀ i, V t i ≠ 0 := eventually_all.2 fun i => (hV i).eventually_ne (wp.wind i)
    filter_upwards [e1, e2, e3, e4, e5, e6] with t t1 t2 t3 t4 t5 t6
    exact (vlmCore_ok_iff _ _ _ _ _ _ _ _ _).2 ⟨⟨t1, t2, t3, t4, t5, t6⟩, ix, rfl⟩
  · exact {
      gamma := hγ
      vIndCtrl := l1
      vFsCtrl := fun i => (hV i).add (l1 i)
      force := f1
      vFsCp := fun i => (hV i).add (l2 i)
      vIndCp := l2
      pressure := hp
      pCoeffs := fun i => by
        refine (hp i).div ((hr.const_mul 0.5).mul ((hV i).dot (hV i))) ?_
        have h1 := wp.rho i.pos
        have h2 := (V3.dot_self_pos (wp.wind i)).ne'
        positivity
      lift := panelForce_conv hL le ns hr hγ hV
      drag := panelForce_conv hL le ns hr hγ l2 }

end PySailing
