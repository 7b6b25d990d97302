import Verif.Spec.Lattice
import Verif.Lemmas.Kernels
import Verif.Lemmas.ListLemmas

/-!
# Lemmas about the solver
-/

namespace PySailing

open Spec

variable {K : ℕ}

theorem velCoef_eq (L : Fin K → PanelVars) (te : Fin K → Bool) (V : Fin K → V3) (g : ℝ) (p : V3)
    (j : Fin K) :
    velCoef L te V g p j = if te j then
      vortexHorseshoeV2 p (L j).ring.A (L j).ring.B (L j).ring.C (L j).ring.D (V j) g
    else vortexRing p (L j).ring.A (L j).ring.B (L j).ring.C (L j).ring.D g := rfl

theorem latticeVelocity_eq (L : Fin K → PanelVars) (te : Fin K → Bool) (V : Fin K → V3) (g : ℝ)
    (γ : Fin K → ℝ) (p : V3) :
    latticeVelocity L te V g γ p = ∑ j, γ j • velCoef L te V g p j := rfl

theorem influence_eq (L : Fin K → PanelVars) (te : Fin K → Bool) (V : Fin K → V3) (g : ℝ)
    (i j : Fin K) :
    influence L te V g i j = (velCoef L te V g (L i).ctrP j).dot (L i).normal := by
  unfold influence
  rw [latticeVelocity_eq, Finset.sum_eq_single j]
  · simp
  · intro k _ hk; simp [hk]
  · simp

theorem coefsDefined_iff (L : Fin K → PanelVars) (te : Fin K → Bool) (V : Fin K → V3)
    (pts : Fin K → V3) : coefsDefined L te V pts ↔ clearOfWakes L te V pts := by
  unfold coefsDefined clearOfWakes
  refine forall_congr' fun i => forall_congr' fun j => imp_congr_right fun _ => ?_
  rw [wakeDefined_iff, wakeDefined_iff]
  constructor
  · rintro ⟨⟨h1, h2⟩, -, h3⟩
    exact ⟨h1, fun s hs => ⟨h2 s hs, h3 s hs⟩⟩
  · rintro ⟨h1, h2⟩
    exact ⟨⟨h1, fun s hs => (h2 s hs).1⟩, h1, fun s hs => (h2 s hs).2⟩

theorem V3.sum_x {ι : Type} (s : Finset ι) (f : ι → V3) : (∑ j ∈ s, f j).x = ∑ j ∈ s, (f j).x :=
  _root_.map_sum V3.xHom f s
theorem V3.sum_y {ι : Type} (s : Finset ι) (f : ι → V3) : (∑ j ∈ s, f j).y = ∑ j ∈ s, (f j).y :=
  _root_.map_sum V3.yHom f s
theorem V3.sum_z {ι : Type} (s : Finset ι) (f : ι → V3) : (∑ j ∈ s, f j).z = ∑ j ∈ s, (f j).z :=
  _root_.map_sum V3.zHom f s

theorem V3.sum_dot {ι : Type} (s : Finset ι) (f : ι → V3) (n : V3) :
    (∑ j ∈ s, f j).dot n = ∑ j ∈ s, (f j).dot n := by
  simp only [V3.dot, V3.sum_x, V3.sum_y, V3.sum_z, Finset.sum_add_distrib, Finset.sum_mul]

theorem latticeVelocity_dot (L : Fin K → PanelVars) (te : Fin K → Bool) (V : Fin K → V3) (g : ℝ)
    (γ : Fin K → ℝ) (i : Fin K) :
    (latticeVelocity L te V g γ (L i).ctrP).dot (L i).normal = (influence L te V g).mulVec γ i := by
  rw [latticeVelocity_eq, V3.sum_dot]
  simp only [Matrix.mulVec, dotProduct, influence_eq, V3.dot_smul_left]
  exact Finset.sum_congr rfl fun j _ => mul_comm _ _

/-- Python indices used by the force computation are in range. -/
def IndexOk (le : Fin K → Bool) (ns : ℕ) : Prop :=
  ∀ i, (le i || case1x1 le) = false → ns ≤ i.val + K

/-- The circulations: the solution of the linear system. -/
noncomputable def coreGamma (L : Fin K → PanelVars) (te : Fin K → Bool) (g : ℝ) (V : Fin K → V3) :
    Fin K → ℝ :=
  (influence L te V g)⁻¹.mulVec (fun i => -((V i).dot (L i).normal))

/-- The `Vlm` results for given circulations. -/
noncomputable def solOf (L : Fin K → PanelVars) (areas : Fin K → ℝ) (te le : Fin K → Bool)
    (ns : ℕ) (rho g : ℝ) (V : Fin K → V3) (γ : Fin K → ℝ) : VlmSolution K :=
  let v := fun i => latticeVelocity L te V g γ (L i).cp
  let force := panelForce L le ns rho γ (fun i => V i + v i)
  { gamma := γ
    vIndCtrl := fun i => latticeVelocity L te V g γ (L i).ctrP
    vFsCtrl := fun i => V i + latticeVelocity L te V g γ (L i).ctrP
    force := force
    vFsCp := fun i => V i + v i
    vIndCp := v
    pressure := fun i => (force i).dot (L i).normal / areas i
    pCoeffs := fun i => (force i).dot (L i).normal / areas i / (0.5 * rho * (V i).dot (V i))
    lift := panelForce L le ns rho γ V
    drag := panelForce L le ns rho γ v }

theorem influence_matrix (L : Fin K → PanelVars) (te : Fin K → Bool) (V : Fin K → V3) (g : ℝ) :
    (fun i j => (velCoef L te V g (L i).ctrP j).dot (L i).normal : Matrix (Fin K) (Fin K) ℝ) =
      influence L te V g := by
  funext i j; exact (influence_eq L te V g i j).symm

theorem influence_mulVec_coreGamma {L : Fin K → PanelVars} {te : Fin K → Bool} {g : ℝ}
    {V : Fin K → V3} (h : (influence L te V g).det ≠ 0) :
    (influence L te V g).mulVec (coreGamma L te g V) = fun i => -((V i).dot (L i).normal) := by
  unfold coreGamma
  rw [Matrix.mulVec_mulVec, Matrix.mul_nonsing_inv _ (Ne.isUnit h), Matrix.one_mulVec]

theorem coreGamma_unique {L : Fin K → PanelVars} {te : Fin K → Bool} {g : ℝ}
    {V : Fin K → V3} (h : (influence L te V g).det ≠ 0) {γ : Fin K → ℝ}
    (hγ : (influence L te V g).mulVec γ = fun i => -((V i).dot (L i).normal)) :
    γ = coreGamma L te g V := by
  unfold coreGamma
  rw [← hγ, Matrix.mulVec_mulVec, Matrix.nonsing_inv_mul _ (Ne.isUnit h), Matrix.one_mulVec]

theorem coreGamma_flux {L : Fin K → PanelVars} {te : Fin K → Bool} {g : ℝ}
    {V : Fin K → V3} (h : (influence L te V g).det ≠ 0) (i : Fin K) :
    (V i + latticeVelocity L te V g (coreGamma L te g V) (L i).ctrP).dot (L i).normal = 0 := by
  rw [V3.dot_add_left, latticeVelocity_dot, influence_mulVec_coreGamma h]; ring

theorem isNoFlux_iff (V : Fin K → V3) (areas : Fin K → ℝ) (normals : Fin K → V3) :
    (isNoFluxBCSatisfied V areas normals = .ok true ↔
      (∀ i, 1e-14 ≤ areas i) ∧ ∀ i, |(V i).dot (normals i)| ≤ 1e-12) ∧
    (isNoFluxBCSatisfied V areas normals = .ok true ∨
      isNoFluxBCSatisfied V areas normals = .error .valueError) := by
  unfold isNoFluxBCSatisfied
  simp only [abs_neg]
  by_cases h1 : ∃ i, areas i < 1e-14
  · rw [if_pos h1]
    refine ⟨⟨by simp, fun h => ?_⟩, Or.inr rfl⟩
    obtain ⟨i, hi⟩ := h1
    exact absurd (h.1 i) (not_le.2 hi)
  · rw [if_neg h1]
    by_cases h2 : ∃ i, |(V i).dot (normals i)| > 1e-12
    · rw [if_pos h2]
      refine ⟨⟨by simp, fun h => ?_⟩, Or.inr rfl⟩
      obtain ⟨i, hi⟩ := h2
      exact absurd (h.2 i) (not_le.2 hi)
    · rw [if_neg h2]
      push Not at h1 h2
      exact ⟨⟨fun _ => ⟨h1, h2⟩, fun _ => rfl⟩, Or.inl rfl⟩

/-- Exact outcome of assembly, solution and no-flux check. -/
theorem solveLattice_eq (L : Fin K → PanelVars) (areas : Fin K → ℝ) (te : Fin K → Bool)
    (g : ℝ) (V : Fin K → V3) : solveLattice L areas te g V =
      open Classical in
      if ¬ clearOfWakes L te V (fun i => (L i).ctrP) then .error .valueError
      else if (influence L te V g).det = 0 then .error .linAlgError
      else if ∃ i, areas i < 1e-14 then .error .valueError
      else .ok (coreGamma L te g V,
        fun i => latticeVelocity L te V g (coreGamma L te g V) (L i).ctrP,
        fun i => V i + latticeVelocity L te V g (coreGamma L te g V) (L i).ctrP) := by
  unfold solveLattice calcVelocityCoefs
  by_cases h1 : coefsDefined L te V (fun i => (L i).ctrP)
  · have h1' := (coefsDefined_iff L te V _).1 h1
    rw [if_pos h1, if_neg (not_not.2 h1')]
    simp only [nanTrap, solveEq, bind, Except.bind]
    rw [influence_matrix]
    by_cases h2 : (influence L te V g).det = 0
    · rw [if_pos h2, if_pos h2]
    · rw [if_neg h2, if_neg h2]
      have hg : (influence L te V g)⁻¹.mulVec (calculateRHS V fun i => (L i).normal) =
        coreGamma L te g V := rfl
      simp only [hg, calculateAppFs, calcInducedVelocity]
      simp only [← latticeVelocity_eq]
      have hf := isNoFlux_iff (fun i => V i + latticeVelocity L te V g (coreGamma L te g V) (L i).ctrP)
        areas (fun i => (L i).normal)
      by_cases h3 : ∃ i, areas i < 1e-14
      · rw [if_pos h3]
        rcases hf.2 with h | h
        · obtain ⟨i, hi⟩ := h3
          exact absurd ((hf.1.1 h).1 i) (not_le.2 hi)
        · rw [h]
      · rw [if_neg h3]
        push Not at h3
        rw [hf.1.2 ⟨h3, fun i => by rw [coreGamma_flux h2 i]; norm_num⟩]
        rfl
  · have h1' := mt (coefsDefined_iff L te V _).2 h1
    rw [if_neg h1, if_pos h1']
    rfl

theorem wrapOk_iff (i : Fin K) (ns : ℕ) : wrapOk i ns ↔ ns ≤ i.val + K := by
  unfold wrapOk; omega

theorem calcForceWrapper_eq (L : Fin K → PanelVars) (te le : Fin K → Bool) (ns : ℕ)
    (rho g : ℝ) (V : Fin K → V3) (γ : Fin K → ℝ) (name : String)
    (hname : name = "lift" ∨ name = "drag" ∨ name = "force_xyz") :
    calcForceWrapper L te le ns rho g V γ name =
      open Classical in
      if ¬ clearOfWakes L te V (fun i => (L i).cp) then .error .nonFinite
      else if ¬ IndexOk le ns then .error .indexError
      else .ok (panelForce L le ns rho γ (if name = "lift" then V else if name = "drag" then
          fun i => latticeVelocity L te V g γ (L i).cp
          else fun i => V i + latticeVelocity L te V g γ (L i).cp),
        fun i => V i + latticeVelocity L te V g γ (L i).cp,
        fun i => latticeVelocity L te V g γ (L i).cp) := by
  have hix : (∃ i, (le i || case1x1 le) = false ∧ ¬ wrapOk i ns) ↔ ¬ IndexOk le ns := by
    unfold IndexOk; push Not
    simp only [wrapOk_iff, not_le]
  unfold calcForceWrapper calcVelocityCoefs
  rw [if_neg (not_not.2 hname)]
  by_cases h1 : coefsDefined L te V (fun i => (L i).cp)
  · have h1' := (coefsDefined_iff L te V _).1 h1
    rw [if_pos h1, if_neg (not_not.2 h1')]
    simp only [bind, Except.bind, calculateAppFs, calcInducedVelocity]
    simp only [← latticeVelocity_eq]
    by_cases h2 : IndexOk le ns
    · exact (if_neg (by rw [hix]; exact not_not.2 h2)).trans (if_neg (not_not.2 h2)).symm
    · exact (if_pos (hix.2 h2)).trans (if_pos h2).symm
  · have h1' := mt (coefsDefined_iff L te V _).2 h1
    rw [if_neg h1, if_pos h1']
    rfl

theorem dyn_ne_zero_iff (rho : ℝ) (V : Fin K → V3) :
    (¬ ∃ i, 0.5 * rho * (V i).dot (V i) = 0) ↔ ((0 < K → rho ≠ 0) ∧ ∀ i, V i ≠ 0) := by
  push Not
  constructor
  · intro h
    refine ⟨fun hK hr => h ⟨0, hK⟩ (by rw [hr]; ring), fun i hi => h i (by rw [hi]; simp)⟩
  · rintro ⟨h1, h2⟩ i
    have := h1 i.pos
    have := (V3.dot_self_pos (h2 i)).ne'
    positivity

/-- `Vlm` returns exactly for well-posed lattices, with the results `solOf`. -/
theorem vlmCore_ok_iff (L : Fin K → PanelVars) (areas : Fin K → ℝ) (te le : Fin K → Bool)
    (ns : ℕ) (rho g : ℝ) (V : Fin K → V3) (s : VlmSolution K) :
    vlmCore L areas te le ns rho g V = .ok s ↔
      WellPosed L areas te rho g V ∧ IndexOk le ns ∧
        s = solOf L areas te le ns rho g V (coreGamma L te g V) := by
  unfold vlmCore
  rw [solveLattice_eq]
  by_cases h1 : clearOfWakes L te V (fun i => (L i).ctrP)
  swap
  · rw [if_pos h1]
    exact ⟨fun h => (by cases h), fun h => absurd h.1.ctr h1⟩
  rw [if_neg (not_not.2 h1)]
  by_cases h2 : (influence L te V g).det = 0
  · rw [if_pos h2]
    exact ⟨fun h => (by cases h), fun h => absurd h2 h.1.regular⟩
  rw [if_neg h2]
  by_cases h3 : ∃ i, areas i < 1e-14
  · rw [if_pos h3]
    obtain ⟨i, hi⟩ := h3
    exact ⟨fun h => (by cases h), fun h => absurd (h.1.areas i) (not_le.2 hi)⟩
  rw [if_neg h3]
  push Not at h3
  simp only [bind, Except.bind]
  rw [calcForceWrapper_eq _ _ _ _ _ _ _ _ "force_xyz" (by simp),
    calcForceWrapper_eq _ _ _ _ _ _ _ _ "lift" (by simp),
    calcForceWrapper_eq _ _ _ _ _ _ _ _ "drag" (by simp)]
  by_cases h4 : clearOfWakes L te V (fun i => (L i).cp)
  swap
  · simp only [if_pos h4]
    exact ⟨fun h => (by cases h), fun h => absurd h.1.cp h4⟩
  simp only [if_neg (not_not.2 h4)]
  by_cases h5 : IndexOk le ns
  swap
  · simp only [if_pos h5]
    exact ⟨fun h => (by cases h), fun h => absurd h.2.1 h5⟩
  simp only [if_neg (not_not.2 h5)]
  have ha : ¬ ∃ i, areas i = 0 := by
    rintro ⟨i, hi⟩; have := h3 i; rw [hi] at this; norm_num at this
  simp only [calcPressure, if_neg ha, calcPressureCoeff]
  by_cases h6 : ∃ i, 0.5 * rho * (V i).dot (V i) = 0
  · rw [if_pos h6]
    refine ⟨fun h => (by cases h), fun h => ?_⟩
    exact absurd h6 ((dyn_ne_zero_iff rho V).2 ⟨h.1.rho, h.1.wind⟩)
  · rw [if_neg h6]
    have h6' := (dyn_ne_zero_iff rho V).1 h6
    constructor
    · intro h
      injection h with h
      exact ⟨⟨h1, h4, h2, h3, h6'.1, h6'.2⟩, h5, h.symm⟩
    · rintro ⟨-, -, rfl⟩
      rfl

end PySailing
