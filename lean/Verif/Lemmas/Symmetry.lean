import Verif.Lemmas.Solver
import Verif.Lemmas.Isometry

/-!
# How the solver's results transform

One statement covers rigid motions, reflections, wind scaling, density scaling, change of the
circulation sign and renumbering of the panels.
-/

namespace PySailing

open Spec

variable {K K' : ℕ}

/-- Everything that is needed to transfer a solution from the lattice `L` to the lattice `L'`. -/
structure Transfer (L : Fin K → PanelVars) (te le : Fin K → Bool) (ns : ℕ) (g : ℝ) (V : Fin K → V3)
    (areas : Fin K → ℝ)
    (L' : Fin K' → PanelVars) (te' le' : Fin K' → Bool) (ns' : ℕ) (g' : ℝ) (V' : Fin K' → V3)
    (areas' : Fin K' → ℝ)
    (R : V3 → V3) (ε : ℝ) (Φ : V3 → V3) (σ : Fin K' ≃ Fin K) (s μ κ : ℝ) : Prop where
  iso : IsIsometry R ε
  sign : s * s = 1
  wind_pos : 0 < μ
  kappa : κ ≠ 0
  kernel : ∀ p j, velCoef L' te' V' g' (Φ p) j = (s * κ) • R (velCoef L te V g p (σ j))
  ctr : ∀ i, (L' i).ctrP = Φ (L (σ i)).ctrP
  cp : ∀ i, (L' i).cp = Φ (L (σ i)).cp
  normal : ∀ i, (L' i).normal = s • R (L (σ i)).normal
  span : ∀ i, (L' i).span = (s * ε * κ) • R (L (σ i)).span
  wind : ∀ i, V' i = μ • R (V (σ i))
  clear : ∀ pts : Fin K → V3, clearOfWakes L te V pts →
    clearOfWakes L' te' V' (fun i => Φ (pts (σ i)))
  area : ∀ i, areas' i = areas (σ i)
  leading : ∀ i, le' i = le (σ i)
  upstream : ∀ i, (le' i || case1x1 le') = false → σ (wrapIndex i ns') = wrapIndex (σ i) ns
  index : IndexOk le ns → IndexOk le' ns'

/-- The transformed results. -/
noncomputable def VlmSolution.transform (sol : VlmSolution K) (R : V3 → V3) (σ : Fin K' ≃ Fin K)
    (s μ κ c : ℝ) : VlmSolution K' where
  gamma i := (s * μ / κ) * sol.gamma (σ i)
  vIndCtrl i := μ • R (sol.vIndCtrl (σ i))
  vFsCtrl i := μ • R (sol.vFsCtrl (σ i))
  force i := (c * μ ^ 2) • R (sol.force (σ i))
  vFsCp i := μ • R (sol.vFsCp (σ i))
  vIndCp i := μ • R (sol.vIndCp (σ i))
  pressure i := s * (c * μ ^ 2) * sol.pressure (σ i)
  pCoeffs i := s * sol.pCoeffs (σ i)
  lift i := (c * μ ^ 2) • R (sol.lift (σ i))
  drag i := (c * μ ^ 2) • R (sol.drag (σ i))

theorem Spec.IsIsometry.map_fsum {R : V3 → V3} {ε : ℝ} (h : IsIsometry R ε) {ι : Type}
    (t : Finset ι) (f : ι → V3) : R (∑ j ∈ t, f j) = ∑ j ∈ t, R (f j) := by
  classical
  induction t using Finset.induction_on with
  | empty => simp [h.map_zero]
  | insert a t ha ih => rw [Finset.sum_insert ha, Finset.sum_insert ha, h.map_add, ih]

namespace Transfer

variable {L : Fin K → PanelVars} {te le : Fin K → Bool} {ns : ℕ} {g : ℝ} {V : Fin K → V3}
  {areas : Fin K → ℝ} {L' : Fin K' → PanelVars} {te' le' : Fin K' → Bool} {ns' : ℕ} {g' : ℝ}
  {V' : Fin K' → V3} {areas' : Fin K' → ℝ} {R : V3 → V3} {ε : ℝ} {Φ : V3 → V3}
  {σ : Fin K' ≃ Fin K} {s μ κ : ℝ}

variable (T : Transfer L te le ns g V areas L' te' le' ns' g' V' areas' R ε Φ σ s μ κ)

include T

theorem velocity (γ : Fin K → ℝ) (c : ℝ) (p : V3) :
    latticeVelocity L' te' V' g' (fun i => c * γ (σ i)) (Φ p) =
      (s * κ * c) • R (latticeVelocity L te V g γ p) := by
  rw [latticeVelocity_eq, latticeVelocity_eq, T.iso.map_fsum, Finset.smul_sum, ← σ.sum_comp]
  refine Finset.sum_congr rfl fun j _ => ?_
  rw [T.kernel, T.iso.map_smul, smul_smul, smul_smul]
  congr 1; ring

theorem influence_eq' : influence L' te' V' g' = κ • (influence L te V g).submatrix σ σ := by
  funext i j
  rw [Matrix.smul_apply, Matrix.submatrix_apply, influence_eq, influence_eq, T.ctr, T.kernel,
    T.normal, V3.dot_smul_left, V3.dot_smul_right, T.iso.dot, smul_eq_mul]
  linear_combination κ * (velCoef L te V g (L (σ i)).ctrP (σ j)).dot (L (σ i)).normal * T.sign

theorem det_ne (h : (influence L te V g).det ≠ 0) : (influence L' te' V' g').det ≠ 0 := by
  rw [T.influence_eq', Matrix.det_smul, Matrix.det_submatrix_equiv_self]
  exact mul_ne_zero (pow_ne_zero _ T.kappa) h

theorem coreGamma_eq' (h : (influence L te V g).det ≠ 0) :
    coreGamma L' te' g' V' = fun i => (s * μ / κ) * coreGamma L te g V (σ i) := by
  symm
  apply coreGamma_unique (T.det_ne h)
  funext i
  rw [← latticeVelocity_dot, T.ctr, T.velocity, T.normal, V3.dot_smul_left, V3.dot_smul_right,
    T.iso.dot, latticeVelocity_dot, influence_mulVec_coreGamma h, T.wind, V3.dot_smul_left,
    V3.dot_smul_right, T.iso.dot]
  have := T.kappa
  field_simp
  linear_combination s * ((V (σ i)).dot (L (σ i)).normal) * (-1) * T.sign * μ

theorem wellPosed (c rho : ℝ) (hc : c ≠ 0) (h : WellPosed L areas te rho g V) :
    WellPosed L' areas' te' (c * rho) g' V' where
  ctr := by
    have := T.clear _ h.ctr
    simp only [T.ctr]
    exact this
  cp := by
    have := T.clear _ h.cp
    simp only [T.cp]
    exact this
  regular := T.det_ne h.regular
  areas i := by rw [T.area]; exact h.areas _
  rho hK := mul_ne_zero hc (h.rho (by
    have := Fintype.card_congr σ
    simp at this; omega))
  wind i := by
    rw [T.wind, Ne, smul_eq_zero, not_or, T.iso.eq_zero_iff]
    exact ⟨T.wind_pos.ne', h.wind _⟩

theorem case1x1_eq : case1x1 le' = case1x1 le := by
  unfold case1x1
  congr 1
  rw [Bool.eq_iff_iff, List.any_eq_true, List.any_eq_true]
  constructor
  · rintro ⟨i, -, hi⟩
    exact ⟨σ i, List.mem_finRange _, by rw [← T.leading]; exact hi⟩
  · rintro ⟨i, -, hi⟩
    exact ⟨σ.symm i, List.mem_finRange _, by rw [T.leading, σ.apply_symm_apply]; exact hi⟩

theorem gammaForForce_eq (γ : Fin K → ℝ) (c : ℝ) (i : Fin K') :
    gammaForForce le' (fun i => c * γ (σ i)) ns' i = c * gammaForForce le γ ns (σ i) := by
  unfold gammaForForce
  have hc : (le' i || case1x1 le') = (le (σ i) || case1x1 le) := by rw [T.leading, T.case1x1_eq]
  cases h : (le' i || case1x1 le')
  · rw [← hc, h]
    simp only [Bool.false_eq_true, if_false]
    rw [T.upstream i h, mul_sub]
  · rw [← hc, h]
    simp

theorem panelForce_eq (γ : Fin K → ℝ) (rho c a : ℝ) (W : Fin K → V3) (i : Fin K') :
    panelForce L' le' ns' (c * rho) (fun i => (s * a / κ) * γ (σ i)) (fun i => μ • R (W (σ i))) i =
      (c * a * μ) • R (panelForce L le ns rho γ W (σ i)) := by
  unfold panelForce
  rw [T.gammaForForce_eq, T.span, V3.cross_smul_left, V3.cross_smul_right, V3.cross_smul_right,
    T.iso.cross, V3.cross_smul_right, T.iso.map_smul, T.iso.map_smul]
  simp only [smul_smul]
  congr 1
  have := T.kappa
  field_simp
  linear_combination c * rho * μ * a * gammaForForce le γ ns (σ i) * (s * s * T.iso.sq_one + T.sign)

theorem solOf_eq (c rho : ℝ) (hc : c ≠ 0) (h : WellPosed L areas te rho g V) :
    solOf L' areas' te' le' ns' (c * rho) g' V' (coreGamma L' te' g' V') =
      (solOf L areas te le ns rho g V (coreGamma L te g V)).transform R σ s μ κ c := by
  rw [T.coreGamma_eq' h.regular]
  have hk := T.kappa
  have e : s * κ * (s * μ / κ) = μ := by
    field_simp; linear_combination μ * T.sign
  have hvel (p : V3) : latticeVelocity L' te' V' g'
      (fun i => (s * μ / κ) * coreGamma L te g V (σ i)) (Φ p) =
      μ • R (latticeVelocity L te V g (coreGamma L te g V) p) := by rw [T.velocity, e]
  have hctr (i : Fin K') : latticeVelocity L' te' V' g'
      (fun i => (s * μ / κ) * coreGamma L te g V (σ i)) (L' i).ctrP =
      μ • R (latticeVelocity L te V g (coreGamma L te g V) (L (σ i)).ctrP) := by rw [T.ctr, hvel]
  have hcp (i : Fin K') : latticeVelocity L' te' V' g'
      (fun i => (s * μ / κ) * coreGamma L te g V (σ i)) (L' i).cp =
      μ • R (latticeVelocity L te V g (coreGamma L te g V) (L (σ i)).cp) := by rw [T.cp, hvel]
  have hV : V' = fun i => μ • R (V (σ i)) := funext T.wind
  have hsum (i : Fin K') (w : V3) : V' i + μ • R w = μ • R (V (σ i) + w) := by
    rw [T.wind, T.iso.map_add, smul_add]
  have hF (W : Fin K → V3) (i : Fin K') :
      panelForce L' le' ns' (c * rho) (fun i => (s * μ / κ) * coreGamma L te g V (σ i))
        (fun i => μ • R (W (σ i))) i =
      (c * μ ^ 2) • R (panelForce L le ns rho (coreGamma L te g V) W (σ i)) := by
    rw [T.panelForce_eq]; congr 1; ring
  have hp (W : Fin K → V3) (i : Fin K') :
      ((c * μ ^ 2) • R (panelForce L le ns rho (coreGamma L te g V) W (σ i))).dot (L' i).normal
        / areas' i = s * (c * μ ^ 2) *
        ((panelForce L le ns rho (coreGamma L te g V) W (σ i)).dot (L (σ i)).normal /
          areas (σ i)) := by
    rw [T.normal, T.area, V3.dot_smul_left, V3.dot_smul_right, T.iso.dot]; ring
  have hlift : panelForce L' le' ns' (c * rho) (fun i => (s * μ / κ) * coreGamma L te g V (σ i)) V'
      = fun i => (c * μ ^ 2) • R (panelForce L le ns rho (coreGamma L te g V) V (σ i)) := by
    rw [hV]; funext i; exact hF V i
  unfold solOf VlmSolution.transform
  simp only [hctr, hcp, hsum, hlift]
  congr 1
  · funext i; exact hF (fun i => V i + latticeVelocity L te V g (coreGamma L te g V) (L i).cp) i
  · funext i
    rw [hF (fun i => V i + latticeVelocity L te V g (coreGamma L te g V) (L i).cp) i, hp]
  · funext i
    rw [hF (fun i => V i + latticeVelocity L te V g (coreGamma L te g V) (L i).cp) i, hp, T.wind,
      V3.dot_smul_left, V3.dot_smul_right, T.iso.dot]
    have h1 := h.rho (σ i).pos
    have h2 := (V3.dot_self_pos (h.wind (σ i))).ne'
    have h3 := T.wind_pos.ne'
    generalize (V (σ i)).dot (V (σ i)) = v at *
    generalize (panelForce L le ns rho (coreGamma L te g V)
      (fun i => V i + latticeVelocity L te V g (coreGamma L te g V) (L i).cp) (σ i)).dot
      (L (σ i)).normal / areas (σ i) = P
    field_simp
  · funext i; exact hF (fun i => latticeVelocity L te V g (coreGamma L te g V) (L i).cp) i

/-- A returning run on `L` gives a returning run on `L'` with the transformed results. -/
theorem vlmCore_eq (c rho : ℝ) (hc : c ≠ 0) {sol : VlmSolution K}
    (h : vlmCore L areas te le ns rho g V = .ok sol) :
    vlmCore L' areas' te' le' ns' (c * rho) g' V' = .ok (sol.transform R σ s μ κ c) := by
  rw [vlmCore_ok_iff] at h ⊢
  obtain ⟨h1, h2, rfl⟩ := h
  exact ⟨T.wellPosed c rho hc h1, T.index h2, (T.solOf_eq c rho hc h1).symm⟩

end Transfer

end PySailing
