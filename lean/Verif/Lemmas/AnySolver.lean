import Verif.Model.AnySolver
import Verif.Lemmas.FlatSail

/-!
# Lemmas about the solver with any routine for the linear system
-/

namespace PySailing

open Spec

variable {K : ℕ}

theorem vlmCoreWith_exact (L : Fin K → PanelVars) (areas : Fin K → ℝ) (te le : Fin K → Bool) (ns : ℕ) (rho g : ℝ) (V : Fin K → V3) :
    vlmCoreWith (fun _ => solveEq) L areas te le ns rho g V = vlmCore L areas te le ns rho g V := rfl

/-- The outcome of assembly, solution and no-flux check. -/
theorem solveLatticeWith_ok_iff (solve : LinearSolver) (L : Fin K → PanelVars) (areas : Fin K → ℝ) (te : Fin K → Bool)
    (g : ℝ) (V : Fin K → V3) (o : (Fin K → ℝ) × (Fin K → V3) × (Fin K → V3)) : solveLatticeWith solve L areas te g V = .ok o ↔
      clearOfWakes L te V (fun i => (L i).ctrP) ∧ (∀ i, 1e-14 ≤ areas i) ∧
      ∃ γ, solve K (influence L te V g) (fun i => -((V i).dot (L i).normal)) = .ok γ ∧
        (∀ i, |(V i + latticeVelocity L te V g γ (L i).ctrP).dot (L i).normal| ≤ 1e-12) ∧
        o = (γ, fun i => latticeVelocity L te V g γ (L i).ctrP, fun i => V i + latticeVelocity L te V g γ (L i).ctrP) := by
  unfold solveLatticeWith calcVelocityCoefs
  by_cases h1 : coefsDefined L te V (fun i => (L i).ctrP)
  · have h1' := (coefsDefined_iff L te V _).1 h1
    rw [if_pos h1]
    simp only [nanTrap, bind, Except.bind]
    rw [influence_matrix]
    have hr : calculateRHS V (fun i => (L i).normal) = fun i => -((V i).dot (L i).normal) := rfl
    rw [hr]
    cases hs : solve K (influence L te V g) (fun i => -((V i).dot (L i).normal)) with
    | error e =>
      refine ⟨fun h => (by cases h), ?_⟩
      rintro ⟨-, -, γ, h, -⟩
      cases h
    | ok γ =>
      simp only [calculateAppFs, calcInducedVelocity]
      simp only [← latticeVelocity_eq]
      have hf := isNoFlux_iff (fun i => V i + latticeVelocity L te V g γ (L i).ctrP) areas (fun i => (L i).normal)
      rcases hf.2 with h | h
      · rw [h]
        have h' := hf.1.1 h
        simp only [if_true]
        constructor
        · intro ho
          injection ho with ho
          exact ⟨h1', h'.1, γ, rfl, h'.2, ho.symm⟩
        · rintro ⟨-, -, γ', hγ, -, rfl⟩
          injection hγ with hγ
          subst hγ
          rfl
      · rw [h]
        refine ⟨fun h => (by cases h), ?_⟩
        rintro ⟨-, ha, γ', hγ, hflux, -⟩
        injection hγ with hγ
        subst hγ
        rw [hf.1.2 ⟨ha, hflux⟩] at h
        cases h
  · have h1' := mt (coefsDefined_iff L te V _).2 h1
    rw [if_neg h1]
    exact ⟨fun h => (by cases h), fun h => absurd h.1 h1'⟩

/-- When a calculation returns, and what. -/
theorem vlmCoreWith_ok_iff (solve : LinearSolver) (L : Fin K → PanelVars) (areas : Fin K → ℝ) (te le : Fin K → Bool)
    (ns : ℕ) (rho g : ℝ) (V : Fin K → V3) (s : VlmSolution K) :
    vlmCoreWith solve L areas te le ns rho g V = .ok s ↔
      (clearOfWakes L te V (fun i => (L i).ctrP) ∧ clearOfWakes L te V (fun i => (L i).cp) ∧ (∀ i, 1e-14 ≤ areas i) ∧
        (0 < K → rho ≠ 0) ∧ ∀ i, V i ≠ 0) ∧ IndexOk le ns ∧
      ∃ γ, solve K (influence L te V g) (fun i => -((V i).dot (L i).normal)) = .ok γ ∧
        (∀ i, |(V i + latticeVelocity L te V g γ (L i).ctrP).dot (L i).normal| ≤ 1e-12) ∧
        s = solOf L areas te le ns rho g V γ := by
  unfold vlmCoreWith
  cases hq : solveLatticeWith solve L areas te g V with
  | error e =>
    refine ⟨fun h => (by cases h), ?_⟩
    rintro ⟨⟨h1, -, h3, -⟩, -, γ, h5, h6, -⟩
    rw [(solveLatticeWith_ok_iff solve L areas te g V _).2 ⟨h1, h3, γ, h5, h6, rfl⟩] at hq
    cases hq
  | ok o =>
    obtain ⟨h1, h3, γ, hγ, hflux, rfl⟩ := (solveLatticeWith_ok_iff solve L areas te g V _).1 hq
    simp only [bind, Except.bind]
    rw [calcForceWrapper_eq _ _ _ _ _ _ _ _ "force_xyz" (by simp),
      calcForceWrapper_eq _ _ _ _ _ _ _ _ "lift" (by simp),
      calcForceWrapper_eq _ _ _ _ _ _ _ _ "drag" (by simp)]
    by_cases h4 : clearOfWakes L te V (fun i => (L i).cp)
    swap
    · simp only [if_pos h4]
      exact ⟨fun h => (by cases h), fun h => absurd h.1.2.1 h4⟩
    simp only [if_neg (not_not.2 h4)]
    by_cases h5 : IndexOk le ns
    swap
    · simp only [if_pos h5]
      exact ⟨fun h => (by cases h), fun h => absurd h.2.1 h5⟩
    simp only [if_neg (not_not.2 h5)]
    have ha : ¬ ∃ i, areas i = 0 := by
      rintro ⟨i, hi⟩; have := h3 i; rw [hi] at this; norm_num at this
    simp only [calcPressure, if_neg ha, calcPressureCoeff]
    by_cases h6 : ∃ i, 0.5 * rho * (V i).dot (V i) = 0
    · rw [if_pos h6]
      refine ⟨fun h => (by cases h), fun h => ?_⟩
      exact absurd h6 ((dyn_ne_zero_iff rho V).2 h.1.2.2.2)
    · rw [if_neg h6]
      have h6' := (dyn_ne_zero_iff rho V).1 h6
      constructor
      · intro h
        injection h with h
        exact ⟨⟨h1, h4, h3, h6'⟩, h5, γ, hγ, hflux, h.symm⟩
      · rintro ⟨-, -, γ', hγ', -, rfl⟩
        rw [hγ] at hγ'
        injection hγ' with hγ'
        subst hγ'
        rfl

theorem vlmWith_ok_iff (solve : LinearSolver) (a : VlmInput) (r : Vlm) : vlmWith solve a = .ok r ↔
    r.input = a ∧ r.areas = getPanelsArea a.panels ∧
    calculateVlmVariables a.panels a.te a.g a.nc a.ns = .ok r.vars ∧
    inletConditions a.wind a.rho (r.vars.map PanelVars.cp) = .ok r.inlet ∧
    vlmCoreWith solve (fun i : Fin r.vars.length => r.vars[i]) (fun i => (getPanelsArea a.panels).getD i 0)
      (fun i => a.te.getD i false) (fun i => a.le.getD i false) a.ns a.rho a.g (fun i => r.inlet.vAppInfs.getD i 0) = .ok r.sol := by
  have htrap {α : Type} (x : Py α) (y : α) : nanTrap x = .ok y ↔ x = .ok y := by
    unfold nanTrap
    split
    · simp
    · rfl
  unfold vlmWith
  constructor
  · intro h
    cases h1 : nanTrap (calculateVlmVariables a.panels a.te a.g a.nc a.ns) with
    | error e => rw [h1] at h; cases h
    | ok vars =>
    rw [h1] at h
    simp only [bind, Except.bind] at h
    cases h2 : nanTrap (inletConditions a.wind a.rho (vars.map PanelVars.cp)) with
    | error e => rw [h2] at h; cases h
    | ok inlet =>
    rw [h2] at h
    simp only at h
    cases h3 : vlmCoreWith solve (fun i : Fin vars.length => vars[i]) (fun i => (getPanelsArea a.panels).getD i 0)
      (fun i => a.te.getD i false) (fun i => a.le.getD i false) a.ns a.rho a.g (fun i => inlet.vAppInfs.getD i 0) with
    | error e => rw [h3] at h; cases h
    | ok sol =>
    rw [h3] at h
    injection h with h
    subst h
    exact ⟨rfl, rfl, (htrap _ _).1 h1, (htrap _ _).1 h2, h3⟩
  · rintro ⟨h0, h1, h2, h3, h4⟩
    rw [(htrap _ _).2 h2]
    simp only [bind, Except.bind]
    rw [(htrap _ _).2 h3]
    simp only
    rw [h4]
    obtain ⟨i, ar, v, n, s⟩ := r
    simp only at h0 h1
    subst h0 h1
    rfl

/-! ### Lattices in one plane -/

namespace PlanarLattice

variable {nc : ℕ} {κ : Type} [Fintype κ] [DecidableEq κ] {O e s : V3} {δ : ℝ} {lo hi : κ → ℝ} {φ : Fin K ≃ κ × Fin nc}
  {L : Fin K → PanelVars} {te : Fin K → Bool} {V : Fin K → V3} {g C S : ℝ} {l : Fin K → ℝ}

theorem kernel_bound (P : PlanarLattice O e s δ lo hi φ L te) (hC : 0 ≤ C) (hC1 : C ≤ 1) {x : Fin K → ℝ} {b : ℝ} (hb : 0 ≤ b)
    (h : ∀ i, |∑ j, kernel C δ lo hi φ i j * x j| ≤ b) (i : Fin K) : |x i| ≤ b * (nc * δ / 4) := by
  have hz : ∀ k, b ≤ ∑ j, kernel C δ lo hi φ k j * (b * plate δ nc (φ j).2) := by
    intro k
    have e : ∑ j, kernel C δ lo hi φ k j * (b * plate δ nc (φ j).2) = b * ∑ j, kernel C δ lo hi φ k j * plate δ nc (φ j).2 := by
      rw [Finset.mul_sum]
      exact Finset.sum_congr rfl fun j _ => by ring
    rw [e]
    exact le_mul_of_one_le_right hb (P.plate_super hC hC1 k)
  have h1 := solution_le_of (P.kernel_off hC) (P.kernel_sum_pos hC hC1) (x := x) (z := fun j => b * plate δ nc (φ j).2)
    (fun k => ((abs_le.1 (h k)).2).trans (hz k)) i
  have h2 := solution_le_of (P.kernel_off hC) (P.kernel_sum_pos hC hC1) (x := fun j => -x j) (z := fun j => b * plate δ nc (φ j).2)
    (fun k => by
      refine le_trans ?_ (hz k)
      simp only [mul_neg, Finset.sum_neg_distrib]
      linarith [(abs_le.1 (h k)).1]) i
  have h3 : b * plate δ nc (φ i).2 ≤ b * (nc * δ / 4) := mul_le_mul_of_nonneg_left (plate_le P.pos (φ i).2.isLt) hb
  exact abs_le.2 ⟨by linarith, by linarith⟩

/-- Circulations with a small flux are close to the exact ones. -/
theorem gamma_close (P : PlanarLattice O e s δ lo hi φ L te) (hg : g ≠ 0) (hl : ∀ i, 0 < l i)
    (hV : ∀ i, V i = l i • (C • e + S • V3.cross s e)) (hu : C ^ 2 + S ^ 2 = 1) (hC : 0 ≤ C) {γ : Fin K → ℝ} {ε : ℝ} (hε : 0 ≤ ε)
    (h : ∀ i, |(V i + latticeVelocity L te V g γ (L i).ctrP).dot (L i).normal| ≤ ε) (i : Fin K) :
    |g * (γ i - coreGamma L te g V i)| ≤ Real.pi * (nc * δ) * ε := by
  have hpi := Real.pi_pos
  have hdet := P.regular hg hl hV hu hC
  have hsol := influence_mulVec_coreGamma hdet
  have key : ∀ k, |∑ j, kernel C δ lo hi φ k j * (g * (γ j - coreGamma L te g V j))| ≤ 4 * Real.pi * ε := by
    intro k
    have h0 := h k
    have h1 := congrFun hsol k
    rw [V3.dot_add_left, latticeVelocity_dot] at h0
    have e1 : (V k).dot (L k).normal + (influence L te V g).mulVec γ k =
        (influence L te V g).mulVec γ k - (influence L te V g).mulVec (coreGamma L te g V) k := by rw [h1]; ring
    rw [e1, ← Pi.sub_apply, ← Matrix.mulVec_sub, P.influence_kernel hl hV hu hC, Matrix.smul_mulVec, Pi.smul_apply, smul_eq_mul] at h0
    have e2 : ∑ j, kernel C δ lo hi φ k j * (g * (γ j - coreGamma L te g V j)) =
        4 * Real.pi * (g / (4 * Real.pi) * (kernel C δ lo hi φ).mulVec (γ - coreGamma L te g V) k) := by
      unfold Matrix.mulVec dotProduct
      rw [show ∀ y, 4 * Real.pi * (g / (4 * Real.pi) * y) = g * y by intro y; field_simp, Finset.mul_sum]
      exact Finset.sum_congr rfl fun j _ => by rw [Pi.sub_apply]; ring
    rw [e2, abs_mul, abs_of_pos (by positivity)]
    exact mul_le_mul_of_nonneg_left h0 (by positivity)
  refine (P.kernel_bound hC (le_one hu) (by positivity) key i).trans (le_of_eq ?_)
  ring

/-- Circulations for two winds in the same direction. -/
theorem gamma_gust (P : PlanarLattice O e s δ lo hi φ L te) (hg : g ≠ 0) {V' : Fin K → V3} {l' : Fin K → ℝ} (hl : ∀ i, 0 < l i)
    (hl' : ∀ i, 0 < l' i) {ε : ℝ} (hε : 0 ≤ ε) (hle : ∀ i, |l i - l' i| ≤ ε)
    (hV : ∀ i, V i = l i • (C • e + S • V3.cross s e)) (hV' : ∀ i, V' i = l' i • (C • e + S • V3.cross s e))
    (hu : C ^ 2 + S ^ 2 = 1) (hC : 0 ≤ C) (i : Fin K) :
    |g * (coreGamma L te g V' i - coreGamma L te g V i)| ≤ Real.pi * (nc * δ) * (ε * |S|) := by
  have F := P.frame
  refine P.gamma_close hg hl hV hu hC (by positivity) (fun k => ?_) i
  have hVn : ∀ (x : ℝ), (x • (C • e + S • V3.cross s e)).dot (L k).normal = x * S := by
    intro x
    rw [P.normal, V3.dot_smul_left, V3.dot_add_left, V3.dot_smul_left, V3.dot_smul_left, F.nn, PlaneFrame.en]
    ring
  have h1 := congrFun (influence_mulVec_coreGamma (P.regular hg hl' hV' hu hC)) k
  rw [P.influence_kernel hl' hV' hu hC, ← P.influence_kernel hl hV hu hC, hV' k, hVn] at h1
  rw [V3.dot_add_left, latticeVelocity_dot, h1, hV k, hVn, show l k * S + -(l' k * S) = (l k - l' k) * S by ring, abs_mul]
  exact mul_le_mul_of_nonneg_right (hle k) (abs_nonneg _)

end PlanarLattice

end PySailing
