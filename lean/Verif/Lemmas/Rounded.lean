import Verif.Spec.Rounded
import Verif.Lemmas.AnySolver
import Verif.Lemmas.Decay

/-!
# Lemmas about the solver with rounded routines
-/

namespace PySailing

open Spec

variable {K : ℕ}

theorem V3.abs_dot_le (a b : V3) : |a.dot b| ≤ a.norm * b.norm := by
  rw [abs_le]
  have h1 := V3.dot_le_norm a b
  have h2 := V3.dot_le_norm (-a) b
  have h3 : (-a).dot b = -(a.dot b) := by simp [V3.dot]; ring
  have h4 : (-a).norm = a.norm := by
    unfold V3.norm
    congr 1
    simp [V3.dot]
  rw [h3, h4] at h2
  constructor <;> linarith

theorem solveLatticeBy_inv {R : Routines} {L : Fin K → PanelVars} {areas : Fin K → ℝ} {te : Fin K → Bool} {g : ℝ}
    {V : Fin K → V3} {γ : Fin K → ℝ} (h : solveLatticeBy R L areas te g V = .ok γ) :
    ∃ c, R.coefs K L te V g = .ok c ∧ R.solve K c.1 (R.rhs K V fun i => (L i).normal) = .ok γ ∧
      ∀ i, |R.flux K (R.appFs K V c.2 γ) (fun i => (L i).normal) i| ≤ 1e-12 := by
  unfold solveLatticeBy at h
  cases hc : R.coefs K L te V g with
  | error e => rw [hc] at h; cases h
  | ok c =>
    rw [hc] at h
    simp only [bind, Except.bind] at h
    cases hs : R.solve K c.1 (R.rhs K V fun i => (L i).normal) with
    | error e => rw [hs] at h; cases h
    | ok γ' =>
      rw [hs] at h
      simp only at h
      split_ifs at h with h1 h2
      injection h with h
      subst h
      exact ⟨c, rfl, hs, fun i => not_lt.1 fun hlt => h2 ⟨i, hlt⟩⟩

/-- The exact flow through the panels for the circulations of an accurate calculation. -/
theorem accurate_flow {R : Routines} {L : Fin K → PanelVars} {te : Fin K → Bool} {g : ℝ} {V : Fin K → V3} {η₁ η₂ η₃ : ℝ}
    (A : Accurate R L te g V η₁ η₂ η₃) (hn : ∀ i, (L i).normal.norm = 1) {areas : Fin K → ℝ} {γ : Fin K → ℝ}
    (h : solveLatticeBy R L areas te g V = .ok γ) (i : Fin K) :
    |(V i + latticeVelocity L te V g γ (L i).ctrP).dot (L i).normal| ≤ 1e-12 + η₂ + η₃ + η₁ * ∑ j, |γ j| := by
  obtain ⟨c, hc, hs, hf⟩ := solveLatticeBy_inv h
  have h1 := hf i
  have h2 := A.flux c γ hc hs i
  have h3 : |(R.appFs K V c.2 γ i - (V i + ∑ j, γ j • c.2 i j)).dot (L i).normal| ≤ η₂ := by
    refine (V3.abs_dot_le _ _).trans ?_
    rw [hn i, mul_one]
    exact A.velocity c γ hc hs i
  have h4 : |((∑ j, γ j • c.2 i j) - latticeVelocity L te V g γ (L i).ctrP).dot (L i).normal| ≤ η₁ * ∑ j, |γ j| := by
    have e : ((∑ j, γ j • c.2 i j) - latticeVelocity L te V g γ (L i).ctrP).dot (L i).normal =
        ∑ j, γ j * (c.2 i j - latticeVelocity L te V g (Pi.single j 1) (L i).ctrP).dot (L i).normal := by
      rw [V3.dot_sub_left, V3.sum_dot, latticeVelocity_dot]
      simp only [Matrix.mulVec, dotProduct, V3.dot_smul_left, influence]
      rw [← Finset.sum_sub_distrib]
      refine Finset.sum_congr rfl fun j _ => ?_
      rw [V3.dot_sub_left]
      ring
    rw [e, Finset.mul_sum]
    refine (Finset.abs_sum_le_sum_abs _ _).trans (Finset.sum_le_sum fun j _ => ?_)
    rw [abs_mul, mul_comm]
    refine mul_le_mul_of_nonneg_right ?_ (abs_nonneg _)
    refine (V3.abs_dot_le _ _).trans ?_
    rw [hn i, mul_one]
    exact A.coefs c hc i j
  rw [V3.dot_sub_left, V3.dot_add_left] at h3
  rw [V3.dot_sub_left] at h4
  rw [V3.dot_add_left]
  rw [abs_le] at *
  constructor <;> linarith [h1.1, h1.2, h2.1, h2.2, h3.1, h3.2, h4.1, h4.2]

/-- Every regular lattice is stable. -/
theorem stable_of_regular {L : Fin K → PanelVars} {te : Fin K → Bool} {g : ℝ} {V : Fin K → V3}
    (h : (influence L te V g).det ≠ 0) :
    Stable L te g V (∑ i, ∑ j, |(influence L te V g)⁻¹ i j|) := by
  intro γ δ hδ i
  have hδ0 : 0 ≤ δ := (abs_nonneg _).trans (hδ i)
  have e : γ = (influence L te V g)⁻¹.mulVec ((influence L te V g).mulVec γ) := by
    rw [Matrix.mulVec_mulVec, Matrix.nonsing_inv_mul _ (Ne.isUnit h), Matrix.one_mulVec]
  rw [e]
  calc _ ≤ ∑ j, |(influence L te V g)⁻¹ i j * (influence L te V g).mulVec γ j| := Finset.abs_sum_le_sum_abs _ _
    _ ≤ ∑ j, |(influence L te V g)⁻¹ i j| * δ := Finset.sum_le_sum fun j _ => by
        rw [abs_mul, ← latticeVelocity_dot]
        exact mul_le_mul_of_nonneg_left (hδ j) (abs_nonneg _)
    _ = (∑ j, |(influence L te V g)⁻¹ i j|) * δ := (Finset.sum_mul _ _ _).symm
    _ ≤ _ := by
        refine mul_le_mul_of_nonneg_right ?_ hδ0
        exact Finset.single_le_sum (f := fun i => ∑ j, |(influence L te V g)⁻¹ i j|)
          (fun _ _ => Finset.sum_nonneg fun _ _ => abs_nonneg _) (Finset.mem_univ i)

end PySailing
