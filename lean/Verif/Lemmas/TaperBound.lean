import Verif.Lemmas.TaperForce
import Verif.Lemmas.AnySolver

/-!
# Bounds that do not depend on the mesh, for lattices of trapezoidal panels in one plane
-/

namespace PySailing

open Spec Set

namespace Taper

theorem end_ge {C x y X H : ℝ} (hC : 0 ≤ C) (hC1 : C ≤ 1) (hy : 0 < y) (hyH : y ≤ H) (hX : 0 ≤ X) (hx : -X ≤ x) :
    y / (2 * (X ^ 2 + H ^ 2)) ≤ sd x y + wk C x y + 1 / y := by
  have p := rho2_pos_right x hy.ne'
  have s := rho2_sq x y
  have d := wake_denom_pos (x := x) hC hC1 (Or.inr hy.ne')
  have hw : 0 ≤ wk C x y := by unfold wk; positivity
  have e : sd x y + 1 / y = (rho2 x y + x) / (y * rho2 x y) := by
    unfold sd
    field_simp
    ring
  have hH0 : 0 < H := hy.trans_le hyH
  have hH : 0 < X ^ 2 + H ^ 2 := by positivity
  have key : y / (2 * (X ^ 2 + H ^ 2)) ≤ (rho2 x y + x) / (y * rho2 x y) := by
    generalize rho2 x y = R at *
    rcases le_or_gt 0 x with h0 | h0
    · rw [div_le_div_iff₀ (by positivity) (by positivity)]
      have h1 : y ^ 2 ≤ X ^ 2 + H ^ 2 := by nlinarith [sq_nonneg X]
      have := mul_le_mul_of_nonneg_right h1 p.le
      nlinarith [mul_nonneg h0 hH.le]
    · have hR : R ^ 2 ≤ X ^ 2 + H ^ 2 := by nlinarith
      have hRx : 0 < R - x := by linarith
      have e2 : (R + x) / (y * R) = y / (R * (R - x)) := by
        field_simp
        nlinarith
      rw [e2]
      apply div_le_div_of_nonneg_left hy.le (by positivity)
      have : -x ≤ R := by nlinarith
      nlinarith
  linarith

/-- Nowhere is the aft edge more than `X` behind its two ends. -/
def Over (bot top : ℝ) (f : ℝ → ℝ) (X : ℝ) : Prop := 0 ≤ X ∧ (∀ y ∈ Icc bot top, f y ≤ f top + X) ∧ ∀ y ∈ Icc bot top, f y ≤ f bot + X

/-- Bound for the row sums. -/
noncomputable def rowMin (bot top X : ℝ) : ℝ := (top - bot) / (2 * (X ^ 2 + (top - bot) ^ 2))

/-- A matrix with non-positive entries off the diagonal and row sums of at least `m`. -/
theorem solution_bound {K : ℕ} {A : Matrix (Fin K) (Fin K) ℝ} (hoff : ∀ i j, i ≠ j → A i j ≤ 0) {m : ℝ} (hm : 0 < m)
    (hrow : ∀ i, m ≤ ∑ j, A i j) {x : Fin K → ℝ} {b : ℝ} (hb : 0 ≤ b) (h : ∀ i, |∑ j, A i j * x j| ≤ b) (i : Fin K) : |x i| ≤ b / m := by
  have hpos := fun i => hm.trans_le (hrow i)
  have hz : ∀ k, b ≤ ∑ j, A k j * (b / m) := by
    intro k
    rw [← Finset.sum_mul, mul_div_assoc', le_div_iff₀ hm, mul_comm]
    exact mul_le_mul_of_nonneg_right (hrow k) hb
  have h1 := solution_le_of hoff hpos (x := x) (z := fun _ => b / m) (fun k => ((abs_le.1 (h k)).2).trans (hz k)) i
  have h2 := solution_le_of hoff hpos (x := fun j => -x j) (z := fun _ => b / m)
    (fun k => by
      refine le_trans ?_ (hz k)
      simp only [mul_neg, Finset.sum_neg_distrib]
      linarith [(abs_le.1 (h k)).1]) i
  rw [abs_le]
  constructor <;> linarith

end Taper

namespace TaperLattice

variable {K nc : ℕ} {κ : Type} [Fintype κ] [DecidableEq κ] {O e s : V3} {xl δ : ℝ → ℝ} {bot top : ℝ} {lo hi : κ → ℝ}
  {φ : Fin K ≃ κ × Fin nc} {L : Fin K → PanelVars} {te : Fin K → Bool} {V : Fin K → V3} {g C S : ℝ} {l : Fin K → ℝ}

theorem row_sum_ge (P : TaperLattice O e s xl δ bot top lo hi φ L te) (hC : Taper.Fits C bot top fun y => xl y + (nc + 1 / 4) * δ y)
    (hC1 : C ≤ 1) {X : ℝ} (hX : Taper.Over bot top (fun y => xl y + (nc + 1 / 4) * δ y) X) (i : Fin K) :
    Taper.rowMin bot top X ≤ ∑ j, kernel C xl δ lo hi φ i j := by
  obtain ⟨hX, hT, hB⟩ := hX
  unfold Taper.rowMin
  refine le_trans ?_ (P.row_sum_side hC hC1 i)
  have hk : (((φ i).2 : ℕ) : ℝ) + 1 ≤ nc := by exact_mod_cast (φ i).2.isLt
  have hw := P.high (φ i).1
  have elo : lo (φ i).1 = mid lo hi (φ i).1 - (hi (φ i).1 - lo (φ i).1) / 2 := by unfold mid; ring
  have ehi : hi (φ i).1 = mid lo hi (φ i).1 + (hi (φ i).1 - lo (φ i).1) / 2 := by unfold mid; ring
  have hbot : bot ≤ lo (φ i).1 := P.bot_le _
  have htop : hi (φ i).1 ≤ top := P.le_top _
  have mlo : lo (φ i).1 ∈ Icc bot top := ⟨hbot, by linarith⟩
  have mhi : hi (φ i).1 ∈ Icc bot top := ⟨by linarith, htop⟩
  have dlo : 0.04 ≤ δ (lo (φ i).1) := P.wide _ mlo
  have dhi : 0.04 ≤ δ (hi (φ i).1) := P.wide _ mhi
  have hcx : ∀ q, (∀ y ∈ Icc bot top, xl y + (nc + 1 / 4) * δ y ≤ q) → cx xl δ lo hi (φ i).1 (φ i).2 ≤ q := by
    intro q hq
    have h1 := hq _ mlo
    have h2 := hq _ mhi
    have h3 : ((((φ i).2 : ℕ) : ℝ) + 3 / 4) * δ (lo (φ i).1) ≤ (nc + 1 / 4) * δ (lo (φ i).1) :=
      mul_le_mul_of_nonneg_right (by linarith) (by linarith)
    have h4 : ((((φ i).2 : ℕ) : ℝ) + 3 / 4) * δ (hi (φ i).1) ≤ (nc + 1 / 4) * δ (hi (φ i).1) :=
      mul_le_mul_of_nonneg_right (by linarith) (by linarith)
    unfold cx
    linarith
  have ht := Taper.end_ge (C := C) (x := px xl δ lo hi (φ i).1 (φ i).2 nc (top - mid lo hi (φ i).1 + mid lo hi (φ i).1))
    (y := top - mid lo hi (φ i).1) (X := X) (H := top - bot) hC.1 hC1 (by linarith) (by linarith) hX
    (by
      have := hcx _ hT
      rw [sub_add_cancel]
      unfold px
      linarith)
  have hb := Taper.end_ge (C := C) (x := px xl δ lo hi (φ i).1 (φ i).2 nc (-(mid lo hi (φ i).1 - bot) + mid lo hi (φ i).1))
    (y := mid lo hi (φ i).1 - bot) (X := X) (H := top - bot) hC.1 hC1 (by linarith) (by linarith) hX
    (by
      have := hcx _ hB
      rw [neg_sub, sub_add_cancel]
      unfold px
      linarith)
  have eb : side C xl δ lo hi nc (φ i).1 (φ i).2 (-(mid lo hi (φ i).1 - bot)) =
      -(Taper.sd (px xl δ lo hi (φ i).1 (φ i).2 nc (-(mid lo hi (φ i).1 - bot) + mid lo hi (φ i).1)) (mid lo hi (φ i).1 - bot) +
        Taper.wk C (px xl δ lo hi (φ i).1 (φ i).2 nc (-(mid lo hi (φ i).1 - bot) + mid lo hi (φ i).1)) (mid lo hi (φ i).1 - bot) +
        1 / (mid lo hi (φ i).1 - bot)) := by
    unfold side
    rw [Taper.sd_neg_right, Taper.wk_neg_right, div_neg]
    ring
  rw [eb]
  have et : side C xl δ lo hi nc (φ i).1 (φ i).2 (top - mid lo hi (φ i).1) = _ := rfl
  unfold side at et ⊢
  have e1 : (top - bot) / (2 * (X ^ 2 + (top - bot) ^ 2)) = (top - mid lo hi (φ i).1) / (2 * (X ^ 2 + (top - bot) ^ 2)) +
      (mid lo hi (φ i).1 - bot) / (2 * (X ^ 2 + (top - bot) ^ 2)) := by ring
  rw [e1]
  linarith

/-- Circulations that cause a small flow through the panels are small. -/
theorem small (P : TaperLattice O e s xl δ bot top lo hi φ L te) (hl : ∀ i, 0 < l i)
    (hV : ∀ i, V i = l i • (C • e + S • V3.cross s e)) (hu : C ^ 2 + S ^ 2 = 1)
    (hC : Taper.Fits C bot top fun y => xl y + (nc + 1 / 4) * δ y) {X : ℝ}
    (hX : Taper.Over bot top (fun y => xl y + (nc + 1 / 4) * δ y) X) {x : Fin K → ℝ} {ε : ℝ} (hε : 0 ≤ ε)
    (h : ∀ i, |(influence L te V g).mulVec x i| ≤ ε) (i : Fin K) : |g * x i| ≤ 4 * Real.pi / Taper.rowMin bot top X * ε := by
  have hpi := Real.pi_pos
  have hlt : bot < top := by
    have h1 : 0.04 ≤ hi (φ i).1 - lo (φ i).1 := P.high (φ i).1
    have h2 : bot ≤ lo (φ i).1 := P.bot_le _
    have h3 : hi (φ i).1 ≤ top := P.le_top _
    linarith
  have hm : 0 < Taper.rowMin bot top X := by
    have := sub_pos.2 hlt
    unfold Taper.rowMin
    positivity
  have := Taper.solution_bound (P.kernel_off hC (PlanarLattice.le_one hu)) hm (P.row_sum_ge hC (PlanarLattice.le_one hu) hX) (x := fun j => g * x j) (b := 4 * Real.pi * ε) (by positivity)
    (fun k => by
      have h0 := h k
      rw [P.influence_kernel hl hV hu, Matrix.smul_mulVec, Pi.smul_apply, smul_eq_mul] at h0
      have e2 : ∑ j, kernel C xl δ lo hi φ k j * (g * x j) =
          4 * Real.pi * (g / (4 * Real.pi) * (kernel C xl δ lo hi φ).mulVec x k) := by
        unfold Matrix.mulVec dotProduct
        rw [show ∀ y, 4 * Real.pi * (g / (4 * Real.pi) * y) = g * y by intro y; field_simp, Finset.mul_sum]
        exact Finset.sum_congr rfl fun j _ => by ring
      rw [e2, abs_mul, abs_of_pos (by positivity)]
      exact mul_le_mul_of_nonneg_left h0 (by positivity)) i
  refine this.trans (le_of_eq ?_)
  ring

omit [Fintype κ] [DecidableEq κ] in
theorem wind_normal (P : TaperLattice O e s xl δ bot top lo hi φ L te) (hV : ∀ i, V i = l i • (C • e + S • V3.cross s e)) (i : Fin K) :
    (V i).dot (L i).normal = l i * S := by
  have F := P.frame
  rw [hV, P.normal, V3.dot_smul_left, V3.dot_add_left, V3.dot_smul_left, V3.dot_smul_left, F.nn, PlaneFrame.en]
  ring

theorem gamma_bound (P : TaperLattice O e s xl δ bot top lo hi φ L te) (hg : g ≠ 0) (hl : ∀ i, 0 < l i) {M : ℝ} (hM : ∀ i, l i ≤ M)
    (hV : ∀ i, V i = l i • (C • e + S • V3.cross s e)) (hu : C ^ 2 + S ^ 2 = 1)
    (hC : Taper.Fits C bot top fun y => xl y + (nc + 1 / 4) * δ y) {X : ℝ}
    (hX : Taper.Over bot top (fun y => xl y + (nc + 1 / 4) * δ y) X) (i : Fin K) : |g * coreGamma L te g V i| ≤ 4 * Real.pi / Taper.rowMin bot top X * (M * |S|) := by
  have hsol := influence_mulVec_coreGamma (P.regular hg hl hV hu hC)
  refine P.small hl hV hu hC hX (mul_nonneg ((hl i).le.trans (hM i)) (abs_nonneg _)) (fun k => ?_) i
  rw [congrFun hsol k, abs_neg, P.wind_normal hV, abs_mul, abs_of_pos (hl k)]
  exact mul_le_mul_of_nonneg_right (hM k) (abs_nonneg _)

theorem gamma_close (P : TaperLattice O e s xl δ bot top lo hi φ L te) (hg : g ≠ 0) (hl : ∀ i, 0 < l i)
    (hV : ∀ i, V i = l i • (C • e + S • V3.cross s e)) (hu : C ^ 2 + S ^ 2 = 1)
    (hC : Taper.Fits C bot top fun y => xl y + (nc + 1 / 4) * δ y) {X : ℝ}
    (hX : Taper.Over bot top (fun y => xl y + (nc + 1 / 4) * δ y) X) {γ : Fin K → ℝ} {ε : ℝ} (hε : 0 ≤ ε)
    (h : ∀ i, |(V i + latticeVelocity L te V g γ (L i).ctrP).dot (L i).normal| ≤ ε) (i : Fin K) :
    |g * (γ i - coreGamma L te g V i)| ≤ 4 * Real.pi / Taper.rowMin bot top X * ε := by
  have hsol := influence_mulVec_coreGamma (P.regular hg hl hV hu hC)
  refine P.small hl hV hu hC hX (x := γ - coreGamma L te g V) hε (fun k => ?_) i
  have h0 := h k
  have h1 := congrFun hsol k
  rw [V3.dot_add_left, latticeVelocity_dot] at h0
  have e1 : (V k).dot (L k).normal + (influence L te V g).mulVec γ k =
      (influence L te V g).mulVec γ k - (influence L te V g).mulVec (coreGamma L te g V) k := by rw [h1]; ring
  rw [e1, ← Pi.sub_apply, ← Matrix.mulVec_sub] at h0
  exact h0

theorem gamma_gust (P : TaperLattice O e s xl δ bot top lo hi φ L te) (hg : g ≠ 0) {V' : Fin K → V3} {l' : Fin K → ℝ} (hl : ∀ i, 0 < l i)
    (hl' : ∀ i, 0 < l' i) {ε : ℝ} (hε : 0 ≤ ε) (hle : ∀ i, |l i - l' i| ≤ ε)
    (hV : ∀ i, V i = l i • (C • e + S • V3.cross s e)) (hV' : ∀ i, V' i = l' i • (C • e + S • V3.cross s e))
    (hu : C ^ 2 + S ^ 2 = 1) (hC : Taper.Fits C bot top fun y => xl y + (nc + 1 / 4) * δ y) {X : ℝ}
    (hX : Taper.Over bot top (fun y => xl y + (nc + 1 / 4) * δ y) X) (i : Fin K) :
    |g * (coreGamma L te g V i - coreGamma L te g V' i)| ≤ 4 * Real.pi / Taper.rowMin bot top X * (ε * |S|) := by
  have h1 := influence_mulVec_coreGamma (P.regular hg hl hV hu hC)
  have h2 := influence_mulVec_coreGamma (P.regular hg hl' hV' hu hC)
  have hA : influence L te V' g = influence L te V g := by rw [P.influence_kernel hl hV hu, P.influence_kernel hl' hV' hu]
  rw [hA] at h2
  refine P.small hl hV hu hC hX (x := coreGamma L te g V - coreGamma L te g V') (mul_nonneg hε (abs_nonneg _)) (fun k => ?_) i
  rw [Matrix.mulVec_sub, Pi.sub_apply, congrFun h1 k, congrFun h2 k, P.wind_normal hV, P.wind_normal hV',
    show -(l k * S) - -(l' k * S) = -((l k - l' k) * S) by ring, abs_neg, abs_mul]
  exact mul_le_mul_of_nonneg_right (hle k) (abs_nonneg _)

end TaperLattice

namespace Spec.PlaneSail

variable {s : SailInput} {θ : ℕ → ℝ} {chord : ℝ → ℝ} {τ : ℝ}

theorem aft_eq (F : PlaneSail s θ chord τ) (y : ℝ) : front s y + (s.nc + 1 / 4) * width s chord y = aftEdge s chord (level s y) - s.tack.x := by
  have := F.nc_real
  unfold front width aftEdge luffAt
  field_simp
  ring

theorem head_pos (F : PlaneSail s θ chord τ) : 0 < s.head.z := F.ok.tack_z.trans_lt F.up

theorem over (F : PlaneSail s θ chord τ) {X : ℝ} (hX : Overhang s chord X) :
    Taper.Over (-s.head.z) s.head.z (fun y => front s y + (s.nc + 1 / 4) * width s chord y) X := by
  have h0 := F.head_pos
  have key : ∀ y ∈ Icc (-s.head.z) s.head.z, ∀ t, level s t = s.head.z → front s y + (s.nc + 1 / 4) * width s chord y ≤
      front s t + (s.nc + 1 / 4) * width s chord t + X := by
    intro y hy t ht
    rw [F.aft_eq, F.aft_eq, ht]
    have := hX.2 _ (F.level_mem hy)
    linarith
  exact ⟨hX.1, fun y hy => key y hy _ (by unfold level; rw [abs_of_pos h0, max_eq_left F.up.le]),
    fun y hy => key y hy _ (by unfold level; rw [abs_neg, abs_of_pos h0, max_eq_left F.up.le])⟩

theorem rowMin_eq (s : SailInput) (X : ℝ) : 4 * Real.pi / Taper.rowMin (-s.head.z) s.head.z X = 4 * Real.pi * reach s X := by
  unfold reach Taper.rowMin
  rw [sub_neg_eq_add, ← two_mul, mul_div_mul_left _ _ two_ne_zero, div_div_eq_mul_div, mul_div_assoc]

end Spec.PlaneSail

end PySailing
