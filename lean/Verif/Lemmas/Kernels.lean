import Verif.Lemmas.BiotSavart
import Verif.Lemmas.Isometry
import Mathlib.Topology.Algebra.Order.Field
import Mathlib.Order.Filter.AtTopBot.Basic
import Mathlib.Topology.Instances.Real.Lemmas

/-! # Vortex kernels: algebra and limits -/

namespace PySailing

open Spec

theorem V3.abs_norm (a : V3) : |a.norm| = a.norm := abs_of_nonneg a.norm_nonneg

theorem V3.cross_norm_le (a b : V3) : (V3.cross a b).norm ≤ a.norm * b.norm := by
  have h := V3.cross_dot_self a b
  rw [← V3.norm_sq, ← V3.norm_sq, ← V3.norm_sq] at h
  apply le_of_sq_le_sq _ (mul_nonneg a.norm_nonneg b.norm_nonneg)
  nlinarith [sq_nonneg (a.dot b)]

/-- The core test of `vortex_line`, spelled out. -/
def coreTest (p p1 p2 : V3) : Prop :=
  (p - p1).norm < 1e-8 ∨ (p - p2).norm < 1e-8 ∨ (V3.cross (p - p1) (p - p2)).norm ^ 2 < 1e-8

theorem isInVortexCore_iff (p p1 p2 : V3) :
    isInVortexCore [(p - p1).norm, (p - p2).norm, |(V3.cross (p - p1) (p - p2)).norm ^ 2|] = true
      ↔ coreTest p p1 p2 := by
  have h : ∀ n : ℝ, (@decide (inCore n) (Classical.propDecidable _) = true) ↔ n < 1e-8 :=
    fun n => @decide_eq_true_iff (inCore n) (Classical.propDecidable _)
  simp only [isInVortexCore, List.any_cons, List.any_nil, Bool.or_false, Bool.or_eq_true, h,
    coreTest, abs_pow, V3.abs_norm]

theorem vortexLine_core {p p1 p2 : V3} (γ : ℝ) (h : coreTest p p1 p2) :
    vortexLine p p1 p2 γ = 0 := by
  simp only [vortexLine, (isInVortexCore_iff p p1 p2).2 h, if_true]

theorem vortexLine_out {p p1 p2 : V3} (γ : ℝ) (h : ¬ coreTest p p1 p2) :
    vortexLine p p1 p2 γ =
      (γ / (4 * Real.pi)) • ((p2 - p1).dot ((1 / (p - p1).norm) • (p - p1)
        - (1 / (p - p2).norm) • (p - p2))) •
        ((1 / (V3.cross (p - p1) (p - p2)).norm ^ 2) • V3.cross (p - p1) (p - p2)) := by
  have : ¬ isInVortexCore
      [(p - p1).norm, (p - p2).norm, |(V3.cross (p - p1) (p - p2)).norm ^ 2|] = true :=
    mt (isInVortexCore_iff p p1 p2).1 h
  simp only [vortexLine, this, if_false, Bool.false_eq_true]

theorem not_core_cross {p p1 p2 : V3} (h : ¬ coreTest p p1 p2) :
    V3.cross (p - p1) (p - p2) ≠ 0 := by
  intro h0
  apply h
  right; right
  rw [h0]; simp; norm_num

theorem coreTest_symm (p p1 p2 : V3) : coreTest p p1 p2 ↔ coreTest p p2 p1 := by
  unfold coreTest
  rw [V3.cross_anticomm (p - p1), V3.norm_neg]
  tauto

theorem vortexLine_gamma (p p1 p2 : V3) (γ : ℝ) :
    vortexLine p p1 p2 γ = γ • vortexLine p p1 p2 1 := by
  by_cases h : coreTest p p1 p2
  · simp [vortexLine_core _ h]
  · rw [vortexLine_out _ h, vortexLine_out _ h]
    simp only [smul_smul]
    congr 1
    ring

theorem vortexLine_swap (p p1 p2 : V3) (γ : ℝ) :
    vortexLine p p2 p1 γ = -vortexLine p p1 p2 γ := by
  by_cases h : coreTest p p1 p2
  · rw [vortexLine_core _ h, vortexLine_core _ ((coreTest_symm _ _ _).1 h), neg_zero]
  · rw [vortexLine_out _ h, vortexLine_out _ (mt (coreTest_symm _ _ _).2 h),
      V3.cross_anticomm (p - p2), V3.norm_neg, ← smul_neg, ← smul_neg, ← smul_neg]
    congr 2
    simp only [V3.dot, V3.sub_x, V3.sub_y, V3.sub_z, V3.smul_x, V3.smul_y, V3.smul_z]
    ring

theorem vortexLine_self (p a : V3) (γ : ℝ) : vortexLine p a a γ = 0 := by
  apply vortexLine_core
  right; right
  simp; norm_num

theorem coreTest_move {R : V3 → V3} {ε : ℝ} (h : IsIsometry R ε) (t p p1 p2 : V3) :
    coreTest (move R t p) (move R t p1) (move R t p2) ↔ coreTest p p1 p2 := by
  unfold coreTest
  rw [h.move_sub, h.move_sub, h.norm, h.norm, h.cross_norm]

theorem vortexLine_move {R : V3 → V3} {ε : ℝ} (h : IsIsometry R ε) (t p p1 p2 : V3) (γ : ℝ) :
    vortexLine (move R t p) (move R t p1) (move R t p2) γ = ε • R (vortexLine p p1 p2 γ) := by
  by_cases hc : coreTest p p1 p2
  · rw [vortexLine_core _ hc, vortexLine_core _ ((coreTest_move h t p p1 p2).2 hc), h.map_zero,
      smul_zero]
  · rw [vortexLine_out _ hc, vortexLine_out _ (mt (coreTest_move h t p p1 p2).1 hc)]
    simp only [h.move_sub, h.norm, h.cross_norm]
    rw [← h.map_smul, ← h.map_smul, ← h.map_sub, h.dot, h.cross]
    simp only [h.map_smul]
    simp only [smul_smul]
    congr 1
    ring

theorem unit_map {R : V3 → V3} {ε : ℝ} (h : IsIsometry R ε) (k : V3) :
    (1 / (R k).norm) • R k = R ((1 / k.norm) • k) := by
  rw [h.norm, h.map_smul]

theorem vortexInfiniteLine_move {R : V3 → V3} {ε : ℝ} (h : IsIsometry R ε) (t P A r0 : V3)
    (γ : ℝ) :
    vortexInfiniteLine (move R t P) (move R t A) (R r0) γ
      = ε • R (vortexInfiniteLine P A r0 γ) := by
  unfold vortexInfiniteLine
  simp only [h.move_sub]
  rw [unit_map h, h.norm, h.dot, h.cross, h.map_smul, h.map_smul]
  simp only [smul_smul]
  congr 1
  ring

theorem wakeDefined_move {R : V3 → V3} {ε : ℝ} (h : IsIsometry R ε) (t P A r0 : V3) :
    wakeDefined (move R t P) (move R t A) (R r0) ↔ wakeDefined P A r0 := by
  unfold wakeDefined
  rw [h.move_sub, unit_map h, h.norm, h.dot, Ne, Ne, h.eq_zero_iff]

theorem vortexInfiniteLine_gamma (P A r0 : V3) (γ : ℝ) :
    vortexInfiniteLine P A r0 γ = γ • vortexInfiniteLine P A r0 1 := by
  unfold vortexInfiniteLine
  simp only [smul_smul]
  congr 1
  ring

theorem vortexInfiniteLine_smul_wind (P A r0 : V3) (γ : ℝ) {s : ℝ} (hs : 0 < s) :
    vortexInfiniteLine P A (s • r0) γ = vortexInfiniteLine P A r0 γ := by
  have : (1 / (s • r0).norm) • (s • r0) = (1 / r0.norm) • r0 := unit_smul_pos r0 hs
  unfold vortexInfiniteLine
  simp only [this]

theorem wakeDefined_smul_wind (P A r0 : V3) {s : ℝ} (hs : 0 < s) :
    wakeDefined P A (s • r0) ↔ wakeDefined P A r0 := by
  have : (1 / (s • r0).norm) • (s • r0) = (1 / r0.norm) • r0 := unit_smul_pos r0 hs
  unfold wakeDefined
  rw [this]
  simp [smul_eq_zero, hs.ne']

/-! ### Scaling -/

theorem vortexLine_scale {p p1 p2 : V3} (γ : ℝ) {s : ℝ} (hs : 0 < s) (h : ¬ coreTest p p1 p2)
    (h' : ¬ coreTest (s • p) (s • p1) (s • p2)) :
    vortexLine (s • p) (s • p1) (s • p2) γ = (1 / s) • vortexLine p p1 p2 γ := by
  rw [vortexLine_out _ h, vortexLine_out _ h']
  have hn := not_core_cross h
  have hcn : (V3.cross (p - p1) (p - p2)).norm ≠ 0 := by rwa [Ne, V3.norm_eq_zero]
  have h1 : (p - p1).norm ≠ 0 := by
    rw [Ne, V3.norm_eq_zero]; intro h0; apply hn; rw [h0]; simp
  have h2 : (p - p2).norm ≠ 0 := by
    rw [Ne, V3.norm_eq_zero]; intro h0; apply hn; rw [h0]; simp
  simp only [← smul_sub, V3.cross_smul_left, V3.cross_smul_right, V3.norm_smul, abs_of_pos hs,
    V3.dot_smul_left, smul_smul]
  congr 1
  simp only [V3.dot, V3.sub_x, V3.sub_y, V3.sub_z, V3.smul_x, V3.smul_y, V3.smul_z]
  rw [abs_of_pos (by positivity : (0:ℝ) < s * s)]
  field_simp

/-! ### Infinite line -/

/-- A form of the infinite line without the difference in the denominator. -/
theorem vortexInfiniteLine_alt {P A r0 : V3} (γ : ℝ) (h : V3.cross r0 (P - A) ≠ 0) :
    vortexInfiniteLine P A r0 γ = (γ / (4 * Real.pi)) •
      ((r0.dot (P - A) / (P - A).norm + r0.norm) / (V3.cross r0 (P - A)).norm ^ 2) •
        V3.cross r0 (P - A) := by
  set ap := P - A with hap
  have hr : r0 ≠ 0 := by rintro rfl; simp at h
  have ha : ap ≠ 0 := by intro h0; rw [h0] at h; simp at h
  have hrp := V3.norm_pos hr
  have hapos := V3.norm_pos ha
  have hcp := V3.norm_pos h
  unfold vortexInfiniteLine
  rw [← hap]
  simp only [V3.cross_smul_left, V3.dot_smul_left, smul_smul]
  congr 1
  have hlag := V3.cross_dot_self r0 ap
  rw [← V3.norm_sq, ← V3.norm_sq, ← V3.norm_sq] at hlag
  have hne : ap.norm - 1 / r0.norm * r0.dot ap ≠ 0 := by
    intro h0
    have h1 : r0.dot ap = r0.norm * ap.norm := by field_simp at h0; linarith
    rw [h1] at hlag
    have : (V3.cross r0 ap).norm ^ 2 = 0 := by rw [hlag]; ring
    exact hcp.ne' (by simpa using this)
  have hne' : r0.norm * ap.norm - r0.dot ap ≠ 0 := by
    intro h0; apply hne; field_simp; linarith
  have hcp2 : (V3.cross r0 ap).norm ^ 2 =
      (r0.norm * ap.norm - r0.dot ap) * (r0.norm * ap.norm + r0.dot ap) := by rw [hlag]; ring
  have hne2 : r0.norm * ap.norm + r0.dot ap ≠ 0 := by
    intro h0; rw [h0, mul_zero] at hcp2; exact hcp.ne' (by simpa using hcp2)
  rw [hcp2]
  have e1 : ap.norm - 1 / r0.norm * r0.dot ap = (r0.norm * ap.norm - r0.dot ap) / r0.norm := by
    field_simp
  rw [e1]
  have e2 : r0.dot ap / ap.norm + r0.norm = (r0.norm * ap.norm + r0.dot ap) / ap.norm := by
    field_simp; ring
  rw [e2]
  generalize r0.norm * ap.norm - r0.dot ap = m1 at *
  generalize r0.norm * ap.norm + r0.dot ap = m2 at *
  field_simp

theorem wakeDefined_of_cross {P A r0 : V3} (h : V3.cross r0 (P - A) ≠ 0) : wakeDefined P A r0 := by
  set ap := P - A with hap
  have hr : r0 ≠ 0 := by rintro rfl; simp at h
  have ha : ap ≠ 0 := by intro h0; rw [h0] at h; simp at h
  have hrp := V3.norm_pos hr
  have hapos := V3.norm_pos ha
  have hcp := V3.norm_pos h
  refine ⟨hr, mul_ne_zero hapos.ne' fun h0 => ?_⟩
  rw [← hap, V3.dot_smul_left] at h0
  have h1 : r0.dot ap = r0.norm * ap.norm := by field_simp at h0; linarith
  have hlag := V3.cross_dot_self r0 ap
  rw [← V3.norm_sq, ← V3.norm_sq, ← V3.norm_sq, h1] at hlag
  have : (V3.cross r0 ap).norm ^ 2 = 0 := by rw [hlag]; ring
  exact hcp.ne' (by simpa using this)

/-- `wakeDefined` says exactly that the point is not on the downstream ray (nor at its start),
and that there is wind. -/
theorem wakeDefined_iff (P A r0 : V3) :
    wakeDefined P A r0 ↔ r0 ≠ 0 ∧ ∀ s : ℝ, 0 ≤ s → P ≠ A + s • r0 := by
  constructor
  · rintro ⟨hr, h⟩
    refine ⟨hr, fun s hs hP => h ?_⟩
    have hap : P - A = s • r0 := by rw [hP]; abel
    have hrp := V3.norm_pos hr
    rw [hap, V3.norm_smul, abs_of_nonneg hs, V3.dot_smul_left, V3.dot_smul_right,
      ← V3.norm_mul_self]
    field_simp
    ring
  · rintro ⟨hr, h⟩
    by_cases hc : V3.cross r0 (P - A) = 0
    · -- collinear: P - A = t • r0 with t < 0
      have hrp := V3.dot_self_pos hr
      have hrn := V3.norm_pos hr
      set t := r0.dot (P - A) / r0.dot r0 with ht
      have hx := congrArg V3.x hc
      have hy := congrArg V3.y hc
      have hz := congrArg V3.z hc
      simp only [V3.cross_x, V3.cross_y, V3.cross_z, V3.zero_x, V3.zero_y, V3.zero_z] at hx hy hz
      have hap : P - A = t • r0 := by
        have hmul : r0.dot r0 • (P - A) = r0.dot (P - A) • r0 := by
          set a := P - A
          ext <;> simp only [V3.smul_x, V3.smul_y, V3.smul_z, V3.dot]
          · linear_combination r0.z * hy - r0.y * hz
          · linear_combination r0.x * hz - r0.z * hx
          · linear_combination r0.y * hx - r0.x * hy
        have : (P - A) = (1 / r0.dot r0) • (r0.dot r0 • (P - A)) := by
          rw [smul_smul, one_div_mul_cancel hrp.ne', one_smul]
        rw [this, hmul, smul_smul, ht]
        congr 1; ring
      have htneg : t < 0 := by
        by_contra hcon
        exact h t (not_lt.1 hcon) (by rw [← hap]; abel)
      refine ⟨hr, ?_⟩
      rw [hap, V3.norm_smul, abs_of_neg htneg, V3.dot_smul_left, V3.dot_smul_right,
        ← V3.norm_mul_self]
      have : -t * r0.norm - 1 / r0.norm * (t * (r0.norm * r0.norm)) = -2 * t * r0.norm := by
        field_simp; ring
      rw [this]
      have h1 : 0 < -t * r0.norm := mul_pos (by linarith) hrn
      have h2 : 0 < -2 * t * r0.norm := mul_pos (by linarith) hrn
      positivity
    · exact wakeDefined_of_cross hc

/-- Splitting the infinite line at a downstream point (segment outside its core). -/
theorem vortexInfiniteLine_split {P B V : V3} (γ : ℝ) {s : ℝ} (hs : 0 < s)
    (h : ¬ coreTest P B (B + s • V)) :
    vortexInfiniteLine P B V γ =
      vortexLine P B (B + s • V) γ + vortexInfiniteLine P (B + s • V) V γ := by
  have hn := not_core_cross h
  obtain ⟨r1, hr1⟩ : ∃ r1, r1 = P - B := ⟨_, rfl⟩
  rw [← hr1] at hn
  have e2 : P - (B + s • V) = r1 - s • V := by rw [hr1]; abel
  have hcr : V3.cross r1 (r1 - s • V) = s • V3.cross V r1 := by ext <;> simp <;> ring
  rw [e2, hcr] at hn
  have hVr : V3.cross V r1 ≠ 0 := by intro h0; apply hn; rw [h0, smul_zero]
  have hV2 : V3.cross V (P - (B + s • V)) = V3.cross V r1 := by
    rw [e2]; ext <;> simp <;> ring
  rw [vortexInfiniteLine_alt γ (by rw [← hr1]; exact hVr),
    vortexInfiniteLine_alt γ (by rw [hV2]; exact hVr), vortexLine_out γ h, ← hr1, hV2, e2, hcr,
    add_sub_cancel_left, V3.norm_smul, abs_of_pos hs, V3.dot_smul_left,
    V3.dot_sub_right V ((1 / r1.norm) • r1), V3.dot_smul_right, V3.dot_smul_right]
  have hc0 := (V3.norm_pos hVr).ne'
  simp only [smul_smul]
  rw [← add_smul]
  congr 1
  field_simp
  ring

/-! ### Limits -/

open Filter Topology

theorem tendsto_far_cos (a b c : ℝ) (hc : 0 < c) :
    Tendsto (fun s : ℝ => (b - s * c) / Real.sqrt (a - 2 * s * b + s ^ 2 * c)) atTop
      (𝓝 (-Real.sqrt c)) := by
  have hi : Tendsto (fun s : ℝ => s⁻¹) atTop (𝓝 0) := tendsto_inv_atTop_zero
  have hlim : Tendsto (fun s : ℝ => (b * s⁻¹ - c) /
      Real.sqrt (a * (s⁻¹ * s⁻¹) - 2 * b * s⁻¹ + c)) atTop (𝓝 ((b * 0 - c) /
      Real.sqrt (a * (0 * 0) - 2 * b * 0 + c))) := by
    apply Tendsto.div
    · exact (hi.const_mul b).sub_const c
    · refine (Real.continuous_sqrt.tendsto _).comp ?_
      exact (((hi.mul hi).const_mul a).sub (hi.const_mul (2 * b))).add_const c
    · simp only [mul_zero, zero_sub, zero_add, sub_zero]
      exact (Real.sqrt_pos.2 hc).ne'
  have hval : (b * 0 - c) / Real.sqrt (a * (0 * 0) - 2 * b * 0 + c) = -Real.sqrt c := by
    simp only [mul_zero, zero_sub, sub_zero, zero_add]
    have := Real.sqrt_pos.2 hc
    rw [div_eq_iff this.ne']
    have := Real.mul_self_sqrt hc.le
    linarith
  rw [hval] at hlim
  refine hlim.congr' ?_
  filter_upwards [eventually_gt_atTop (0 : ℝ)] with s hs
  have e : a * (s⁻¹ * s⁻¹) - 2 * b * s⁻¹ + c = (a - 2 * s * b + s ^ 2 * c) / s ^ 2 := by
    field_simp
  rw [e, Real.sqrt_div' _ (by positivity), Real.sqrt_sq hs.le]
  by_cases hz : Real.sqrt (a - 2 * s * b + s ^ 2 * c) = 0
  · simp [hz]
  · field_simp

/-- The scalar that multiplies `V × (P - A)` in `vortexLine P A (A + s V)` for large `s`. -/
theorem vortexLine_far {P A V : V3} (γ : ℝ) (h : V3.cross V (P - A) ≠ 0)
    (hA : 1e-8 ≤ (P - A).norm) :
    ∀ᶠ s : ℝ in atTop, vortexLine P A (A + s • V) γ = (γ / (4 * Real.pi)) •
      ((V.dot (P - A) / (P - A).norm
        - (V.dot (P - A) - s * V.dot V) / Real.sqrt ((P - A).dot (P - A) - 2 * s * V.dot (P - A)
            + s ^ 2 * V.dot V)) / (V3.cross V (P - A)).norm ^ 2) • V3.cross V (P - A) := by
  obtain ⟨r1, hr1⟩ : ∃ r1, r1 = P - A := ⟨_, rfl⟩
  rw [← hr1] at h hA ⊢
  have hV : V ≠ 0 := by rintro rfl; simp at h
  have hcp := V3.norm_pos h
  have hr1p : 0 < r1.norm := lt_of_lt_of_le (by norm_num) hA
  have e2 : ∀ s : ℝ, P - (A + s • V) = r1 - s • V := by intro s; rw [hr1]; abel
  have hcr : ∀ s : ℝ, V3.cross r1 (r1 - s • V) = s • V3.cross V r1 := by
    intro s; ext <;> simp <;> ring
  have hnorm2 : ∀ s : ℝ, (r1 - s • V).norm
      = Real.sqrt (r1.dot r1 - 2 * s * V.dot r1 + s ^ 2 * V.dot V) := by
    intro s; rw [V3.norm]; congr 1; simp [V3.dot]; ring
  -- eventually outside of the core
  have hout : ∀ᶠ s : ℝ in atTop, ¬ coreTest P A (A + s • V) := by
    have h1 : Tendsto (fun s : ℝ => s * (V3.cross V r1).norm) atTop atTop :=
      tendsto_id.atTop_mul_const hcp
    filter_upwards [h1.eventually_ge_atTop (1 + r1.norm), eventually_gt_atTop (0 : ℝ)] with s h2 hs
    unfold coreTest
    have h3 := V3.cross_norm_le r1 (r1 - s • V)
    rw [hcr, V3.norm_smul, abs_of_pos hs] at h3
    rw [e2, ← hr1, hcr, V3.norm_smul, abs_of_pos hs]
    push Not
    refine ⟨hA, ?_, by nlinarith⟩
    have h4 : r1.norm * 1 ≤ r1.norm * (r1 - s • V).norm := by linarith
    have h5 := le_of_mul_le_mul_left h4 hr1p
    norm_num at h5 ⊢
    linarith
  filter_upwards [hout, eventually_gt_atTop (0 : ℝ)] with s hs hs0
  rw [vortexLine_out γ hs, ← hr1, e2, hcr, add_sub_cancel_left, V3.norm_smul, abs_of_pos hs0,
    V3.dot_smul_left, V3.dot_sub_right V ((1 / r1.norm) • r1), V3.dot_smul_right,
    V3.dot_smul_right, hnorm2, V3.dot_sub_right, V3.dot_smul_right]
  simp only [smul_smul]
  congr 1
  field_simp

theorem Spec.TendstoV.congr' {f g : ℝ → V3} {v : V3} (h : TendstoV f v) (e : ∀ᶠ s in atTop, f s = g s) :
    TendstoV g v :=
  ⟨h.1.congr' (e.mono fun s hs => by rw [hs]), h.2.1.congr' (e.mono fun s hs => by rw [hs]),
    h.2.2.congr' (e.mono fun s hs => by rw [hs])⟩

theorem Spec.TendstoV.smul_const {f : ℝ → ℝ} {a : ℝ} (h : Tendsto f atTop (𝓝 a)) (w : V3) :
    TendstoV (fun s => f s • w) (a • w) :=
  ⟨h.mul_const _, h.mul_const _, h.mul_const _⟩

theorem Spec.TendstoV.const (w : V3) : TendstoV (fun _ => w) w :=
  ⟨tendsto_const_nhds, tendsto_const_nhds, tendsto_const_nhds⟩

theorem Spec.TendstoV.add {f g : ℝ → V3} {v w : V3} (h : TendstoV f v) (h' : TendstoV g w) :
    TendstoV (fun s => f s + g s) (v + w) :=
  ⟨h.1.add h'.1, h.2.1.add h'.2.1, h.2.2.add h'.2.2⟩

theorem Spec.TendstoV.neg {f : ℝ → V3} {v : V3} (h : TendstoV f v) : TendstoV (fun s => -f s) (-v) :=
  ⟨h.1.neg, h.2.1.neg, h.2.2.neg⟩

theorem Spec.TendstoV.const_smul {f : ℝ → V3} {v : V3} (c : ℝ) (h : TendstoV f v) :
    TendstoV (fun s => c • f s) (c • v) :=
  ⟨h.1.const_mul c, h.2.1.const_mul c, h.2.2.const_mul c⟩

theorem tendsto_vortexLine_infinite {P A V : V3} (γ : ℝ) (h : V3.cross V (P - A) ≠ 0)
    (hA : 1e-8 ≤ (P - A).norm) :
    TendstoV (fun s => vortexLine P A (A + s • V) γ) (vortexInfiniteLine P A V γ) := by
  have hV : V ≠ 0 := by rintro rfl; simp at h
  rw [vortexInfiniteLine_alt γ h]
  refine TendstoV.congr' (TendstoV.const_smul _ (TendstoV.smul_const ?_ _))
    ((vortexLine_far γ h hA).mono fun s hs => hs.symm)
  apply Tendsto.div_const
  have := tendsto_far_cos ((P - A).dot (P - A)) (V.dot (P - A)) (V.dot V) (V3.dot_self_pos hV)
  have h2 := this.const_sub (V.dot (P - A) / (P - A).norm)
  rw [sub_neg_eq_add] at h2
  exact h2

/-! ### The far edge of a receding ring does not contribute -/

/-- Regular form of the segment kernel. -/
theorem vortexLine_regular {p p1 p2 : V3} (γ : ℝ) (h : ¬ coreTest p p1 p2) :
    vortexLine p p1 p2 γ = (γ / (4 * Real.pi)) •
      (((p - p1).norm + (p - p2).norm) / ((p - p1).norm * (p - p2).norm *
        ((p - p1).norm * (p - p2).norm + (p - p1).dot (p - p2)))) •
        V3.cross (p - p1) (p - p2) := by
  have hn := not_core_cross h
  rw [vortexLine_out γ h]
  have e0 : p2 - p1 = (p - p1) - (p - p2) := by abel
  rw [e0]
  generalize p - p1 = r1 at *
  generalize p - p2 = r2 at *
  have h1 : 0 < r1.norm := V3.norm_pos (by rintro rfl; simp at hn)
  have h2 : 0 < r2.norm := V3.norm_pos (by rintro rfl; simp at hn)
  have hc := V3.norm_pos hn
  have hlag := V3.cross_dot_self r1 r2
  rw [← V3.norm_sq, ← V3.norm_sq, ← V3.norm_sq] at hlag
  have hcp2 : (V3.cross r1 r2).norm ^ 2 =
      (r1.norm * r2.norm - r1.dot r2) * (r1.norm * r2.norm + r1.dot r2) := by rw [hlag]; ring
  have hA : r1.norm * r2.norm - r1.dot r2 ≠ 0 := by
    intro h0; rw [h0, zero_mul] at hcp2; exact hc.ne' (by simpa using hcp2)
  have hB : r1.norm * r2.norm + r1.dot r2 ≠ 0 := by
    intro h0; rw [h0, mul_zero] at hcp2; exact hc.ne' (by simpa using hcp2)
  simp only [smul_smul]
  congr 1
  rw [hcp2, V3.dot_sub_right (r1 - r2) ((1 / r1.norm) • r1), V3.dot_smul_right, V3.dot_smul_right,
    V3.dot_sub_left, V3.dot_sub_left, V3.dot_comm r2 r1, ← V3.norm_mul_self, ← V3.norm_mul_self]
  have e : (1 / r1.norm * (r1.norm * r1.norm - r1.dot r2)
      - 1 / r2.norm * (r1.dot r2 - r2.norm * r2.norm))
      = (r1.norm + r2.norm) * (r1.norm * r2.norm - r1.dot r2) / (r1.norm * r2.norm) := by
    field_simp; ring
  rw [e]
  field_simp

theorem tendsto_far_edge (p a b V : V3) (hV : V ≠ 0) (γ : ℝ) :
    TendstoV (fun s => vortexLine p (a + s • V) (b + s • V) γ) 0 := by
  -- p - (a + s V) = s • w a s
  let w : V3 → ℝ → V3 := fun q s => s⁻¹ • (p - q) - V
  have hVV := V3.dot_self_pos hV
  have hVn := V3.norm_pos hV
  have hi : Tendsto (fun s : ℝ => s⁻¹) atTop (𝓝 0) := tendsto_inv_atTop_zero
  have hw : ∀ q, TendstoV (w q) (-V) := by
    intro q
    refine ⟨?_, ?_, ?_⟩
    · simpa [w] using (hi.mul_const (p - q).x).sub_const V.x
    · simpa [w] using (hi.mul_const (p - q).y).sub_const V.y
    · simpa [w] using (hi.mul_const (p - q).z).sub_const V.z
  have hdot : ∀ {f g : ℝ → V3} {v u : V3}, TendstoV f v → TendstoV g u →
      Tendsto (fun s => (f s).dot (g s)) atTop (𝓝 (v.dot u)) := by
    intro f g v u hf hg
    exact ((hf.1.mul hg.1).add (hf.2.1.mul hg.2.1)).add (hf.2.2.mul hg.2.2)
  have hnorm : ∀ {f : ℝ → V3} {v : V3}, TendstoV f v →
      Tendsto (fun s => (f s).norm) atTop (𝓝 v.norm) := by
    intro f v hf
    exact (Real.continuous_sqrt.tendsto _).comp (hdot hf hf)
  have hwa := hw a
  have hwb := hw b
  have hna := hnorm hwa
  have hnb := hnorm hwb
  have hd := hdot hwa hwb
  have hlim : Tendsto (fun s : ℝ => ((w a s).norm + (w b s).norm) /
      ((w a s).norm * (w b s).norm * ((w a s).norm * (w b s).norm + (w a s).dot (w b s)))) atTop
      (𝓝 (((-V).norm + (-V).norm) /
        ((-V).norm * (-V).norm * ((-V).norm * (-V).norm + (-V).dot (-V))))) := by
    apply (hna.add hnb).div ((hna.mul hnb).mul ((hna.mul hnb).add hd))
    rw [V3.norm_neg, V3.dot_neg_left, V3.dot_neg_right, neg_neg]
    positivity
  have hcr : TendstoV (fun s => V3.cross (b - a) (w a s)) (V3.cross (b - a) (-V)) :=
    ⟨(hwa.2.2.const_mul _).sub (hwa.2.1.const_mul _), (hwa.1.const_mul _).sub (hwa.2.2.const_mul _),
      (hwa.2.1.const_mul _).sub (hwa.1.const_mul _)⟩
  -- the regular form
  have hreg : ∀ᶠ s : ℝ in atTop, ¬ coreTest p (a + s • V) (b + s • V) →
      vortexLine p (a + s • V) (b + s • V) γ = (γ / (4 * Real.pi) * (s⁻¹ * s⁻¹) *
        (((w a s).norm + (w b s).norm) /
      ((w a s).norm * (w b s).norm * ((w a s).norm * (w b s).norm + (w a s).dot (w b s))))) •
        V3.cross (b - a) (w a s) := by
    filter_upwards [eventually_gt_atTop (0 : ℝ)] with s hs hcore
    have ea : p - (a + s • V) = s • w a s := by
      simp only [w]; rw [smul_sub, smul_smul, mul_inv_cancel₀ hs.ne', one_smul]; abel
    have eb : p - (b + s • V) = s • w b s := by
      simp only [w]; rw [smul_sub, smul_smul, mul_inv_cancel₀ hs.ne', one_smul]; abel
    have ec : V3.cross (s • w a s) (s • w b s) = s • V3.cross (b - a) (w a s) := by
      have : s • w b s = s • w a s - (b - a) := by rw [← ea, ← eb]; abel
      rw [this]
      ext <;> simp <;> ring
    rw [vortexLine_regular γ hcore, ea, eb, ec]
    simp only [V3.norm_smul, abs_of_pos hs, V3.dot_smul_left, V3.dot_smul_right, smul_smul]
    congr 1
    rw [show s * (w a s).norm * (s * (w b s).norm) + s * (s * (w a s).dot (w b s))
      = s * s * ((w a s).norm * (w b s).norm + (w a s).dot (w b s)) by ring]
    field_simp
  have hfac : Tendsto (fun s : ℝ => γ / (4 * Real.pi) * (s⁻¹ * s⁻¹) *
        (((w a s).norm + (w b s).norm) /
      ((w a s).norm * (w b s).norm * ((w a s).norm * (w b s).norm + (w a s).dot (w b s))))) atTop
      (𝓝 0) := by
    have := ((hi.mul hi).const_mul (γ / (4 * Real.pi))).mul hlim
    simpa using this
  have hF : TendstoV (fun s => (γ / (4 * Real.pi) * (s⁻¹ * s⁻¹) *
        (((w a s).norm + (w b s).norm) /
      ((w a s).norm * (w b s).norm * ((w a s).norm * (w b s).norm + (w a s).dot (w b s))))) •
        V3.cross (b - a) (w a s)) 0 := by
    refine ⟨?_, ?_, ?_⟩
    · simpa using hfac.mul hcr.1
    · simpa using hfac.mul hcr.2.1
    · simpa using hfac.mul hcr.2.2
  have sq : ∀ (g f : ℝ → ℝ), Tendsto f atTop (𝓝 0) → (∀ᶠ s in atTop, g s = 0 ∨ g s = f s) →
      Tendsto g atTop (𝓝 0) := by
    intro g f hf he
    rw [tendsto_zero_iff_abs_tendsto_zero] at hf ⊢
    refine squeeze_zero' (Eventually.of_forall fun s => abs_nonneg _) ?_ hf
    filter_upwards [he] with s hs
    rcases hs with hs | hs
    · simp only [Function.comp, hs]; simp
    · simp only [Function.comp, hs]; exact le_rfl
  have hev : ∀ᶠ s : ℝ in atTop, vortexLine p (a + s • V) (b + s • V) γ = 0 ∨
      vortexLine p (a + s • V) (b + s • V) γ = (γ / (4 * Real.pi) * (s⁻¹ * s⁻¹) *
        (((w a s).norm + (w b s).norm) /
      ((w a s).norm * (w b s).norm * ((w a s).norm * (w b s).norm + (w a s).dot (w b s))))) •
        V3.cross (b - a) (w a s) := by
    filter_upwards [hreg] with s hs
    by_cases hc : coreTest p (a + s • V) (b + s • V)
    · left; exact vortexLine_core γ hc
    · right; exact hs hc
  refine ⟨sq _ _ hF.1 (hev.mono fun s hs => ?_), sq _ _ hF.2.1 (hev.mono fun s hs => ?_),
    sq _ _ hF.2.2 (hev.mono fun s hs => ?_)⟩ <;>
  · rcases hs with hs | hs
    · left; simp only [hs]; rfl
    · right; simp only [hs]

end PySailing
