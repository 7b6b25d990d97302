import Verif.Model.Wind
import Verif.Spec.Wind
import Verif.Lemmas.ListLemmas

/-!
# Lemmas about wind profiles
-/

namespace PySailing

open Spec

theorem deg2rad_eq_deg (d : ℝ) : deg2rad d = Spec.deg d := by
  simp only [deg2rad, Spec.deg] <;> ring

theorem heading_norm (θ : ℝ) : (heading θ).norm = 1 := by
  have : (heading θ).dot (heading θ) = 1 := by
    simp only [V3.dot, heading]; nlinarith [Real.sin_sq_add_cos_sq θ]
  rw [V3.norm, this, Real.sqrt_one]

theorem lengthToXyz_eq (w : WindObj) (s : ℝ) : w.lengthToXyz s = s • heading (Spec.deg w.alphaDeg) := by
  rw [← deg2rad_eq_deg]; ext <;> simp [WindObj.lengthToXyz, heading, WindObj.alpha]

theorem lengthToXyz_norm (w : WindObj) (s : ℝ) : (w.lengthToXyz s).norm = |s| := by
  rw [lengthToXyz_eq, V3.norm_smul, heading_norm, mul_one]

theorem trueWindAt_horizontal {w : WindObj} {h : ℝ} {v : V3} (hv : w.trueWindAt h = .ok v) :
    ∃ s : ℝ, v = s • heading (Spec.deg w.alphaDeg) := by
  unfold WindObj.trueWindAt at hv
  split at hv
  · injection hv with hv; exact ⟨_, by rw [← hv, lengthToXyz_eq]⟩
  · cases hf : WindObj.logFactor _ _ h with
    | error e => rw [hf] at hv; cases hv
    | ok f => rw [hf] at hv; injection hv with hv; exact ⟨_, by rw [← hv, lengthToXyz_eq]⟩
  · cases hv
  · cases hf : WindObj.expFactor _ _ _ h with
    | error e => rw [hf] at hv; cases hv
    | ok f => rw [hf] at hv; injection hv with hv; exact ⟨_, by rw [← hv, lengthToXyz_eq]⟩
  · cases hv

theorem logFactor_ok {r ref h : ℝ} (hr : 0 < r) (href : 0 < ref) (hne : ref ≠ r) (hh : 0 < h) :
    WindObj.logFactor r ref h = .ok (Real.log (h / r) / Real.log (ref / r)) := by
  have h1 : ¬ h / r ≤ 0 := not_le.2 (div_pos hh hr)
  have h2 : ¬ ref / r < 0 := not_lt.2 (div_pos href hr).le
  have h3 : ¬ ref / r = 0 := (div_pos href hr).ne'
  have h4 : ¬ ref / r = 1 := by rw [div_eq_one_iff_eq hr.ne']; exact hne
  simp [WindObj.logFactor, hr.ne', h1, h2, h4, href.ne']

theorem log_ratio_ne {r ref : ℝ} (hr : 0 < r) (href : 0 < ref) (hne : ref ≠ r) :
    Real.log (ref / r) ≠ 0 := by
  intro h
  rcases Real.log_eq_zero.1 h with h | h | h
  · exact (div_pos href hr).ne' h
  · exact hne ((div_eq_one_iff_eq hr.ne').1 h)
  · have := div_pos href hr; linarith

theorem expFactor_ok {c ref wl h : ℝ} (hc : 0 < c) (href : 0 < ref) (hh : wl ≤ h) :
    WindObj.expFactor c ref wl h = .ok (((h - wl) / ref) ^ c) := by
  have hb : ¬ (h - wl) / ref < 0 := not_lt.2 (div_nonneg (by linarith) href.le)
  have hc' : ¬ c < 0 := not_lt.2 hc.le
  simp [WindObj.expFactor, hc.ne', href.ne', hb, hc']

end PySailing

namespace PySailing

open Spec

theorem appInfs_heading (w : WindObj) (s : ℝ) :
    w.appInfs (s • heading (Spec.deg w.alphaDeg)) =
      ⟨s * Real.cos w.alpha + w.vYacht, s * Real.sin w.alpha, 0⟩ := by
  rw [← deg2rad_eq_deg]; simp [WindObj.appInfs, heading, WindObj.alpha]

theorem appInfs_dot (w : WindObj) (s : ℝ) :
    (w.appInfs (s • heading (Spec.deg w.alphaDeg))).dot
      (w.appInfs (s • heading (Spec.deg w.alphaDeg))) =
      w.vYacht * w.vYacht + 2 * w.vYacht * s * Real.cos w.alpha + s * s := by
  rw [appInfs_heading]; simp only [V3.dot]
  nlinarith [Real.sin_sq_add_cos_sq w.alpha]

/-- The angle computed by the code, when there is apparent wind. -/
theorem appAlfaInfs_ok (w : WindObj) {s : ℝ} (hs : 0 ≤ s)
    (happ : w.appInfs (s • heading (Spec.deg w.alphaDeg)) ≠ 0) :
    w.appAlfaInfs (s • heading (Spec.deg w.alphaDeg)) =
      .ok (w.alpha - Real.arccos ((w.vYacht * Real.cos w.alpha + s) /
        (w.appInfs (s • heading (Spec.deg w.alphaDeg))).norm)) := by
  have hq := appInfs_dot w s
  have hpos := V3.dot_self_pos happ
  have hn : (s • heading (Spec.deg w.alphaDeg)).norm = s := by
    rw [V3.norm_smul, heading_norm, mul_one, abs_of_nonneg hs]
  obtain ⟨ρ, hρ⟩ : ∃ ρ, ρ = (w.appInfs (s • heading (Spec.deg w.alphaDeg))).norm := ⟨_, rfl⟩
  have hρpos : 0 < ρ := hρ ▸ V3.norm_pos happ
  have hρ2 : ρ * ρ = w.vYacht * w.vYacht + 2 * w.vYacht * s * Real.cos w.alpha + s * s := by
    rw [hρ, V3.norm_mul_self, hq]
  have hsq : Real.sqrt (w.vYacht * w.vYacht + 2 * w.vYacht * s * Real.cos w.alpha + s * s) = ρ := by
    rw [← hρ2, Real.sqrt_mul_self hρpos.le]
  have hc : -1 ≤ (w.vYacht * Real.cos w.alpha + s) / ρ ∧
      (w.vYacht * Real.cos w.alpha + s) / ρ ≤ 1 := by
    have : (w.vYacht * Real.cos w.alpha + s) ^ 2 ≤ ρ ^ 2 := by
      have h1 := Real.sin_sq_add_cos_sq w.alpha
      have h2 := sq_nonneg (w.vYacht * Real.sin w.alpha)
      nlinarith
    have habs := abs_le_of_sq_le_sq' this hρpos.le
    constructor
    · rw [le_div_iff₀ hρpos]; linarith
    · rw [div_le_iff₀ hρpos]; linarith
  have hqn : ¬ w.vYacht * w.vYacht + 2 * w.vYacht * s * Real.cos w.alpha + s * s ≤ 0 := by
    rw [← hρ2]; exact not_le.2 (mul_pos hρpos hρpos)
  have hcn : ¬ ((w.vYacht * Real.cos w.alpha + s) / ρ < -1 ∨
      1 < (w.vYacht * Real.cos w.alpha + s) / ρ) := by
    rintro (h | h)
    · exact absurd h (not_lt.2 hc.1)
    · exact absurd h (not_lt.2 hc.2)
  unfold WindObj.appAlfaInfs
  simp only [hn, hsq]
  rw [← hρ]
  exact (if_neg hqn).trans (if_neg hcn)

/-- `cos` and `sin` of the computed angle. -/
theorem appAlfa_cos_sin (w : WindObj) {s : ℝ}
    (happ : w.appInfs (s • heading (Spec.deg w.alphaDeg)) ≠ 0) :
    let ρ := (w.appInfs (s • heading (Spec.deg w.alphaDeg))).norm
    let θ := w.alpha - Real.arccos ((w.vYacht * Real.cos w.alpha + s) / ρ)
    ρ * Real.cos θ = Real.cos w.alpha * (w.vYacht * Real.cos w.alpha + s) +
        Real.sin w.alpha * |w.vYacht * Real.sin w.alpha| ∧
      ρ * Real.sin θ = Real.sin w.alpha * (w.vYacht * Real.cos w.alpha + s) -
        Real.cos w.alpha * |w.vYacht * Real.sin w.alpha| := by
  intro ρ θ
  have hρpos : 0 < ρ := V3.norm_pos happ
  have hρ2 : ρ ^ 2 = w.vYacht * w.vYacht + 2 * w.vYacht * s * Real.cos w.alpha + s * s := by
    rw [V3.norm_sq, appInfs_dot]
  have h1 := Real.sin_sq_add_cos_sq w.alpha
  have hsum : (w.vYacht * Real.cos w.alpha + s) ^ 2 + (w.vYacht * Real.sin w.alpha) ^ 2 = ρ ^ 2 := by
    rw [hρ2]; nlinarith
  have hle : (w.vYacht * Real.cos w.alpha + s) ^ 2 ≤ ρ ^ 2 := by
    nlinarith [sq_nonneg (w.vYacht * Real.sin w.alpha)]
  have habs := abs_le_of_sq_le_sq' hle hρpos.le
  have hc1 : -1 ≤ (w.vYacht * Real.cos w.alpha + s) / ρ := by
    rw [le_div_iff₀ hρpos]; linarith
  have hc2 : (w.vYacht * Real.cos w.alpha + s) / ρ ≤ 1 := by
    rw [div_le_iff₀ hρpos]; linarith
  have hcos : ρ * Real.cos (Real.arccos ((w.vYacht * Real.cos w.alpha + s) / ρ)) =
      w.vYacht * Real.cos w.alpha + s := by
    rw [Real.cos_arccos hc1 hc2, mul_div_cancel₀ _ hρpos.ne']
  have hsin : ρ * Real.sin (Real.arccos ((w.vYacht * Real.cos w.alpha + s) / ρ)) =
      |w.vYacht * Real.sin w.alpha| := by
    rw [Real.sin_arccos]
    have : 1 - ((w.vYacht * Real.cos w.alpha + s) / ρ) ^ 2 =
        (w.vYacht * Real.sin w.alpha / ρ) ^ 2 := by
      rw [div_pow, div_pow, eq_div_iff (pow_pos hρpos 2).ne', sub_mul,
        div_mul_cancel₀ _ (pow_pos hρpos 2).ne']
      linarith
    rw [this, Real.sqrt_sq_eq_abs, abs_div, abs_of_pos hρpos, mul_div_cancel₀ _ hρpos.ne']
  constructor
  · calc ρ * Real.cos θ = Real.cos w.alpha *
          (ρ * Real.cos (Real.arccos ((w.vYacht * Real.cos w.alpha + s) / ρ))) +
          Real.sin w.alpha *
          (ρ * Real.sin (Real.arccos ((w.vYacht * Real.cos w.alpha + s) / ρ))) := by
            rw [Real.cos_sub]; ring
      _ = _ := by rw [hcos, hsin]
  · calc ρ * Real.sin θ = Real.sin w.alpha *
          (ρ * Real.cos (Real.arccos ((w.vYacht * Real.cos w.alpha + s) / ρ))) -
          Real.cos w.alpha *
          (ρ * Real.sin (Real.arccos ((w.vYacht * Real.cos w.alpha + s) / ρ))) := by
            rw [Real.sin_sub]; ring
      _ = _ := by rw [hcos, hsin]

/-- `arctan2` is the direction angle in `(-π, π]`. -/
theorem arctan2_eq {x y ρ θ : ℝ} (hρ : 0 < ρ) (hx : x = ρ * Real.cos θ) (hy : y = ρ * Real.sin θ)
    (h1 : -Real.pi < θ) (h2 : θ ≤ Real.pi) : arctan2 y x = θ := by
  have : (⟨x, y⟩ : ℂ) = ρ * (Complex.cos θ + Complex.sin θ * Complex.I) := by
    apply Complex.ext
    · simp [hx, ← Complex.ofReal_cos, ← Complex.ofReal_sin]
    · simp [hy, ← Complex.ofReal_cos, ← Complex.ofReal_sin]
  rw [arctan2, this, Complex.arg_mul_cos_add_sin_mul_I hρ ⟨h1, h2⟩]

theorem arctan2_range (x y : ℝ) : -Real.pi < arctan2 y x ∧ arctan2 y x ≤ Real.pi :=
  ⟨Complex.neg_pi_lt_arg _, Complex.arg_le_pi _⟩

theorem arctan2_spec (x y : ℝ) :
    x = Real.sqrt (x * x + y * y) * Real.cos (arctan2 y x) ∧
      y = Real.sqrt (x * x + y * y) * Real.sin (arctan2 y x) := by
  have hn : ‖(⟨x, y⟩ : ℂ)‖ = Real.sqrt (x * x + y * y) := by
    rw [Complex.norm_def, Complex.normSq_mk]
  have := Complex.norm_mul_cos_arg ⟨x, y⟩
  have h2 := Complex.norm_mul_sin_arg ⟨x, y⟩
  rw [hn] at this h2
  exact ⟨this.symm, h2.symm⟩

/-- A horizontal vector points along its `arctan2` angle. -/
theorem pointsAlong_arctan2 (v : V3) (hz : v.z = 0) : PointsAlong v (arctan2 v.y v.x) := by
  have hn : v.norm = Real.sqrt (v.x * v.x + v.y * v.y) := by
    simp [V3.norm, V3.dot, hz]
  obtain ⟨h1, h2⟩ := arctan2_spec v.x v.y
  unfold PointsAlong
  rw [hn]
  ext
  · simpa [heading] using h1
  · simpa [heading] using h2
  · simp [heading, hz]

end PySailing
